import Verif.Xdp.Pipeline
/- Symbolic execution of packet programs. Models no code. -/
namespace Eupf

/-- `m` ends normally (no out-of-bounds access) from `s`, in a state and with a result satisfying `Q`. -/
def wp {α : Type} (m : X α) (Q : α → PS → Prop) (s : PS) : Prop := ∃ a s', m s = (s', .ok a) ∧ Q a s'

namespace wp
variable {α β : Type} {Q : α → PS → Prop} {s : PS}

theorem pure_iff (a : α) : wp (pure a : X α) Q s ↔ Q a s := by
  constructor
  · rintro ⟨b, s', h, hq⟩; cases h; exact hq
  · intro h; exact ⟨a, s, rfl, h⟩

theorem bind_iff (m : X α) (f : α → X β) {Q : β → PS → Prop} : wp (m >>= f) Q s ↔ wp m (fun a s' => wp (f a) Q s') s := by
  show (∃ a s', Act.bind m f s = (s', .ok a) ∧ Q a s') ↔ _
  unfold Act.bind
  rcases hm : m s with ⟨s1, r⟩
  cases r with
  | ok a =>
    constructor
    · intro h; exact ⟨a, s1, hm, h⟩
    · rintro ⟨a', s', h, hq⟩
      rw [hm] at h; cases h; exact hq
  | err =>
    constructor
    · rintro ⟨_, _, h, _⟩; cases h
    · rintro ⟨_, _, h, _⟩; rw [hm] at h; cases h
  | panic =>
    constructor
    · rintro ⟨_, _, h, _⟩; cases h
    · rintro ⟨_, _, h, _⟩; rw [hm] at h; cases h

theorem mono {m : X α} {Q' : α → PS → Prop} (h : wp m Q s) (hq : ∀ a s', Q a s' → Q' a s') : wp m Q' s := by
  obtain ⟨a, s', h1, h2⟩ := h; exact ⟨a, s', h1, hq a s' h2⟩

theorem get_iff {Q : PS → PS → Prop} : wp Act.get Q s ↔ Q s s := by
  constructor
  · rintro ⟨b, s', h, hq⟩; cases h; exact hq
  · intro h; exact ⟨s, s, rfl, h⟩
theorem modify_iff {Q : Unit → PS → Prop} (f : PS → PS) : wp (Act.modify f) Q s ↔ Q () (f s) := by
  constructor
  · rintro ⟨b, s', h, hq⟩; cases h; exact hq
  · intro h; exact ⟨(), f s, rfl, h⟩
theorem count_iff {Q : Unit → PS → Prop} (f : UpfStat → UpfStat) : wp (count f) Q s ↔ Q () { s with st := f s.st } := modify_iff _
theorem countRt_iff {Q : Unit → PS → Prop} (f : RouteStat → RouteStat) : wp (countRt f) Q s ↔ Q () { s with rt := f s.rt } := modify_iff _
theorem updUrr_iff {Q : Unit → PS → Prop} (i : U32) (a b : U64) : wp (updUrr i a b) Q s ↔ Q () { s with dp := s.dp.addUrr i a b } := modify_iff _
theorem frameLen_iff {Q : Nat → PS → Prop} : wp frameLen Q s ↔ Q s.frame.length s := by
  constructor
  · rintro ⟨b, s', h, hq⟩; cases h; exact hq
  · intro h; exact ⟨_, s, rfl, h⟩
theorem ptr_some {Q : Nat → PS → Prop} (o : Nat) : wp (ptr (some o)) Q s ↔ Q o s := pure_iff o

theorem ld8_iff {Q : U8 → PS → Prop} (o : Nat) : wp (ld8 o) Q s ↔ o + 1 ≤ s.frame.length ∧ Q (oct s.frame o) s := by
  unfold wp ld8
  split
  · rename_i h
    constructor
    · rintro ⟨b, s', h', hq⟩; cases h'; exact ⟨h, hq⟩
    · rintro ⟨_, h⟩; exact ⟨_, s, rfl, h⟩
  · rename_i h
    constructor
    · rintro ⟨b, s', h', hq⟩; cases h'
    · rintro ⟨h', _⟩; exact absurd h' h
theorem ld16_iff {Q : U16 → PS → Prop} (o : Nat) : wp (ld16 o) Q s ↔ o + 2 ≤ s.frame.length ∧ Q (le16 s.frame o) s := by
  unfold wp ld16
  split
  · rename_i h
    constructor
    · rintro ⟨b, s', h', hq⟩; cases h'; exact ⟨h, hq⟩
    · rintro ⟨_, h⟩; exact ⟨_, s, rfl, h⟩
  · rename_i h
    constructor
    · rintro ⟨b, s', h', hq⟩; cases h'
    · rintro ⟨h', _⟩; exact absurd h' h
theorem ld32_iff {Q : U32 → PS → Prop} (o : Nat) : wp (ld32 o) Q s ↔ o + 4 ≤ s.frame.length ∧ Q (le32 s.frame o) s := by
  unfold wp ld32
  split
  · rename_i h
    constructor
    · rintro ⟨b, s', h', hq⟩; cases h'; exact ⟨h, hq⟩
    · rintro ⟨_, h⟩; exact ⟨_, s, rfl, h⟩
  · rename_i h
    constructor
    · rintro ⟨b, s', h', hq⟩; cases h'
    · rintro ⟨h', _⟩; exact absurd h' h
theorem ldBytes_iff {Q : List U8 → PS → Prop} (o n : Nat) : wp (ldBytes o n) Q s ↔ o + n ≤ s.frame.length ∧ Q (slice s.frame o n) s := by
  unfold wp ldBytes
  split
  · rename_i h
    constructor
    · rintro ⟨b, s', h', hq⟩; cases h'; exact ⟨h, hq⟩
    · rintro ⟨_, h⟩; exact ⟨_, s, rfl, h⟩
  · rename_i h
    constructor
    · rintro ⟨b, s', h', hq⟩; cases h'
    · rintro ⟨h', _⟩; exact absurd h' h
theorem store_iff {Q : Unit → PS → Prop} (o : Nat) (bs : List U8) : wp (store o bs) Q s ↔ o + bs.length ≤ s.frame.length ∧ Q () { s with frame := put s.frame o bs } := by
  unfold wp store
  split
  · rename_i h
    constructor
    · rintro ⟨b, s', h', hq⟩; cases h'; exact ⟨h, hq⟩
    · rintro ⟨_, h⟩; exact ⟨_, _, rfl, h⟩
  · rename_i h
    constructor
    · rintro ⟨b, s', h', hq⟩; cases h'
    · rintro ⟨h', _⟩; exact absurd h' h

theorem ite_iff {c : Prop} [Decidable c] (m1 m2 : X α) : wp (if c then m1 else m2) Q s ↔ (c → wp m1 Q s) ∧ (¬ c → wp m2 Q s) := by
  split <;> simp [*]

/-- the run is determined -/
theorem of_eq {m : X α} {a : α} {s' : PS} (h : m s = (s', .ok a)) : wp m Q s ↔ Q a s' := by
  constructor
  · rintro ⟨b, s'', h', hq⟩; rw [h] at h'; cases h'; exact hq
  · intro hq; exact ⟨a, s', h, hq⟩

theorem eq_of {m : X α} {a : α} {s' : PS} (h : wp m (fun b t => b = a ∧ t = s') s) : m s = (s', .ok a) := by
  obtain ⟨b, t, h1, rfl, rfl⟩ := h; exact h1

end wp

theorem slice_length {f : List U8} {i n : Nat} (h : i + n ≤ f.length) : (slice f i n).length = n := by
  unfold slice; rw [List.length_take, List.length_drop]; omega
theorem put_length {f : List U8} {i : Nat} {bs : List U8} (h : i + bs.length ≤ f.length) : (put f i bs).length = f.length := by
  unfold put; simp only [List.length_append, List.length_take, List.length_drop]; omega
@[simp] theorem bytes16_length (x : U16) : (bytes16 x).length = 2 := rfl
@[simp] theorem bytes32_length (x : U32) : (bytes32 x).length = 4 := rfl

theorem oct_put {f : List U8} {i : Nat} {bs : List U8} (h : i + bs.length ≤ f.length) (j : Nat) :
    oct (put f i bs) j = if i ≤ j ∧ j < i + bs.length then oct bs (j - i) else oct f j := by
  unfold oct put
  simp only [List.getD_eq_getElem?_getD]
  congr 1
  rw [List.append_assoc, List.getElem?_append]
  simp only [List.length_take]
  rw [Nat.min_eq_left (by omega)]
  split
  · rename_i hj
    rw [if_neg (by omega), List.getElem?_take]
    simp [hj]
  · rename_i hj
    rw [List.getElem?_append]
    split
    · rename_i h2
      rw [if_pos (by omega)]
    · rename_i h2
      rw [if_neg (by omega), List.getElem?_drop]
      rw [show i + bs.length + (j - i - bs.length) = j by omega]

end Eupf
