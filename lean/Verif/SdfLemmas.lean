import Verif.Spec.SdfGrammar
import Mathlib.Data.List.Induction
/-
Lemmas about the SDF parser: splitting, numerals, addresses. Models no code.
-/
namespace Eupf
namespace Sdf

/-! ### splitting -/

theorem splitC_ne_nil (c : Char) (s : List Char) : splitC c s ≠ [] := by
  cases s with
  | nil => simp [splitC]
  | cons x xs =>
    simp only [splitC]
    split
    · simp
    · split <;> simp

theorem mem_splitC {c : Char} : ∀ {s w : List Char}, w ∈ splitC c s → c ∉ w
  | [], w, h => by simp [splitC] at h; subst h; simp
  | x :: xs, w, h => by
    simp only [splitC] at h
    split at h
    · rcases List.mem_cons.1 h with rfl | h
      · simp
      · exact mem_splitC h
    · rename_i hx
      split at h
      · simp at h; subst h; simp; exact fun e => hx e.symm
      · rename_i t ts e
        rcases List.mem_cons.1 h with rfl | h
        · have := mem_splitC (c := c) (s := xs) (w := t) (by rw [e]; simp)
          simp only [List.mem_cons, not_or]
          exact ⟨fun e => hx e.symm, this⟩
        · exact mem_splitC (by rw [e]; exact List.mem_cons_of_mem _ h)

theorem joined_cons_cons (c : Char) (a b : List Char) (l : List (List Char)) : joined c (a :: b :: l) = a ++ c :: joined c (b :: l) := by
  simp [joined, List.intercalate, List.intersperse]

@[simp] theorem joined_single (c : Char) (a : List Char) : joined c [a] = a := by simp [joined, List.intercalate, List.intersperse]
@[simp] theorem joined_nil (c : Char) : joined c [] = [] := by simp [joined, List.intercalate, List.intersperse]

theorem joined_push (c x : Char) (t : List Char) (ts : List (List Char)) : joined c ((x :: t) :: ts) = x :: joined c (t :: ts) := by
  cases ts with
  | nil => simp
  | cons b l => simp [joined_cons_cons]

theorem joined_splitC (c : Char) : ∀ s : List Char, joined c (splitC c s) = s
  | [] => by simp [splitC]
  | x :: xs => by
    have ih := joined_splitC c xs
    simp only [splitC]
    split
    · rename_i h
      cases e : splitC c xs with
      | nil => exact absurd e (splitC_ne_nil c xs)
      | cons t ts => rw [e] at ih; rw [joined_cons_cons, ih, h]; rfl
    · split
      · rename_i e; exact absurd e (splitC_ne_nil c xs)
      · rename_i t ts e
        rw [e] at ih
        rw [joined_push, ih]

theorem splitC_word {c : Char} : ∀ {w : List Char}, c ∉ w → splitC c w = [w]
  | [], _ => rfl
  | x :: xs, h => by
    simp only [List.mem_cons, not_or] at h
    simp only [splitC, if_neg (Ne.symm h.1), splitC_word h.2]

theorem splitC_append {c : Char} : ∀ {w s : List Char}, c ∉ w → splitC c (w ++ c :: s) = w :: splitC c s
  | [], s, _ => by simp [splitC]
  | x :: xs, s, h => by
    simp only [List.mem_cons, not_or] at h
    simp only [List.cons_append, splitC, if_neg (Ne.symm h.1), splitC_append (s := s) h.2]

theorem splitC_joined {c : Char} : ∀ {ws : List (List Char)}, ws ≠ [] → (∀ w ∈ ws, c ∉ w) → splitC c (joined c ws) = ws
  | [], h, _ => absurd rfl h
  | [w], _, h => by rw [joined_single]; exact splitC_word (h w (by simp))
  | a :: b :: l, _, h => by
    rw [joined_cons_cons, splitC_append (h a (by simp)), splitC_joined (by simp) (fun w hw => h w (List.mem_cons_of_mem _ hw))]

/-- splitting and joining are inverse -/
theorem splitC_eq_iff {c : Char} {s : List Char} {ws : List (List Char)} : splitC c s = ws ↔ s = joined c ws ∧ ws ≠ [] ∧ ∀ w ∈ ws, c ∉ w := by
  constructor
  · rintro rfl
    exact ⟨(joined_splitC c s).symm, splitC_ne_nil c s, fun w hw => mem_splitC hw⟩
  · rintro ⟨rfl, h1, h2⟩; exact splitC_joined h1 h2

/-! ### numerals -/

theorem digit_iff {c : Char} {d : Nat} : DigitOf 10 c d ↔ isDigit c = true ∧ digitVal c = d := by
  constructor
  · rintro ⟨h, h'⟩
    have hd : d = 0 ∨ d = 1 ∨ d = 2 ∨ d = 3 ∨ d = 4 ∨ d = 5 ∨ d = 6 ∨ d = 7 ∨ d = 8 ∨ d = 9 := by omega
    rcases hd with rfl | rfl | rfl | rfl | rfl | rfl | rfl | rfl | rfl | rfl <;> simp at h' <;> subst h' <;> decide
  · rintro ⟨h, rfl⟩
    unfold isDigit at h
    have h := of_decide_eq_true h
    have h1 : 48 ≤ c.toNat := h.1
    have h2 : c.toNat ≤ 57 := h.2
    have hc : c = Char.ofNat c.toNat := (Char.ofNat_toNat c).symm
    have hd : c.toNat = 48 ∨ c.toNat = 49 ∨ c.toNat = 50 ∨ c.toNat = 51 ∨ c.toNat = 52 ∨ c.toNat = 53 ∨ c.toNat = 54 ∨ c.toNat = 55 ∨ c.toNat = 56 ∨ c.toNat = 57 := by
      omega
    rcases hd with e | e | e | e | e | e | e | e | e | e <;> rw [e] at hc <;> subst hc <;> exact ⟨by decide, by decide⟩

theorem hex_iff {c : Char} {d : Nat} : DigitOf 16 c d ↔ isHex c = true ∧ hexVal c = d := by
  constructor
  · rintro ⟨h, h'⟩
    have hd : d = 0 ∨ d = 1 ∨ d = 2 ∨ d = 3 ∨ d = 4 ∨ d = 5 ∨ d = 6 ∨ d = 7 ∨ d = 8 ∨ d = 9 ∨ d = 10 ∨ d = 11 ∨ d = 12 ∨ d = 13 ∨ d = 14 ∨ d = 15 := by omega
    rcases hd with rfl | rfl | rfl | rfl | rfl | rfl | rfl | rfl | rfl | rfl | rfl | rfl | rfl | rfl | rfl | rfl <;> simp at h' <;>
      first | (subst h'; decide) | (rcases h' with rfl | rfl <;> decide)
  · rintro ⟨h, rfl⟩
    have hn : (48 ≤ c.toNat ∧ c.toNat ≤ 57) ∨ (97 ≤ c.toNat ∧ c.toNat ≤ 102) ∨ (65 ≤ c.toNat ∧ c.toNat ≤ 70) := by
      unfold isHex at h
      simp only [Bool.or_eq_true, decide_eq_true_eq] at h
      rcases h with (h | h) | h
      · exact .inl h
      · exact .inr (.inl h)
      · exact .inr (.inr h)
    have hc : c = Char.ofNat c.toNat := (Char.ofNat_toNat c).symm
    have hd : c.toNat = 48 ∨ c.toNat = 49 ∨ c.toNat = 50 ∨ c.toNat = 51 ∨ c.toNat = 52 ∨ c.toNat = 53 ∨ c.toNat = 54 ∨ c.toNat = 55 ∨ c.toNat = 56 ∨ c.toNat = 57 ∨
        c.toNat = 97 ∨ c.toNat = 98 ∨ c.toNat = 99 ∨ c.toNat = 100 ∨ c.toNat = 101 ∨ c.toNat = 102 ∨
        c.toNat = 65 ∨ c.toNat = 66 ∨ c.toNat = 67 ∨ c.toNat = 68 ∨ c.toNat = 69 ∨ c.toNat = 70 := by
      omega
    rcases hd with e | e | e | e | e | e | e | e | e | e | e | e | e | e | e | e | e | e | e | e | e | e <;> rw [e] at hc <;> subst hc <;> exact ⟨by decide, by decide⟩

theorem numeral_gen {b : Nat} {p : Char → Bool} {v : Char → Nat} (hd : ∀ {c d}, DigitOf b c d ↔ p c = true ∧ v c = d) {s : List Char} {n : Nat} :
    Numeral b s n ↔ s ≠ [] ∧ s.all p = true ∧ s.foldl (fun n c => n * b + v c) 0 = n := by
  constructor
  · intro h
    induction h with
    | digit h => obtain ⟨h1, h2⟩ := hd.1 h; exact ⟨by simp, by simp [h1], by simp [h2]⟩
    | snoc _ h ih =>
      obtain ⟨h1, h2⟩ := hd.1 h
      obtain ⟨_, i2, i3⟩ := ih
      refine ⟨by simp, by simp only [List.all_append, i2, Bool.true_and]; simp [h1], ?_⟩
      rw [List.foldl_append, i3]
      simp [h2, Nat.mul_comm]
  · rintro ⟨h1, h2, rfl⟩
    induction s using List.reverseRecOn with
    | nil => exact absurd rfl h1
    | append_singleton s c ih =>
      simp only [List.all_append, List.all_cons, List.all_nil, Bool.and_true, Bool.and_eq_true] at h2
      have hc : DigitOf b c (v c) := hd.2 ⟨h2.2, rfl⟩
      cases s with
      | nil => simpa using Numeral.digit hc
      | cons x xs =>
        have := Numeral.snoc (ih (by simp) h2.1) hc
        rw [List.foldl_append]
        simpa [Nat.mul_comm] using this

theorem dec_iff {s : List Char} {n : Nat} : Numeral 10 s n ↔ isNum s = true ∧ decVal s = n := by
  rw [numeral_gen digit_iff]
  unfold isNum decVal
  cases s <;> simp

theorem hexNum_iff {s : List Char} {n : Nat} : Numeral 16 s n ↔ s ≠ [] ∧ s.all isHex = true ∧ hexVals s = n := numeral_gen hex_iff

theorem isNum_digits {s : List Char} (h : isNum s = true) : ∀ c ∈ s, isDigit c = true := by
  unfold isNum at h
  simp only [Bool.and_eq_true, List.all_eq_true] at h
  exact h.2

theorem digit_not {x : Char} (hx : isDigit x = false) {s : List Char} (h : ∀ c ∈ s, isDigit c = true) : x ∉ s := by
  intro hm; rw [h x hm] at hx; cases hx

/-! ### ports -/

theorem parsePort_iff {s : List Char} (hs : isNum s = true) {p : U16} : parsePort s = some p ↔ Numeral 10 s p.toNat := by
  have hv : ∀ n, Numeral 10 s n ↔ decVal s = n := fun n => by rw [dec_iff]; simp [hs]
  rw [hv]
  unfold parsePort parseUint64
  constructor
  · intro h
    split at h
    · simp only [Option.bind_eq_bind, Option.bind_some] at h
      split at h
      · cases h
      · cases h
        simp; omega
    · cases h
  · intro h
    have := p.isLt
    rw [if_pos (by omega)]
    simp only [Option.bind_eq_bind, Option.bind_some]
    rw [if_neg (by omega), h]
    simp

theorem numeral_val {s : List Char} {n m : Nat} (h : Numeral 10 s n) (h' : Numeral 10 s m) : n = m := by
  rw [dec_iff] at h h'; exact h.2.symm.trans h'.2

theorem ports_sound {w : Option (List Char)} {r : PortRange} (h : parsePorts w = some r) : PortsText w.toList (r.lo.toNat, r.hi.toNat) := by
  cases w with
  | none => cases h; exact .none
  | some s =>
    simp only [parsePorts, parsePortRange] at h
    split at h
    · rename_i a e
      obtain ⟨rfl, -, -⟩ := splitC_eq_iff.1 e
      rw [joined_single]
      split at h
      · rename_i hn
        cases hp : parsePort a with
        | none => rw [hp] at h; cases h
        | some p =>
          rw [hp] at h
          cases h
          have := (parsePort_iff hn).1 hp
          exact .one this (by have := p.isLt; omega)
      · cases h
    · rename_i a b e
      obtain ⟨rfl, -, -⟩ := splitC_eq_iff.1 e
      split at h
      · rename_i hn
        simp only [Bool.and_eq_true] at hn
        simp only [Option.bind_eq_bind] at h
        obtain ⟨lo, hlo, h⟩ := Option.bind_eq_some_iff.1 h
        obtain ⟨hi, hhi, h⟩ := Option.bind_eq_some_iff.1 h
        split at h
        · cases h
        · rename_i hle
          cases h
          rw [joined_cons_cons, joined_single]
          have := PortsText.range ((parsePort_iff hn.1).1 hlo) ((parsePort_iff hn.2).1 hhi) (by simpa [BitVec.lt_def] using hle) (by have := hi.isLt; omega)
          simpa using this
      · cases h
    · cases h

theorem ports_complete {ws : List (List Char)} {q : Nat × Nat} (h : PortsText ws q) :
    ∃ w r, ws = w.toList ∧ parsePorts w = some r ∧ (r.lo.toNat, r.hi.toNat) = q := by
  cases h with
  | none => exact ⟨none, ⟨0, 65535⟩, rfl, rfl, rfl⟩
  | @one s n h hle =>
    refine ⟨some s, ⟨BitVec.ofNat 16 n, BitVec.ofNat 16 n⟩, rfl, ?_, by simp; omega⟩
    have hn := (dec_iff.1 h).1
    have hp : parsePort s = some (BitVec.ofNat 16 n) := (parsePort_iff hn).2 (by simpa [Nat.mod_eq_of_lt (show n < 65536 by omega)] using h)
    simp only [parsePorts, parsePortRange]
    rw [splitC_word (digit_not (by decide) (isNum_digits hn))]
    simp [hn, hp]
  | @range s t n m h h' hle hle' =>
    refine ⟨some (s ++ ['-'] ++ t), ⟨BitVec.ofNat 16 n, BitVec.ofNat 16 m⟩, rfl, ?_, by simp; omega⟩
    have hn := (dec_iff.1 h).1
    have hm := (dec_iff.1 h').1
    have hp : parsePort s = some (BitVec.ofNat 16 n) := (parsePort_iff hn).2 (by simpa [Nat.mod_eq_of_lt (show n < 65536 by omega)] using h)
    have hq : parsePort t = some (BitVec.ofNat 16 m) := (parsePort_iff hm).2 (by simpa [Nat.mod_eq_of_lt (show m < 65536 by omega)] using h')
    simp only [parsePorts, parsePortRange]
    rw [List.append_assoc, List.singleton_append, splitC_append (digit_not (by decide) (isNum_digits hn)), splitC_word (digit_not (by decide) (isNum_digits hm))]
    simp only [hn, hm, hp, hq, Bool.and_self, if_true, Option.bind_eq_bind, Option.bind_some]
    rw [if_neg (by simp [BitVec.lt_def]; omega)]
    rfl

end Sdf
end Eupf
