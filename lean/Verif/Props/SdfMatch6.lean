import Verif.Props.SdfMatch
/-
C24: what the packet program does with an IPv6 packet and an address range, exactly, for every range a filter text can have.
-/
namespace Eupf
namespace Sdf

/-- What the program makes of an address range when the packet is IPv6, in words: octet `j` of the packet's address, under octet `L-1-j` of the mask of the
range (`L` is 4 or 16, the mask of an IPv4 or IPv6 prefix; nothing is left of the octet when there is no such octet in the mask), is to be octet `L-4+j` of the
prefix (0 for `j > 3`). Bits of octets are counted from the most significant one. -/
def comparedAs6 (x : List U8) : SdfAddr → Prop
  | .any => True
  | .net o n => n ≤ 8 * o.length → ∀ j < 16, ∀ b < 8,
      (decide (j < o.length ∧ 8 * (o.length - 1 - j) + b < n) && bitAt x (8 * j + b)) =
      (decide (j < 4 ∧ 8 * (o.length - 4 + j) + b < n) && bitAt o (8 * (o.length - 4 + j) + b))

theorem v6_groups {s : List Char} {gs : List Nat} (h : V6Text s gs) : gs.length = 8 := by
  cases h with
  | full _ h => exact h
  | gap _ _ h => simp only [List.length_append, List.length_replicate]; omega

/-- An address of a filter text has 4 or 16 octets. -/
theorem addr_length {s : List Char} {o : List U8} (h : AddrText s o) : o.length = 4 ∨ o.length = 16 := by
  cases h with
  | v4 h => obtain ⟨_, _, h, _⟩ := h; exact .inl h
  | v6 h =>
    have h8 := v6_groups h
    unfold unmapped
    split
    · left; rw [List.length_drop, octets_length]; omega
    · right; rw [octets_length]; omega

theorem net_length {s : List Char} {o : List U8} {n : Nat} (h : NetText s (.net o n)) : o.length = 4 ∨ o.length = 16 := by
  cases h with
  | host h => exact addr_length h
  | net h _ _ => exact addr_length h

theorem text_lengths {s : List Char} {r : SdfRule} (h : SdfText s r) :
    (∀ o n, r.src = .net o n → o.length = 4 ∨ o.length = 16) ∧ ∀ o n, r.dst = .net o n → o.length = 4 ∨ o.length = 16 := by
  obtain ⟨pt, st, sp, dt, dp, -, -, hs, -, hd, -⟩ := h
  refine ⟨fun o n e => ?_, fun o n e => ?_⟩
  · rw [e] at hs
    rcases hs with ⟨-, h⟩ | h
    · cases h
    · exact net_length h
  · rw [e] at hd
    rcases hd with ⟨w, -, h, -⟩ | h
    · cases h
    · exact net_length h

theorem oct_bit (l : List U8) (j : Nat) {b : Nat} (hb : b < 8) : (l.getD j 0).getLsbD (7 - b) = bitAt l (8 * j + b) := by
  unfold bitAt
  rw [show (8 * j + b) / 8 = j by omega, show (8 * j + b) % 8 = b by omega, BitVec.getMsbD_eq_getLsbD, decide_eq_true hb, Bool.true_and]

theorem copy16_oct {w : List U8} (hw : w.length = 4 ∨ w.length = 16) (j : Nat) :
    (copy16 w).getD j 0 = if j < w.length then w.getD (w.length - 1 - j) 0 else 0 := by
  unfold copy16
  rw [if_pos hw]
  split
  · rename_i h
    rw [List.getD_eq_getElem?_getD, List.getElem?_append_left (by simpa using h), List.getElem?_reverse h, ← List.getD_eq_getElem?_getD]
  · rename_i h
    rw [List.getD_eq_getElem?_getD, List.getElem?_append_right (by simpa using h), List.getElem?_replicate]
    split <;> rfl

theorem swap32_bit (x : U32) {i : Nat} (hi : i < 32) : (swap32 x).getLsbD i = x.getLsbD (8 * (3 - i / 8) + i % 8) := by
  unfold swap32
  simp only [BitVec.getLsbD_append, BitVec.getLsbD_extractLsb']
  by_cases h1 : i < 8
  · rw [if_pos h1, decide_eq_true h1, Bool.true_and, show 8 * (3 - i / 8) + i % 8 = 24 + i by omega]
  · rw [if_neg h1]
    by_cases h2 : i - 8 < 8
    · rw [if_pos h2, decide_eq_true h2, Bool.true_and, show 8 * (3 - i / 8) + i % 8 = 16 + (i - 8) by omega]
    · rw [if_neg h2]
      by_cases h3 : i - 8 - 8 < 8
      · rw [if_pos h3, decide_eq_true h3, Bool.true_and, show 8 * (3 - i / 8) + i % 8 = 8 + (i - 8 - 8) by omega]
      · rw [if_neg h3, decide_eq_true (show i - 8 - 8 - 8 < 8 by omega), Bool.true_and, show 8 * (3 - i / 8) + i % 8 = 0 + (i - 8 - 8 - 8) by omega]

theorem cmp6_bits {o : List U8} {n : Nat} (ho : o.length = 4 ∨ o.length = 16) (hn : n ≤ 8 * o.length) {w : IpWMask} (hw : AddrRecord (.net o n) w)
    (x : List U8) : cmp6 x w ↔ comparedAs6 x (.net o n) := by
  obtain ⟨-, h1⟩ := hw
  rw [if_pos hn] at h1
  obtain ⟨g1, g2, g3⟩ := h1
  have hl : ∀ j < 16, ∀ b < 8, (le128 x &&& le128 (copy16 w.mask)).getLsbD (8 * j + (7 - b)) =
      (decide (j < o.length ∧ 8 * (o.length - 1 - j) + b < n) && bitAt x (8 * j + b)) := by
    intro j hj b hb
    rw [BitVec.getLsbD_and, le128_bit _ _ (by omega), le128_bit _ _ (by omega), show (8 * j + (7 - b)) / 8 = j by omega,
      show (8 * j + (7 - b)) % 8 = 7 - b by omega, oct_bit _ _ hb, copy16_oct (by omega), g2, Bool.and_comm]
    congr 1
    by_cases hjl : j < o.length
    · rw [if_pos hjl, oct_bit _ _ hb, (g3 _ (by omega)).1]
      simp [hjl]
    · rw [if_neg hjl]
      simp [hjl]
  have hr : ∀ j < 16, ∀ b < 8, ((swap32 ((le128 (copy16 w.ip)).truncate 32)).zeroExtend 128).getLsbD (8 * j + (7 - b)) =
      (decide (j < 4 ∧ 8 * (o.length - 4 + j) + b < n) && bitAt o (8 * (o.length - 4 + j) + b)) := by
    intro j hj b hb
    rw [BitVec.getLsbD_setWidth, decide_eq_true (show 8 * j + (7 - b) < 128 by omega), Bool.true_and]
    by_cases hj4 : j < 4
    · rw [swap32_bit _ (by omega), BitVec.getLsbD_setWidth, show (8 * j + (7 - b)) / 8 = j by omega, show (8 * j + (7 - b)) % 8 = 7 - b by omega,
        decide_eq_true (show 8 * (3 - j) + (7 - b) < 32 by omega), Bool.true_and, le128_bit _ _ (by omega),
        show (8 * (3 - j) + (7 - b)) / 8 = 3 - j by omega, show (8 * (3 - j) + (7 - b)) % 8 = 7 - b by omega, copy16_oct (by omega),
        if_pos (by omega), g1, show o.length - 1 - (3 - j) = o.length - 4 + j by omega, oct_bit _ _ hb, (g3 _ (by omega)).2]
      simp [hj4]
    · rw [BitVec.getLsbD_of_ge _ _ (by omega)]
      simp [hj4]
  unfold cmp6 comparedAs6
  constructor
  · intro e _ j hj b hb
    rw [← hl j hj b hb, ← hr j hj b hb, e]
  · intro h
    apply BitVec.eq_of_getLsbD_eq
    intro i hi
    have := h hn (i / 8) (by omega) (7 - i % 8) (by omega)
    rw [← hl _ (by omega) _ (by omega), ← hr _ (by omega) _ (by omega), show 8 * (i / 8) + (7 - (7 - i % 8)) = i by omega] at this
    exact this

theorem cmp6_exact {r : SdfAddr} (ho : ∀ o n, r = .net o n → o.length = 4 ∨ o.length = 16) {w : IpWMask} (hw : AddrRecord r w) (x : List U8) :
    cmp6 x w ↔ comparedAs6 x r := by
  cases r with
  | any =>
    have hw : w = ⟨0, [], []⟩ := hw
    rw [hw]
    exact ⟨fun _ => trivial, fun _ => cmp6_nil x ⟨rfl, rfl⟩⟩
  | net o n =>
    by_cases hn : n ≤ 8 * o.length
    · exact cmp6_bits (ho o n rfl) hn hw x
    · obtain ⟨-, h1⟩ := hw
      rw [if_neg hn] at h1
      exact ⟨fun _ h => absurd h hn, fun _ => cmp6_nil x h1⟩

end Sdf

open Sdf in
/-- **C24, what a filter does with IPv6 packets, exactly.** For every filter text (any ranges, of either IP version, with any prefix lengths; any protocol but
58) and every IPv6 packet. -/
theorem C24_exact {s : List Char} {r : SdfRule} {f : SdfFilter} (h : SdfText s r) (hf : parse s = some f)
    (hp : r.proto ≠ some 58) (p : U8) (a b : List U8) (sp dp : U16) :
    (Flow.v6 p a b sp dp).sat (toKFilter f) = true ↔
      ({ r with src := .any, dst := .any } : SdfRule).Covers p a b sp dp ∧ comparedAs6 a r.src ∧ comparedAs6 b r.dst := by
  have hr := record_of h hf
  obtain ⟨hs, hd⟩ := text_lengths h
  rw [sdfMatch6_iff, proto_covers hr.proto hp, cmp6_exact hs hr.src, cmp6_exact hd hr.dst]
  constructor
  · rintro ⟨h1, h2, h3, h4, h5⟩
    exact ⟨⟨h1, trivial, trivial, by rw [← hr.srcPort]; exact h4, by rw [← hr.dstPort]; exact h5⟩, h2, h3⟩
  · rintro ⟨⟨h1, -, -, h4, h5⟩, h2, h3⟩
    simp only [← hr.srcPort] at h4; simp only [← hr.dstPort] at h5
    exact ⟨h1, h2, h3, h4, h5⟩

namespace Sdf

/-- Two octets with the same bits. -/
theorem oct_ext {x y : U8} (h : ∀ b < 8, x.getLsbD (7 - b) = y.getLsbD (7 - b)) : x = y := by
  apply BitVec.eq_of_getLsbD_eq
  intro i hi
  have := h (7 - i) (by omega)
  rwa [show 7 - (7 - i) = i by omega] at this

/-- A whole IPv6 address as a range: what is compared is the address made of the last four octets and twelve zero octets. -/
theorem compared_host {o : List U8} (ho : o.length = 16) {x : List U8} (hx : x.length = 16) :
    comparedAs6 x (.net o 128) ↔ x = o.drop 12 ++ List.replicate 12 0 := by
  have hL : ∀ j, (o.drop 12 ++ List.replicate 12 (0 : U8)).getD j 0 = if j < 4 then o.getD (12 + j) 0 else 0 := by
    intro j
    rw [List.getD_eq_getElem?_getD]
    split
    · rename_i h
      rw [List.getElem?_append_left (by simp [ho]; omega), List.getElem?_drop, ← List.getD_eq_getElem?_getD]
    · rename_i h
      rw [List.getElem?_append_right (by simp [ho]; omega), List.getElem?_replicate]
      split <;> rfl
  unfold comparedAs6
  simp only [ho]
  constructor
  · intro h
    have h := h (by omega)
    apply List.ext_getElem
    · simp [ho, hx]
    · intro j h1 h2
      have e1 : x[j] = x.getD j 0 := by rw [List.getD_eq_getElem?_getD, List.getElem?_eq_getElem h1]; rfl
      have e2 : (o.drop 12 ++ List.replicate 12 (0 : U8))[j] = (o.drop 12 ++ List.replicate 12 (0 : U8)).getD j 0 := by
        rw [List.getD_eq_getElem?_getD, List.getElem?_eq_getElem h2]; rfl
      rw [e1, e2, hL]
      apply oct_ext
      intro b hb
      have hj : j < 16 := by omega
      have := h j hj b hb
      rw [decide_eq_true (show j < 16 ∧ 8 * (16 - 1 - j) + b < 128 by omega), Bool.true_and] at this
      rw [oct_bit _ _ hb, this]
      by_cases hj4 : j < 4
      · rw [if_pos hj4, oct_bit _ _ hb, decide_eq_true (show j < 4 ∧ 8 * (16 - 4 + j) + b < 128 by omega), Bool.true_and]
      · rw [if_neg hj4]
        simp [hj4]
  · rintro e - j hj b hb
    rw [decide_eq_true (show j < 16 ∧ 8 * (16 - 1 - j) + b < 128 by omega), Bool.true_and, ← oct_bit _ _ hb, e, hL]
    by_cases hj4 : j < 4
    · rw [if_pos hj4, oct_bit _ _ hb, decide_eq_true (show j < 4 ∧ 8 * (16 - 4 + j) + b < 128 by omega), Bool.true_and]
    · rw [if_neg hj4]
      simp [hj4]

end Sdf

open Sdf in
/-- **C24 is false for every single IPv6 source but `::`.** A filter for one IPv6 source address (written without a prefix length, or with /128)
matches the packets of the address made of the last four octets of the one it names and twelve zero octets; a packet of the address it names is never
matched. -/
theorem C24_host {s : List Char} {r : SdfRule} {f : SdfFilter} (h : SdfText s r) (hf : parse s = some f) {o : List U8} (ho : o.length = 16)
    (hs : r.src = .net o 128) (hp : r.proto ≠ some 58) (p : U8) (a b : List U8) (ha : a.length = 16) (sp dp : U16) :
    ((Flow.v6 p a b sp dp).sat (toKFilter f) = true → a = o.drop 12 ++ List.replicate 12 0) ∧
    (o ≠ List.replicate 16 0 → (Flow.v6 p o b sp dp).sat (toKFilter f) = false) := by
  have key : ∀ x : List U8, x.length = 16 → (Flow.v6 p x b sp dp).sat (toKFilter f) = true → x = o.drop 12 ++ List.replicate 12 0 := by
    intro x hx hm
    have := ((C24_exact h hf hp p x b sp dp).1 hm).2.1
    rw [hs] at this
    exact (compared_host ho hx).1 this
  refine ⟨key a ha, fun hne => ?_⟩
  rw [Bool.eq_false_iff]
  intro hm
  have e := key o ho hm
  apply hne
  have hsplit : ∃ a0 a1 a2 a3 a4 a5 a6 a7 a8 a9 a10 a11 a12 a13 a14 a15 : U8, o = [a0, a1, a2, a3, a4, a5, a6, a7, a8, a9, a10, a11, a12, a13, a14, a15] := by
    match o, ho with
    | [a0, a1, a2, a3, a4, a5, a6, a7, a8, a9, a10, a11, a12, a13, a14, a15], _ => exact ⟨_, _, _, _, _, _, _, _, _, _, _, _, _, _, _, _, rfl⟩
  obtain ⟨a0, a1, a2, a3, a4, a5, a6, a7, a8, a9, a10, a11, a12, a13, a14, a15, rfl⟩ := hsplit
  simp only [List.drop_succ_cons, List.drop_zero, List.replicate_succ, List.replicate_zero, List.cons_append, List.nil_append, List.cons.injEq, and_true] at e ⊢
  obtain ⟨e0, e1, e2, e3, e4, e5, e6, e7, e8, e9, e10, e11, e12, e13, e14, e15⟩ := e
  subst e4 e5 e6 e7 e8 e9 e10 e11 e12 e13 e14 e15
  exact ⟨e0, e1, e2, e3, rfl, rfl, rfl, rfl, rfl, rfl, rfl, rfl, rfl, rfl, rfl, rfl⟩

open Sdf in
/-- The hypotheses of `C24_exact` and `C24_host` are met: a filter for packets from 2001:db8::1; it matches a packet from 0:1::. -/
example : (∃ s r f o, SdfText s r ∧ parse s = some f ∧ r.src = .net o 128 ∧ o.length = 16 ∧ o ≠ List.replicate 16 0 ∧ r.proto ≠ some 58) ∧
    ∃ f, parse "permit out ip from 2001:db8::1 to assigned".toList = some f ∧
      (Flow.v6 17 [0, 0, 0, 1, 0, 0, 0, 0, 0, 0, 0, 0, 0, 0, 0, 0] [0xfd, 0, 0, 0, 0, 0, 0, 0, 0, 0, 0, 0, 0, 0, 0, 1] 53 1000).sat (toKFilter f) = true := by
  constructor
  · have h := demo_text "2001:db8::1".toList [0x20, 0x01, 0x0d, 0xb8, 0, 0, 0, 0, 0, 0, 0, 0, 0, 0, 0, 1] "128".toList 128 (by decide +kernel) (by decide) (by decide)
    obtain ⟨f, hf, -⟩ := C21_complete h
    exact ⟨_, _, f, _, h, hf, rfl, by decide, by decide, by decide⟩
  · refine ⟨⟨1, ⟨2, [0x20, 0x01, 0x0d, 0xb8, 0, 0, 0, 0, 0, 0, 0, 0, 0, 0, 0, 1], List.replicate 16 255⟩, ⟨0, 65535⟩, ⟨0, [], []⟩, ⟨0, 65535⟩⟩, by decide +kernel, by decide +kernel⟩

end Eupf
