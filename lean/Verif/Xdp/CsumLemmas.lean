import Verif.Spec.Checksum
import Verif.Xdp.Csum
import Verif.Xdp.Uplink
/- The code's checksum arithmetic against RFC 1071. Models no code. -/
namespace Eupf

/-- big-endian and little-endian word sums, without folding -/
def beSum : List U8 → Nat
  | a :: b :: l => a.toNat * 256 + b.toNat + beSum l
  | [a] => a.toNat * 256
  | [] => 0
def leSum : List U8 → Nat
  | a :: b :: l => a.toNat + b.toNat * 256 + leSum l
  | [a] => a.toNat
  | [] => 0

theorem ocSum_facts : ∀ l, ocSum l < 65536 ∧ ocSum l % 65535 = beSum l % 65535 ∧ (ocSum l = 0 ↔ beSum l = 0)
  | [] => by simp [ocSum, beSum]
  | [a] => by have := a.isLt; simp only [ocSum, beSum]; refine ⟨by omega, ?_, ?_⟩ <;> trivial
  | a :: b :: l => by
    have ha := a.isLt; have hb := b.isLt
    obtain ⟨h1, h2, h3⟩ := ocSum_facts l
    simp only [ocSum, beSum, ocAdd]
    generalize beSum l = y at *
    generalize ocSum l = x at *
    split
    · refine ⟨by omega, by omega, by omega⟩
    · refine ⟨by omega, by omega, by omega⟩

theorem valid_iff (l : List U8) : CsumValid l ↔ beSum l % 65535 = 0 ∧ beSum l ≠ 0 := by
  obtain ⟨h1, h2, h3⟩ := ocSum_facts l
  unfold CsumValid
  omega

theorem beSum_leSum : ∀ l, beSum l % 65535 = (256 * leSum l) % 65535 ∧ (beSum l = 0 ↔ leSum l = 0)
  | [] => by simp [leSum, beSum]
  | [a] => by simp only [leSum, beSum]; omega
  | a :: b :: l => by
    obtain ⟨h1, h2⟩ := beSum_leSum l
    simp only [leSum, beSum]
    omega

theorem valid_iff_le (l : List U8) : CsumValid l ↔ leSum l % 65535 = 0 ∧ leSum l ≠ 0 := by
  rw [valid_iff]
  obtain ⟨h1, h2⟩ := beSum_leSum l
  omega

theorem leSum_append : ∀ (a b : List U8), a.length % 2 = 0 → leSum (a ++ b) = leSum a + leSum b
  | [], b, _ => by simp [leSum]
  | [x], b, h => by simp at h
  | x :: y :: a, b, h => by
    have := leSum_append a b (by simp only [List.length_cons] at h; omega)
    simp only [List.cons_append, leSum, this]; omega
theorem beSum_append : ∀ (a b : List U8), a.length % 2 = 0 → beSum (a ++ b) = beSum a + beSum b
  | [], b, _ => by simp [beSum]
  | [x], b, h => by simp at h
  | x :: y :: a, b, h => by
    have := beSum_append a b (by simp only [List.length_cons] at h; omega)
    simp only [List.cons_append, beSum, this]; omega

theorem toNat_cat16 (a b : U8) : (a ++ b).toNat = a.toNat * 256 + b.toNat := by
  rw [BitVec.toNat_append, Nat.shiftLeft_eq, ← Nat.mul_comm (2 ^ 8), Nat.two_pow_add_eq_or_of_lt b.isLt]
theorem toNat_catN {n : Nat} (a : BitVec n) (b : U8) : (a ++ b).toNat = a.toNat * 256 + b.toNat := by
  rw [BitVec.toNat_append, Nat.shiftLeft_eq, ← Nat.mul_comm (2 ^ 8), Nat.two_pow_add_eq_or_of_lt b.isLt]

theorem leSum_bytes16 (x : U16) : leSum (bytes16 x) = x.toNat := by
  conv => rhs; rw [cat16 x, toNat_cat16]
  simp only [bytes16, leSum]; omega

theorem add1c_facts (a b : U32) : (add1c a b).toNat % 65535 = (a.toNat + b.toNat) % 65535 ∧ ((add1c a b).toNat = 0 ↔ a.toNat + b.toNat = 0) := by
  have ha := a.isLt; have hb := b.isLt
  unfold add1c
  split
  · rw [BitVec.toNat_add]
    omega
  · rw [BitVec.toNat_add, BitVec.toNat_add]
    have : (1 : U32).toNat = 1 := rfl
    omega

theorem foldl_add1c (l : List U32) : ∀ acc : U32, ((l.foldl add1c acc).toNat % 65535 = (acc.toNat + (l.map BitVec.toNat).sum) % 65535) ∧
    ((l.foldl add1c acc).toNat = 0 ↔ acc.toNat + (l.map BitVec.toNat).sum = 0) := by
  induction l with
  | nil => intro acc; simp
  | cons x l ih =>
    intro acc
    obtain ⟨h1, h2⟩ := ih (add1c acc x)
    obtain ⟨g1, g2⟩ := add1c_facts acc x
    simp only [List.foldl_cons, List.map_cons, List.sum_cons]
    omega

theorem words32_sum : ∀ l : List U8, l.length % 4 = 0 → ((words32 l).map BitVec.toNat).sum % 65535 = leSum l % 65535 ∧
    (((words32 l).map BitVec.toNat).sum = 0 ↔ leSum l = 0)
  | [], _ => by simp [words32, leSum]
  | [_], h => by simp at h
  | [_, _], h => by simp at h
  | [_, _, _], h => by simp at h
  | a :: b :: c :: d :: l, h => by
    obtain ⟨h1, h2⟩ := words32_sum l (by simp only [List.length_cons] at h; omega)
    simp only [words32, leSum, List.map_cons, List.sum_cons, toNat_catN]
    have := a.isLt; have := b.isLt; have := c.isLt; have := d.isLt
    omega

theorem csumDiff_facts (l : List U8) (h : l.length % 4 = 0) : (csumDiff l).toNat < 2 ^ 32 ∧ (csumDiff l).toNat % 65535 = leSum l % 65535 ∧
    ((csumDiff l).toNat = 0 ↔ leSum l = 0) := by
  unfold csumDiff
  obtain ⟨h1, h2⟩ := foldl_add1c (words32 l) 0
  obtain ⟨g1, g2⟩ := words32_sum l h
  have hz : (0 : U32).toNat = 0 := rfl
  have hb := ((words32 l).foldl add1c 0).isLt
  rw [show ((words32 l).foldl add1c 0).zeroExtend 64 = ((words32 l).foldl add1c 0).setWidth 64 from rfl, BitVec.toNat_setWidth]
  rw [Nat.mod_eq_of_lt (by omega)]
  omega

theorem foldStep_toNat (c : U64) : (foldStep c).toNat = c.toNat % 65536 + c.toNat / 65536 := by
  have hc := c.isLt
  unfold foldStep
  rw [BitVec.toNat_add, BitVec.toNat_and, BitVec.toNat_ushiftRight, Nat.shiftRight_eq_div_pow]
  have e : c.toNat &&& BitVec.toNat (65535 : U64) = c.toNat % 2 ^ 16 := Nat.and_two_pow_sub_one_eq_mod c.toNat 16
  erw [e]
  omega

/-- Every representative `c < 2^32` of a sum gives the same folded value: the one in 1..65535, or 0 for 0. -/
theorem csumFold_facts (c : U64) (h : c.toNat < 2 ^ 32) : ∃ x, x < 65536 ∧ x % 65535 = c.toNat % 65535 ∧ (x = 0 ↔ c.toNat = 0) ∧ (csumFold c).toNat = 65535 - x := by
  have h1 := foldStep_toNat c
  have h2 := foldStep_toNat (foldStep c)
  have h3 := foldStep_toNat (foldStep (foldStep c))
  have h4 := foldStep_toNat (foldStep (foldStep (foldStep c)))
  refine ⟨(foldStep (foldStep (foldStep (foldStep c)))).toNat, ?_, ?_, ?_, ?_⟩
  · omega
  · omega
  · omega
  · have hlt : (foldStep (foldStep (foldStep (foldStep c)))).toNat < 65536 := by omega
    unfold csumFold
    rw [BitVec.toNat_not, show ∀ y : U64, (y.truncate 16 : U16) = y.setWidth 16 from fun _ => rfl, BitVec.toNat_setWidth]
    omega

theorem csumFold_unique (c d : U64) (hc : c.toNat < 2 ^ 32) (hd : d.toNat < 2 ^ 32) (h : c.toNat % 65535 = d.toNat % 65535)
    (hz : c.toNat = 0 ↔ d.toNat = 0) : csumFold c = csumFold d := by
  obtain ⟨x, a1, a2, a3, a4⟩ := csumFold_facts c hc
  obtain ⟨y, b1, b2, b3, b4⟩ := csumFold_facts d hd
  apply BitVec.eq_of_toNat_eq
  omega

/-- **The checksum the code writes is valid**: writing `ipv4_csum` of a buffer whose checksum field (octets 10, 11) is zero into that
field makes the buffer valid, unless it is all zero. -/
theorem ipv4Csum_valid (h : List U8) (hl : h.length = 20) (h10 : oct h 10 = 0) (h11 : oct h 11 = 0) (h0 : oct h 0 ≠ 0) :
    CsumValid (put h 10 (bytes16 (ipv4Csum h))) := by
  rw [valid_iff_le]
  obtain ⟨c1, c2, c3⟩ := csumDiff_facts h (by omega)
  obtain ⟨x, x1, x2, x3, x4⟩ := csumFold_facts (csumDiff h) c1
  have split : h = h.take 10 ++ [0, 0] ++ h.drop 12 := by
    have e1 : h = h.take 10 ++ h.drop 10 := (List.take_append_drop 10 h).symm
    have e2 : h.drop 10 = oct h 10 :: oct h 11 :: h.drop 12 := by
      rw [List.drop_eq_getElem_cons (by omega), List.drop_eq_getElem_cons (i := 11) (by omega)]
      simp [oct, hl]
    rw [h10, h11] at e2
    rw [List.append_assoc]
    conv => lhs; rw [e1, e2]
    rfl
  have le : (h.take 10).length = 10 := by simp; omega
  have hs : leSum h = leSum (h.take 10) + leSum (h.drop 12) := by
    conv => lhs; rw [split]
    rw [leSum_append _ _ (by simp; omega), leSum_append _ _ (by omega)]
    simp [leSum]
  have hs2 : leSum (put h 10 (bytes16 (ipv4Csum h))) = leSum (h.take 10) + (ipv4Csum h).toNat + leSum (h.drop 12) := by
    unfold put
    rw [leSum_append _ _ (by simp; omega), leSum_append _ _ (by omega), leSum_bytes16]
    simp
  have hne : leSum (h.take 10) ≠ 0 := by
    rcases h with _ | ⟨a, _ | ⟨b, l⟩⟩
    · simp at hl
    · simp at hl
    · have ha : a ≠ 0 := h0
      have : a.toNat ≠ 0 := fun e => ha (BitVec.eq_of_toNat_eq e)
      simp only [List.take_succ_cons, leSum]
      omega
  have : (ipv4Csum h).toNat = 65535 - x := x4
  omega

/-! ### a header inside of a frame -/

theorem ext_oct {a b : List U8} (hl : a.length = b.length) (h : ∀ i, i < a.length → oct a i = oct b i) : a = b := by
  apply List.ext_getElem hl
  intro i h1 h2
  have := h i h1
  unfold oct at this
  rw [List.getD_eq_getElem?_getD, List.getD_eq_getElem?_getD, List.getElem?_eq_getElem h1, List.getElem?_eq_getElem h2] at this
  exact this

theorem oct_slice {f : List U8} {i n j : Nat} (h : j < n) : oct (slice f i n) j = oct f (i + j) := by
  unfold slice; rw [oct_take_lt h, oct_drop]

theorem slice_congr {f g : List U8} {i n : Nat} (hf : i + n ≤ f.length) (hg : i + n ≤ g.length) (h : ∀ j, i ≤ j → j < i + n → oct f j = oct g j) :
    slice f i n = slice g i n := by
  apply ext_oct (by rw [slice_length hf, slice_length hg])
  intro j hj
  rw [slice_length hf] at hj
  rw [oct_slice hj, oct_slice hj, h _ (by omega) (by omega)]

theorem slice_put {f : List U8} {i n k : Nat} {bs : List U8} (hf : i + n ≤ f.length) (hk : k + bs.length ≤ n) :
    slice (put f (i + k) bs) i n = put (slice f i n) k bs := by
  have hl : (put f (i + k) bs).length = f.length := put_length (by omega)
  have hs := slice_length hf
  have hs2 : (slice (put f (i + k) bs) i n).length = n := slice_length (by omega)
  apply ext_oct (by rw [hs2, put_length (by omega), hs])
  intro j hj
  rw [hs2] at hj
  rw [oct_slice hj, oct_put (by omega), oct_put (by omega), oct_slice hj]
  by_cases h : k ≤ j ∧ j < k + bs.length
  · rw [if_pos h, if_pos (by omega)]; congr 1; omega
  · rw [if_neg h, if_neg (by omega)]

/-- Clearing and recomputing the checksum of the IPv4 header at 14, as the code does it. -/
def recsum (f : List U8) : List U8 := put (put f 24 [0, 0]) 24 (bytes16 (ipv4Csum (slice (put f 24 [0, 0]) 14 20)))

theorem recsum_length {f : List U8} (h : 34 ≤ f.length) : (recsum f).length = f.length := by
  unfold recsum
  have l1 : (put f 24 [0, 0]).length = f.length := put_length (by simp; omega)
  rw [put_length (by rw [bytes16_length]; omega), l1]
theorem recsum_oct {f : List U8} (h : 34 ≤ f.length) {i : Nat} (hi : ¬ (24 ≤ i ∧ i < 26)) : oct (recsum f) i = oct f i := by
  unfold recsum
  have l1 : (put f 24 [0, 0]).length = f.length := put_length (by simp; omega)
  rw [oct_put (by rw [bytes16_length]; omega), if_neg (by rw [bytes16_length]; omega), oct_put (by simp; omega), if_neg (by simp; omega)]
theorem recsum_valid {f : List U8} (h : 34 ≤ f.length) (h0 : oct f 14 ≠ 0) : CsumValid (slice (recsum f) 14 20) := by
  unfold recsum
  have l1 : (put f 24 [0, 0]).length = f.length := put_length (by simp; omega)
  rw [show 24 = 14 + 10 from rfl, slice_put (by rw [l1]; omega) (by simp)]
  apply ipv4Csum_valid
  · exact slice_length (by rw [l1]; omega)
  · rw [oct_slice (by omega), oct_put (by simp; omega), if_pos (by simp)]; rfl
  · rw [oct_slice (by omega), oct_put (by simp; omega), if_pos (by simp)]; rfl
  · rw [oct_slice (by omega), oct_put (by simp; omega), if_neg (by simp)]; exact h0

end Eupf
