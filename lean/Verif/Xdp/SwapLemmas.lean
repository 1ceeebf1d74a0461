import Verif.Xdp.CsumLemmas
import Verif.Xdp.Outcome
/- Octet by octet effects of the swaps. Models no code. -/
namespace Eupf

theorem oct_put_in {f : List U8} {i j : Nat} {bs : List U8} (h : i + bs.length ≤ f.length) (hj : i ≤ j ∧ j < i + bs.length) : oct (put f i bs) j = oct bs (j - i) := by
  rw [oct_put h, if_pos hj]
theorem oct_put_out' {f : List U8} {i j : Nat} {bs : List U8} (h : i + bs.length ≤ f.length) (hj : j < i ∨ i + bs.length ≤ j) : oct (put f i bs) j = oct f j := by
  rw [oct_put h, if_neg (by omega)]

theorem bytes16_le16 (f : List U8) (i : Nat) : bytes16 (le16 f i) = [oct f i, oct f (i + 1)] := bytes16_cat _ _
theorem bytes32_le32 (f : List U8) (i : Nat) : bytes32 (le32 f i) = [oct f i, oct f (i + 1), oct f (i + 2), oct f (i + 3)] := bytes32_cat _ _ _ _

theorem oct_bytes16_le16 (f : List U8) (i : Nat) {k : Nat} (h : k < 2) : oct (bytes16 (le16 f i)) k = oct f (i + k) := by
  rw [bytes16_le16]
  rcases k with _ | _ | k
  · rfl
  · rfl
  · omega
theorem oct_bytes32_le32 (f : List U8) (i : Nat) {k : Nat} (h : k < 4) : oct (bytes32 (le32 f i)) k = oct f (i + k) := by
  rw [bytes32_le32]
  rcases k with _ | _ | _ | _ | k
  · rfl
  · rfl
  · rfl
  · rfl
  · omega

/-- Where the octet `i` of a swapped frame comes from. -/
def macSrc (i : Nat) : Nat := if i < 6 then i + 6 else if i < 12 then i - 6 else i
def ipSrc (i : Nat) : Nat := if i < 26 then i else if i < 30 then i + 4 else if i < 34 then i - 4 else i
def portSrc (u i : Nat) : Nat := if i < u then i else if i < u + 2 then i + 2 else if i < u + 4 then i - 2 else i

theorem macSwapped_oct {f : List U8} (h : 14 ≤ f.length) (i : Nat) : oct (macSwapped f) i = oct f (macSrc i) := by
  have s1 : (slice f 0 6).length = 6 := slice_length (by omega)
  have s2 : (slice f 6 6).length = 6 := slice_length (by omega)
  have l1 : (put f 6 (slice f 0 6)).length = f.length := put_length (by omega)
  unfold macSwapped macSrc
  by_cases h6 : i < 6
  · rw [if_pos h6, oct_put_in (by omega) (by omega), oct_slice (by omega)]; congr 1; omega
  · rw [if_neg h6, oct_put_out' (by omega) (by omega)]
    by_cases h12 : i < 12
    · rw [if_pos h12, oct_put_in (by omega) (by omega), oct_slice (by omega)]; congr 1; omega
    · rw [if_neg h12, oct_put_out' (by omega) (by omega)]

theorem ipSwapped_oct {f : List U8} (h : 34 ≤ f.length) (i : Nat) : oct (ipSwapped f) i = oct f (ipSrc i) := by
  have l1 : (put f 30 (bytes32 (le32 f 26))).length = f.length := put_length (by rw [bytes32_length]; omega)
  unfold ipSwapped ipSrc
  by_cases h26 : i < 26
  · rw [if_pos h26, oct_put_out' (by rw [bytes32_length]; omega) (by omega), oct_put_out' (by rw [bytes32_length]; omega) (by omega)]
  · rw [if_neg h26]
    by_cases h30 : i < 30
    · rw [if_pos h30, oct_put_in (by rw [bytes32_length]; omega) (by rw [bytes32_length]; omega), oct_bytes32_le32 _ _ (by omega)]; congr 1; omega
    · rw [if_neg h30, oct_put_out' (by rw [bytes32_length]; omega) (by rw [bytes32_length]; omega)]
      by_cases h34 : i < 34
      · rw [if_pos h34, oct_put_in (by rw [bytes32_length]; omega) (by rw [bytes32_length]; omega), oct_bytes32_le32 _ _ (by omega)]; congr 1; omega
      · rw [if_neg h34, oct_put_out' (by rw [bytes32_length]; omega) (by rw [bytes32_length]; omega)]

theorem portSwapped_oct {f : List U8} {u : Nat} (h : u + 8 ≤ f.length) (i : Nat) :
    oct (portSwapped f u) i = if u + 6 ≤ i ∧ i < u + 8 then 0 else oct f (portSrc u i) := by
  have l1 : (put f (u + 2) (bytes16 (le16 f u))).length = f.length := put_length (by rw [bytes16_length]; omega)
  have l2 : (put (put f (u + 2) (bytes16 (le16 f u))) u (bytes16 (le16 f (u + 2)))).length = f.length := by rw [put_length (by rw [bytes16_length]; omega), l1]
  unfold portSwapped portSrc
  by_cases h6 : u + 6 ≤ i ∧ i < u + 8
  · rw [if_pos h6, oct_put_in (by simp only [List.length_cons, List.length_nil]; omega) (by simp only [List.length_cons, List.length_nil]; omega)]
    obtain ⟨k, rfl⟩ : ∃ k, i = u + 6 + k := ⟨i - (u + 6), by omega⟩
    rw [Nat.add_sub_cancel_left]
    rcases k with _ | _ | k
    · rfl
    · rfl
    · omega
  · rw [if_neg h6, oct_put_out' (by simp only [List.length_cons, List.length_nil]; omega) (by simp only [List.length_cons, List.length_nil]; omega)]
    by_cases h0 : i < u
    · rw [if_pos h0, oct_put_out' (by rw [bytes16_length]; omega) (by omega), oct_put_out' (by rw [bytes16_length]; omega) (by omega)]
    · rw [if_neg h0]
      by_cases h2 : i < u + 2
      · rw [if_pos h2, oct_put_in (by rw [bytes16_length]; omega) (by rw [bytes16_length]; omega), oct_bytes16_le16 _ _ (by omega)]; congr 1; omega
      · rw [if_neg h2, oct_put_out' (by rw [bytes16_length]; omega) (by rw [bytes16_length]; omega)]
        by_cases h4 : i < u + 4
        · rw [if_pos h4, oct_put_in (by rw [bytes16_length]; omega) (by rw [bytes16_length]; omega), oct_bytes16_le16 _ _ (by omega)]; congr 1; omega
        · rw [if_neg h4, oct_put_out' (by rw [bytes16_length]; omega) (by rw [bytes16_length]; omega)]

theorem bumped_oct {f : List U8} {o : Nat} {n : U16} (h : o + 2 ≤ f.length) {i : Nat} (hi : i < o ∨ o + 2 ≤ i) : oct (bumped f o n) i = oct f i := by
  unfold bumped
  rw [oct_put_out' (by rw [bytes16_length]; omega) (by rw [bytes16_length]; omega)]
theorem bumped_be16 {f : List U8} {o : Nat} {n : U16} (h : o + 2 ≤ f.length) : be16 (bumped f o n) o = be16 f o + n := by
  unfold bumped
  rw [bytes16_swap, swap16_le]
  unfold be16
  rw [oct_put_in (by simp only [List.length_cons, List.length_nil]; omega) (by simp only [List.length_cons, List.length_nil]; omega), oct_put_in (by simp only [List.length_cons, List.length_nil]; omega) (by simp only [List.length_cons, List.length_nil]; omega), Nat.sub_self, Nat.add_sub_cancel_left]
  exact (cat16 (be16 f o + n)).symm

theorem be16_congr2 {f g : List U8} {i j : Nat} (h0 : oct f i = oct g j) (h1 : oct f (i + 1) = oct g (j + 1)) : be16 f i = be16 g j := by
  unfold be16; rw [h0, h1]
theorem be32_congr2 {f g : List U8} {i j : Nat} (h : ∀ k, k < 4 → oct f (i + k) = oct g (j + k)) : be32 f i = be32 g j := by
  unfold be32
  rw [show oct f i = oct g j from h 0 (by omega), h 1 (by omega), h 2 (by omega), h 3 (by omega)]

end Eupf
