import Verif.Xdp.Wp
import Verif.Spec.Frames
/- What the parsers return. Models no code. -/
namespace Eupf

theorem bind_run {S α β : Type} {m : Act S α} {f : α → Act S β} {s s' : S} {a : α} (h : m s = (s', .ok a)) : (m >>= f) s = f a s' := by
  show Act.bind m f s = _
  unfold Act.bind; rw [h]

theorem ext8_lo {n : Nat} (a : BitVec n) (b : U8) : (a ++ b).extractLsb' 0 8 = b := by
  apply BitVec.eq_of_getLsbD_eq; intro i hi
  simp [BitVec.getLsbD_append, hi]
theorem ext8_hi {n : Nat} (k m : Nat) (a : BitVec n) (b : U8) : (a ++ b).extractLsb' (k + 8) m = a.extractLsb' k m := by
  apply BitVec.eq_of_getLsbD_eq; intro i hi
  simp only [BitVec.getLsbD_extractLsb', BitVec.getLsbD_append, hi]
  rw [if_neg (by omega)]
  rw [show k + 8 + i - 8 = k + i by omega]
theorem ext8_full (b : U8) : b.extractLsb' 0 8 = b := by
  apply BitVec.eq_of_getLsbD_eq; intro i hi
  simp [hi]
theorem swap16_cat (a b : U8) : swap16 (a ++ b) = b ++ a := by
  unfold swap16
  rw [ext8_lo, ext8_hi 0, ext8_full]
theorem swap32_cat (a b c d : U8) : swap32 (a ++ b ++ c ++ d) = d ++ c ++ b ++ a := by
  unfold swap32
  rw [ext8_lo, ext8_hi 0, ext8_hi 8, ext8_hi 16, ext8_hi 8, ext8_hi 0, ext8_hi 0, ext8_lo, ext8_lo,ext8_full]
theorem swap16_le (f : List U8) (i : Nat) : swap16 (le16 f i) = be16 f i := swap16_cat _ _
theorem swap32_le (f : List U8) (i : Nat) : swap32 (le32 f i) = be32 f i := swap32_cat _ _ _ _
theorem bytes16_cat (a b : U8) : bytes16 (a ++ b) = [b, a] := by
  unfold bytes16; rw [ext8_lo, ext8_hi 0, ext8_full]
theorem bytes32_cat (a b c d : U8) : bytes32 (a ++ b ++ c ++ d) = [d, c, b, a] := by
  unfold bytes32
  rw [ext8_lo, ext8_hi 0, ext8_hi 8, ext8_hi 16, ext8_hi 8, ext8_hi 0, ext8_hi 0, ext8_lo, ext8_lo,ext8_full]
theorem cat16 (x : U16) : x = x.extractLsb' 8 8 ++ x.extractLsb' 0 8 := by
  apply BitVec.eq_of_getLsbD_eq; intro i hi
  simp only [BitVec.getLsbD_append, BitVec.getLsbD_extractLsb']
  by_cases h : i < 8
  · simp [h]
  · rw [if_neg h, show 8 + (i - 8) = i by omega]; simp; omega
theorem cat32 (x : U32) : x = x.extractLsb' 24 8 ++ x.extractLsb' 16 8 ++ x.extractLsb' 8 8 ++ x.extractLsb' 0 8 := by
  apply BitVec.eq_of_getLsbD_eq; intro i hi
  simp only [BitVec.getLsbD_append, BitVec.getLsbD_extractLsb']
  by_cases h : i < 8
  · simp [h]
  · rw [if_neg h]
    by_cases h2 : i - 8 < 8
    · rw [if_pos h2, show 8 + (i - 8) = i by omega]; simp; omega
    · rw [if_neg h2]
      by_cases h3 : i - 8 - 8 < 8
      · rw [if_pos h3, show 16 + (i - 8 - 8) = i by omega]; simp; omega
      · rw [if_neg h3, show 24 + (i - 8 - 8 - 8) = i by omega]; simp; omega
theorem swap16_swap16 (x : U16) : swap16 (swap16 x) = x := by
  rw [cat16 x, swap16_cat, swap16_cat]
theorem swap32_swap32 (x : U32) : swap32 (swap32 x) = x := by
  rw [cat32 x, swap32_cat, swap32_cat]
theorem swap32_inj {x y : U32} : swap32 x = swap32 y ↔ x = y :=
  ⟨fun h => by rw [← swap32_swap32 x, h, swap32_swap32], fun h => by rw [h]⟩
theorem le32_eq (f : List U8) (i : Nat) (x : U32) : le32 f i = x ↔ be32 f i = swap32 x := by
  rw [← swap32_le, swap32_inj]

theorem ihl_eq (b : U8) : (b &&& 0x0f).toNat = b.toNat % 16 := by
  rw [BitVec.toNat_and]
  exact Nat.and_two_pow_sub_one_eq_mod b.toNat 4
theorem gtpOpt_eq (b : U8) : gtpOpt b = decide (b.toNat % 8 ≠ 0) := by
  unfold gtpOpt
  congr 1
  apply propext
  have : (b &&& 0x07).toNat = b.toNat % 8 := by
    rw [BitVec.toNat_and]; exact Nat.and_two_pow_sub_one_eq_mod b.toNat 3
  rw [← this]
  constructor
  · intro h h2; exact h (BitVec.eq_of_toNat_eq h2)
  · intro h h2; rw [h2] at h; exact h rfl

section
variable (c : Ctx) (s : PS)

theorem parseEthernet_eval : parseEthernet c s = (s, .ok (if c.data + 14 > s.frame.length then (c, none)
    else ({ c with data := c.data + 14, eth := some c.data }, some (be16 s.frame (c.data + 12))))) := by
  apply wp.eq_of
  unfold parseEthernet
  simp only [wp.bind_iff, wp.frameLen_iff, wp.ite_iff, wp.pure_iff, wp.ld16_iff, swap16_le]
  refine ⟨fun h => ?_, fun h => ⟨by omega, ?_⟩⟩ <;> simp [h]
theorem parseIp4_eval : parseIp4 c s = (s, .ok (if c.data + 20 > s.frame.length then (c, none)
    else ({ c with data := ip4End s.frame c.data, ip4 := some c.data }, some (oct s.frame (c.data + 9))))) := by
  apply wp.eq_of
  unfold parseIp4
  simp only [wp.bind_iff, wp.frameLen_iff, wp.ite_iff, wp.pure_iff, wp.ld8_iff, ihl_eq]
  refine ⟨fun h => ?_, fun h => ⟨by omega, by omega, ?_⟩⟩ <;> simp [h, ip4End]
theorem parseIp6_eval : parseIp6 c s = (s, .ok (if c.data + 40 > s.frame.length then (c, none)
    else ({ c with data := c.data + 40, ip6 := some c.data }, some (oct s.frame (c.data + 6))))) := by
  apply wp.eq_of
  unfold parseIp6
  simp only [wp.bind_iff, wp.frameLen_iff, wp.ite_iff, wp.pure_iff, wp.ld8_iff]
  refine ⟨fun h => ?_, fun h => ⟨by omega, ?_⟩⟩ <;> simp [h]
theorem parseUdp_eval : parseUdp c s = (s, .ok (if c.data + 8 > s.frame.length then (c, none)
    else ({ c with data := c.data + 8, udp := some c.data }, some (be16 s.frame (c.data + 2))))) := by
  apply wp.eq_of
  unfold parseUdp
  simp only [wp.bind_iff, wp.frameLen_iff, wp.ite_iff, wp.pure_iff, wp.ld16_iff, swap16_le]
  refine ⟨fun h => ?_, fun h => ⟨by omega, ?_⟩⟩ <;> simp [h]
theorem parseTcp_eval : parseTcp c s = (s, .ok (if c.data + 20 > s.frame.length then (c, none)
    else ({ c with data := c.data + 20, tcp := some c.data }, some (be16 s.frame (c.data + 2))))) := by
  apply wp.eq_of
  unfold parseTcp
  simp only [wp.bind_iff, wp.frameLen_iff, wp.ite_iff, wp.pure_iff, wp.ld16_iff, swap16_le]
  refine ⟨fun h => ?_, fun h => ⟨by omega, ?_⟩⟩ <;> simp [h]
theorem parseGtp_eval : parseGtp c s = (s, .ok (if c.data + 8 > s.frame.length then (c, none)
    else ({ c with data := c.data + 8 + (if gtpOpt (oct s.frame c.data) then 8 else 0), gtp := some c.data },
      some (oct s.frame (c.data + 1))))) := by
  apply wp.eq_of
  unfold parseGtp
  simp only [wp.bind_iff, wp.frameLen_iff, wp.ite_iff, wp.pure_iff, wp.ld8_iff]
  refine ⟨fun h => ?_, fun h => ⟨by omega, by omega, ?_⟩⟩ <;> simp [h]
theorem parseL4_eval (p : U8) : parseL4 p c s = (s, .ok (
    if p = 17 then (if c.data + 8 > s.frame.length then (c, none)
      else ({ c with data := c.data + 8, udp := some c.data }, some (be16 s.frame (c.data + 2))))
    else if p = 6 then (if c.data + 20 > s.frame.length then (c, none)
      else ({ c with data := c.data + 20, tcp := some c.data }, some (be16 s.frame (c.data + 2))))
    else (c, some 0))) := by
  unfold parseL4
  split
  · rw [parseUdp_eval]
  · split
    · rw [parseTcp_eval]
    · rfl
theorem frameLen_eval : frameLen s = (s, .ok s.frame.length) := rfl
theorem count_eval (f : UpfStat → UpfStat) : count f s = ({ s with st := f s.st }, .ok ()) := rfl
theorem ld8_eval {o : Nat} (h : o + 1 ≤ s.frame.length) : ld8 o s = (s, .ok (oct s.frame o)) := if_pos h
theorem ld16_eval {o : Nat} (h : o + 2 ≤ s.frame.length) : ld16 o s = (s, .ok (le16 s.frame o)) := if_pos h
theorem ld32_eval {o : Nat} (h : o + 4 ≤ s.frame.length) : ld32 o s = (s, .ok (le32 s.frame o)) := if_pos h
theorem ldBytes_eval {o n : Nat} (h : o + n ≤ s.frame.length) : ldBytes o n s = (s, .ok (slice s.frame o n)) := if_pos h
theorem store_eval {o : Nat} {bs : List U8} (h : o + bs.length ≤ s.frame.length) :
    store o bs s = ({ s with frame := put s.frame o bs }, .ok ()) := if_pos h
end

end Eupf
