import Verif.Layout
import Verif.Xdp.Eval
/-
C46: user space and the forwarding plane agree on the records.
-/
namespace Eupf

theorem le16_bytes (x : U16) (a b : List U8) : le16 (a ++ bytes16 x ++ b) a.length = x := by
  rw [cat16 x]
  simp [le16, oct, bytes16_cat, List.getElem?_append]
theorem cat64 (x : U64) : x = x.extractLsb' 56 8 ++ x.extractLsb' 48 8 ++ x.extractLsb' 40 8 ++ x.extractLsb' 32 8 ++
    x.extractLsb' 24 8 ++ x.extractLsb' 16 8 ++ x.extractLsb' 8 8 ++ x.extractLsb' 0 8 := by
  apply BitVec.eq_of_getLsbD_eq; intro i hi
  simp only [BitVec.getLsbD_append, BitVec.getLsbD_extractLsb']
  by_cases h : i < 8
  · simp [h]
  · rw [if_neg h]
    by_cases h2 : i - 8 < 8
    · rw [if_pos h2, show 8 + (i - 8) = i by omega]; simp; omega
    · rw [if_neg h2]
      by_cases h3 : i - 8 - 8 < 8
      · rw [if_pos h3, show 16 + (i - 8 - 8) = i by omega]; simp; omega
      · rw [if_neg h3]
        by_cases h4 : i - 8 - 8 - 8 < 8
        · rw [if_pos h4, show 24 + (i - 8 - 8 - 8) = i by omega]; simp; omega
        · rw [if_neg h4]
          by_cases h5 : i - 8 - 8 - 8 - 8 < 8
          · rw [if_pos h5, show 32 + (i - 8 - 8 - 8 - 8) = i by omega]; simp; omega
          · rw [if_neg h5]
            by_cases h6 : i - 8 - 8 - 8 - 8 - 8 < 8
            · rw [if_pos h6, show 40 + (i - 8 - 8 - 8 - 8 - 8) = i by omega]; simp; omega
            · rw [if_neg h6]
              by_cases h7 : i - 8 - 8 - 8 - 8 - 8 - 8 < 8
              · rw [if_pos h7, show 48 + (i - 8 - 8 - 8 - 8 - 8 - 8) = i by omega]; simp; omega
              · rw [if_neg h7, show 56 + (i - 8 - 8 - 8 - 8 - 8 - 8 - 8) = i by omega]; simp; omega

theorem goQer_leaves : goQer.leaves 0 = [(0, 1), (1, 1), (2, 1), (4, 4), (8, 4), (16, 8), (24, 8)] := by decide +kernel
theorem goQer_size : goQer.size = 32 := by decide +kernel
theorem qer_mem (v : QerInfo) : v.toMem goQer = [v.gateUL, v.gateDL, v.qfi, 0] ++ bytes32 v.mbrUL ++ bytes32 v.mbrDL ++ [0, 0, 0, 0] ++
    bytes64 v.startUL ++ bytes64 v.startDL := by
  simp [QerInfo.toMem, MTy.image, goQer_leaves, goQer_size, put, bytes32, bytes64, List.replicate]
theorem goPdr_leaves : goPdr.leaves 0 = [(0, 1), (4, 4), (8, 4), (12, 4), (16, 4), (24, 8)] := by decide +kernel
theorem goPdr_size : goPdr.size = 32 := by decide +kernel
theorem rest_mem (p : RestPdr) : p.toMem = [p.ohr, 0, 0, 0] ++ bytes32 p.farId ++ bytes32 p.qerId ++ List.replicate 20 0 := by
  simp [RestPdr.toMem, MTy.image, goPdr_leaves, goPdr_size, put, bytes32, bytes64, List.replicate]
theorem cPdr_leaves : (cPdr.leaves 0).take 6 = [(0, 4), (4, 4), (8, 4), (12, 4), (16, 1), (17, 1)] := by decide +kernel
theorem cPdr_size : cPdr.size = 208 := by decide +kernel
theorem cPdr_part (m : List U8) (i : Nat) (h : i < 6) :
    cPdr.part m i = (m.drop (([0, 4, 8, 12, 16, 17] : List Nat).getD i 0)).take (([4, 4, 4, 4, 1, 1] : List Nat).getD i 0) := by
  have e : (cPdr.leaves 0).getD i (0, 0) = (([0, 4, 8, 12, 16, 17] : List Nat).getD i 0, ([4, 4, 4, 4, 1, 1] : List Nat).getD i 0) := by
    have : i = 0 ∨ i = 1 ∨ i = 2 ∨ i = 3 ∨ i = 4 ∨ i = 5 := by omega
    rcases this with rfl | rfl | rfl | rfl | rfl | rfl <;> decide +kernel
  unfold MTy.part
  rw [e]
theorem zip_take {α β : Type} (l : List α) (m : List β) : l.zip m = (l.take m.length).zip m := by
  induction l generalizing m with
  | nil => simp
  | cons a l ih =>
    cases m with
    | nil => simp
    | cons b m => simp [ih m]
theorem head_mem (k : KPdrHead) : k.toMem = bytes32 k.farId ++ bytes32 k.qerId ++ bytes32 k.urr1 ++ bytes32 k.urr2 ++ [k.ohr, k.sdfMode] ++
    List.replicate 190 0 := by
  unfold KPdrHead.toMem MTy.image
  rw [zip_take]
  simp only [List.length_cons, List.length_nil, Nat.zero_add, Nat.reduceAdd, cPdr_leaves, cPdr_size]
  simp [put, bytes32]

/-- **C46, FAR.** Every FAR written by user space is read by the forwarding plane with the same fields, and the other way
round; both sides use the same number of octets. -/
theorem C46_far (v : FarInfo) : FarInfo.ofMem cFar (v.toMem goFar) = v ∧ FarInfo.ofMem goFar (v.toMem cFar) = v ∧
    (v.toMem goFar).length = cFar.size := by
  have h : FarInfo.ofMem cFar (v.toMem goFar) = v := by
    show (⟨v.action, v.ohc, _, _, _⟩ : FarInfo) = v
    obtain ⟨a, b, c, d, e⟩ := v
    congr 1
    · exact (cat32 c).symm
    · exact (cat32 d).symm
    · exact (cat16 e).symm
  exact ⟨h, h, rfl⟩

/-- **C46, QER.** -/
theorem C46_qer (v : QerInfo) : QerInfo.ofMem cQer (v.toMem goQer) = v ∧ QerInfo.ofMem goQer (v.toMem cQer) = v ∧
    (v.toMem goQer).length = cQer.size := by
  have h : QerInfo.ofMem cQer (v.toMem goQer) = v := by
    obtain ⟨a, b, c, d, e, f, g⟩ := v
    have o : ∀ m i, cQer.part m i = goQer.part m i := fun _ _ => rfl
    rw [qer_mem]
    unfold QerInfo.ofMem
    simp only [o, MTy.part, goQer_leaves]
    congr 1
    · exact (cat32 d).symm
    · exact (cat32 e).symm
    · exact (cat64 f).symm
    · exact (cat64 g).symm
  refine ⟨h, h, ?_⟩
  rw [qer_mem]
  exact goQer_size.symm

/-- **C46, URR.** -/
theorem C46_urr (v : UrrInfo) : UrrInfo.ofMem cUrr (v.toMem goUrr) = v ∧ UrrInfo.ofMem goUrr (v.toMem cUrr) = v ∧
    (v.toMem goUrr).length = cUrr.size := by
  have h : UrrInfo.ofMem cUrr (v.toMem goUrr) = v := by
    obtain ⟨f, g⟩ := v
    show (⟨_, _⟩ : UrrInfo) = _
    congr 1
    · exact (cat64 f).symm
    · exact (cat64 g).symm
  exact ⟨h, h, rfl⟩

/-- **C46, negation: PUT /uplink_pdr_map.** Whatever is in memory behind the 32-octet variable (`junk`), the forwarding plane takes the outer header
removal for the FAR id, the FAR id for the QER id, the QER id for the first URR id, and 0 for the outer header removal. -/
theorem C46_rest_put_pdr (p : RestPdr) (junk : List U8) :
    KPdrHead.ofMem (p.toMem ++ junk) = ⟨p.ohr.zeroExtend 32, p.farId, p.qerId, 0, 0, 0⟩ := by
  obtain ⟨a, b, c⟩ := p
  rw [rest_mem]
  unfold KPdrHead.ofMem
  rw [cPdr_part _ _ (show 0 < 6 by decide), cPdr_part _ _ (show 1 < 6 by decide), cPdr_part _ _ (show 2 < 6 by decide),
    cPdr_part _ _ (show 3 < 6 by decide), cPdr_part _ _ (show 4 < 6 by decide), cPdr_part _ _ (show 5 < 6 by decide)]
  have h1 : (0#8 ++ 0#8 ++ 0#8 ++ a : U32) = a.zeroExtend 32 := by
    apply BitVec.eq_of_getLsbD_eq; intro i hi
    simp only [BitVec.getLsbD_append, BitVec.getLsbD_setWidth, BitVec.getLsbD_zero]
    by_cases h : i < 8
    · simp [h, hi]
    · have : a.getLsbD i = false := BitVec.getLsbD_of_ge a i (by omega)
      simp [h, this]
  have e0 : le32 ((([a, 0, 0, 0] ++ bytes32 b ++ bytes32 c ++ List.replicate 20 0 ++ junk).drop 0).take 4) 0 = a.zeroExtend 32 := h1
  have e1 : le32 ((([a, 0, 0, 0] ++ bytes32 b ++ bytes32 c ++ List.replicate 20 0 ++ junk).drop 4).take 4) 0 = b := (cat32 b).symm
  have e2 : le32 ((([a, 0, 0, 0] ++ bytes32 b ++ bytes32 c ++ List.replicate 20 0 ++ junk).drop 8).take 4) 0 = c := (cat32 c).symm
  have e3 : le32 ((([a, 0, 0, 0] ++ bytes32 b ++ bytes32 c ++ List.replicate 20 0 ++ junk).drop 12).take 4) 0 = 0 := by
    show (0#8 ++ 0#8 ++ 0#8 ++ 0#8 : U32) = 0
    decide
  have e4 : oct ((([a, 0, 0, 0] ++ bytes32 b ++ bytes32 c ++ List.replicate 20 0 ++ junk).drop 16).take 1) 0 = 0 := rfl
  have e5 : oct ((([a, 0, 0, 0] ++ bytes32 b ++ bytes32 c ++ List.replicate 20 0 ++ junk).drop 17).take 1) 0 = 0 := rfl
  simp only [List.getD_cons_zero, List.getD_cons_succ, e0, e1, e2, e3, e4, e5]

/-- … so the request has the requested effect only when all three numbers are 0. -/
theorem C46_rest_put_pdr_wrong (p : RestPdr) (junk : List U8) :
    ((KPdrHead.ofMem (p.toMem ++ junk)).farId = p.farId ∧ (KPdrHead.ofMem (p.toMem ++ junk)).qerId = p.qerId ∧
      (KPdrHead.ofMem (p.toMem ++ junk)).ohr = p.ohr) ↔ p = ⟨0, 0, 0⟩ := by
  rw [C46_rest_put_pdr]
  obtain ⟨a, b, c⟩ := p
  simp only [RestPdr.mk.injEq]
  constructor
  · rintro ⟨h1, h2, h3⟩
    subst h2 h3
    exact ⟨rfl, h1.symm, h1.symm⟩
  · rintro ⟨h1, h2, h3⟩
    subst h1 h2 h3
    exact ⟨rfl, rfl, rfl⟩

/-- **C46, negation: GET /uplink_pdr_map.** The display is shifted in the same way. -/
theorem C46_rest_get_pdr (k : KPdrHead) :
    RestPdr.ofMem k.toMem = ⟨k.farId.extractLsb' 0 8, k.qerId, k.urr1⟩ := by
  obtain ⟨a, b, c, d, e, f⟩ := k
  rw [head_mem]
  unfold RestPdr.ofMem
  simp only [MTy.part, goPdr_leaves]
  congr 1
  · exact (cat32 b).symm
  · exact (cat32 c).symm

/-- **C46, negation: out of bounds.** The kernel copies `sizeof(struct pdr_info)` octets from or to a variable that is 176 octets
smaller: PUT stores foreign memory into the table, GET overwrites foreign memory of the process. -/
theorem C46_rest_pdr_overrun (p : RestPdr) : p.toMem.length = 32 ∧ cPdr.size = 208 := by
  rw [rest_mem]
  exact ⟨rfl, cPdr_size⟩

/-- Non-vacuity: a FAR with all fields set; a REST request for FAR 5, QER 7. -/
example : FarInfo.ofMem cFar (FarInfo.toMem goFar ⟨2, 1, 0x11223344, 0x0100000a, 0xfc2e⟩) = ⟨2, 1, 0x11223344, 0x0100000a, 0xfc2e⟩ := by decide +kernel
example : KPdrHead.ofMem (RestPdr.toMem ⟨0, 5, 7⟩ ++ List.replicate 176 0) = ⟨0, 5, 7, 0, 0, 0⟩ := by decide +kernel

end Eupf
