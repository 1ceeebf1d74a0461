import Verif.Props.Races
/-
C86: the accesses listed for the pools are the ones their code needs: every change is listed as a write of the map that changes, and
a lookup that is not listed would find nothing.
-/
namespace Eupf

/-- **C86** (address pool). An allocation or a release that changes who has an address writes the table of used addresses, with the lock of the pool. -/
theorem C86_address_writes (m : IPAM) (k : U64) :
    ((m.allocate k).1.busyIPs ≠ m.busyIPs → Op.wb .busyIPs ∈ m.allocateOps) ∧
    ((m.release k).busyIPs ≠ m.busyIPs → Op.wb .busyIPs ∈ m.releaseOps k) := by
  constructor
  · intro h
    unfold IPAM.allocate at h
    unfold IPAM.allocateOps
    cases hf : m.freeIPs with
    | nil => rw [hf] at h; exact absurd rfl h
    | cons x l => simp [wrOf]
  · intro h
    unfold IPAM.release at h
    unfold IPAM.releaseOps
    cases hg : m.busyIPs.get? k with
    | none => rw [hg] at h; exact absurd rfl h
    | some ip => simp [delOf, wrOf, size_ne_zero hg]

/-- **C86** (TEID pool, allocation). When a session gets its first TEID, the table of used TEIDs is written; when it gets a further one, the
session's own table is. The table of another session is never touched. -/
theorem C86_teid_writes (m : FTEIDM) (k : U64) (pdr : U32) :
    ((m.busyTEIDs.get? k).isNone → ((m.allocate k pdr).1.busyTEIDs.get? k).isSome → Op.wb .busyTEIDs ∈ m.allocateOps k) ∧
    ((m.busyTEIDs.get? k).isSome → (m.allocate k pdr).1.busyTEIDs.get? k ≠ m.busyTEIDs.get? k → Op.wb (.teidsOf k) ∈ m.allocateOps k) ∧
    (∀ k', k' ≠ k → (m.allocate k pdr).1.busyTEIDs.get? k' = m.busyTEIDs.get? k' ∧ Op.wb (.teidsOf k') ∉ m.allocateOps k) := by
  unfold FTEIDM.allocate FTEIDM.allocateOps
  cases hf : m.freeTEIDs with
  | nil =>
    refine ⟨fun h1 h2 => ?_, fun _ h => absurd rfl h, fun k' _ => ⟨rfl, by simp⟩⟩
    simp only [Option.isNone_iff_eq_none] at h1
    rw [h1] at h2
    cases h2
  | cons t l =>
    refine ⟨fun h1 _ => ?_, fun h1 _ => ?_, fun k' hk => ⟨?_, ?_⟩⟩
    · simp [wrOf, h1]
    · have h2 : (m.busyTEIDs.get? k).isNone = false := by
        cases hg : m.busyTEIDs.get? k with
        | none => rw [hg] at h1; cases h1
        | some _ => rfl
      simp [wrOf, h2]
    · simp [hk]
    · simp only [reduceCtorEq, ↓reduceIte, List.mem_append, List.mem_singleton, not_or, or_assoc]
      refine ⟨by simp, ?_, ?_, by simp⟩
      · unfold rdOf; split <;> simp
      · split
        · simp [wrOf]
        · unfold rdOf
          split <;> simp [wrOf, hk]

/-- **C86** (TEID pool, release). A release that changes who has TEIDs writes the table of used TEIDs. -/
theorem C86_teid_release_writes (m : FTEIDM) (ord : Shuffle (U32 × U32)) (k : U64) :
    (m.release ord k).busyTEIDs ≠ m.busyTEIDs → Op.wb .busyTEIDs ∈ m.releaseOps k := by
  intro h
  unfold FTEIDM.release at h
  unfold FTEIDM.releaseOps
  cases hg : m.busyTEIDs.get? k with
  | none => rw [hg] at h; exact absurd rfl h
  | some pm => simp [delOf, wrOf, size_ne_zero hg]

theorem empty_of_size {K V : Type} [DecidableEq K] {m : GoMap K V} (h : m.size = 0) : m = GoMap.empty := by
  obtain ⟨l, nd⟩ := m
  have : l = [] := List.length_eq_zero_iff.1 h
  subst this
  rfl

/-- **C86** (reads). What a PDR refers to is looked up in the session's tables; a table whose lookup is not listed as a read makes no
difference: the PDR would get the same numbers if that table were empty. -/
theorem C86_refs_read (a : Addr) (sid : U64) (s : Session) (ie : PdrIE) (p : PdrInfo) :
    (Op.rd (.fars a sid) ∉ pdrRefsOps a sid s ie → pdrRefs { s with fars := GoMap.empty } ie p = pdrRefs s ie p) ∧
    (Op.rd (.qers a sid) ∉ pdrRefsOps a sid s ie → pdrRefs { s with qers := GoMap.empty } ie p = pdrRefs s ie p) ∧
    (Op.rd (.urrs a sid) ∉ pdrRefsOps a sid s ie → pdrRefs { s with urrs := GoMap.empty } ie p = pdrRefs s ie p) := by
  have key : ∀ (x : Loc) (n : Nat), n ≠ 0 → Op.rd x ∈ rdOf x n := fun x n h => by simp [rdOf, h]
  refine ⟨fun h => ?_, fun h => ?_, fun h => ?_⟩
  · by_cases hz : s.fars.size = 0
    · rw [← empty_of_size hz]
    · cases hf : ie.farId with
      | none => simp [pdrRefs, hf, Session.getQer, Session.getUrr]
      | some f =>
        refine absurd ?_ h
        simp only [pdrRefsOps, hf, Option.isSome_some, if_true, List.mem_append]
        exact .inl (.inl (key _ _ hz))
  · by_cases hz : s.qers.size = 0
    · rw [← empty_of_size hz]
    · cases hf : ie.qerId with
      | none => simp [pdrRefs, hf, Session.getFar, Session.getUrr]
      | some f =>
        refine absurd ?_ h
        simp only [pdrRefsOps, hf, Option.isSome_some, if_true, List.mem_append]
        exact .inl (.inr (key _ _ hz))
  · by_cases hz : s.urrs.size = 0
    · rw [← empty_of_size hz]
    · rcases hf : ie.urrIds with _ | (_ | ⟨u, _ | ⟨v, l⟩⟩)
      · simp [pdrRefs, hf, Session.getFar, Session.getQer]
      · simp [pdrRefs, hf, Session.getFar, Session.getQer]
      · refine absurd ?_ h
        simp only [pdrRefsOps, hf, List.mem_append]
        exact .inr (key _ _ hz)
      · refine absurd ?_ h
        simp only [pdrRefsOps, hf, List.mem_append]
        exact .inr (.inl (key _ _ hz))

/-- Non-vacuity: the first TEID of session 1 is a write of the table, the second one of the session's own table; a PDR that names QER 1 of a
session that has it reads the table of QERs. -/
example : Op.wb .busyTEIDs ∈ (FTEIDM.mk [1, 2] GoMap.empty).allocateOps 1 ∧
    Op.wb (.teidsOf 1) ∈ ((FTEIDM.mk [1, 2] GoMap.empty).allocate 1 7).1.allocateOps 1 ∧
    Op.wb .busyTEIDs ∉ ((FTEIDM.mk [1, 2] GoMap.empty).allocate 1 7).1.allocateOps 1 := by decide +kernel
example (a : Addr) (ie : PdrIE) (h : ie.qerId = some 1) : Op.rd (.qers a 1) ∈ pdrRefsOps a 1 ((Session.new 1 2).newQer 1 0 {}) ie := by
  have hz : ((Session.new 1 2).newQer 1 0 {}).qers.size ≠ 0 := by decide +kernel
  generalize (Session.new 1 2).newQer 1 0 {} = s at hz ⊢
  simp [pdrRefsOps, rdOf, h, hz]

end Eupf
