import Verif.Props.Merge
import Verif.Props.Slots
/-
C36 and C37 as the packets see them: what an accepted Update QER or Update FAR does to the slot of the data plane.
-/
namespace Eupf

/-- **C36, data plane.** In a history without references to rules a session does not have: an accepted modification with one Update QER for QER `i`
of the session (and neither creating nor removing it) leaves the QER in its slot of the QER table, and what the slot has afterwards is what it had
before with exactly the fields of the request replaced. -/
theorem C36_tables {cfg : NodeCfg} {rm : Option ResourceManager} {p f q u : U32} {n : Node}
    (H : GoodReach (Node.init cfg rm (BpfObjects.load p f q u)) n) {addr : Addr} {r : ModReq} {ord : Orders} (hk : Ev.refsKnown n (.modify addr r ord))
    {sess : Session} {n' : Node} {resp : Resp}
    (hs : n.session? addr r.seid = some sess) (hstep : n.step (.modify addr r ord) = (n', .reply resp)) (hacc : resp.cause = 1)
    {i : U32} {old : SQer} (hold : sess.qers.get? i = some old) {l1 l2 : List QerIE} {ie : QerIE}
    (hu : r.updateQer = l1 ++ ie :: l2) (hi : ie.qerId = some i) (h1 : ∀ x ∈ l1, x.qerId ≠ some i) (h2 : ∀ x ∈ l2, x.qerId ≠ some i)
    (hc : ∀ x ∈ r.createQer, x.qerId ≠ some i) (hr : some i ∉ r.removeQer) :
    ∃ k k', n.dp.qer.lookup old.gid = some k ∧ n'.dp.qer.lookup old.gid = some k' ∧ QerMerged k ie k' := by
  obtain ⟨sess', new, a1, a2, a3, a4⟩ := C36_update hs hstep hacc hold hu hi h1 h2 hc hr
  have H' : GoodReach (Node.init cfg rm (BpfObjects.load p f q u)) n' := by
    have := GoodReach.step _ H hk (by rw [hstep]; intro h; cases h)
    rw [hstep] at this; exact this
  obtain ⟨k, b1, b2, b3, b4, b5, b6⟩ := (C09_agrees_partial H hs i).2 old hold
  obtain ⟨k', c1, c2, c3, c4, c5, c6⟩ := (C09_agrees_partial H' a1 i).2 new a2
  rw [a3] at c1
  refine ⟨k, k', b1, c1, ?_⟩
  constructor
  · rw [c2, b2]; exact a4.gateUL
  · rw [c3, b3]; exact a4.gateDL
  · rw [c4, b4]; exact a4.qfi
  · rw [c5, b5]; exact a4.mbrUL
  · rw [c6, b6]; exact a4.mbrDL

/-- **C37, data plane.** The same of Update FAR and the slot of the FAR table. -/
theorem C37_tables {cfg : NodeCfg} {rm : Option ResourceManager} {p f q u : U32} {n : Node}
    (H : GoodReach (Node.init cfg rm (BpfObjects.load p f q u)) n) {addr : Addr} {r : ModReq} {ord : Orders} (hk : Ev.refsKnown n (.modify addr r ord))
    {sess : Session} {n' : Node} {resp : Resp}
    (hs : n.session? addr r.seid = some sess) (hstep : n.step (.modify addr r ord) = (n', .reply resp)) (hacc : resp.cause = 1)
    {i : U32} {old : SFar} (hold : sess.fars.get? i = some old) {l1 l2 : List FarIE} {ie : FarIE}
    (hu : r.updateFar = l1 ++ ie :: l2) (hi : ie.farId = some i) (h1 : ∀ x ∈ l1, x.farId ≠ some i) (h2 : ∀ x ∈ l2, x.farId ≠ some i)
    (hc : ∀ x ∈ r.createFar, x.farId.getD 0 ≠ i) (hr : ∀ x ∈ r.removeFar, x.getD 0 ≠ i) :
    ∃ k k', n.dp.far.lookup old.gid = some k ∧ n'.dp.far.lookup old.gid = some k' ∧ FarMerged k ie k' := by
  obtain ⟨sess', new, a1, a2, a3, a4⟩ := C37_update hs hstep hacc hold hu hi h1 h2 hc hr
  have H' : GoodReach (Node.init cfg rm (BpfObjects.load p f q u)) n' := by
    have := GoodReach.step _ H hk (by rw [hstep]; intro h; cases h)
    rw [hstep] at this; exact this
  have b := (C09_agrees_partial H hs i).1 old hold
  have c := (C09_agrees_partial H' a1 i).1 new a2
  rw [a3] at c
  exact ⟨_, _, b, c, a4⟩

theorem Demo.nEnd_good : GoodReach Demo.n0 Demo.nEnd := by
  refine goodReach_run Demo.evs .init (by decide +kernel) ?_
  intro e he
  simp only [Demo.evs, List.mem_cons, List.not_mem_nil, or_false] at he
  rcases he with rfl | rfl | rfl | rfl | rfl | rfl <;> trivial

theorem Demo.merge_known : Ev.refsKnown Demo.nEnd (.modify 1 Demo.mergeReq default) := by
  intro sess hs
  have h1 : (Demo.nEnd.session? 1 3).map (fun s => ((s.fars.get? 1).isSome, (s.qers.get? 1).isSome)) = some (true, true) := by decide +kernel
  have h2 : (sess.fars.get? 1).isSome = true ∧ (sess.qers.get? 1).isSome = true := by
    have : Demo.nEnd.session? 1 3 = some sess := hs
    rw [this] at h1; simpa using h1
  refine ⟨?_, ?_, ?_, ?_, ?_, ?_, ?_, ?_, ?_⟩ <;> simp only [Demo.mergeReq, List.not_mem_nil, false_imp_iff, implies_true,
    List.mem_singleton]
  · intro ie hie i hi; subst hie; cases hi; exact Or.inl h2.1
  all_goals first | (intro ie hie i hi; subst hie; cases hi; exact Or.inl h2.2) | simp

theorem Demo.merge_slot : (Demo.nEnd.session? 1 3).bind (fun s => (s.qers.get? 1).map (fun q => (q.gid, Demo.nEnd.dp.qer.lookup q.gid))) =
    some (1, some { qfi := 9 }) := by decide +kernel

/-- C36_tables on the request of the C36 example: the slot of QER 1 has an uplink rate of 2 Mbit/s afterwards, and QFI 9 as before. -/
example : ∃ k', (Demo.nEnd.step (.modify 1 Demo.mergeReq default)).1.dp.qer.lookup 1 = some k' ∧ k'.mbrUL = 2000000 ∧ k'.qfi = 9 := by
  have H := Demo.nEnd_good
  have hk := Demo.merge_known
  have hm := Demo.merge_slot
  have ho : (Demo.nEnd.step (.modify 1 Demo.mergeReq default)).2 = .reply { type := .modification, seid := 101, seq := 6, cause := 1 } := by decide +kernel
  generalize Demo.nEnd = n at H hk hm ho ⊢
  cases hs : n.session? 1 3 with
  | none => rw [hs] at hm; cases hm
  | some sess =>
    rw [hs] at hm
    cases hq : sess.qers.get? 1 with
    | none => simp only [Option.bind_some, hq] at hm; cases hm
    | some q =>
      simp only [Option.bind_some, hq, Option.map_some, Option.some.injEq, Prod.mk.injEq] at hm
      obtain ⟨hg, hl⟩ := hm
      obtain ⟨k, k', h1, h2, h3⟩ := C36_tables H hk (sess := sess) (n' := (n.step (.modify 1 Demo.mergeReq default)).1) hs (Prod.ext rfl ho) rfl hq (l1 := []) (l2 := []) rfl rfl (by simp) (by simp)
        (by intro x hx; cases hx) (by intro hx; cases hx)
      rw [h1] at hl; cases hl
      rw [hg] at h2
      exact ⟨k', h2, by have := h3.mbrUL.1 2000 rfl; exact BitVec.eq_of_toNat_eq this, h3.qfi.2 rfl⟩

end Eupf
