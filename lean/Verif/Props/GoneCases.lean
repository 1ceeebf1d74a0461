import Verif.Props.Gone
import Verif.Props.DeletionCases
import Verif.Xdp.DemoDp
/-
C97: concrete cases.
-/
namespace Eupf

/-- the keys of a session's PDRs -/
theorem session_keys {n : Node} {a : Addr} {s : U64} {l : List (U32 × PdrKey)}
    (h : (n.session? a s).map (fun x => x.pdrs.entries.map fun q => (q.1, q.2.key)) = some l) :
    ∃ x, n.session? a s = some x ∧ (∀ i p, x.pdrs.get? i = some p → (i, p.key) ∈ l) ∧ ∀ i k, (i, k) ∈ l → ∃ p, x.pdrs.get? i = some p ∧ p.key = k := by
  obtain ⟨x, hx, rfl⟩ := Option.map_eq_some_iff.1 h
  refine ⟨x, hx, fun i p hp => List.mem_map.2 ⟨(i, p), (GoMap.mem_entries_iff _ _ _).2 hp, rfl⟩, ?_⟩
  intro i k hk
  obtain ⟨⟨i', p⟩, h1, h2⟩ := List.mem_map.1 hk
  cases h2
  exact ⟨p, (GoMap.mem_entries_iff _ _ _).1 h1, rfl⟩

/-! ### the hypotheses of C97 -/

/-- the node with the service session after that session is deleted, and after a second session is set up by the other peer -/
def Demo.nGone : Node := (Demo.nSvc.step (.delete 1 ⟨2, 9⟩ default)).1
def Demo.nGone2 : Node := (Demo.nGone.step (.establish 2 (Demo.est 200))).1

theorem Demo.gone_step : Demo.nSvc.step (.delete 1 ⟨2, 9⟩ default) = (Demo.nGone, .reply { type := .deletion, seid := 100, seq := 9, cause := 1 }) := by
  have : (Demo.nSvc.step (.delete 1 ⟨2, 9⟩ default)).2 = .reply { type := .deletion, seid := 100, seq := 9, cause := 1 } := by decide +kernel
  exact Prod.ext (by simp only [Demo.nGone]) this

theorem Demo.est_names : ¬ (Ev.establish 2 (Demo.est 200)).names (.ul 0x100) := by
  rintro ⟨ie, hie, h⟩
  simp only [Demo.est, List.mem_cons, List.not_mem_nil, or_false] at hie
  obtain ⟨pdi, f, a1, a2, a3, -⟩ := h
  rcases hie with rfl | rfl
  · cases a1; cases a2; cases a3
  · cases a1; cases a2

theorem Demo.svc_keys : (Demo.nSvc.session? 1 2).map (fun x => x.pdrs.entries.map fun q => (q.1, q.2.key)) =
    some [(2, .dl4 0x0A3C0001), (1, .ul 0x100)] := by decide +kernel

/-- C97_deleted_partial on a session with an uplink and a downlink PDR; a later establishment lets the UPF choose a TEID. -/
example (e : Env) (s : PS) (hdp : s.dp = Demo.nGone2.dp) (hf : FrameFor e s.frame (.ul 0x100)) :
    ∃ s', runPacket e s = (s', .ok .pass) ∧ s'.frame = s.frame ∧ s'.dp = s.dp := by
  obtain ⟨x, hx, h1, h2⟩ := session_keys Demo.svc_keys
  obtain ⟨p, hp, hk⟩ := h2 1 (.ul 0x100) (by simp)
  have H : HistP (Untouched (.ul 0x100)) Demo.nGone _ Demo.nGone2 := HistP.step (.establish 2 (Demo.est 200)) .init
    ⟨Demo.est_names, fun _ => by show ¬ (0x100 : U32) ∈ freeTeids Demo.nGone.rm; decide +kernel⟩ (by decide +kernel)
  rw [← hk] at H hf
  refine C97_deleted_partial (r := ⟨2, 9⟩) hx hp (by rw [hk]; decide) ?_ ?_ Demo.gone_step rfl H e s hdp hf
  · intro t ht i q t' hq hk' _
    have := h1 i q hq
    rw [hk'] at this
    rw [hk] at ht; cases ht
    simp at this; exact this.2
  · rw [hk]
    exact establish_usedElsewhere Demo.svc_step rfl (Demo.two_unused _)

/-- PDR 1 of the service session is removed. -/
def Demo.rem : ModReq := { seid := 2, seq := 8, removePdr := [some 1] }
def Demo.nRem : Node := (Demo.nSvc.step (.modify 1 Demo.rem default)).1
theorem Demo.rem_step : Demo.nSvc.step (.modify 1 Demo.rem default) = (Demo.nRem, .reply { type := .modification, seid := 100, seq := 8, cause := 1 }) := by
  have : (Demo.nSvc.step (.modify 1 Demo.rem default)).2 = .reply { type := .modification, seid := 100, seq := 8, cause := 1 } := by decide +kernel
  exact Prod.ext (by simp only [Demo.nRem]) this

/-- C97_removed_partial -/
example (e : Env) (s : PS) (hdp : s.dp = Demo.nRem.dp) (hf : FrameFor e s.frame (.ul 0x100)) :
    ∃ s', runPacket e s = (s', .ok .pass) ∧ s'.frame = s.frame ∧ s'.dp = s.dp := by
  obtain ⟨x, hx, h1, h2⟩ := session_keys Demo.svc_keys
  obtain ⟨p, hp, hk⟩ := h2 1 (.ul 0x100) (by simp)
  rw [← hk] at hf
  refine C97_removed_partial (r := Demo.rem) (id := 1) hx rfl rfl (by simp [Demo.rem]) hp (by rw [hk]; decide) ?_ ?_ ?_ Demo.rem_step rfl .init e s hdp hf
  · intro t ht i q t' hq hk' _
    have := h1 i q hq
    rw [hk'] at this
    rw [hk] at ht; cases ht
    simp at this; exact this.2
  · intro j q hj hq hkq
    have := h1 j q hq
    rw [hkq, hk] at this
    exact hj (by simpa using this)
  · rw [hk]
    exact establish_usedElsewhere Demo.svc_step rfl (Demo.two_unused _)

/-- C97_peer_lost_partial -/
def Demo.nLost : Node := (Demo.nSvc.step (.peerLost 1 default)).1
example (e : Env) (s : PS) (hdp : s.dp = Demo.nLost.dp) (hf : FrameFor e s.frame (.ul 0x100)) :
    ∃ s', runPacket e s = (s', .ok .pass) ∧ s'.frame = s.frame ∧ s'.dp = s.dp := by
  obtain ⟨x, hx, h1, h2⟩ := session_keys Demo.svc_keys
  obtain ⟨p, hp, hk⟩ := h2 1 (.ul 0x100) (by simp)
  rw [← hk] at hf
  obtain ⟨h, H, -⟩ := Demo.two_hist
  have H2 := HistP.snoc H (by trivial : (Ev.establish 1 Demo.svc).refsKnown Demo.nSvc0) Demo.svc_step
  have H3 := HistP.hist H2
  have H4 : HistP (Untouched p.key) (Demo.nSvc.step (.peerLost 1 default)).1 [] Demo.nLost := by unfold Demo.nLost; exact .init
  have hno : (Demo.nSvc.step (.peerLost 1 default)).2 ≠ .crash := by decide +kernel
  generalize Demo.nLost = nl at H4 hdp
  refine C97_peer_lost_partial (fz := 4) (qz := 4) (uz := 4) (by decide) (by decide) (by decide) H3 hx hp (by rw [hk]; decide) ?_ ?_ hno H4 e s hdp hf
  · intro i p hp t ht j q t' hq hk' _
    have e1 := h1 i p hp
    have e2 := h1 j q hq
    rw [hk'] at e2; rw [ht] at e1
    simp at e1 e2
    rw [e1.2, e2.2]
  · intro a' s' y j q ha hy hq hkq
    rw [hk] at hkq
    exact establish_usedElsewhere Demo.svc_step rfl (Demo.two_unused _) ⟨a', s', y, j, q, fun h => ha (congrArg Prod.fst h), hy, hq, hkq⟩

/-! ### negations -/

/-- **C97, negation without the restriction on low octets.** A session with the TEIDs 1 and 257 is deleted, the deletion is accepted and the
session is gone; then the same peer establishes another session without any PDR. A G-PDU with the TEID 1 is now forwarded: with the FAR of
the other session. -/
def Demo.al : Node := (Demo.n0.run Demo.evsAlias).1
def Demo.alDel : Node := (Demo.al.step (.delete 1 ⟨2, 9⟩ default)).1
def Demo.alOther : EstReq := { seq := 5, nodeId := some (some ()), cpFseid := some (some 101), createFar := [Demo.fwd] }
def Demo.alEnd : Node := (Demo.alDel.step (.establish 1 Demo.alOther)).1
def Demo.alUp : List U8 := DemoDp.gpdu [0, 0, 0, 1] DemoDp.ueUp

theorem Demo.al_packet0 : (runPacket DemoDp.env ⟨Demo.alUp, Demo.alDel.dp, {}, {}⟩).2 = .ok .drop := by decide +kernel
theorem Demo.al_packet : (runPacket DemoDp.env ⟨Demo.alUp, Demo.alEnd.dp, {}, {}⟩).2 = .ok (.redirect 7) := by decide +kernel
theorem Demo.al_keys : (Demo.alEnd.session? 1 3).map (fun x => x.pdrs.entries.map fun q => (q.1, q.2.key)) = some [] := by decide +kernel

theorem C97_deleted_carried :
    FrameFor DemoDp.env Demo.alUp (.ul 1) ∧
    (Demo.al.session? 1 2).isSome ∧ (Demo.al.step (.delete 1 ⟨2, 9⟩ default)).2 = .reply { type := .deletion, seid := 100, seq := 9, cause := 1 } ∧
    Demo.alEnd.session? 1 2 = none ∧ (∃ x, Demo.alEnd.session? 1 3 = some x ∧ ∀ i, x.pdrs.get? i = none) ∧
    (runPacket DemoDp.env ⟨Demo.alUp, Demo.alDel.dp, {}, {}⟩).2 = .ok .drop ∧
    (runPacket DemoDp.env ⟨Demo.alUp, Demo.alEnd.dp, {}, {}⟩).2 = .ok (.redirect 7) := by
  refine ⟨⟨⟨⟨⟨by decide, by decide⟩, by decide, by decide, by decide, by decide⟩, by decide, by decide⟩, by decide⟩, by decide +kernel, by decide +kernel,
    by decide +kernel, ?_, Demo.al_packet0, Demo.al_packet⟩
  obtain ⟨x, hx, h1, -⟩ := session_keys Demo.al_keys
  refine ⟨x, hx, fun i => ?_⟩
  cases h : x.pdrs.get? i with
  | none => rfl
  | some p => exact absurd (h1 i p h) (by simp)

/-- The modification removes PDR 1 and creates PDR 3, whose TEID is to be chosen with CHOOSE ID 0. -/
def Demo.remSkip : ModReq :=
  { seid := 2, seq := 8, createPdr := [{ pdrId := some 3, farId := some 1, pdi := some { fteid := some (some ⟨0, true, some 0⟩) } }], removePdr := [some 1] }
def Demo.nSkip : Node := (Demo.nSvc.step (.modify 1 Demo.remSkip default)).1
theorem Demo.skip_packet : (runPacket DemoDp.env ⟨DemoDp.up, Demo.nSkip.dp, {}, {}⟩).2 = .ok (.redirect 7) := by decide +kernel
theorem Demo.skip_keys : (Demo.nSkip.session? 1 2).map (fun x => x.pdrs.entries.map fun q => (q.1, q.2.key)) =
    some [(3, .ul 1), (2, .dl4 0x0A3C0001)] := by decide +kernel

/-- **C97, negation without the restriction on modifications**, in packets: PDR 1 (TEID 0x100) is removed by an accepted modification and no
PDR with its TEID is left, yet G-PDUs with the TEID are still forwarded. -/
theorem C97_removed_carried :
    FrameFor DemoDp.env DemoDp.up (.ul 0x100) ∧
    (Demo.nSvc.step (.modify 1 Demo.remSkip default)).2 =
      .reply { type := .modification, seid := 100, seq := 8, cause := 1, created := [.fteid 3 1 0x0a000001] } ∧
    (∃ x, Demo.nSkip.session? 1 2 = some x ∧ x.pdrs.get? 1 = none ∧ ∀ i p, x.pdrs.get? i = some p → p.key ≠ .ul 0x100) ∧
    (runPacket DemoDp.env ⟨DemoDp.up, Demo.nSkip.dp, {}, {}⟩).2 = .ok (.redirect 7) := by
  refine ⟨⟨DemoDp.up_gpdu, by decide⟩, by decide +kernel, ?_, Demo.skip_packet⟩
  obtain ⟨x, hx, h1, -⟩ := session_keys Demo.skip_keys
  refine ⟨x, hx, ?_, ?_⟩
  · cases h : x.pdrs.get? 1 with
    | none => rfl
    | some p => exact absurd (h1 1 p h) (by simp)
  · intro i p hp hk
    have := h1 i p hp
    rw [hk] at this
    simp at this

/-- C97_removal_skipped -/
example : (Demo.nSkip.dp.entry? (.ul 0x100)).isSome := by
  have hstep : Demo.nSvc.step (.modify 1 Demo.remSkip default) =
      (Demo.nSkip, .reply { type := .modification, seid := 100, seq := 8, cause := 1, created := [.fteid 3 1 0x0a000001] }) :=
    Prod.ext (by simp only [Demo.nSkip]) C97_removed_carried.2.1
  obtain ⟨x, hx, -⟩ := session_keys Demo.svc_keys
  exact C97_removal_skipped (r := Demo.remSkip) hx (by decide +kernel) (List.mem_singleton.2 rfl) rfl hstep rfl

end Eupf
