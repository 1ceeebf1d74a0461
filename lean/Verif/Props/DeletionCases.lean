import Verif.Props.PeerLoss
import Verif.Props.NoCrash
/-
Concrete cases for C10, C11, C45: the hypotheses are met by reachable states, and the negations.
-/
namespace Eupf

theorem forall_entries {V : Type} {m : GoMap U32 V} {P : U32 → V → Prop} (h : ∀ e ∈ m.entries, P e.1 e.2) :
    ∀ i x, m.get? i = some x → P i x := fun i x hx => h (i, x) ((m.mem_entries_iff i x).2 hx)

theorem Demo.hist_end : Hist Demo.n0 (Demo.n0.observed Demo.evs) Demo.nEnd := hist_run_init _ (by decide +kernel)

/-- the session of peer 1 in `Demo.nEnd` -/
def Demo.s13 : Session := (Demo.nEnd.session? 1 3).get (by decide +kernel)
theorem Demo.s13_eq : Demo.nEnd.session? 1 3 = some Demo.s13 := by simp [Demo.s13]

/-- Non-vacuity of C10: the deletion of session (1,3) is accepted, the session has PDRs, a FAR, a QER and a URR, and
its TEIDs meet the condition. -/
example : (Demo.nEnd.step (.delete 1 ⟨3, 7⟩ default)).2 =
      .reply { type := .deletion, seid := 101, seq := 7, cause := 1, reports := [⟨1, 1, 0, 0, 0⟩] } ∧
    Demo.s13.pdrs.size = 2 ∧ Demo.s13.fars.size = 1 ∧ Demo.s13.qers.size = 1 ∧ Demo.s13.urrs.size = 1 ∧
    (∀ i p, Demo.s13.pdrs.get? i = some p → ∀ j p', Demo.s13.pdrs.get? j = some p' → p.key = .ul p.teid →
      p'.key = .ul p'.teid → p.teid.truncate 8 = p'.teid.truncate 8 → p.teid = p'.teid) := by
  refine ⟨by decide +kernel, by decide +kernel, by decide +kernel, by decide +kernel, by decide +kernel, ?_⟩
  apply forall_entries (P := fun (_ : U32) (p : SPdr) => ∀ j p', Demo.s13.pdrs.get? j = some p' → p.key = .ul p.teid →
      p'.key = .ul p'.teid → p.teid.truncate 8 = p'.teid.truncate 8 → p.teid = p'.teid)
  intro e he
  apply forall_entries (P := fun (_ : U32) (p' : SPdr) => e.2.key = .ul e.2.teid →
      p'.key = .ul p'.teid → e.2.teid.truncate 8 = p'.teid.truncate 8 → e.2.teid = p'.teid)
  revert e
  decide +kernel

/-- Non-vacuity of C11: the same session meets all hypotheses. -/
example : Demo.nEnd.rm ≠ none ∧
    (∀ i p, Demo.s13.pdrs.get? i = some p → (Demo.nEnd.dp.entry? p.key).isSome) ∧
    (∀ i p j p', Demo.s13.pdrs.get? i = some p → Demo.s13.pdrs.get? j = some p' → i ≠ j → p.key = p'.key → p.key = .ul p.teid) := by
  refine ⟨by decide +kernel, forall_entries (P := fun (_ : U32) (p : SPdr) => (Demo.nEnd.dp.entry? p.key).isSome) (by decide +kernel), ?_⟩
  intro i p j p' h1 h2
  revert j p'
  revert i p
  apply forall_entries (P := fun (i : U32) (p : SPdr) => ∀ j p', Demo.s13.pdrs.get? j = some p' → i ≠ j → p.key = p'.key → p.key = .ul p.teid)
  intro e he
  apply forall_entries (P := fun (j : U32) (p' : SPdr) => e.1 ≠ j → e.2.key = p'.key → e.2.key = .ul e.2.teid)
  revert e
  decide +kernel

/-- uplink PDRs with the TEIDs 1 and 257 -/
def Demo.estAlias : EstReq :=
  { seq := 5, nodeId := some (some ()), cpFseid := some (some 100), createFar := [Demo.fwd],
    createPdr := [{ pdrId := some 1, farId := some 1, pdi := some { fteid := some (some ⟨1, false, none⟩) } },
                  { pdrId := some 2, farId := some 1, pdi := some { fteid := some (some ⟨257, false, none⟩) } }] }
def Demo.evsAlias : List Ev :=
  [.assocSetup 1 1 (some (some ())) (some (some ())), .establish 1 Demo.estAlias]

/-- **C10, negation without the restriction.** A session with uplink TEIDs 1 and 257 is deleted, the deletion is
accepted, but uplink packets with one of the TEIDs still select a PDR: whatever the iteration order of the two
(witness for both orders). -/
theorem C10_stale_pdr : ∃ h n, Hist Demo.n0 h n ∧ (n.session? 1 2).isSome ∧ ∀ ord ∈ [(default : Orders), { pdrs := Shuffle.rev }],
    ∃ n' resp, n.step (.delete 1 ⟨2, 9⟩ ord) = (n', .reply resp) ∧ resp.cause = 1 ∧ n'.session? 1 2 = none ∧
      ((n'.dp.entry? (.ul 1)).isSome ∨ (n'.dp.entry? (.ul 257)).isSome) := by
  refine ⟨Demo.n0.observed Demo.evsAlias, (Demo.n0.run Demo.evsAlias).1, hist_run_init _ (by decide +kernel), by decide +kernel, ?_⟩
  intro ord ho
  refine ⟨((Demo.n0.run Demo.evsAlias).1.step (.delete 1 ⟨2, 9⟩ ord)).1, { type := .deletion, seid := 100, seq := 9, cause := 1 }, ?_, rfl, ?_, ?_⟩
  · have : ((Demo.n0.run Demo.evsAlias).1.step (.delete 1 ⟨2, 9⟩ ord)).2 = .reply { type := .deletion, seid := 100, seq := 9, cause := 1 } := by
      simp only [List.mem_cons, List.not_mem_nil, or_false] at ho
      rcases ho with rfl | rfl <;> decide +kernel
    rw [← this]
  · simp only [List.mem_cons, List.not_mem_nil, or_false] at ho
    rcases ho with rfl | rfl <;> decide +kernel
  · simp only [List.mem_cons, List.not_mem_nil, or_false] at ho
    rcases ho with rfl | rfl <;> decide +kernel

/-- two downlink PDRs (say with different SDF filters) for the same UE address -/
def Demo.estSameIp : EstReq :=
  { seq := 5, nodeId := some (some ()), cpFseid := some (some 100), createFar := [Demo.fwd],
    createPdr := [{ pdrId := some 1, farId := some 1, pdi := some { ueip := some (some { ipv4 := some 0x0a2d0063 }) } },
                  { pdrId := some 2, farId := some 1, sdf := some "permit out ip from any to assigned".toList,
                    pdi := some { ueip := some (some { ipv4 := some 0x0a2d0063 }) } }] }
def Demo.evsSameIp : List Ev := [.assocSetup 1 1 (some (some ())) (some (some ())), .establish 1 Demo.estSameIp]

/-- The hypotheses of `C11_undeletable` are met by a reachable state: the establishment is accepted. -/
example : ∃ h n sess x y, Hist Demo.n0 h n ∧ n.session? 1 2 = some sess ∧ sess.pdrs.get? 1 = some x ∧ sess.pdrs.get? 2 = some y ∧
    x.key = y.key ∧ ∀ t, x.key ≠ .ul t := by
  let n := (Demo.n0.run Demo.evsSameIp).1
  let sess := (n.session? 1 2).get (by decide +kernel)
  refine ⟨Demo.n0.observed Demo.evsSameIp, n, sess, (sess.pdrs.get? 1).get (by decide +kernel), (sess.pdrs.get? 2).get (by decide +kernel),
    hist_run_init _ (by decide +kernel), by simp [sess], by simp, by simp, by decide +kernel, ?_⟩
  intro t
  have : ((sess.pdrs.get? 1).get (by decide +kernel)).key = .dl4 0x0a2d0063 := by decide +kernel
  rw [this]; exact PdrKey.noConfusion

/-- Non-vacuity of C45: losing peer 1, which has a session, in the demo state. -/
example : (Demo.nEnd.assocs.get? 1).isSome ∧ (Demo.nEnd.step (.peerLost 1 default)).2 = .silent ∧
    (Demo.nEnd.session? 1 3).isSome := by decide +kernel

/-- **C45, leak.** The URR slot and the UE address of a session lost with its peer are not returned: afterwards no
session exists, yet the URR slot is still taken and the address is not in the pool. -/
theorem C45_leaks : ∃ h n, Hist Demo.n0 h n ∧ n.sessionCount = 0 ∧ n.dp.urrIds.free 0 = false ∧
    (∃ r, n.rm = some r ∧ 0x0a2d0001 ∉ r.ipam.freeIPs) := by
  let evs : List Ev := [.assocSetup 1 1 (some (some ())) (some (some ())), .establish 1 (Demo.est 100), .peerLost 1 default]
  let n := (Demo.n0.run evs).1
  refine ⟨Demo.n0.observed evs, n, hist_run_init _ (by decide +kernel), by decide +kernel, by decide +kernel,
    n.rm.get (by decide +kernel), by simp, by decide +kernel⟩

end Eupf
