import Verif.Props.Billing
import Verif.Props.TimersCases
import Verif.BillingLost
/-
Cases for C117.
-/
namespace Eupf

/-- Peer 2 establishes a session that has nothing but a URR, 7. -/
def Demo.only117 : EstReq :=
  { seq := 7, nodeId := some (some ()), cpFseid := some (some 200), createUrr := [some 7] }
/-- Peer 1 establishes the service, with a URR, 1, that the uplink PDR names. -/
def Demo.svc117 : EstReq :=
  { Demo.svc with createUrr := [some 1], createPdr := [{ Demo.svc.createPdr[0] with urrIds := some [1] }, Demo.svc.createPdr[1]] }
def Demo.nBill1 : Node := (Demo.nSvc0.step (.establish 2 Demo.only117)).1
def Demo.nBill2 : Node := (Demo.nBill1.step (.establish 1 Demo.svc117)).1
/-- one uplink frame -/
def Demo.nBill3 : Node := { Demo.nBill2 with dp := (runPacket DemoDp.env ⟨DemoDp.up, Demo.nBill2.dp, {}, {}⟩).1.dp }
def Demo.nBill4 : Node := (Demo.nBill3.step (.delete 2 ⟨2, 9⟩ default)).1
def Demo.nBill5 : Node := (Demo.nBill4.step (.delete 1 ⟨2, 10⟩ default)).1

def Demo.onlyResp : Resp := { type := .establishment, seid := 200, seq := 7, cause := 1, fseid := some 2 }
/-- what peer 2 is told when its session ends: 164 octets in URR 7 -/
def Demo.only117End : Resp := { type := .deletion, seid := 200, seq := 9, cause := 1, reports := [⟨7, 1, 164, 164, 0⟩] }
/-- what peer 1 is told when its session ends: nothing in URR 1 -/
def Demo.svc117End : Resp := { type := .deletion, seid := 100, seq := 10, cause := 1, reports := [⟨1, 1, 0, 0, 0⟩] }

theorem Demo.bill_step1 : Demo.nSvc0.step (.establish 2 Demo.only117) = (Demo.nBill1, .reply Demo.onlyResp) := by
  have : (Demo.nSvc0.step (.establish 2 Demo.only117)).2 = .reply Demo.onlyResp := by decide +kernel
  exact Prod.ext (by simp only [Demo.nBill1]) this
theorem Demo.bill_step2 : Demo.nBill1.step (.establish 1 Demo.svc117) = (Demo.nBill2, .reply Demo.svcResp) := by
  have : (Demo.nBill1.step (.establish 1 Demo.svc117)).2 = .reply Demo.svcResp := by decide +kernel
  exact Prod.ext (by simp only [Demo.nBill2]) this
theorem Demo.bill_sent : (runPacket DemoDp.env ⟨DemoDp.up, Demo.nBill2.dp, {}, {}⟩).2 = .ok (.redirect 7) := by decide +kernel
theorem Demo.bill_step4 : Demo.nBill3.step (.delete 2 ⟨2, 9⟩ default) = (Demo.nBill4, .reply Demo.only117End) := by
  have : (Demo.nBill3.step (.delete 2 ⟨2, 9⟩ default)).2 = .reply Demo.only117End := by decide +kernel
  exact Prod.ext (by simp only [Demo.nBill4]) this
theorem Demo.bill_step5 : Demo.nBill4.step (.delete 1 ⟨2, 10⟩ default) = (Demo.nBill5, .reply Demo.svc117End) := by
  have : (Demo.nBill4.step (.delete 1 ⟨2, 10⟩ default)).2 = .reply Demo.svc117End := by decide +kernel
  exact Prod.ext (by simp only [Demo.nBill5]) this

theorem Demo.two_line : ∃ h, Timeline Knows [] Demo.n0 h [] Demo.nSvc0 ∧ attempts h = 0 := by
  have s1 := Timeline.request (P := Knows) (n0 := Demo.n0) (h0 := []) (.assocSetup 1 1 (some (some ())) (some (some ()))) .start trivial (by decide +kernel)
  have s2 := Timeline.request (.assocSetup 2 1 (some (some ())) (some (some ()))) s1 trivial (by decide +kernel)
  exact ⟨_, s2, by simp [attempts]⟩

/-- the two requests of the history that matter, latest first -/
abbrev Demo.billed : List (Ev × Outcome) := [(.establish 1 Demo.svc117, .reply Demo.svcResp), (.establish 2 Demo.only117, .reply Demo.onlyResp)]

/-- one frame, sent on: `Demo.up` of 82 octets to TEID 0x100 -/
theorem Demo.bill_line (n2 : Node) (hn2 : n2 = Demo.nBill2) (n3 : Node) (hn3 : n3 = Demo.nBill3) :
    ∃ h, Timeline Knows [] Demo.n0 (Demo.billed ++ h) [] n2 ∧ attempts (Demo.billed ++ h) = 2 ∧
      Timeline Knows (Demo.billed ++ h) n2 [] [⟨Demo.billed ++ h, DemoDp.env, DemoDp.up, .redirect 7⟩] n3 ∧
      Timeline Knows [] Demo.n0 (Demo.billed ++ h) [⟨Demo.billed ++ h ++ [], DemoDp.env, DemoDp.up, .redirect 7⟩] n3 := by
  obtain ⟨h, T, hb⟩ := Demo.two_line
  have T1 := Demo.line_step T (by trivial) Demo.bill_step1 (by intro h; cases h)
  have T2 := Demo.line_step T1 (by trivial) Demo.bill_step2 (by intro h; cases h)
  have p := Demo.bill_sent
  have e3 : n3 = { n2 with dp := (runPacket DemoDp.env ⟨DemoDp.up, n2.dp, {}, {}⟩).1.dp } := by rw [hn3, hn2]; rfl
  rw [← hn2] at T2 p
  refine ⟨h, T2, by show attempts h + 1 + 1 = 2; rw [hb], ?_⟩
  clear hn2 hn3 T1 T hb
  have T3 : Timeline Knows [] Demo.n0 (Demo.billed ++ h) [] n2 := T2
  clear T2
  generalize Demo.billed ++ h = hh at *
  rw [e3]
  exact ⟨Timeline.packet .start (Prod.ext rfl p), Timeline.packet T3 (Prod.ext rfl p)⟩

/-- **C117 fails in general.** A usage report does not say what the URR's own traffic is: peer 1's service has URR 1, and its uplink PDR, which
names URR 1, passes one frame of 82 octets. Then peer 2, whose session has no PDR at all, is told of 164 octets in its URR 7; and peer 1 is told
of none in URR 1. -/
theorem C117_others_traffic : ∃ h n n' n'' p, Timeline Knows [] Demo.n0 (Demo.billed ++ h) [p] n ∧
    p.act.sent = true ∧ FrameFor p.env p.frame (.ul 0x100) ∧ p.frame.length = 82 ∧ p.hist = Demo.billed ++ h ∧
    n.step (.delete 2 ⟨2, 9⟩ default) = (n', .reply Demo.only117End) ∧ n'.step (.delete 1 ⟨2, 10⟩ default) = (n'', .reply Demo.svc117End) ∧
    Demo.only117.createPdr = [] ∧ (Demo.svc117.createPdr.map fun ie => ie.urrIds) = [some [1], none] := by
  have b4 := Demo.bill_step4
  have b5 := Demo.bill_step5
  have L := Demo.bill_line Demo.nBill2 rfl Demo.nBill3 rfl
  generalize Demo.nBill2 = n2 at L
  generalize Demo.nBill3 = n3 at L b4
  generalize Demo.nBill4 = n4 at b4 b5
  generalize Demo.nBill5 = n5 at b5
  obtain ⟨h, -, -, -, T⟩ := L
  exact ⟨h, n3, n4, n5, _, T, rfl, ⟨DemoDp.up_gpdu, (by show gtpTeid DemoDp.up = 256; decide)⟩, (by show DemoDp.up.length = 82; decide), List.append_nil _, b4, b5, rfl, rfl⟩

/-- the URRs' counters before and after the frame -/
theorem Demo.bill_urrs : Demo.nBill2.urrOf 2 2 7 = some {} ∧ Demo.nBill2.urrOf 1 2 1 = some {} ∧ Demo.nBill3.urrOf 2 2 7 = some ⟨164, 0⟩ ∧ Demo.nBill3.urrOf 1 2 1 = some {} := by
  decide +kernel

/-- C117_one_of_two_partial, C117_deletion and C117_nothing_or_everything_partial on it. -/
example : ∃ n n' : Node, ∃ v w : UrrInfo, v ≠ w ∧ n.urrOf 2 2 7 = some {} ∧ n.urrOf 1 2 1 = some {} ∧ n'.urrOf 2 2 7 = some v ∧ n'.urrOf 1 2 1 = some w ∧ (v = {} ∨ w = {}) ∧
    usageReport 7 v ∈ Demo.only117End.reports := by
  have b4 := Demo.bill_step4
  have L := Demo.bill_line Demo.nBill2 rfl Demo.nBill3 rfl
  have u := Demo.bill_urrs
  generalize Demo.nBill2 = n2 at L u
  generalize Demo.nBill3 = n3 at L b4 u
  generalize Demo.nBill4 = n4 at b4
  obtain ⟨h, T2, hb, T, T3⟩ := L
  obtain ⟨u1, u2, u3, u4⟩ := u
  refine ⟨n2, n3, _, _, (by decide), u1, u2, u3, u4, C117_one_of_two_partial T3 u3 u4 (by decide), C117_deletion (fz := 4) (qz := 4) (uz := 4) (by decide) (by decide) (by decide) T3 u3 b4 rfl⟩

example : ∃ n n' : Node, ∃ w, n.urrOf 2 2 7 = some {} ∧ n'.urrOf 2 2 7 = some w ∧ w ≠ {} ∧ (w = {} ∨ 2 * 82 ≤ w.ul.toNat ∧ w.ul.toNat ≤ 2 * 82 ∧ w.dl = 0) := by
  have L := Demo.bill_line Demo.nBill2 rfl Demo.nBill3 rfl
  have u := Demo.bill_urrs
  generalize Demo.nBill2 = n2 at L u
  generalize Demo.nBill3 = n3 at L u
  obtain ⟨h, T2, hb, T, T3⟩ := L
  obtain ⟨u1, u2, u3, u4⟩ := u
  have hl : octets (fun _ => True) [⟨Demo.billed ++ h, DemoDp.env, DemoDp.up, XAction.redirect 7⟩] = 82 := by
    rw [octets_all]; show DemoDp.up.length + 0 = 82; decide
  have hu : octets Passed.up [⟨Demo.billed ++ h, DemoDp.env, DemoDp.up, XAction.redirect 7⟩] = 82 := by
    rw [(octets_cons Passed.up ⟨Demo.billed ++ h, DemoDp.env, DemoDp.up, XAction.redirect 7⟩ []).1 ⟨DemoDp.up_gpdu, rfl⟩]; show DemoDp.up.length + 0 = 82; decide
  generalize DemoDp.env = env at T hl hu
  generalize DemoDp.up = up at T hl hu
  obtain ⟨w, h1, h2⟩ := C117_nothing_or_everything_partial (cfg := Demo.cfg) (rm := some Demo.rm) (pz := 8) (fz := 4) (qz := 4) (uz := 4) (by decide) (by decide) (by decide) T2 T
    (a := 2) (s := 2) (i := 7) (v := {}) (by show attempts (Demo.billed ++ h) < _; rw [hb]; decide) (by intro x hx; cases hx) u1
    (by rw [hl]; decide) (by rw [hl]; decide)
  rw [hl, hu] at h2
  rw [u3] at h1
  cases h1
  exact ⟨n2, n3, _, u1, u3, by decide, h2.imp (fun h => h.2) (fun h => ⟨by simp, by simp, rfl⟩)⟩

/-! ### after the loss of a peer -/

theorem fresh_addr (l : List Ev) : ∃ A : Addr, ∀ e ∈ l, ∀ B, A ≤ B → e.from ≠ B := by
  induction l with
  | nil => exact ⟨0, fun e he => (by cases he)⟩
  | cons x l ih =>
    obtain ⟨A, hA⟩ := ih
    refine ⟨A + (x.from + 1), fun e he B hB => ?_⟩
    rcases List.mem_cons.1 he with rfl | he
    · intro h
      rw [← h] at hB
      exact absurd (Nat.le_trans (Nat.le_add_left (e.from + 1) A) hB) (Nat.not_succ_le_self _)
    · exact hA e he B (Nat.le_trans (Nat.le_add_right A _) hB)

/-- **C117 (e), silence.** If a peer is lost while a URR of one of its sessions has counted something, then, whatever packets and requests of
whatever peers come after it, no usage report ever says anything again. -/
theorem C117_silence {cfg : NodeCfg} {rm : Option ResourceManager} {pz fz qz uz : U32} {h0 h1 h : List (Ev × Outcome)} {l0 l : List Passed} {n0 n1 n : Node}
    (T0 : Timeline Knows [] (Node.init cfg rm (BpfObjects.load pz fz qz uz)) h0 l0 n0) {a : Addr} {s : U64} {i : U32} {v : UrrInfo}
    (hv : n0.urrOf a s i = some v) (hne : v ≠ {}) {ord : Orders} {o : Outcome} (hl : n0.step (.peerLost a ord) = (n1, o)) (ho : o ≠ .crash)
    (T : Timeline Knows h1 n1 h l n) {e : Ev} (hk : Knows n e) {resp : Resp} (hr : (n.step e).2 = .reply resp) :
    ∀ r ∈ resp.reports, r.total = 0 ∧ r.ul = 0 ∧ r.dl = 0 := by
  obtain ⟨x, u, hx, hu, -, rfl⟩ := urrOf_cases hv
  have B0 := BillNode.line T0 (.init ..)
  have h0 : u.gid = 0 := Classical.byContradiction fun h => hne (B0.bill.2 _ h)
  have G : GoodReach (Node.init cfg rm (BpfObjects.load pz fz qz uz)) n0 := (T0.hist (ni := Node.init cfg rm (BpfObjects.load pz fz qz uz)) .init).good fun _ _ h => h
  obtain ⟨A, hA⟩ := fresh_addr (e :: h.map Prod.fst)
  have S1 : Slots (n1.view.plus A { Session.new 0 0 with urrs := x.urrs }) n1.dp := by
    have := lost_plus (ord := ord) (slots_reach G) hx (by rw [hl]; exact ho) A
    rwa [hl] at this
  have B1 : BillNode n1 := by have := B0.step (.peerLost a ord); rwa [hl] at this
  have S : Slots (n.view.plus A { Session.new 0 0 with urrs := x.urrs }) n.dp := by
    have hA' : ∀ y ∈ h, y.1.from ≠ A := fun y hy => hA y.1 (.tail _ (List.mem_map_of_mem hy)) A (Nat.le_refl A)
    clear hk hr hA
    induction T with
    | start => exact S1
    | packet _ hrun ih => exact slots_traffic_plus (ih hA') (packetRes_effect (entry_det hrun))
    | request e _ hp hcr ih => exact slots_step_plus e (ih fun y hy => hA' y (.tail _ hy)) (hA' _ (.head _)) hp hcr
  have q := quiet_reports (B1.line T) S (i := i) (u := u) hu h0 (hA e (.head _) A (Nat.le_refl A)) hk hr
  intro r hm
  have : r.nonzero = false := by
    cases hb : r.nonzero with
    | false => rfl
    | true =>
      have : r ∈ resp.reports.filter UsageReport.nonzero := List.mem_filter.2 ⟨hm, hb⟩
      rw [q] at this; cases this
  simp only [UsageReport.nonzero, Bool.or_eq_false_iff, bne_eq_false_iff_eq] at this
  exact ⟨this.1.1, this.1.2, this.2⟩

/-- Peer 2 is lost after the frame; then peer 1's service passes another frame, and its report says nothing. -/
def Demo.nLost1 : Node := (Demo.nBill3.step (.peerLost 2 default)).1
def Demo.nLost2 : Node := { Demo.nLost1 with dp := (runPacket DemoDp.env ⟨DemoDp.up, Demo.nLost1.dp, {}, {}⟩).1.dp }
theorem Demo.lost_step : Demo.nBill3.step (.peerLost 2 default) = (Demo.nLost1, .silent) := by
  have : (Demo.nBill3.step (.peerLost 2 default)).2 = .silent := by decide +kernel
  exact Prod.ext (by simp only [Demo.nLost1]) this
theorem Demo.lost_sent : (runPacket DemoDp.env ⟨DemoDp.up, Demo.nLost1.dp, {}, {}⟩).2 = .ok (.redirect 7) := by decide +kernel
theorem Demo.lost_end : (Demo.nLost2.step (.delete 1 ⟨2, 10⟩ default)).2 = .reply Demo.svc117End := by decide +kernel

example : ∃ h n0 n1 n p, Timeline Knows [] Demo.n0 h [p] n0 ∧ n0.urrOf 2 2 7 = some ⟨164, 0⟩ ∧ n0.step (.peerLost 2 default) = (n1, .silent) ∧
    Timeline Knows [] n1 [] [⟨[], DemoDp.env, DemoDp.up, .redirect 7⟩] n ∧ (n.step (.delete 1 ⟨2, 10⟩ default)).2 = .reply Demo.svc117End ∧
    ∀ r ∈ Demo.svc117End.reports, r.total = 0 ∧ r.ul = 0 ∧ r.dl = 0 := by
  have p := Demo.lost_sent
  have b4 := Demo.lost_step
  have b5 := Demo.lost_end
  have L := Demo.bill_line Demo.nBill2 rfl Demo.nBill3 rfl
  have u := Demo.bill_urrs.2.2.1
  have e2 : Demo.nLost2 = { Demo.nLost1 with dp := (runPacket DemoDp.env ⟨DemoDp.up, Demo.nLost1.dp, {}, {}⟩).1.dp } := rfl
  generalize Demo.nLost2 = m2 at e2 b5
  generalize Demo.nLost1 = m1 at b4 p e2
  generalize Demo.nBill2 = n2 at L
  generalize Demo.nBill3 = n3 at L b4 u
  obtain ⟨h, -, -, -, T0⟩ := L
  have T : Timeline Knows [] m1 [] [⟨[], DemoDp.env, DemoDp.up, .redirect 7⟩] m2 := by
    rw [e2]; exact Timeline.packet .start (Prod.ext rfl p)
  exact ⟨_, n3, m1, m2, _, T0, u, b4, T, b5, C117_silence T0 u (by decide) b4 (by intro h; cases h) T (by trivial) b5⟩

/-- C117_one_report on it. -/
example (n n' : Node) (h : List (Ev × Outcome)) (l : List Passed) (T : Timeline Knows [] Demo.n0 h l n) (hs : n.step (.delete 2 ⟨2, 9⟩ default) = (n', .reply Demo.only117End)) :
    (Demo.only117End.reports.filter UsageReport.nonzero).length = 1 ∧ (Demo.only117End.reports.filter UsageReport.nonzero).length ≤ 1 :=
  ⟨by decide, C117_one_report T (congrArg Prod.snd hs)⟩

end Eupf
