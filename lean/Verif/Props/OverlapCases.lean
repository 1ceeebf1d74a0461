import Verif.Props.Overlap
/-
C108: concrete cases.
-/
namespace Eupf

/-- A session with two FARs to 10.9.9.9, TEID 99, for the UE 10.60.0.7. -/
def Demo.est108 : EstReq :=
  { seq := 9, nodeId := some (some ()), cpFseid := some (some 300),
    createFar := [{ kind := .create, farId := some 1, applyAction := some [2] },
                  { kind := .create, farId := some 2, applyAction := some [2], forward := some (some (some ⟨0x0100, 99, some 0x0A090909, false⟩)) }],
    createQer := [{ qerId := some 1, qfi := some 5 }],
    createPdr := [{ pdrId := some 2, farId := some 2, qerId := some 1, pdi := some { ueip := some (some { ipv4 := some 0x0A3C0007 }) } }] }
/-- the session of `Demo.svc` is deleted, then the other one established -/
def Demo.nGap108 : Node := (Demo.nSvc.step (.delete 1 ⟨2, 8⟩ default)).1
def Demo.nEnd108 : Node := (Demo.nGap108.step (.establish 2 Demo.est108)).1

def Demo.delResp108 : Resp := { type := .deletion, seid := 100, seq := 8, cause := 1 }
def Demo.estResp108 : Resp := { type := .establishment, seid := 300, seq := 9, cause := 1, fseid := some 2 }
theorem Demo.del108_out : (Demo.nSvc.step (.delete 1 ⟨2, 8⟩ default)).2 = .reply Demo.delResp108 := by decide +kernel
theorem Demo.del108_step : Demo.nSvc.step (.delete 1 ⟨2, 8⟩ default) = (Demo.nGap108, .reply Demo.delResp108) :=
  Prod.ext (by simp only [Demo.nGap108]) Demo.del108_out
theorem Demo.est108_out : (Demo.nGap108.step (.establish 2 Demo.est108)).2 = .reply Demo.estResp108 := by decide +kernel
theorem Demo.est108_step : Demo.nGap108.step (.establish 2 Demo.est108) = (Demo.nEnd108, .reply Demo.estResp108) :=
  Prod.ext (by simp only [Demo.nEnd108]) Demo.est108_out

theorem Demo.del108_orderly : Orderly Demo.nSvc (.delete 1 ⟨2, 8⟩ default) := by
  have h1 := Demo.del108_out
  have h2 : ((Demo.nSvc.step (.delete 1 ⟨2, 8⟩ default)).1.keyList.all fun x => (Demo.nSvc.keyList.any fun y => y.1 == x.1) ||
    Demo.nSvc.keyList.all fun y => y.2 != x.2) = true := by decide +kernel
  have h3 : ((Demo.nSvc.step (.delete 1 ⟨2, 8⟩ default)).1.keyList.all fun x => (Demo.nSvc.step (.delete 1 ⟨2, 8⟩ default)).1.keyList.all fun y =>
      (x.1 == y.1 || x.2 != y.2) && !(x.1.1 == y.1.1 && x.1.2.1 == y.1.2.1 && x.2.clash y.2)) = true := by decide +kernel
  generalize Demo.nSvc = n at h1 h2 h3 ⊢
  exact orderly_delete h1 (by decide) h2 h3

theorem Demo.est108_own : ∀ ie ∈ Demo.est108.createPdr, (∃ i, ie.farId = some i ∧ ∃ c ∈ Demo.est108.createFar, c.farId.getD 0 = i) ∧
    ∃ i, ie.qerId = some i ∧ ∃ c ∈ Demo.est108.createQer, c.qerId = some i := by
  intro ie hie
  simp only [Demo.est108, List.mem_cons, List.not_mem_nil, or_false] at hie
  subst hie
  exact ⟨⟨2, rfl, Demo.est108.createFar[1], by simp [Demo.est108], rfl⟩, 1, rfl, Demo.est108.createQer[0], by simp [Demo.est108], rfl⟩

theorem Demo.est108_orderly : Orderly Demo.nGap108 (.establish 2 Demo.est108) :=
  orderly_establish (a := 2) (r := Demo.est108) (by decide) (by decide +kernel) (by decide +kernel) (by decide +kernel)

/-- The session of `Demo.svc` in a clean history. -/
theorem Demo.svc108 : ∃ h, HistP Clean Demo.n0 ((.establish 1 Demo.svc, .reply Demo.svcResp) :: h) Demo.nSvc ∧ attempts h = 0 := by
  obtain ⟨h, s2, hb⟩ := Demo.two99
  have s3 := HistP.snoc s2 (clean_establish (orderly_establish (a := 1) (r := Demo.svc) (by decide) (by decide +kernel) (by decide +kernel) (by decide +kernel))
    (by decide) (by decide) (by decide) Demo.svc_own) Demo.svc_step
  exact ⟨h, s3, hb⟩

theorem Demo.later108 : HistP Clean Demo.nSvc [(.establish 2 Demo.est108, .reply Demo.estResp108), (.delete 1 ⟨2, 8⟩ default, .reply Demo.delResp108)] Demo.nEnd108 := by
  have s1 := HistP.snoc (HistP.init (P := Clean) (n0 := Demo.nSvc)) (clean_other (by simp) (by simp) Demo.del108_orderly) Demo.del108_step
  exact HistP.snoc s1 (clean_establish Demo.est108_orderly (by decide) (by decide) (by decide) Demo.est108_own) Demo.est108_step

def Demo.told108 : ASession := ASession.established Demo.svc []
theorem Demo.said108 (h : List (Ev × Outcome)) : Said ((.establish 1 Demo.svc, .reply Demo.svcResp) :: h) 1 2 2 ⟨.dl4 0x0A3C0001, 0, none, 2, 1⟩
    ⟨2, 0x0100, 0x200, 0x0A000314, 0x1CFF⟩ ⟨0, 0, 0, 0, 9⟩ :=
  ⟨Demo.told108, by simp [said, Demo.svcResp, Demo.told108], rfl, rfl, rfl⟩

theorem Demo.leak108 : (runPacket DemoDp.env ⟨DemoDp.down, lookups Demo.nSvc.dp Demo.nEnd108.dp Demo.nEnd108.dp, {}, {}⟩).2 = .ok (.redirect 7) ∧
    slice (runPacket DemoDp.env ⟨DemoDp.down, lookups Demo.nSvc.dp Demo.nEnd108.dp Demo.nEnd108.dp, {}, {}⟩).1.frame 30 4 = [10, 9, 9, 9] ∧
    slice (runPacket DemoDp.env ⟨DemoDp.down, lookups Demo.nSvc.dp Demo.nEnd108.dp Demo.nEnd108.dp, {}, {}⟩).1.frame 46 4 = [0, 0, 0, 99] := by
  decide +kernel
theorem Demo.gone108 : Demo.nEnd108.dp.entry? (.dl4 0x0A3C0001) = none := by decide +kernel
theorem Demo.mine108 : ((Demo.nEnd108.session? 2 2).bind fun x => (x.fars.get? 2).map fun f => (f.info.teid, f.info.action)) = some (99, 2) := by decide +kernel

/-- **C108 is false of the code.** A clean history, in which session 2 of peer 1 was told to send packets for 10.60.0.1 to 10.0.3.20 with TEID
0x200; then (also cleanly) that session is deleted and peer 2 establishes one with a tunnel to 10.9.9.9 with TEID 99, for another UE. A packet for
10.60.0.1 whose PDR was looked up before and whose FAR is looked up afterwards is sent to 10.9.9.9 with TEID 99: the slot of the FAR was given
to the new session. (Before it would have gone to 10.0.3.20; afterwards there is no PDR for 10.60.0.1.) -/
theorem C108_leak : ∃ h n h' n', HistP Clean Demo.n0 h n ∧
    Said h 1 2 2 ⟨.dl4 0x0A3C0001, 0, none, 2, 1⟩ ⟨2, 0x0100, 0x200, 0x0A000314, 0x1CFF⟩ ⟨0, 0, 0, 0, 9⟩ ∧
    HistP Clean n h' n' ∧ n'.dp.entry? (.dl4 0x0A3C0001) = none ∧ FrameFor DemoDp.env DemoDp.down (.dl4 0x0A3C0001) ∧
    ∃ s', runPacket DemoDp.env ⟨DemoDp.down, lookups n.dp n'.dp n'.dp, {}, {}⟩ = (s', .ok (.redirect 7)) ∧
      slice s'.frame 30 4 = [10, 9, 9, 9] ∧ slice s'.frame 46 4 = [0, 0, 0, 99] := by
  obtain ⟨h, H, -⟩ := Demo.svc108
  have H2 := Demo.later108
  have hs := Demo.said108 h
  have hg := Demo.gone108
  obtain ⟨l1, l2, l3⟩ := Demo.leak108
  have hf := Demo.down_for
  generalize Demo.nSvc = n at H H2 l1 l2 l3
  generalize Demo.nEnd108 = n' at H2 hg l1 l2 l3
  generalize DemoDp.down = f at hf l1 l2 l3 ⊢
  generalize DemoDp.env = e at hf l1 l2 l3 ⊢
  exact ⟨_, n, _, n', H, hs, H2, hg, hf, _, Prod.ext rfl l1, l2, l3⟩

theorem Demo.between108 : HistP (CleanElsewhere 1 2) Demo.nSvc [(.establish 2 (Demo.est 200), .reply
    { type := .establishment, seid := 200, seq := 5, cause := 1, fseid := some 2, created := [.fteid 1 1 0x0a000001, .ueIp 2 0x0a2d0001] })] Demo.nSvc2 :=
  HistP.snoc (HistP.init (P := CleanElsewhere 1 2) (n0 := Demo.nSvc))
    ⟨clean_establish (orderly_establish (a := 2) (r := Demo.est 200) (by decide) (by decide +kernel) (by decide +kernel) (by decide +kernel))
      (by decide) (by decide) (by decide) Demo.est_own, id⟩ Demo.est98_step

theorem Demo.ips108 : (0x0A3C0001 : Ip4) ∉ freeIps Demo.nSvc.rm := by decide +kernel

/-- C108_downlink_partial: the PDR is looked up while peer 2 establishes a session, FAR and QER while it deletes the session again. -/
example (n1 n2 : Node) (hn1 : n1 = Demo.nSvc) (hn2 : n2 = Demo.nSvc2) (b1 b2 b3 : BpfObjects) (hm1 : n1.moment (.establish 2 (Demo.est 200)) b1)
    (hm2 : n2.moment (.delete 2 ⟨2, 9⟩ default) b2) (hm3 : n2.moment (.delete 2 ⟨2, 9⟩ default) b3) :
    ∃ s' fib, runPacket DemoDp.env ⟨DemoDp.down, lookups b1 b2 b3, {}, {}⟩ = (s', .ok (routeAct DemoDp.env (DemoDp.env.fib fib))) ∧
      IsTunnelled ⟨0x0A00030A, 0x0A000314, 0x1C, 9, 0x200⟩ 32 (DemoDp.down.drop 14) s'.frame := by
  obtain ⟨h, H, hb⟩ := Demo.svc108
  have H2 := Demo.between108
  have hs := Demo.said108 h
  have hl : be16 DemoDp.down 16 = 32 := by decide
  have hn : DemoDp.env.n3Ip = 0x0A00030A := by decide
  have ht : AFar.tos ⟨2, 0x0100, 0x200, 0x0A000314, 0x1CFF⟩ = 0x1C := by decide
  have hf := Demo.down_for
  have hr : DemoDp.env.headroom ≠ none := by decide
  have hi := Demo.ips108
  rw [← hn1] at H H2 hi
  rw [← hn2] at H2
  clear hn1 hn2
  generalize DemoDp.down = f at hl hf ⊢
  generalize DemoDp.env = e at hn hf hr ⊢
  obtain ⟨s', fib, len, h1, -, h3, h4⟩ := C108_downlink_partial (fz := 4) (qz := 4) (uz := 4) (by decide) (by decide) (by decide) (C106_as_a_whole H)
    hs (by intro h; cases h) (C106_as_a_whole H2) .init (by show attempts h + 1 + 1 < _; rw [hb]; decide)
    (e1 := .establish 2 (Demo.est 200)) (by trivial) (by intro h; exact h) ⟨Demo.est107, fun _ => hi⟩
    (e2 := .delete 2 ⟨2, 9⟩ default) (by trivial) (by rintro ⟨h, -⟩; revert h; decide)
    (e3 := .delete 2 ⟨2, 9⟩ default) (by trivial) (by rintro ⟨h, -⟩; revert h; decide) hm1 hm2 hm3
    e ⟨f, lookups b1 b2 b3, {}, {}⟩ rfl hf (by intro t h; cases h) (by intro sdf h; cases h)
    ⟨by unfold AFar.forwards; decide, by show (0 : U8) = 0; rfl, fun _ => by unfold AFar.tunnels; decide⟩ rfl hr
  have h3' : len = be16 f 16 := h3
  rw [h3', hl, hn, ht] at h4
  exact ⟨s', fib, h1, h4⟩

end Eupf
