import Verif.Props.Restart
import Verif.Props.NeverConfigured
import Verif.Props.Gone
import Verif.Props.GoneCases
import Verif.Props.ExactPackets
/-
C120: the datapath does not work on across a restart. README.md 37 promises that it does; Load (cmd/ebpf/objects.go 71-150) makes new maps at
every start. The executions are those of Verif/Restart.lean; no further code is modelled here.
-/
namespace Eupf

/-- **C120, negation, for every restart.** Whatever was served before: from a start on until the first establishment or modification request,
no user packet is carried, for no TEID and no UE address: the frame is left to the kernel as it came. -/
theorem C120_nothing_carried {h : List WEv} {x : World} (hr : World.Run h x) (ha : x.w.alive = true)
    (hn : ∀ y ∈ evsOf (sinceBoot h), y.1.installs = false) (e : Env) (s : PS) (hdp : s.dp = x.w.node.dp) {k : PdrKey} (hf : FrameFor e s.frame k) :
    ∃ s', runPacket e s = (s', .ok .pass) ∧ s'.frame = s.frame ∧ s'.dp = s.dp :=
  no_entry_passed e s (by rw [hdp]; exact C88_forwards_nothing hr ha hn k) hf

/-- **C120.** What leaves the UPF on account of the tables after a restart leaves on account of requests that came since: if a frame that
is no GTP-U Echo Request is sent, an establishment or modification request has come since the last start. -/
theorem C120_sent_needs_request {h : List WEv} {x : World} (hr : World.Run h x) (ha : x.w.alive = true) (e : Env) (s s' : PS)
    (hdp : s.dp = x.w.node.dp) {act : XAction} (hrun : runPacket e s = (s', .ok act)) (hs : act.sent = true) (hecho : ¬ IsGtpMsg e s.frame 1) :
    ∃ y ∈ evsOf (sinceBoot h), y.1.installs = true := by
  apply Classical.byContradiction
  intro hno
  have hn : ∀ y ∈ evsOf (sinceBoot h), y.1.installs = false := by
    intro y hy
    cases hi : y.1.installs with
    | false => rfl
    | true => exact absurd ⟨y, hy, hi⟩ hno
  have hent := C88_forwards_nothing hr ha hn
  have hno' : ∀ k, s.dp.entry? k = none := fun k => by rw [hdp]; exact hent k
  rcases C26_sent_needs_permission e s s' act hrun hs with hm | hm
  · cases hm with
    | up h1 h2 h3 =>
      obtain ⟨s1, h4, -⟩ := no_entry_passed e s (hno' (.ul (gtpTeid s.frame))) ⟨h1, rfl⟩
      rw [h4] at hrun
      cases hrun
      cases hs
    | down4 h1 h2 h3 =>
      obtain ⟨s1, h4, -⟩ := no_entry_passed e s (hno' (.dl4 (be32 s.frame 30))) ⟨h1, rfl⟩
      rw [h4] at hrun
      cases hrun
      cases hs
    | down6 h1 h2 h3 =>
      obtain ⟨s1, h4, -⟩ := no_entry_passed e s (hno' (.dl6 (be128 (slice s.frame 38 16)))) ⟨h1, rfl⟩
      rw [h4] at hrun
      cases hrun
      cases hs
  · exact hecho hm

/-- **C120, negation, at any time after a restart.** A TEID that no request since the last start names, and that is not in the pool, is not
served, whatever else has been established since, and whatever sessions the processes before had. -/
theorem C120_not_named_again {h : List WEv} {x : World} (hr : World.Run h x) (ha : x.w.alive = true) {t : U32} (ht : t ≠ 0)
    (hpool : ¬ InPool x.boot.endpoint.node.rm t) (hn : ∀ y ∈ evsOf (sinceBoot h), ¬ y.1.givesTeid t)
    (e : Env) (s : PS) (hdp : s.dp = x.w.node.dp) (hm : IsGtpMsg e s.frame 255) (hteid : gtpTeid s.frame = t) :
    ∃ s', runPacket e s = (s', .ok .pass) ∧ s'.frame = s.frame ∧ s'.dp = s.dp := by
  have H := (since_boot hr).2.hist ha
  have h0 : ∀ k, x.boot.endpoint.node.dp.entry? k = none := fun k => by cases k <;> rfl
  exact C60_never_configured (cfg := x.boot.endpoint.node.cfg) (rm := x.boot.endpoint.node.rm) (dp := x.boot.endpoint.node.dp) h0 ht hpool H hn
    e s hdp hm hteid

namespace Demo
/-- a session of another peer, into another tunnel -/
def est120 : EstReq := { Demo.est 300 with createFar := [{ Demo.fwd with forward := some (some (some ⟨0x0100, 78, some 0xc0a80002, false⟩)) }] }
/-- the second process: peer 5 associates and establishes the first session since the restart -/
def u1 : World := ⟨b2, y0.w.turn (.event (.assocSetup 5 3 (some (some ())) (some (some ()))))⟩
def u2 : World := ⟨b2, u1.w.turn (.event (.establish 5 est120))⟩
/-- the histories -/
def hx2 : List WEv :=
  [.turn (.event (.establish 1 (Demo.est 100))) (x1.w.outcome (.event (.establish 1 (Demo.est 100))))
     ((x1.w.says (.event (.establish 1 (Demo.est 100)))).map fun s => (s, b1.recovery s)),
   .turn (.event (.assocSetup 1 1 (some (some ())) (some (some ())))) (x0.w.outcome (.event (.assocSetup 1 1 (some (some ())) (some (some ())))))
     ((x0.w.says (.event (.assocSetup 1 1 (some (some ())) (some (some ()))))).map fun s => (s, b1.recovery s)),
   .boot b1]
theorem run_x2 : World.Run hx2 x2 :=
  World.Run.turn (x := x1) (.event (.establish 1 (Demo.est 100))) (by decide +kernel)
    (World.Run.turn (x := x0) (.event (.assocSetup 1 1 (some (some ())) (some (some ())))) (by decide +kernel) (World.Run.first b1))
def hu2 : List WEv :=
  [.turn (.event (.establish 5 est120)) (u1.w.outcome (.event (.establish 5 est120)))
     ((u1.w.says (.event (.establish 5 est120))).map fun s => (s, b2.recovery s)),
   .turn (.event (.assocSetup 5 3 (some (some ())) (some (some ())))) (y0.w.outcome (.event (.assocSetup 5 3 (some (some ())) (some (some ())))))
     ((y0.w.says (.event (.assocSetup 5 3 (some (some ())) (some (some ()))))).map fun s => (s, b2.recovery s)),
   .boot b2] ++ hx2
theorem run_y2 : World.Run (.boot b2 :: hx2) y0 := World.Run.restart (x := x2) b2 run_x2 (by decide)
theorem run_u2 : World.Run hu2 u2 :=
  World.Run.turn (x := u1) (.event (.establish 5 est120)) (by decide +kernel)
    (World.Run.turn (x := y0) (.event (.assocSetup 5 3 (some (some ())) (some (some ())))) (by decide +kernel) run_y2)
end Demo

/-- **C120, negation, concrete.** A session is served; the process is restarted, and the same G-PDU is no longer carried, though neither the
peer nor the UPF ended the session. -/
theorem C120_served_until_restart : ∃ h x y, World.Run h x ∧ World.Run (.boot Demo.b2 :: h) y ∧ (x.w.node.session? 1 2).isSome ∧
    FrameFor DemoDp.env Demo.alUp (.ul 1) ∧
    (runPacket DemoDp.env ⟨Demo.alUp, x.w.node.dp, {}, {}⟩).2 = .ok (.redirect 7) ∧
    (runPacket DemoDp.env ⟨Demo.alUp, y.w.node.dp, {}, {}⟩).2 = .ok .pass :=
  ⟨Demo.hx2, Demo.x2, Demo.y0, Demo.run_x2, Demo.run_y2, by decide +kernel, C97_deleted_carried.1, by decide +kernel, by decide +kernel⟩

/-- **C120, negation: another session gets the packets.** Before the restart the G-PDUs of a session go on in the tunnel with TEID 77. After
it, the first session of another peer is given the same TEID, and the same G-PDU, which the access network still sends, as nobody told it of
the restart, goes on in that session's tunnel, with TEID 78. -/
theorem C120_taken_over : ∃ h x y, World.Run h x ∧ World.Run (Demo.hu2.take 3 ++ h) y ∧ (x.w.node.session? 1 2).isSome ∧
    y.w.node.session? 1 2 = none ∧ (y.w.node.session? 5 2).isSome ∧
    (runPacket DemoDp.env ⟨Demo.alUp, x.w.node.dp, {}, {}⟩).2 = .ok (.redirect 7) ∧
    gtpTeid (runPacket DemoDp.env ⟨Demo.alUp, x.w.node.dp, {}, {}⟩).1.frame = 77 ∧
    (runPacket DemoDp.env ⟨Demo.alUp, y.w.node.dp, {}, {}⟩).2 = .ok (.redirect 7) ∧
    gtpTeid (runPacket DemoDp.env ⟨Demo.alUp, y.w.node.dp, {}, {}⟩).1.frame = 78 := by
  refine ⟨Demo.hx2, Demo.x2, Demo.u2, Demo.run_x2, Demo.run_u2, by decide +kernel, by decide +kernel, by decide +kernel, by decide +kernel,
    by decide +kernel, by decide +kernel, by decide +kernel⟩

/-- Non-vacuity: the hypotheses of C120_nothing_carried, C120_sent_needs_request and C120_not_named_again. -/
example : World.Run (.boot Demo.b2 :: Demo.hx2) Demo.y0 ∧ Demo.y0.w.alive = true ∧
    (∀ y ∈ evsOf (sinceBoot (.boot Demo.b2 :: Demo.hx2)), y.1.installs = false) ∧ FrameFor DemoDp.env Demo.alUp (.ul 1) :=
  ⟨Demo.run_y2, by decide +kernel, (fun y hy => (by cases hy)), C97_deleted_carried.1⟩

example : World.Run Demo.hu2 Demo.u2 ∧ Demo.u2.w.alive = true ∧
    (runPacket DemoDp.env ⟨Demo.alUp, Demo.u2.w.node.dp, {}, {}⟩).2 = .ok (.redirect 7) ∧ ¬ IsGtpMsg DemoDp.env Demo.alUp 1 ∧
    (∀ y ∈ evsOf (sinceBoot Demo.hu2), ¬ y.1.givesTeid 0x100) ∧
    ¬ InPool Demo.u2.boot.endpoint.node.rm 0x100 := by
  refine ⟨Demo.run_u2, by decide +kernel, by decide +kernel, (fun h => absurd h.type (by decide)), ?_, ?_⟩
  rotate_left
  · rintro ⟨r, hr, h | ⟨k, m, i, h, -⟩⟩
    · cases hr
      exact absurd h (by decide +kernel)
    · cases hr
      cases h
  intro y hy
  have hm : y.1 = .establish 5 Demo.est120 ∨ y.1 = .assocSetup 5 3 (some (some ())) (some (some ())) := by
    simp only [Demo.hu2, evsOf, sinceBoot, List.cons_append, List.filterMap_cons, List.mem_cons, List.nil_append] at hy
    rcases hy with rfl | rfl | h
    · exact .inl rfl
    · exact .inr rfl
    · simp at h
  rcases hm with h | h
  · rw [h]
    rintro ⟨ie, hie, pdi, fd, h1, h2, h3, _⟩
    simp only [Demo.est120, Demo.est, List.mem_cons, List.not_mem_nil, or_false] at hie
    rcases hie with rfl | rfl
    · cases h1; cases h2; cases h3
    · cases h1; cases h2
  · rw [h]; exact id

end Eupf
