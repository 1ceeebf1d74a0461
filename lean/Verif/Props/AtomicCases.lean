import Verif.Props.Atomic
import Verif.Props.WriteOrderCases
/-
C110: concrete cases.
-/
namespace Eupf

/-- what happens to the frame after `k` pieces of the event -/
def Node.fateAfter (n : Node) (e : Ev) (k : Nat) (f : List U8) : Option (Res XAction) :=
  (n.after e k).map fun b => (runPacket DemoDp.env ⟨f, b, {}, {}⟩).2

theorem Node.fateAfter_moment {n : Node} {ev : Ev} {k : Nat} {f : List U8} {x : Res XAction} (h : n.fateAfter ev k f = some x) :
    ∃ b, n.moment ev b ∧ (runPacket DemoDp.env ⟨f, b, {}, {}⟩).2 = x := by
  obtain ⟨b, hb, hd⟩ := Option.map_eq_some_iff.1 h
  exact ⟨b, Node.after_moment hb, hd⟩

theorem Demo.svc_clean : Clean Demo.nSvc0 (.establish 1 Demo.svc) :=
  clean_establish (orderly_establish (a := 1) (r := Demo.svc) (by decide) (by decide +kernel) (by decide +kernel) (by decide +kernel))
    (by decide) (by decide) (by decide) Demo.svc_own
theorem Demo.svc_calm : (Demo.nSvc0.step (.establish 1 Demo.svc)).2 ≠ .crash := by rw [Demo.svc_step]; intro h; cases h

theorem Demo.del110_out : (Demo.nSvc2.step (.delete 1 ⟨2, 9⟩ default)).2 = .reply { type := .deletion, seid := 100, seq := 9, cause := 1 } := by decide +kernel
theorem Demo.del110_clean : Clean Demo.nSvc2 (.delete 1 ⟨2, 9⟩ default) := by
  refine clean_other (by simp) (by simp) (orderly_delete Demo.del110_out (by decide) (by decide +kernel) (by decide +kernel))
theorem Demo.del110_calm : (Demo.nSvc2.step (.delete 1 ⟨2, 9⟩ default)).2 ≠ .crash := by rw [Demo.del110_out]; intro h; cases h

theorem Demo.down_noping : ¬ PingsUpf DemoDp.env DemoDp.down := fun h => DemoDp.down_down4.notGtpu h.1.gtpu
theorem Demo.up_noping : ¬ PingsUpf DemoDp.env DemoDp.up := fun h => absurd h.2.2.1.1 (by decide)

theorem Demo.mid110 : ((Demo.nSvc0.after (.establish 1 Demo.svc) 6).map fun b => ((runPacket DemoDp.env ⟨DemoDp.up, b, {}, {}⟩).2,
    (runPacket DemoDp.env ⟨DemoDp.down, b, {}, {}⟩).2)) = some (.ok (.redirect 7), .ok .pass) := by decide +kernel
theorem Demo.mid110b : (runPacket DemoDp.env ⟨DemoDp.up, Demo.nSvc0.dp, {}, {}⟩).2 = .ok .pass := by decide +kernel

/-- C110_establish_partial, during the establishment of a session with an uplink and a downlink PDR. -/
example (n : Node) (hn : n = Demo.nSvc0) (f : List U8) (hf : f = DemoDp.up ∨ f = DemoDp.down) (b : BpfObjects) (hm : n.moment (.establish 1 Demo.svc) b) :
    SameFate DemoDp.env f b (n.dp.timedAs b) ∨ SameFate DemoDp.env f b ((n.step (.establish 1 Demo.svc)).1.dp.timedAs b) := by
  obtain ⟨h, H, hb⟩ := Demo.two99
  have h1 := Demo.svc_clean
  have h2 := Demo.svc_calm
  have hp : ¬ PingsUpf DemoDp.env f := by
    rcases hf with rfl | rfl
    · exact Demo.up_noping
    · exact Demo.down_noping
  clear hf
  rw [← hn] at H h1 h2
  clear hn
  generalize DemoDp.env = e at hp ⊢
  exact C110_establish_partial (fz := 4) (qz := 4) (uz := 4) (by decide) (by decide) (by decide) (C106_as_a_whole H) h1 h2 (by rw [hb]; decide) hm hp
/-- A moment of this establishment when the uplink is already as after it and the downlink still as before it. -/
example (n : Node) (hn : n = Demo.nSvc0) : ∃ b, n.moment (.establish 1 Demo.svc) b ∧ (runPacket DemoDp.env ⟨DemoDp.up, b, {}, {}⟩).2 = .ok (.redirect 7) ∧
    (runPacket DemoDp.env ⟨DemoDp.up, n.dp, {}, {}⟩).2 = .ok .pass ∧ (runPacket DemoDp.env ⟨DemoDp.down, b, {}, {}⟩).2 = .ok .pass := by
  have h1 := Demo.mid110
  have h2 := Demo.mid110b
  rw [← hn] at h1 h2
  clear hn
  obtain ⟨b, hb, hd⟩ := Option.map_eq_some_iff.1 h1
  have hm := Node.after_moment hb
  simp only [Prod.mk.injEq] at hd
  exact ⟨b, hm, hd.1, h2, hd.2⟩

/-- C110_delete_partial, during the deletion of this session. -/
example (n : Node) (hn : n = Demo.nSvc2) (f : List U8) (hf : f = DemoDp.up ∨ f = DemoDp.down) (b : BpfObjects) (hm : n.moment (.delete 1 ⟨2, 9⟩ default) b) :
    SameFate DemoDp.env f b (n.dp.timedAs b) ∨ SameFate DemoDp.env f b ((n.step (.delete 1 ⟨2, 9⟩ default)).1.dp.timedAs b) := by
  obtain ⟨h, H, hb⟩ := Demo.svc2_hist
  have h1 := Demo.del110_clean
  have h2 := Demo.del110_calm
  have hp : ¬ PingsUpf DemoDp.env f := by
    rcases hf with rfl | rfl
    · exact Demo.up_noping
    · exact Demo.down_noping
  clear hf
  rw [← hn] at H h1 h2
  clear hn
  generalize DemoDp.env = e at hp ⊢
  exact C110_delete_partial (fz := 4) (qz := 4) (uz := 4) (by decide) (by decide) (by decide) (C106_as_a_whole H) h1 h2 (by rw [hb]; decide) hm hp

theorem Demo.lost110 : Demo.nSvc2.fateAfter (.peerLost 1 default) 2 DemoDp.down = some (.ok .drop) ∧
    (runPacket DemoDp.env ⟨DemoDp.down, (Demo.nSvc2.step (.peerLost 1 default)).1.dp, {}, {}⟩).2 = .ok .pass := by decide +kernel
theorem Demo.lost110_clean : Clean Demo.nSvc2 (.peerLost 1 default) :=
  clean_other (by simp) (by simp) (orderly_other (by simp) (by simp) (by simp) (no73_of (by decide +kernel)) (by decide +kernel) (by decide +kernel))

/-- **C110: the loss of a peer is not seen at once.** A packet is forwarded before the sessions of the peer are deleted, passed on to the host
afterwards, and dropped at a moment in the middle: `DeleteSession` removes FARs before PDRs (pfcp_connection.go 192-204). -/
theorem C110_peer_lost : ∃ h n b, HistP Clean Demo.n0 h n ∧ Clean n (.peerLost 1 default) ∧ n.moment (.peerLost 1 default) b ∧
    (runPacket DemoDp.env ⟨DemoDp.down, n.dp, {}, {}⟩).2 = .ok (.redirect 7) ∧
    (runPacket DemoDp.env ⟨DemoDp.down, b, {}, {}⟩).2 = .ok .drop ∧
    (runPacket DemoDp.env ⟨DemoDp.down, (n.step (.peerLost 1 default)).1.dp, {}, {}⟩).2 = .ok .pass := by
  obtain ⟨h, H, -⟩ := Demo.svc2_hist
  have hc := Demo.lost110_clean
  obtain ⟨h1, h3⟩ := Demo.lost110
  have h2 := Demo.gap_before
  generalize Demo.nSvc2 = n at H hc h1 h2 h3
  obtain ⟨b, hm, hd⟩ := Node.fateAfter_moment h1
  generalize DemoDp.down = f at hd h2 h3 ⊢
  generalize DemoDp.env = e at hd h2 h3 ⊢
  exact ⟨h, n, b, H, hc, hm, h2, hd, h3⟩

theorem Demo.ping110 : ((Demo.nSvc0.after (.establish 1 Demo.svc) 6).map fun b => ((runPacket DemoDp.env ⟨DemoDp.upPing, b, {}, {}⟩).2,
      decide ((runPacket DemoDp.env ⟨DemoDp.upPing, b, {}, {}⟩).1.frame = DemoDp.upPing))) = some (.ok .pass, false) ∧
    (runPacket DemoDp.env ⟨DemoDp.upPing, Demo.nSvc0.dp, {}, {}⟩).2 = .ok .pass ∧
    (runPacket DemoDp.env ⟨DemoDp.upPing, Demo.nSvc0.dp, {}, {}⟩).1.frame = DemoDp.upPing ∧
    (runPacket DemoDp.env ⟨DemoDp.upPing, (Demo.nSvc0.step (.establish 1 Demo.svc)).1.dp, {}, {}⟩).2 = .ok (.redirect 7) := by decide +kernel

/-- **C110: pings of the UPF are excepted.** In the middle of an establishment, when the uplink PDR is in the tables and the downlink PDR is not,
a ping of the UPF through the tunnel is turned into an answer that is passed on to the host, instead of the ping itself (before) or an answer
in the tunnel (after). -/
theorem C110_ping : ∃ h n r b, HistP Clean Demo.n0 h n ∧ Clean n (.establish 1 r) ∧ n.moment (.establish 1 r) b ∧
    ((runPacket DemoDp.env ⟨DemoDp.upPing, n.dp, {}, {}⟩).2 = .ok .pass ∧ (runPacket DemoDp.env ⟨DemoDp.upPing, n.dp, {}, {}⟩).1.frame = DemoDp.upPing) ∧
    ((runPacket DemoDp.env ⟨DemoDp.upPing, b, {}, {}⟩).2 = .ok .pass ∧ (runPacket DemoDp.env ⟨DemoDp.upPing, b, {}, {}⟩).1.frame ≠ DemoDp.upPing) ∧
    (runPacket DemoDp.env ⟨DemoDp.upPing, (n.step (.establish 1 r)).1.dp, {}, {}⟩).2 = .ok (.redirect 7) := by
  obtain ⟨h, H, -⟩ := Demo.two99
  have hc := Demo.svc_clean
  obtain ⟨h1, h2, h3, h4⟩ := Demo.ping110
  generalize Demo.nSvc0 = n at H hc h1 h2 h3 h4
  obtain ⟨b, hb, hd⟩ := Option.map_eq_some_iff.1 h1
  have hm := Node.after_moment hb
  generalize DemoDp.upPing = f at hd h2 h3 h4 ⊢
  generalize DemoDp.env = e at hd h2 h3 h4 ⊢
  simp only [Prod.mk.injEq, decide_eq_false_iff_not] at hd
  exact ⟨h, n, Demo.svc, b, H, hc, hm, ⟨h2, h3⟩, hd, h4⟩

end Eupf
