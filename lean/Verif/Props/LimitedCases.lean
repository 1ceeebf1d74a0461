import Verif.Props.Limited
import Verif.Props.ToldRate
import Verif.Props.OverlapCases
/-
C100, C107, C108 with rate limits: concrete cases.
-/
namespace Eupf

theorem DemoDp.at_room (t : U64) : (DemoDp.at t).headroom ≠ none := by
  show DemoDp.env.headroom ≠ none
  decide

/-- C100_downlink_limited_partial on the node of `Demo.svcRate` (2000 kbit/s downlink), at any time. -/
example (t : U64) :
    (∃ s' fib, runPacket (DemoDp.at t) ⟨DemoDp.down, Demo.nRate.dp, {}, {}⟩ = (s', .ok (routeAct (DemoDp.at t) ((DemoDp.at t).fib fib))) ∧
      IsTunnelled ⟨0x0A00030A, 0x0A000314, 0x1C, 9, 0x200⟩ 32 (DemoDp.down.drop 14) s'.frame) ∨
    ∃ s', runPacket (DemoDp.at t) ⟨DemoDp.down, Demo.nRate.dp, {}, {}⟩ = (s', .ok .drop) ∧ s'.frame = DemoDp.down := by
  obtain ⟨h, H, b⟩ := Demo.histRate
  have hs := Demo.rate_dl h
  have hl : be16 DemoDp.down 16 = 32 := by decide
  have hn : (DemoDp.at t).n3Ip = 0x0A00030A := by show DemoDp.env.n3Ip = _; decide
  have ht : AFar.tos ⟨2, 0x0100, 0x200, 0x0A000314, 0x1CFF⟩ = 0x1C := by decide
  have hf := DemoDp.at_down t
  have hr := DemoDp.at_room t
  generalize Demo.nRate = n at H ⊢
  generalize DemoDp.down = f at hl hf ⊢
  generalize DemoDp.at t = e at hn hf hr ⊢
  generalize ((.establish 1 Demo.svcRate, .reply Demo.svcResp) :: h : List (Ev × Outcome)) = hh at H b hs
  refine (C100_downlink_limited_partial (fz := 4) (qz := 4) (uz := 4) (by decide) (by decide) (by decide) H (by rw [b]; decide)
    hs e ⟨f, n.dp, {}, {}⟩ rfl hf (by intro t h; cases h) (by intro sdf h; cases h)
    ⟨by unfold AFar.forwards; decide, by show (0 : U8) = 0; rfl, fun _ => by unfold AFar.tunnels; decide⟩ hr).imp ?_ ?_
  · rintro ⟨s', fib, len, h1, -, h3, h4⟩
    have h3' : len = be16 f 16 := h3
    rw [h3', hl, hn, ht] at h4
    exact ⟨s', fib, h1, h4⟩
  · rintro ⟨-, s', h1, h2, -⟩
    exact ⟨s', h1, h2⟩
/-- Both happen. -/
example : (runPacket (DemoDp.at 10000000) ⟨DemoDp.down, Demo.nRate.dp, {}, {}⟩).2 = .ok (.redirect 7) ∧
    (runPacket (DemoDp.at 100) ⟨DemoDp.down, Demo.nRate.dp, {}, {}⟩).2 = .ok .drop := by decide +kernel

theorem Demo.ipsRate : (0x0A3C0001 : Ip4) ∉ freeIps Demo.nRate.rm := by decide +kernel

/-- C107_downlink_limited_partial on this node, while peer 2 establishes a session, at any time. -/
example (t : U64) (n : Node) (hn0 : n = Demo.nRate) (b1 b2 b3 : BpfObjects) (hm1 : n.moment (.establish 2 (Demo.est 200)) b1)
    (hm2 : n.moment (.establish 2 (Demo.est 200)) b2) (hm3 : n.moment (.establish 2 (Demo.est 200)) b3) :
    (∃ s' fib, runPacket (DemoDp.at t) ⟨DemoDp.down, lookups b1 b2 b3, {}, {}⟩ = (s', .ok (routeAct (DemoDp.at t) ((DemoDp.at t).fib fib))) ∧
      IsTunnelled ⟨0x0A00030A, 0x0A000314, 0x1C, 9, 0x200⟩ 32 (DemoDp.down.drop 14) s'.frame) ∨
    ∃ s', runPacket (DemoDp.at t) ⟨DemoDp.down, lookups b1 b2 b3, {}, {}⟩ = (s', .ok .drop) ∧ s'.frame = DemoDp.down := by
  obtain ⟨h, H, b⟩ := Demo.histRate
  have hs := Demo.rate_dl h
  have hl : be16 DemoDp.down 16 = 32 := by decide
  have hn : (DemoDp.at t).n3Ip = 0x0A00030A := by show DemoDp.env.n3Ip = _; decide
  have ht : AFar.tos ⟨2, 0x0100, 0x200, 0x0A000314, 0x1CFF⟩ = 0x1C := by decide
  have hf := DemoDp.at_down t
  have hr := DemoDp.at_room t
  have hi := Demo.ipsRate
  rw [← hn0] at H hi
  clear hn0
  generalize DemoDp.down = f at hl hf ⊢
  generalize DemoDp.at t = e at hn hf hr ⊢
  generalize ((.establish 1 Demo.svcRate, .reply Demo.svcResp) :: h : List (Ev × Outcome)) = hh at H b hs
  refine (C107_downlink_limited_partial (fz := 4) (qz := 4) (uz := 4) (by decide) (by decide) (by decide) (C106_as_a_whole H) (by rw [b]; decide)
    hs (by intro h; cases h) (ev := .establish 2 (Demo.est 200)) (by trivial) (by intro h; exact h)
    ⟨Demo.est107, fun _ => hi⟩ hm1 hm2 hm3 e ⟨f, lookups b1 b2 b3, {}, {}⟩ rfl hf (by intro t h; cases h) (by intro sdf h; cases h)
    ⟨by unfold AFar.forwards; decide, by show (0 : U8) = 0; rfl, fun _ => by unfold AFar.tunnels; decide⟩ hr).imp ?_ ?_
  · rintro ⟨s', fib, len, h1, -, h3, h4⟩
    have h3' : len = be16 f 16 := h3
    rw [h3', hl, hn, ht] at h4
    exact ⟨s', fib, h1, h4⟩
  · rintro ⟨-, s', h1, h2, -⟩
    exact ⟨s', h1, h2⟩

/-- C108_downlink_limited_partial, with look-ups during three establishments in a row of peer 2 (which the node refuses or accepts, no matter). -/
example (t : U64) (n : Node) (hn0 : n = Demo.nRate) (b1 b2 b3 : BpfObjects) (hm1 : n.moment (.establish 2 (Demo.est 200)) b1)
    (hm2 : n.moment (.establish 2 (Demo.est 200)) b2) (hm3 : n.moment (.establish 2 (Demo.est 200)) b3) :
    (∃ s' fib, runPacket (DemoDp.at t) ⟨DemoDp.down, lookups b1 b2 b3, {}, {}⟩ = (s', .ok (routeAct (DemoDp.at t) ((DemoDp.at t).fib fib))) ∧
      IsTunnelled ⟨0x0A00030A, 0x0A000314, 0x1C, 9, 0x200⟩ 32 (DemoDp.down.drop 14) s'.frame) ∨
    ∃ s', runPacket (DemoDp.at t) ⟨DemoDp.down, lookups b1 b2 b3, {}, {}⟩ = (s', .ok .drop) ∧ s'.frame = DemoDp.down := by
  obtain ⟨h, H, b⟩ := Demo.histRate
  have hs := Demo.rate_dl h
  have hl : be16 DemoDp.down 16 = 32 := by decide
  have hn : (DemoDp.at t).n3Ip = 0x0A00030A := by show DemoDp.env.n3Ip = _; decide
  have ht : AFar.tos ⟨2, 0x0100, 0x200, 0x0A000314, 0x1CFF⟩ = 0x1C := by decide
  have hf := DemoDp.at_down t
  have hr := DemoDp.at_room t
  have hi := Demo.ipsRate
  rw [← hn0] at H hi
  clear hn0
  generalize DemoDp.down = f at hl hf ⊢
  generalize DemoDp.at t = e at hn hf hr ⊢
  generalize ((.establish 1 Demo.svcRate, .reply Demo.svcResp) :: h : List (Ev × Outcome)) = hh at H b hs
  refine (C108_downlink_limited_partial (fz := 4) (qz := 4) (uz := 4) (by decide) (by decide) (by decide) (C106_as_a_whole H)
    hs (by intro h; cases h) .init .init (by rw [List.nil_append, List.nil_append, b]; decide)
    (e1 := .establish 2 (Demo.est 200)) (by trivial) (by intro h; exact h) ⟨Demo.est107, fun _ => hi⟩
    (e2 := .establish 2 (Demo.est 200)) (by trivial) (by intro h; exact h)
    (e3 := .establish 2 (Demo.est 200)) (by trivial) (by intro h; exact h) hm1 hm2 hm3 e ⟨f, lookups b1 b2 b3, {}, {}⟩ rfl hf (by intro t h; cases h) (by intro sdf h; cases h)
    ⟨by unfold AFar.forwards; decide, by show (0 : U8) = 0; rfl, fun _ => by unfold AFar.tunnels; decide⟩ hr).imp ?_ ?_
  · rintro ⟨s', fib, len, h1, -, h3, h4⟩
    have h3' : len = be16 f 16 := h3
    rw [h3', hl, hn, ht] at h4
    exact ⟨s', fib, h1, h4⟩
  · rintro ⟨-, s', h1, h2, -⟩
    exact ⟨s', h1, h2⟩

theorem DemoDp.up_payload : gtpTeid DemoDp.up = 0x100 ∧ l4Off DemoDp.up = 34 ∧ PayloadAt DemoDp.up 50 ∧ 50 = gtpOff DemoDp.up + 8 ∧
    ((oct DemoDp.up 50).toNat / 16 = 4 ∧ 50 + 20 ≤ DemoDp.up.length) ∧ oct DemoDp.up (50 + 9) ≠ 1 :=
  ⟨by decide, by decide, PayloadAt.plain (f := DemoDp.up) (by decide), by decide, by decide, by decide⟩

/-- C100_uplink_limited_partial, at any time. -/
example (t : U64) :
    (∃ s' fib m ty, runPacket (DemoDp.at t) ⟨DemoDp.up, Demo.nRate.dp, {}, {}⟩ = (s', .ok (routeAct (DemoDp.at t) ((DemoDp.at t).fib fib))) ∧
      m.length = 12 ∧ s'.frame = m ++ ty ++ DemoDp.up.drop 50) ∨
    ∃ s', runPacket (DemoDp.at t) ⟨DemoDp.up, Demo.nRate.dp, {}, {}⟩ = (s', .ok .drop) ∧ s'.frame = DemoDp.up := by
  obtain ⟨h, H, b⟩ := Demo.histRate
  have hs := Demo.rate_ul h
  obtain ⟨g1, g3, g4, g5, g6, g7⟩ := DemoDp.up_payload
  have hf := DemoDp.at_up t
  generalize Demo.nRate = n at H ⊢
  generalize DemoDp.up = f at hf g1 g3 g4 g5 g6 g7 ⊢
  generalize DemoDp.at t = e at hf ⊢
  generalize ((.establish 1 Demo.svcRate, .reply Demo.svcResp) :: h : List (Ev × Outcome)) = hh at H b hs
  refine (C100_uplink_limited_partial (fz := 4) (qz := 4) (uz := 4) (by decide) (by decide) (by decide) H (by rw [b]; decide)
    hs e ⟨f, n.dp, {}, {}⟩ rfl rfl hf.1 g1 (by intro sdf h; cases h)
    ⟨by unfold AFar.forwards; decide, by show (0 : U8) = 0; rfl, fun h => absurd rfl (h _)⟩ (by unfold AFar.tunnels; decide) rfl g3 (o := 50)
    g4 (.inl g5) (.inl g6) (fun h => g7 h.2.1)).imp ?_ ?_
  · rintro ⟨s', fib, m, ty, h1, h2, -, h4, -⟩
    exact ⟨s', fib, m, ty, h1, h2, h4⟩
  · rintro ⟨-, s', h1, h2, -⟩
    exact ⟨s', h1, h2⟩

theorem Demo.est107_ul : ¬ (Ev.establish 2 (Demo.est 200)).names (.ul 0x100) := by
  rintro ⟨ie, hie, pdi, u, h1, h2, h3, h4⟩
  simp only [Demo.est, List.mem_cons, List.not_mem_nil, or_false] at hie
  rcases hie with rfl | rfl
  · cases h1; cases h2; revert h3 h4; simp [Demo.ch]
  · cases h1; cases h2
theorem Demo.teidsRate : (0x100 : U32) ∉ freeTeids Demo.nRate.rm := by decide +kernel

/-- C107_uplink_limited_partial and C108_uplink_limited_partial, while peer 2 establishes a session, at any time. -/
example (t : U64) (n : Node) (hn0 : n = Demo.nRate) (b1 b2 b3 : BpfObjects) (hm1 : n.moment (.establish 2 (Demo.est 200)) b1)
    (hm2 : n.moment (.establish 2 (Demo.est 200)) b2) (hm3 : n.moment (.establish 2 (Demo.est 200)) b3) :
    (∃ s' fib m ty, runPacket (DemoDp.at t) ⟨DemoDp.up, lookups b1 b2 b3, {}, {}⟩ = (s', .ok (routeAct (DemoDp.at t) ((DemoDp.at t).fib fib))) ∧
      m.length = 12 ∧ s'.frame = m ++ ty ++ DemoDp.up.drop 50) ∨
    ∃ s', runPacket (DemoDp.at t) ⟨DemoDp.up, lookups b1 b2 b3, {}, {}⟩ = (s', .ok .drop) ∧ s'.frame = DemoDp.up := by
  obtain ⟨h, H, b⟩ := Demo.histRate
  have hs := Demo.rate_ul h
  obtain ⟨g1, g3, g4, g5, g6, g7⟩ := DemoDp.up_payload
  have hf := DemoDp.at_up t
  have hi := Demo.teidsRate
  rw [← hn0] at H hi
  clear hn0
  generalize DemoDp.up = f at hf g1 g3 g4 g5 g6 g7 ⊢
  generalize DemoDp.at t = e at hf ⊢
  generalize ((.establish 1 Demo.svcRate, .reply Demo.svcResp) :: h : List (Ev × Outcome)) = hh at H b hs
  have hlets : Lets ⟨.ul 0x100, 0, none, 1, 1⟩ ⟨2, 0, 0, 0, 0⟩ ⟨0, 0, 1000, 2000, 9⟩ :=
    ⟨by unfold AFar.forwards; decide, by show (0 : U8) = 0; rfl, fun h => absurd rfl (h _)⟩
  have w := C107_uplink_limited_partial (fz := 4) (qz := 4) (uz := 4) (by decide) (by decide) (by decide) (C106_as_a_whole H) (by rw [b]; decide)
    hs (by intro h; revert h; decide) (ev := .establish 2 (Demo.est 200)) (by trivial) (by intro h; exact h)
    ⟨Demo.est107_ul, fun _ => hi⟩ hm1 hm2 hm3 e ⟨f, lookups b1 b2 b3, {}, {}⟩ rfl rfl hf.1 g1 (by intro sdf h; cases h)
    hlets (by unfold AFar.tunnels; decide) rfl g3 (o := 50) g4 (.inl g5) (.inl g6) (fun h => g7 h.2.1)
  have w' := C108_uplink_limited_partial (fz := 4) (qz := 4) (uz := 4) (by decide) (by decide) (by decide) (C106_as_a_whole H)
    hs (by intro h; revert h; decide) .init .init (by rw [List.nil_append, List.nil_append, b]; decide)
    (e1 := .establish 2 (Demo.est 200)) (by trivial) (by intro h; exact h) ⟨Demo.est107_ul, fun _ => hi⟩
    (e2 := .establish 2 (Demo.est 200)) (by trivial) (by intro h; exact h)
    (e3 := .establish 2 (Demo.est 200)) (by trivial) (by intro h; exact h) hm1 hm2 hm3 e ⟨f, lookups b1 b2 b3, {}, {}⟩ rfl rfl hf.1 g1 (by intro sdf h; cases h)
    hlets (by unfold AFar.tunnels; decide) rfl g3 (o := 50) g4 (.inl g5) (.inl g6) (fun h => g7 h.2.1)
  clear w'
  refine w.imp ?_ ?_
  · rintro ⟨s', fib, m, ty, h1, h2, -, h4, -⟩
    exact ⟨s', fib, m, ty, h1, h2, h4⟩
  · rintro ⟨-, s', h1, h2, -⟩
    exact ⟨s', h1, h2⟩

end Eupf
