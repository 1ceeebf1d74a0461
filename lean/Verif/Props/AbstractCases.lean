import Verif.Props.AbstractPackets
/-
C100: concrete cases.
-/
namespace Eupf

/-! ### two sessions, a modification, a deletion (the history of `Demo.hist99`) -/

/-- The history, newest first, after the association setups `h`. -/
def Demo.list100 (h : List (Ev × Outcome)) : List (Ev × Outcome) :=
  (.delete 2 ⟨2, 9⟩ default, .reply { type := .deletion, seid := 200, seq := 9, cause := 1, reports := [⟨1, 1, 0, 0, 0⟩] }) ::
  (.modify 1 Demo.mod98 default, .reply { type := .modification, seid := 100, seq := 8, cause := 1 }) ::
  (.establish 2 (Demo.est 200), .reply { type := .establishment, seid := 200, seq := 5, cause := 1, fseid := some 2, created := [.fteid 1 1 0x0a000001, .ueIp 2 0x0a2d0001] }) ::
  (.establish 1 Demo.svc, .reply Demo.svcResp) :: h

theorem Demo.hist100 : ∃ h, HistP Clean Demo.n0 (Demo.list100 h) Demo.nEnd98 ∧ attempts (Demo.list100 h) = 2 := by
  obtain ⟨h, s2, hb⟩ := Demo.two99
  have s3 := HistP.snoc s2 (clean_establish (orderly_establish (a := 1) (r := Demo.svc) (by decide) (by decide +kernel) (by decide +kernel) (by decide +kernel))
    (by decide) (by decide) (by decide) Demo.svc_own) Demo.svc_step
  have s4 := HistP.snoc s3 (clean_establish (orderly_establish (a := 2) (r := Demo.est 200) (by decide) (by decide +kernel) (by decide +kernel) (by decide +kernel))
    (by decide) (by decide) (by decide) Demo.est_own) Demo.est98_step
  have s5 := HistP.snoc s4 Demo.mod98_clean Demo.mod98_step
  have s6 := HistP.snoc s5 (clean_other (by simp) (by simp) Demo.del98_orderly) Demo.del98_step
  refine ⟨h, s6, ?_⟩
  show attempts h + 1 + 1 = 2
  rw [hb]

/-- What was said about session 2 of peer 1. -/
def Demo.told100 : ASession := (ASession.established Demo.svc []).modified Demo.mod98 []
theorem Demo.said100 (h : List (Ev × Outcome)) : said (Demo.list100 h) 1 2 = some Demo.told100 := by
  simp [Demo.list100, said, Demo.svcResp, Demo.mod98, Demo.told100]
theorem Demo.pdr100 : Demo.told100.pdrs 2 = some ⟨.dl4 0x0A3C0001, 0, none, 3, 1⟩ ∧ Demo.told100.pdrs 3 = some ⟨.ul 0x301, 0, none, 1, 1⟩ ∧
    Demo.told100.pdrs 1 = none ∧ Demo.told100.fars 2 = none ∧ Demo.told100.fars 3 = some ⟨2, 0x0100, 77, 0xC0A80001, 0⟩ ∧
    Demo.told100.fars 1 = some ⟨2, 0, 0, 0, 0⟩ ∧ Demo.told100.qers 1 = some ⟨0, 0, 0, 0, 9⟩ := by
  refine ⟨?_, ?_, ?_, ?_, ?_, ?_, ?_⟩ <;> rfl

theorem Demo.said100_deleted (h : List (Ev × Outcome)) : said (Demo.list100 h) 2 2 = none := by simp [Demo.list100, said]

/-- PDR 2 was moved to FAR 3, which was created later. -/
theorem Demo.said_dl (h : List (Ev × Outcome)) : Said (Demo.list100 h) 1 2 2 ⟨.dl4 0x0A3C0001, 0, none, 3, 1⟩ ⟨2, 0x0100, 77, 0xC0A80001, 0⟩ ⟨0, 0, 0, 0, 9⟩ :=
  ⟨_, Demo.said100 h, Demo.pdr100.1, Demo.pdr100.2.2.2.2.1, Demo.pdr100.2.2.2.2.2.2⟩
theorem Demo.said_ul (h : List (Ev × Outcome)) : Said (Demo.list100 h) 1 2 3 ⟨.ul 0x301, 0, none, 1, 1⟩ ⟨2, 0, 0, 0, 0⟩ ⟨0, 0, 0, 0, 9⟩ :=
  ⟨_, Demo.said100 h, Demo.pdr100.2.1, Demo.pdr100.2.2.2.2.2.1, Demo.pdr100.2.2.2.2.2.2⟩

/-- C100_said_partial: the session's record is what was said, and the deleted session is gone. -/
example : (∃ x, Demo.nEnd98.session? 1 2 = some x ∧ Demo.told100.Is x) ∧ Demo.nEnd98.session? 2 2 = none := by
  obtain ⟨h, H, b⟩ := Demo.hist100
  generalize Demo.nEnd98 = n at H ⊢
  have h1 := C100_said_partial (fz := 4) (qz := 4) (uz := 4) (by decide) (by decide) (by decide) H 1 2
  have h2 := C100_said_partial (fz := 4) (qz := 4) (uz := 4) (by decide) (by decide) (by decide) H 2 2
  rw [Demo.said100] at h1
  rw [Demo.said100_deleted] at h2
  generalize Demo.told100 = A at h1 ⊢
  obtain ⟨x, hx1, hx2⟩ := both_some h1
  refine ⟨⟨x, hx1, hx2⟩, ?_⟩
  cases hx : n.session? 2 2 with
  | none => rfl
  | some x => rw [hx] at h2; exact h2.elim

theorem Demo.down_for : FrameFor DemoDp.env DemoDp.down (.dl4 0x0A3C0001) := ⟨DemoDp.down_down4, by decide⟩

/-- C100_downlink_partial: a packet to 10.60.0.1 goes to 192.168.0.1 with TEID 77. -/
example : ∃ s' fib, runPacket DemoDp.env ⟨DemoDp.down, Demo.nEnd98.dp, {}, {}⟩ = (s', .ok (routeAct DemoDp.env (DemoDp.env.fib fib))) ∧
    IsTunnelled ⟨0x0A00030A, 0xC0A80001, 0, 9, 77⟩ 32 (DemoDp.down.drop 14) s'.frame := by
  obtain ⟨h, H, b⟩ := Demo.hist100
  have hs := Demo.said_dl h
  have hl : be16 DemoDp.down 16 = 32 := by decide
  have hn : DemoDp.env.n3Ip = 0x0A00030A := by decide
  have ht : AFar.tos ⟨2, 0x0100, 77, 0xC0A80001, 0⟩ = 0 := by decide
  have hf := Demo.down_for
  have hr : DemoDp.env.headroom ≠ none := by decide
  generalize Demo.nEnd98 = n at H ⊢
  generalize DemoDp.down = f at hl hf ⊢
  generalize DemoDp.env = e at hn hf hr ⊢
  obtain ⟨s', fib, len, h1, -, h3, h4⟩ := C100_downlink_partial (fz := 4) (qz := 4) (uz := 4) (by decide) (by decide) (by decide) H (by rw [b]; decide)
    hs e ⟨f, n.dp, {}, {}⟩ rfl hf (by intro t h; cases h) (by intro sdf h; cases h)
    ⟨by unfold AFar.forwards; decide, by show (0 : U8) = 0; rfl, fun _ => by unfold AFar.tunnels; decide⟩ rfl hr
  have h3' : len = be16 f 16 := h3
  rw [h3', hl, hn, ht] at h4
  exact ⟨s', fib, h1, h4⟩

theorem Demo.up98_gpdu : IsGtpMsg DemoDp.env Demo.up98 255 := ⟨⟨⟨by decide, by decide⟩, by decide, by decide, by decide, by decide⟩, by decide, by decide⟩
theorem Demo.up98_payload : gtpTeid Demo.up98 = 0x301 ∧ innerFlow Demo.up98 ≠ none ∧ l4Off Demo.up98 = 34 ∧ PayloadAt Demo.up98 50 ∧ 50 = gtpOff Demo.up98 + 8 ∧
    ((oct Demo.up98 50).toNat / 16 = 4 ∧ 50 + 20 ≤ Demo.up98.length) ∧ oct Demo.up98 (50 + 9) ≠ 1 ∧ Demo.up98.drop 50 = DemoDp.ueUp ∧ slice Demo.up98 (50 + 16) 4 = [8, 8, 8, 8] ∧
    etherTypeOf DemoDp.ueUp = some [8, 0] :=
  ⟨by decide, by decide +kernel, by decide, PayloadAt.plain (f := Demo.up98) (by decide), by decide, by decide, by decide, by decide, by decide, by decide⟩

/-- C100_uplink_partial: a G-PDU with TEID 0x301 leaves as its payload. -/
example : ∃ s' fib m, runPacket DemoDp.env ⟨Demo.up98, Demo.nEnd98.dp, {}, {}⟩ = (s', .ok (routeAct DemoDp.env (DemoDp.env.fib fib))) ∧ m.length = 12 ∧
    s'.frame = m ++ [8, 0] ++ DemoDp.ueUp ∧ fib.dst = [8, 8, 8, 8] := by
  obtain ⟨h, H, b⟩ := Demo.hist100
  have hs := Demo.said_ul h
  have hm := Demo.up98_gpdu
  obtain ⟨g1, g2, g3, g4, g5, g6, g7, g8, g9, g10⟩ := Demo.up98_payload
  generalize Demo.nEnd98 = n at H ⊢
  generalize Demo.up98 = f at hm g1 g2 g3 g4 g5 g6 g7 g8 g9 ⊢
  obtain ⟨s', fib, m, ty, h1, h2, h3, h4, h5⟩ := C100_uplink_partial (fz := 4) (qz := 4) (uz := 4) (by decide) (by decide) (by decide) H (by rw [b]; decide)
    hs DemoDp.env ⟨f, n.dp, {}, {}⟩ rfl rfl hm g1 (by intro sdf h; cases h)
    ⟨by unfold AFar.forwards; decide, by show (0 : U8) = 0; rfl, fun h => absurd rfl (h _)⟩ (by unfold AFar.tunnels; decide) rfl rfl g3 (o := 50)
    g4 (.inl g5) (.inl g6) (fun h => g7 h.2.1)
  have h3' : etherTypeOf (f.drop 50) = some ty := h3
  have h4' : s'.frame = m ++ ty ++ f.drop 50 := h4
  have h5' : fib.dst = if (oct f 50).toNat / 16 = 4 then slice f (50 + 16) 4 else slice f (50 + 24) 16 := h5
  rw [g8, g10] at h3'
  rw [g8] at h4'
  rw [if_pos g6.1, g9] at h5'
  cases h3'
  exact ⟨s', fib, m, h1, h2, h4', h5'⟩

/-- C100_sent_partial on it: the PDR that was said. -/
example : ∃ a sd i P F Q, Said (Demo.list100 Demo.hist100.choose) a sd i P F Q ∧ P.key = .ul 0x301 ∧ Lets P F Q := by
  obtain ⟨H, b⟩ := Demo.hist100.choose_spec
  have h1 := Demo.up98_sent
  have he : ¬ IsGtpMsg DemoDp.env Demo.up98 1 := by
    intro h; have := h.type; revert this; decide
  have h5 : IsGtpMsg DemoDp.env Demo.up98 255 := ⟨⟨⟨by decide, by decide⟩, by decide, by decide, by decide, by decide⟩, by decide, by decide⟩
  have h6 : gtpTeid Demo.up98 = 0x301 := by decide
  generalize Demo.hist100.choose = h at H b ⊢
  generalize Demo.nEnd98 = n at H h1
  generalize Demo.up98 = f at he h1 h5 h6
  obtain ⟨a, sd, i, P, F, Q, p1, p2, -, p4⟩ := C100_sent_partial (fz := 4) (qz := 4) (uz := 4) (by decide) (by decide) (by decide) H
    (by rw [b]; decide) DemoDp.env ⟨f, n.dp, {}, {}⟩ rfl (Prod.ext rfl h1) rfl he
  refine ⟨a, sd, i, P, F, Q, p1, ?_, p4⟩
  cases hk : P.key with
  | ul t => rw [hk] at p2; rw [← p2.2]; exact congrArg _ h6
  | dl4 t => rw [hk] at p2; exact absurd h5.gtpu p2.1.notGtpu
  | dl6 t =>
    rw [hk] at p2
    have e1 : be16 f 12 = _ := h5.gtpu.ip.type
    have e2 : be16 f 12 = _ := p2.1.ip.type
    rw [e1] at e2
    exact absurd e2 (by decide)

/-- C100_unknown_partial: TEID 0x100, which was removed, is passed on. -/
example (e : Env) (s : PS) (hdp : s.dp = Demo.nEnd98.dp) (hf : FrameFor e s.frame (.ul 0x100)) :
    ∃ s', runPacket e s = (s', .ok .pass) ∧ s'.frame = s.frame ∧ s'.dp = s.dp := by
  obtain ⟨h, H, b⟩ := Demo.hist100
  have hk := Demo.keys98
  have hsd := fun a s => C100_said_partial (fz := 4) (qz := 4) (uz := 4) (by decide) (by decide) (by decide) H a s
  generalize Demo.nEnd98 = n at H hdp hk hsd
  refine C100_unknown_partial (fz := 4) (qz := 4) (uz := 4) (by decide) (by decide) (by decide) H (by rw [b]; decide) (K := .ul 0x100) ?_ e s hdp hf
  intro a sd i P F Q hs hkey
  obtain ⟨A, hA, hP, -⟩ := hs.pdr
  have h1 := hsd a sd
  rw [hA] at h1
  obtain ⟨x, hx, hI⟩ := both_some h1
  have h2 := hI.pdrs i
  rw [hP] at h2
  obtain ⟨p, hp, hIs⟩ := both_some h2
  have := mem_keyList.2 ⟨p, ⟨x, hx, hp⟩, hIs.key.trans hkey⟩
  rw [hk] at this
  simp at this

/-! ### a session with a filter, a FAR that drops and a FAR for N9 -/

/-- Downlink PDR 1 with the filter `1.1.1.1/32`; TEID 0x101 is dropped; TEID 0x102 goes to the tunnel of FAR 1. -/
def Demo.req100 : EstReq := Demo.req [Demo.toUe 1 1 0x0A3C0001 (some Demo.cloud), Demo.fromUe 2 4 0x101 none, Demo.fromUe 3 1 0x102 none]
def Demo.n100 : Node := (Demo.nSvc0.step (.establish 1 Demo.req100)).1
theorem Demo.n100_step : Demo.nSvc0.step (.establish 1 Demo.req100) = (Demo.n100, .reply Demo.svcResp) := by
  have : (Demo.nSvc0.step (.establish 1 Demo.req100)).2 = .reply Demo.svcResp := by decide +kernel
  exact Prod.ext (by simp only [Demo.n100]) this
theorem Demo.req100_own : ∀ ie ∈ Demo.req100.createPdr, (∃ i, ie.farId = some i ∧ ∃ c ∈ Demo.req100.createFar, c.farId.getD 0 = i) ∧
    ∃ i, ie.qerId = some i ∧ ∃ c ∈ Demo.req100.createQer, c.qerId = some i := by
  intro ie hie
  simp only [Demo.req100, Demo.req, List.mem_cons, List.not_mem_nil, or_false] at hie
  rcases hie with rfl | rfl | rfl
  · exact ⟨⟨1, rfl, Demo.req100.createFar[0], by simp [Demo.req100, Demo.req], rfl⟩, 1, rfl, Demo.req100.createQer[0], by simp [Demo.req100, Demo.req], rfl⟩
  · exact ⟨⟨4, rfl, Demo.req100.createFar[3], by simp [Demo.req100, Demo.req], rfl⟩, 1, rfl, Demo.req100.createQer[0], by simp [Demo.req100, Demo.req], rfl⟩
  · exact ⟨⟨1, rfl, Demo.req100.createFar[0], by simp [Demo.req100, Demo.req], rfl⟩, 1, rfl, Demo.req100.createQer[0], by simp [Demo.req100, Demo.req], rfl⟩

theorem Demo.histN100 : ∃ h, HistP Clean Demo.n0 ((.establish 1 Demo.req100, .reply Demo.svcResp) :: h) Demo.n100 ∧
    attempts ((.establish 1 Demo.req100, .reply Demo.svcResp) :: h) = 1 := by
  obtain ⟨h, s2, hb⟩ := Demo.two99
  have s3 := HistP.snoc s2 (clean_establish (orderly_establish (a := 1) (r := Demo.req100) (by decide) (by decide +kernel) (by decide +kernel) (by decide +kernel))
    (by decide) (by decide) (by decide) Demo.req100_own) Demo.n100_step
  refine ⟨h, s3, ?_⟩
  show attempts h + 1 = 1
  rw [hb]

def Demo.far1 : AFar := AFar.told {} (Demo.into 1 0x200)
theorem Demo.n100_said (h : List (Ev × Outcome)) : said ((.establish 1 Demo.req100, .reply Demo.svcResp) :: h) 1 2 = some (ASession.established Demo.req100 []) := by
  simp [said, Demo.svcResp]
theorem Demo.n100_dl (h : List (Ev × Outcome)) : Said ((.establish 1 Demo.req100, .reply Demo.svcResp) :: h) 1 2 1
    ⟨.dl4 0x0A3C0001, 0, Sdf.parse Demo.cloud, 1, 1⟩ Demo.far1 ⟨0, 0, 0, 0, 9⟩ := ⟨_, Demo.n100_said h, rfl, rfl, rfl⟩
theorem Demo.n100_drop (h : List (Ev × Outcome)) : Said ((.establish 1 Demo.req100, .reply Demo.svcResp) :: h) 1 2 2
    ⟨.ul 0x101, 0, none, 4, 1⟩ ⟨1, 0, 0, 0, 0⟩ ⟨0, 0, 0, 0, 9⟩ := ⟨_, Demo.n100_said h, rfl, rfl, rfl⟩
theorem Demo.n100_n9 (h : List (Ev × Outcome)) : Said ((.establish 1 Demo.req100, .reply Demo.svcResp) :: h) 1 2 3
    ⟨.ul 0x102, 0, none, 1, 1⟩ Demo.far1 ⟨0, 0, 0, 0, 9⟩ := ⟨_, Demo.n100_said h, rfl, rfl, rfl⟩

/-- C100_unfit_partial: a packet from 8.8.8.8, not 1.1.1.1. -/
theorem Demo.cloud_unfit : ∃ sdf, Sdf.parse Demo.cloud = some sdf ∧ (downFlow4 DemoDp.down).sat (toKFilter sdf) = false := by
  have h1 : (Sdf.parse Demo.cloud).isSome = true := by decide +kernel
  have h2 : (Sdf.parse Demo.cloud).all (fun sdf => !(downFlow4 DemoDp.down).sat (toKFilter sdf)) = true := by decide +kernel
  obtain ⟨sdf, hs⟩ := Option.isSome_iff_exists.1 h1
  rw [hs] at h2
  exact ⟨sdf, hs, by simpa using h2⟩
example : ∃ s', runPacket DemoDp.env ⟨DemoDp.down, Demo.n100.dp, {}, {}⟩ = (s', .ok .pass) ∧ s'.frame = DemoDp.down := by
  obtain ⟨h, H, b⟩ := Demo.histN100
  have hs := Demo.n100_dl h
  obtain ⟨sdf, u1, u2⟩ := Demo.cloud_unfit
  have hf := Demo.down_for
  generalize Demo.n100 = n at H ⊢
  generalize DemoDp.down = f at hf u2 ⊢
  obtain ⟨s', h1, h2, -⟩ := C100_unfit_partial (fz := 4) (qz := 4) (uz := 4) (by decide) (by decide) (by decide) H (by rw [b]; decide) hs
    DemoDp.env ⟨f, n.dp, {}, {}⟩ rfl hf (by
      intro hh
      obtain ⟨fl, g1, g2⟩ := hh sdf u1
      cases g1
      rw [u2] at g2; cases g2)
  exact ⟨s', h1, h2⟩

/-- C100_stopped_partial -/
example : ∃ s', runPacket DemoDp.env ⟨DemoDp.upDropped, Demo.n100.dp, {}, {}⟩ = (s', .ok .drop) ∧ s'.frame = DemoDp.upDropped := by
  obtain ⟨h, H, b⟩ := Demo.histN100
  have hs := Demo.n100_drop h
  have hf : FrameFor DemoDp.env DemoDp.upDropped (.ul 0x101) := ⟨DemoDp.upDropped_gpdu, by decide⟩
  have hi : innerFlow DemoDp.upDropped ≠ none := by decide +kernel
  generalize Demo.n100 = n at H ⊢
  generalize DemoDp.upDropped = f at hf hi ⊢
  obtain ⟨s', h1, h2, -⟩ := C100_stopped_partial (fz := 4) (qz := 4) (uz := 4) (by decide) (by decide) (by decide) H (by rw [b]; decide) hs
    DemoDp.env ⟨f, n.dp, {}, {}⟩ rfl hf (by intro sdf h; cases h) (fun h => absurd h.forw (by unfold AFar.forwards; decide))
  exact ⟨s', h1, h2⟩

theorem Demo.n9_sent : (runPacket DemoDp.env ⟨DemoDp.upN9, Demo.n100.dp, {}, {}⟩).2 = .ok (.redirect 7) := by decide +kernel
/-- C100_retunnelled_partial -/
example : ∃ s', runPacket DemoDp.env ⟨DemoDp.upN9, Demo.n100.dp, {}, {}⟩ = (s', .ok (.redirect 7)) ∧
    IsRetunnelled 0x0A00090A Demo.far1.peer 0x200 DemoDp.upN9 s'.frame := by
  obtain ⟨h, H, b⟩ := Demo.histN100
  have hs := Demo.n100_n9 h
  have hn := Demo.n9_sent
  have hm := DemoDp.upN9_gpdu
  have ht : gtpTeid DemoDp.upN9 = 0x102 := by decide
  have hi : innerFlow DemoDp.upN9 ≠ none := by decide +kernel
  have ho : 34 ≤ l4Off DemoDp.upN9 := by decide
  have h9 : DemoDp.env.n9Ip = 0x0A00090A := by decide
  have hF : Demo.far1.teid = 0x200 := by decide
  have hl : Demo.far1.forwards ∧ Demo.far1.tunnels := ⟨by unfold AFar.forwards; decide, by unfold AFar.tunnels; decide⟩
  generalize Demo.far1 = F at hs hl hF ⊢
  generalize Demo.n100 = n at H hn ⊢
  generalize DemoDp.upN9 = f at hm ht hi ho hn ⊢
  have := C100_retunnelled_partial (fz := 4) (qz := 4) (uz := 4) (by decide) (by decide) (by decide) H (by rw [b]; decide) hs
    DemoDp.env ⟨f, n.dp, {}, {}⟩ rfl rfl hm ht (by intro sdf h; cases h) ⟨hl.1, by show (0 : U8) = 0; rfl, fun h => absurd rfl (h _)⟩ hl.2 ho (Prod.ext rfl hn) rfl
  rw [h9, hF] at this
  exact ⟨_, Prod.ext rfl hn, this⟩

end Eupf
