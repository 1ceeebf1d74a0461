import Verif.Props.OwnRules
import Verif.Props.ExactCases
/-
C99: concrete cases.
-/
namespace Eupf

theorem clean_other {n : Node} {e : Ev} (h1 : ∀ a r, e ≠ .establish a r) (h2 : ∀ a r o, e ≠ .modify a r o) (ho : Orderly n e) : Clean n e := by
  refine ⟨ho, ⟨?_, fun a r he => absurd he (h1 a r), fun a r o x he => absurd he (h2 a r o)⟩, ⟨fun a r he => absurd he (h1 a r), fun a r o x he => absurd he (h2 a r o)⟩⟩
  cases e <;> first | trivial | exact absurd rfl (h2 _ _ _)

theorem clean_establish {n : Node} {a : Addr} {r : EstReq} (ho : Orderly n (.establish a r))
    (h1 : (r.createFar.map (·.farId.getD 0)).Nodup) (h2 : (r.createQer.map (·.qerId)).Nodup) (h3 : r.createUrr.Nodup)
    (h4 : ∀ ie ∈ r.createPdr, (∃ i, ie.farId = some i ∧ ∃ c ∈ r.createFar, c.farId.getD 0 = i) ∧ ∃ i, ie.qerId = some i ∧ ∃ c ∈ r.createQer, c.qerId = some i) :
    Clean n (.establish a r) := by
  refine ⟨ho, ⟨trivial, ?_, fun a r o x he => (by cases he)⟩, ⟨?_, fun a r o x he => (by cases he)⟩⟩
  · intro a' r' he; cases he
    exact ⟨⟨h1, fun _ _ => by simp [Session.new], h2, fun _ _ _ _ => by simp [Session.new], h3, fun _ _ => by simp [Session.new]⟩, ho.answered⟩
  · intro a' r' he; cases he; exact h4

theorem clean_modify {n : Node} {a : Addr} {r : ModReq} {o : Orders} (ho : Orderly n (.modify a r o))
    (h : ∀ x, n.session? a r.seid = some x → RefsKnown r x ∧ NewIds r.createFar r.createQer r.createUrr x ∧ r.namesOwn x) : Clean n (.modify a r o) := by
  refine ⟨ho, ⟨fun x hx => (h x hx).1, fun a r he => (by cases he), ?_⟩, ⟨fun a r he => (by cases he), ?_⟩⟩
  · intro a' r' o' x he hx; cases he; exact (h x hx).2.1
  · intro a' r' o' x he hx; cases he; exact (h x hx).2.2

theorem Demo.two99 : ∃ h, HistP Clean Demo.n0 h Demo.nSvc0 ∧ attempts h = 0 := by
  have s1 := HistP.step (P := Clean) (n0 := Demo.n0) (.assocSetup 1 1 (some (some ())) (some (some ()))) .init (clean_other (by simp) (by simp)
    (orderly_other (by simp) (by simp) (by simp) (no73_of (by decide +kernel)) (by decide +kernel) (by decide +kernel))) (by decide +kernel)
  have s2 := HistP.step (.assocSetup 2 1 (some (some ())) (some (some ()))) s1 (clean_other (by simp) (by simp)
    (orderly_other (by simp) (by simp) (by simp) (no73_of (by decide +kernel)) (by decide +kernel) (by decide +kernel))) (by decide +kernel)
  exact ⟨_, s2, by simp [attempts]⟩

theorem Demo.svc_own : ∀ ie ∈ Demo.svc.createPdr, (∃ i, ie.farId = some i ∧ ∃ c ∈ Demo.svc.createFar, c.farId.getD 0 = i) ∧
    ∃ i, ie.qerId = some i ∧ ∃ c ∈ Demo.svc.createQer, c.qerId = some i := by
  intro ie hie
  simp only [Demo.svc, List.mem_cons, List.not_mem_nil, or_false] at hie
  rcases hie with rfl | rfl
  · exact ⟨⟨1, rfl, Demo.svc.createFar[0], by simp [Demo.svc], rfl⟩, 1, rfl, Demo.svc.createQer[0], by simp [Demo.svc], rfl⟩
  · exact ⟨⟨2, rfl, Demo.svc.createFar[1], by simp [Demo.svc], rfl⟩, 1, rfl, Demo.svc.createQer[0], by simp [Demo.svc], rfl⟩
theorem Demo.est_own : ∀ ie ∈ (Demo.est 200).createPdr, (∃ i, ie.farId = some i ∧ ∃ c ∈ (Demo.est 200).createFar, c.farId.getD 0 = i) ∧
    ∃ i, ie.qerId = some i ∧ ∃ c ∈ (Demo.est 200).createQer, c.qerId = some i := by
  intro ie hie
  simp only [Demo.est, List.mem_cons, List.not_mem_nil, or_false] at hie
  rcases hie with rfl | rfl
  · exact ⟨⟨1, rfl, Demo.fwd, by simp [Demo.est], rfl⟩, 1, rfl, (Demo.est 200).createQer[0], by simp [Demo.est], rfl⟩
  · exact ⟨⟨1, rfl, Demo.fwd, by simp [Demo.est], rfl⟩, 1, rfl, (Demo.est 200).createQer[0], by simp [Demo.est], rfl⟩

theorem Demo.svc2_rules : (Demo.nSvc2.session? 1 2).map (fun x => (x.pdrs.entries.map (fun q => (q.1, q.2.info.farId)), x.fars.entries.map (fun q => (q.1, q.2.gid)),
    x.qers.entries.map (fun q => (q.1, q.2.gid)))) = some ([(2, 1), (1, 0)], [(2, 1), (1, 0)], [(1, 0)]) := by decide +kernel

theorem Demo.mod98_own : ∀ x, Demo.nSvc2.session? 1 2 = some x →
    RefsKnown Demo.mod98 x ∧ NewIds Demo.mod98.createFar Demo.mod98.createQer Demo.mod98.createUrr x ∧ Demo.mod98.namesOwn x := by
  intro x hx
  have hp := Demo.svc2_rules
  rw [hx] at hp
  simp only [Option.map_some, Option.some.injEq, Prod.mk.injEq] at hp
  obtain ⟨hp, hf, hq⟩ := hp
  have pdr : ∀ i p, x.pdrs.get? i = some p → (i, p.info.farId) ∈ [((2 : U32), (1 : U32)), (1, 0)] := by
    intro i p h; rw [← hp]; exact List.mem_map.2 ⟨(i, p), (GoMap.mem_entries_iff _ _ _).2 h, rfl⟩
  have far : ∀ i f, x.fars.get? i = some f → (i, f.gid) ∈ [((2 : U32), (1 : U32)), (1, 0)] := by
    intro i p h; rw [← hf]; exact List.mem_map.2 ⟨(i, p), (GoMap.mem_entries_iff _ _ _).2 h, rfl⟩
  have hfar : ∀ i g, (i, g) ∈ [((2 : U32), (1 : U32)), (1, 0)] → (x.fars.get? i).isSome := by
    intro i g h; rw [← hf] at h
    obtain ⟨⟨j, f⟩, h1, h2⟩ := List.mem_map.1 h
    cases h2; rw [(GoMap.mem_entries_iff _ _ _).1 h1]; rfl
  have hqer : (x.qers.get? 1).isSome := by
    have h : ((1 : U32), (0 : U32)) ∈ List.map (fun q : U32 × SQer => (q.1, q.2.gid)) x.qers.entries := by rw [hq]; simp
    obtain ⟨⟨j, f⟩, h1, h2⟩ := List.mem_map.1 h
    simp only [Prod.mk.injEq] at h2
    obtain ⟨rfl, -⟩ := h2
    rw [(GoMap.mem_entries_iff _ _ _).1 h1]; rfl
  have h1s : Demo.mod98.farStays x 1 := ⟨.inl (hfar 1 0 (by simp)), by simp [Demo.mod98]⟩
  have h3s : Demo.mod98.farStays x 3 := ⟨.inr ⟨_, List.mem_singleton.2 rfl, rfl⟩, by simp [Demo.mod98]⟩
  have q1s : Demo.mod98.qerStays x 1 := ⟨.inl hqer, by simp [Demo.mod98]⟩
  refine ⟨⟨?_, ?_, by decide, ?_, ?_, by decide, ?_, ?_, by decide⟩, ⟨by decide, ?_, by decide, ?_, by decide, ?_⟩, ⟨?_, ?_, ?_, ?_⟩⟩
  · intro ie hie; simp [Demo.mod98] at hie
  · intro d hd
    simp only [Demo.mod98, List.mem_singleton] at hd
    subst hd
    exact .inl (hfar 2 1 (by simp))
  · intro ie hie; simp [Demo.mod98] at hie
  · intro i hi; simp [Demo.mod98] at hi
  · intro i hi; simp [Demo.mod98] at hi
  · intro i hi; simp [Demo.mod98] at hi
  · intro c hc
    simp only [Demo.mod98, List.mem_singleton] at hc
    subst hc
    show x.fars.get? 3 = none
    cases h : x.fars.get? 3 with
    | none => rfl
    | some f => exact absurd (far _ _ h) (by simp)
  · intro c hc; simp [Demo.mod98] at hc
  · intro i hi; simp [Demo.mod98] at hi
  · intro ie hie
    simp only [Demo.mod98, List.mem_singleton] at hie
    subst hie
    exact ⟨⟨1, rfl, h1s⟩, 1, rfl, q1s⟩
  · intro ie hie
    simp only [Demo.mod98, List.mem_singleton] at hie
    subst hie
    exact ⟨fun i hi => (by cases hi; exact h3s), fun i hi => (by cases hi; exact q1s)⟩
  · intro d hd f hff i p hpp he
    simp only [Demo.mod98, List.mem_singleton] at hd
    subst hd
    have e1 := far _ _ hff
    have e2 := pdr i p hpp
    simp at e1
    rw [he, e1] at e2
    simp at e2
    subst e2
    exact .inr ⟨_, List.mem_singleton.2 rfl, 2, rfl, rfl, rfl⟩
  · intro j hj; simp [Demo.mod98] at hj

theorem Demo.mod98_clean : Clean Demo.nSvc2 (.modify 1 Demo.mod98 default) := by
  have h := Demo.mod98_own
  have ho := Demo.mod98_ord
  generalize Demo.nSvc2 = n at h ho ⊢
  exact clean_modify ho h

/-- A clean history: two peers, two sessions, a modification that creates, updates and removes PDRs and moves a PDR from one FAR to another,
which replaces it; a deletion. -/
theorem Demo.hist99 : ∃ h, HistP Clean Demo.n0 h Demo.nEnd98 ∧ attempts h = 2 := by
  obtain ⟨h, s2, hb⟩ := Demo.two99
  have s3 := HistP.snoc s2 (clean_establish (orderly_establish (a := 1) (r := Demo.svc) (by decide) (by decide +kernel) (by decide +kernel) (by decide +kernel))
    (by decide) (by decide) (by decide) Demo.svc_own) Demo.svc_step
  have s4 := HistP.snoc s3 (clean_establish (orderly_establish (a := 2) (r := Demo.est 200) (by decide) (by decide +kernel) (by decide +kernel) (by decide +kernel))
    (by decide) (by decide) (by decide) Demo.est_own) Demo.est98_step
  have s5 := HistP.snoc s4 Demo.mod98_clean Demo.mod98_step
  have s6 := HistP.snoc s5 (clean_other (by simp) (by simp) Demo.del98_orderly) Demo.del98_step
  refine ⟨_, s6, ?_⟩
  show attempts h + 1 + 1 = 2
  rw [hb]

/-- C99 on it: PDR 2 uses a FAR of its session with the tunnel of FAR 3. -/
theorem Demo.rules98 : (Demo.nEnd98.session? 1 2).map (fun x => (x.pdrs.entries.map (fun q => (q.1, q.2.info.farId)), x.fars.entries.map (fun q => (q.1, q.2.gid, q.2.info.teid)))) =
    some ([(2, 3), (3, 0)], [(3, 3, 77), (1, 0, 0)]) := by decide +kernel
example : ∃ x p f, Demo.nEnd98.session? 1 2 = some x ∧ x.pdrs.get? 2 = some p ∧ Demo.nEnd98.dp.far.lookup p.info.farId = some f ∧ f.teid = 77 := by
  obtain ⟨h, H, b⟩ := Demo.hist99
  have hr := Demo.rules98
  generalize Demo.nEnd98 = n at H hr ⊢
  obtain ⟨x, hx, he⟩ := Option.map_eq_some_iff.1 hr
  simp only [Prod.mk.injEq] at he
  have hp : ((2 : U32), (3 : U32)) ∈ List.map (fun q : U32 × SPdr => (q.1, q.2.info.farId)) x.pdrs.entries := by rw [he.1]; simp
  obtain ⟨⟨i, p⟩, h1, h2⟩ := List.mem_map.1 hp
  simp only [Prod.mk.injEq] at h2
  obtain ⟨rfl, h2⟩ := h2
  have hpp := (GoMap.mem_entries_iff _ _ _).1 h1
  obtain ⟨j, f, k, q, g1, -, g3, -, g5, -⟩ := C99_own_rules_partial (fz := 4) (qz := 4) (uz := 4) (by decide) (by decide) (by decide) H hx hpp
  refine ⟨x, p, f.info, hx, hpp, g5, ?_⟩
  have : (j, f.gid, f.info.teid) ∈ List.map (fun q : U32 × SFar => (q.1, q.2.gid, q.2.info.teid)) x.fars.entries :=
    List.mem_map.2 ⟨(j, f), (GoMap.mem_entries_iff _ _ _).2 g1, rfl⟩
  rw [he.2, ← g3, h2] at this
  simp at this
  exact this.2

/-- C99_sent_partial on the G-PDU with TEID 0x301 -/
example : ∃ i x p f, Demo.nEnd98.session? 1 2 = some x ∧ x.pdrs.get? i = some p ∧ p.key = .ul 0x301 ∧ (∃ j, x.fars.get? j = some f) ∧ f.info.action.getLsbD 1 = true := by
  obtain ⟨h, H, b⟩ := Demo.hist99
  have h1 := Demo.up98_sent
  have hk := Demo.keys98
  have he : ¬ IsGtpMsg DemoDp.env Demo.up98 1 := by
    intro h; have := h.type; revert this; decide
  have h5 : IsGtpMsg DemoDp.env Demo.up98 255 := ⟨⟨⟨by decide, by decide⟩, by decide, by decide, by decide, by decide⟩, by decide, by decide⟩
  generalize Demo.nEnd98 = n at H h1 hk ⊢
  generalize Demo.up98 = f at he h1 h5
  obtain ⟨a, sd, x, i, p, j, fa, k, q, p1, p2, p3, -, p5, -, -, -, p9, -⟩ := C99_sent_partial (fz := 4) (qz := 4) (uz := 4) (by decide) (by decide) (by decide) H
    (by rw [b]; decide) DemoDp.env ⟨f, n.dp, {}, {}⟩ rfl (Prod.ext rfl h1) rfl he
  have := mem_keyList.2 ⟨p, ⟨x, p1, p2⟩, rfl⟩
  rw [hk] at this
  simp only [List.mem_cons, List.not_mem_nil, or_false, Prod.mk.injEq] at this
  rcases this with ⟨⟨rfl, rfl, rfl⟩, hkey⟩ | ⟨⟨rfl, rfl, rfl⟩, hkey⟩
  · rw [hkey] at p5
    exact absurd h5.gtpu p5.1.notGtpu
  · exact ⟨3, x, p, fa, p1, p2, hkey, ⟨j, p3⟩, p9⟩

/-! ### negations -/

/-- Peer 1 removes FAR 2 of its session, which PDR 2 uses. Then peer 2 establishes a session. -/
def Demo.dangle : ModReq := { seid := 2, seq := 8, removeFar := [some 2] }
def Demo.nDangle : Node := (Demo.nSvc.step (.modify 1 Demo.dangle default)).1
def Demo.nDangle2 : Node := (Demo.nDangle.step (.establish 2 (Demo.est 200))).1
theorem Demo.dangle_out : (Demo.nSvc.step (.modify 1 Demo.dangle default)).2 = .reply { type := .modification, seid := 100, seq := 8, cause := 1 } := by decide +kernel
theorem Demo.dangle_out2 : (Demo.nDangle.step (.establish 2 (Demo.est 200))).2 =
    .reply { type := .establishment, seid := 200, seq := 5, cause := 1, fseid := some 2, created := [.fteid 1 1 0x0a000001, .ueIp 2 0x0a2d0001] } := by decide +kernel
theorem Demo.dangle_sent : (runPacket DemoDp.env ⟨DemoDp.down, Demo.nDangle2.dp, {}, {}⟩).2 = .ok (.redirect 7) := by decide +kernel
theorem Demo.dangle_peer : be32 (runPacket DemoDp.env ⟨DemoDp.down, Demo.nDangle2.dp, {}, {}⟩).1.frame 30 = 0xc0a80001 := by decide +kernel
theorem Demo.dangle_teid : be32 (runPacket DemoDp.env ⟨DemoDp.down, Demo.nDangle2.dp, {}, {}⟩).1.frame 46 = 77 := by decide +kernel
theorem Demo.dangle_rules : (Demo.nDangle2.session? 1 2).map (fun x => (x.pdrs.entries.map (fun q => (q.1, q.2.key)), x.fars.entries.map (fun q => (q.1, q.2.gid, q.2.info.ohc)))) =
    some ([(2, .dl4 0x0A3C0001), (1, .ul 0x100)], [(1, 0, 0)]) := by decide +kernel

theorem Demo.two_acc : ∃ h, HistP (fun n e => e.refsKnown n) Demo.n0 h Demo.nSvc0 ∧ h.all (fun y => y.2.accepted) = true := by
  have s1 := HistP.step (P := fun n e => e.refsKnown n) (n0 := Demo.n0) (.assocSetup 1 1 (some (some ())) (some (some ()))) .init trivial (by decide +kernel)
  have s2 := HistP.step (.assocSetup 2 1 (some (some ())) (some (some ()))) s1 trivial (by decide +kernel)
  exact ⟨_, s2, by decide +kernel⟩

/-- **C99 is false if a FAR is removed that a PDR uses.** All requests are accepted. Session 2 of peer 1 has the UE address 10.60.0.1 and no
FAR that creates an outer header; downlink packets to this address are sent into the tunnel of the session that peer 2 established later. -/
theorem C99_dangling : ∃ h n x, HistP (fun n e => e.refsKnown n) Demo.n0 h n ∧ h.all (fun y => y.2.accepted) = true ∧ n.session? 1 2 = some x ∧
    (∀ j f, x.fars.get? j = some f → f.info.ohc = 0) ∧ (∃ p, x.pdrs.get? 2 = some p ∧ p.key = .dl4 0x0A3C0001) ∧
    FrameFor DemoDp.env DemoDp.down (.dl4 0x0A3C0001) ∧
    (runPacket DemoDp.env ⟨DemoDp.down, n.dp, {}, {}⟩).2 = .ok (.redirect 7) ∧
    be32 (runPacket DemoDp.env ⟨DemoDp.down, n.dp, {}, {}⟩).1.frame 30 = 0xc0a80001 ∧
    be32 (runPacket DemoDp.env ⟨DemoDp.down, n.dp, {}, {}⟩).1.frame 46 = 77 := by
  have hacc : ∀ h, HistP (fun n e => e.refsKnown n) Demo.n0 h Demo.nSvc0 → h.all (fun y => y.2.accepted) = true →
      ∃ h', HistP (fun n e => e.refsKnown n) Demo.n0 h' Demo.nDangle2 ∧ h'.all (fun y => y.2.accepted) = true := by
    intro h H ha
    have s3 := HistP.snoc H (by trivial : (Ev.establish 1 Demo.svc).refsKnown Demo.nSvc0) Demo.svc_step
    have hk : (Ev.modify 1 Demo.dangle default).refsKnown Demo.nSvc := by
      intro x hx
      have hx' : Demo.nSvc.session? 1 2 = some x := hx
      have hf : (Demo.nSvc.session? 1 2).map (fun x => (x.fars.get? 2).isSome) = some true := by decide +kernel
      rw [hx'] at hf
      simp only [Option.map_some, Option.some.injEq] at hf
      refine ⟨?_, ?_, by decide, ?_, ?_, by decide, ?_, ?_, by decide⟩
      · intro ie hie; simp [Demo.dangle] at hie
      · intro d hd
        simp only [Demo.dangle, List.mem_singleton] at hd
        subst hd
        exact .inl hf
      · intro ie hie; simp [Demo.dangle] at hie
      · intro ie hie; simp [Demo.dangle] at hie
      · intro ie hie; simp [Demo.dangle] at hie
      · intro ie hie; simp [Demo.dangle] at hie
    have st1 : Demo.nSvc.step (.modify 1 Demo.dangle default) = (Demo.nDangle, .reply { type := .modification, seid := 100, seq := 8, cause := 1 }) :=
      Prod.ext (by simp only [Demo.nDangle]) Demo.dangle_out
    have s4 := HistP.snoc s3 hk st1
    have st2 : Demo.nDangle.step (.establish 2 (Demo.est 200)) = (Demo.nDangle2,
        .reply { type := .establishment, seid := 200, seq := 5, cause := 1, fseid := some 2, created := [.fteid 1 1 0x0a000001, .ueIp 2 0x0a2d0001] }) :=
      Prod.ext (by simp only [Demo.nDangle2]) Demo.dangle_out2
    have s5 := HistP.snoc s4 (by trivial : (Ev.establish 2 (Demo.est 200)).refsKnown Demo.nDangle) st2
    refine ⟨_, s5, ?_⟩
    simp only [List.all_cons, ha]
    rfl
  obtain ⟨h0, H0, a0⟩ := Demo.two_acc
  obtain ⟨h, H, ha⟩ := hacc h0 H0 a0
  have hr := Demo.dangle_rules
  have hs := Demo.dangle_sent
  have hp := Demo.dangle_peer
  have ht := Demo.dangle_teid
  generalize Demo.nDangle2 = n at H hr hs hp ht
  obtain ⟨x, hx, he⟩ := Option.map_eq_some_iff.1 hr
  simp only [Prod.mk.injEq] at he
  refine ⟨h, n, x, H, ha, hx, ?_, ?_, ?_, hs, hp, ht⟩
  · intro j f hf
    have : (j, f.gid, f.info.ohc) ∈ List.map (fun q : U32 × SFar => (q.1, q.2.gid, q.2.info.ohc)) x.fars.entries :=
      List.mem_map.2 ⟨(j, f), (GoMap.mem_entries_iff _ _ _).2 hf, rfl⟩
    rw [he.2] at this
    simp at this
    exact this.2.2
  · have : ((2 : U32), PdrKey.dl4 0x0A3C0001) ∈ List.map (fun q : U32 × SPdr => (q.1, q.2.key)) x.pdrs.entries := by rw [he.1]; simp
    obtain ⟨⟨i, p⟩, h1, h2⟩ := List.mem_map.1 this
    simp only [Prod.mk.injEq] at h2
    obtain ⟨rfl, h2⟩ := h2
    exact ⟨p, (GoMap.mem_entries_iff _ _ _).1 h1, h2⟩
  · exact ⟨DemoDp.down_down4, by decide⟩

/-- Peer 2 establishes a session with a FAR that drops, and a PDR that names a FAR the session does not have. -/
def Demo.astray : EstReq :=
  { seq := 5, nodeId := some (some ()), cpFseid := some (some 200), createFar := [{ kind := .create, farId := some 1, applyAction := some [1] }],
    createQer := [{ qerId := some 1 }],
    createPdr := [{ pdrId := some 1, farId := some 9, qerId := some 1, ohr := some 0, pdi := some { fteid := some (some ⟨77, false, none⟩) } }] }
def Demo.nAstray : Node := (Demo.nSvc.step (.establish 2 Demo.astray)).1
theorem Demo.astray_out : (Demo.nSvc.step (.establish 2 Demo.astray)).2 = .reply { type := .establishment, seid := 200, seq := 5, cause := 1, fseid := some 2 } := by decide +kernel
theorem Demo.astray_sent : (runPacket DemoDp.env ⟨Demo.upBad, Demo.nAstray.dp, {}, {}⟩).2 = .ok (.redirect 7) := by decide +kernel
theorem Demo.astray_rules : (Demo.nAstray.session? 2 2).map (fun x => (x.pdrs.entries.map (fun q => (q.1, q.2.key)), x.fars.entries.map (fun q => (q.1, q.2.info.action)))) =
    some ([(1, .ul 77)], [(1, 1)]) := by decide +kernel

/-- **C99 is false if a PDR names a FAR that its session does not have.** The establishment is accepted; the only FAR of the session drops,
and packets with its TEID are forwarded, by a FAR of another peer's session. -/
theorem C99_unknown_far : ∃ x, Demo.nAstray.session? 2 2 = some x ∧ (Demo.nSvc.step (.establish 2 Demo.astray)).2.accepted = true ∧
    (∀ j f, x.fars.get? j = some f → f.info.action = 1) ∧ (∃ p, x.pdrs.get? 1 = some p ∧ p.key = .ul 77) ∧ FrameFor DemoDp.env Demo.upBad (.ul 77) ∧
    (runPacket DemoDp.env ⟨Demo.upBad, Demo.nAstray.dp, {}, {}⟩).2 = .ok (.redirect 7) := by
  obtain ⟨x, hx, he⟩ := Option.map_eq_some_iff.1 Demo.astray_rules
  simp only [Prod.mk.injEq] at he
  refine ⟨x, hx, by rw [Demo.astray_out]; rfl, ?_, ?_, ⟨⟨⟨⟨by decide, by decide⟩, by decide, by decide, by decide, by decide⟩, by decide, by decide⟩, by decide⟩, Demo.astray_sent⟩
  · intro j f hf
    have : (j, f.info.action) ∈ List.map (fun q : U32 × SFar => (q.1, q.2.info.action)) x.fars.entries :=
      List.mem_map.2 ⟨(j, f), (GoMap.mem_entries_iff _ _ _).2 hf, rfl⟩
    rw [he.2] at this
    simp at this
    exact this.2
  · have : ((1 : U32), PdrKey.ul 77) ∈ List.map (fun q : U32 × SPdr => (q.1, q.2.key)) x.pdrs.entries := by rw [he.1]; simp
    obtain ⟨⟨i, p⟩, h1, h2⟩ := List.mem_map.1 this
    simp only [Prod.mk.injEq] at h2
    obtain ⟨rfl, h2⟩ := h2
    exact ⟨p, (GoMap.mem_entries_iff _ _ _).1 h1, h2⟩

end Eupf
