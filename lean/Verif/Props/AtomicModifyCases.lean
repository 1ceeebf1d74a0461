import Verif.Props.AtomicModify
import Verif.Props.AtomicCases
/-
C111, C112: concrete cases.
-/
namespace Eupf

/-- The modification consists of Update IEs for FARs, QERs and PDRs. -/
structure ModReq.pureUpdate (r : ModReq) : Prop where
  f1 : r.createFar = []
  f2 : r.removeFar = []
  q1 : r.createQer = []
  q2 : r.removeQer = []
  u1 : r.createUrr = []
  u2 : r.updateUrr = []
  u3 : r.removeUrr = []
  p1 : r.createPdr = []
  p2 : r.removePdr = []

theorem clean_updates {n : Node} {a : Addr} {r : ModReq} {o : Orders} (hp : r.pureUpdate)
    (h : ∀ x, n.session? a r.seid = some x → (∀ ie ∈ r.updateFar, ∀ i, ie.farId = some i → (x.fars.get? i).isSome) ∧
      (∀ ie ∈ r.updateQer, ∀ i, ie.qerId = some i → (x.qers.get? i).isSome) ∧
      ∀ ie ∈ r.updatePdr, (∃ i p, ie.pdrId = some i ∧ x.pdrs.get? (i.zeroExtend 32) = some p ∧ ie.keepsKey p.key ∧ p.info.sdf = none ∧
        (ie.sdf = none ∨ ie.sdf = some [])) ∧ (∀ i, ie.farId = some i → (x.fars.get? i).isSome) ∧ ∀ i, ie.qerId = some i → (x.qers.get? i).isSome)
    (h4 : (n.step (.modify a r o)).2.no73 = true)
    (h5 : ((n.step (.modify a r o)).1.keyList.all fun x => (n.keyList.any fun y => y.1 == x.1) || n.keyList.all fun y => y.2 != x.2) = true)
    (h6 : ((n.step (.modify a r o)).1.keyList.all fun x => (n.step (.modify a r o)).1.keyList.all fun y =>
      (x.1 == y.1 || x.2 != y.2) && !(x.1.1 == y.1.1 && x.1.2.1 == y.1.2.1 && x.2.clash y.2)) = true) : Clean n (.modify a r o) := by
  obtain ⟨f1, f2, q1, q2, u1, u2, u3, p1, p2⟩ := hp
  refine clean_modify (orderly_modify (fun x hx => ?_) h4 h5 h6) fun x hx => ?_
  · obtain ⟨-, -, k3⟩ := h x hx
    exact ⟨by rw [p1]; simp, by rw [p1]; simp, by rw [p1]; simp, fun ie hie => (k3 ie hie).1, fun hne => absurd p2 hne⟩
  · obtain ⟨k1, k2, k3⟩ := h x hx
    refine ⟨⟨fun ie hie i hi => .inl (k1 ie hie i hi), by rw [f2]; simp, by rw [f2]; simp, fun ie hie i hi => .inl (k2 ie hie i hi), by rw [q2]; simp, by rw [q2]; simp,
      by rw [u2]; simp, by rw [u3]; simp, by rw [u3]; simp⟩, ⟨by rw [f1]; simp, by rw [f1]; simp, by rw [q1]; simp, by rw [q1]; simp, by rw [u1]; simp, by rw [u1]; simp⟩,
      ⟨by rw [p1]; simp, fun ie hie => ⟨fun i hi => ⟨.inl ((k3 ie hie).2.1 i hi), by rw [f2]; simp⟩, fun i hi => ⟨.inl ((k3 ie hie).2.2 i hi), by rw [q2]; simp⟩⟩,
        by rw [f2]; simp, by rw [q2]; simp⟩⟩

/-- In the session of `Demo.svc`: FAR 1, which PDR 1 uses, no longer forwards, and PDR 2 gets FAR 1 instead of FAR 2. -/
def Demo.mod112 : ModReq :=
  { seid := 2, seq := 8, updateFar := [{ kind := .update, farId := some 1, applyAction := some [1] }],
    updatePdr := [{ pdrId := some 2, farId := some 1, pdi := some {} }] }

theorem Demo.svc2_all : (Demo.nSvc2.session? 1 2).map (fun x => (x.pdrs.entries.map (fun q => (q.1, q.2.key, q.2.info)), x.fars.entries.map (fun q => (q.1, q.2.gid)),
    x.qers.entries.map (fun q => (q.1, q.2.gid)))) = some ([(2, .dl4 0x0A3C0001, { ohr := 0, farId := 1, qerId := 0, urr1 := 0, urr2 := 0 }),
      (1, .ul 0x100, { ohr := 0, farId := 0, qerId := 0, urr1 := 0, urr2 := 0 })], [(2, 1), (1, 0)], [(1, 0)]) := by decide +kernel

theorem Demo.mod112_clean : Clean Demo.nSvc2 (.modify 1 Demo.mod112 default) := by
  have h1 : (Demo.nSvc2.step (.modify 1 Demo.mod112 default)).2.no73 = true := by decide +kernel
  have h2 : ((Demo.nSvc2.step (.modify 1 Demo.mod112 default)).1.keyList.all fun x => (Demo.nSvc2.keyList.any fun y => y.1 == x.1) ||
    Demo.nSvc2.keyList.all fun y => y.2 != x.2) = true := by decide +kernel
  have h3 : ((Demo.nSvc2.step (.modify 1 Demo.mod112 default)).1.keyList.all fun x => (Demo.nSvc2.step (.modify 1 Demo.mod112 default)).1.keyList.all fun y =>
      (x.1 == y.1 || x.2 != y.2) && !(x.1.1 == y.1.1 && x.1.2.1 == y.1.2.1 && x.2.clash y.2)) = true := by decide +kernel
  have hall := Demo.svc2_all
  have hse : Demo.mod112.seid = 2 := rfl
  generalize Demo.nSvc2 = n at h1 h2 h3 hall ⊢
  refine clean_updates (by constructor <;> rfl) ?_ h1 h2 h3
  intro x hx
  rw [hse] at hx
  rw [hx] at hall
  simp only [Option.map_some, Option.some.injEq, Prod.mk.injEq] at hall
  obtain ⟨hp, hf, hq⟩ := hall
  have far1 : (x.fars.get? 1).isSome := by
    have h : ((1 : U32), (0 : U32)) ∈ List.map (fun q : U32 × SFar => (q.1, q.2.gid)) x.fars.entries := by rw [hf]; simp
    obtain ⟨⟨j, f⟩, h1, h2⟩ := List.mem_map.1 h
    simp only [Prod.mk.injEq] at h2
    obtain ⟨rfl, -⟩ := h2
    rw [(GoMap.mem_entries_iff _ _ _).1 h1]; rfl
  refine ⟨?_, ?_, ?_⟩
  · intro ie hie i hi
    simp only [Demo.mod112, List.mem_singleton] at hie
    subst hie; cases hi; exact far1
  · intro ie hie; simp [Demo.mod112] at hie
  · intro ie hie
    simp only [Demo.mod112, List.mem_singleton] at hie
    subst hie
    refine ⟨?_, fun i hi => (by cases hi; exact far1), fun i hi => (by cases hi)⟩
    have : ((2 : U32), PdrKey.dl4 0x0A3C0001, ({ ohr := 0, farId := 1, qerId := 0, urr1 := 0, urr2 := 0 } : PdrInfo)) ∈
        List.map (fun q : U32 × SPdr => (q.1, q.2.key, q.2.info)) x.pdrs.entries := by rw [hp]; simp
    obtain ⟨⟨j, p⟩, hq, he⟩ := List.mem_map.1 this
    simp only [Prod.mk.injEq] at he
    obtain ⟨rfl, -, hs⟩ := he
    exact ⟨2, p, rfl, (GoMap.mem_entries_iff _ _ _).1 hq, .inl ⟨_, rfl, rfl, rfl⟩, by rw [hs], .inl rfl⟩

theorem Demo.mod112_calm : (Demo.nSvc2.step (.modify 1 Demo.mod112 default)).2 ≠ .crash := by
  have : (Demo.nSvc2.step (.modify 1 Demo.mod112 default)).2 = .reply { type := .modification, seid := 100, seq := 8, cause := 1 } := by decide +kernel
  rw [this]; intro h; cases h

/-- what the modification leaves of PDR 1, FAR 2 and QER 1: what was there -/
theorem Demo.mod112_one : (do
    let x ← Demo.nSvc2.session? 1 2
    let y ← (Demo.nSvc2.step (.modify 1 Demo.mod112 default)).1.session? 1 2
    pure (decide (y.pdrs.get? 1 = x.pdrs.get? 1 ∧ y.fars.get? 2 = x.fars.get? 2 ∧ y.qers.get? 1 = x.qers.get? 1))) = some true := by decide +kernel

theorem Demo.mod112_changes (n : Node) (hn : n = Demo.nSvc2) : ∀ x y i, n.session? 1 Demo.mod112.seid = some x →
    (n.step (.modify 1 Demo.mod112 default)).1.session? 1 Demo.mod112.seid = some y → x.changesOne y i := by
  have h1 := Demo.mod112_one
  have h2 := Demo.svc2_all
  have hse : Demo.mod112.seid = 2 := rfl
  rw [← hn] at h1 h2
  clear hn
  intro x y i hx hy p j f k q hp hf hg hq hgq
  rw [hse] at hx hy
  rw [hx] at h2
  rw [hx, hy] at h1
  simp only [Option.map_some, Option.some.injEq, Prod.mk.injEq] at h2
  have h1' : decide (y.pdrs.get? 1 = x.pdrs.get? 1 ∧ y.fars.get? 2 = x.fars.get? 2 ∧ y.qers.get? 1 = x.qers.get? 1) = true := Option.some.inj h1
  obtain ⟨g1, g2, g3⟩ := of_decide_eq_true h1'
  obtain ⟨ep, ef, eq⟩ := h2
  have mp : (i, p.key, p.info) ∈ List.map (fun q : U32 × SPdr => (q.1, q.2.key, q.2.info)) x.pdrs.entries := List.mem_map.2 ⟨(i, p), (GoMap.mem_entries_iff _ _ _).2 hp, rfl⟩
  have mf : (j, f.gid) ∈ List.map (fun q : U32 × SFar => (q.1, q.2.gid)) x.fars.entries := List.mem_map.2 ⟨(j, f), (GoMap.mem_entries_iff _ _ _).2 hf, rfl⟩
  have mq : (k, q.gid) ∈ List.map (fun q : U32 × SQer => (q.1, q.2.gid)) x.qers.entries := List.mem_map.2 ⟨(k, q), (GoMap.mem_entries_iff _ _ _).2 hq, rfl⟩
  rw [ep] at mp; rw [ef] at mf; rw [eq] at mq
  simp only [List.mem_cons, List.not_mem_nil, or_false, Prod.mk.injEq] at mp mf mq
  obtain ⟨rfl, -⟩ := mq
  rcases mp with ⟨rfl, -, hi⟩ | ⟨rfl, -, hi⟩
  · rw [hi] at hg
    rcases mf with ⟨rfl, hj⟩ | ⟨rfl, hj⟩
    · exact .inr (.inr ⟨g2.trans hf, g3.trans hq⟩)
    · rw [hj] at hg; exact absurd hg (by decide)
  · exact .inr (.inl ⟨g1.trans hp, g3.trans hq⟩)

/-- C112_modify_partial, during this modification, in which an Update FAR is followed by an Update PDR: the one is for the uplink, the other for the downlink. -/
example (n : Node) (hn : n = Demo.nSvc2) (f : List U8) (hf : f = DemoDp.up ∨ f = DemoDp.down) (b : BpfObjects) (hm : n.moment (.modify 1 Demo.mod112 default) b) :
    SameFate DemoDp.env f b (n.dp.timedAs b) ∨ SameFate DemoDp.env f b ((n.step (.modify 1 Demo.mod112 default)).1.dp.timedAs b) := by
  obtain ⟨h, H, hb⟩ := Demo.svc2_hist
  have h1 := Demo.mod112_clean
  have h2 := Demo.mod112_calm
  have h3 := Demo.mod112_changes n hn
  have hp : ¬ PingsUpf DemoDp.env f := by
    rcases hf with rfl | rfl
    · exact Demo.up_noping
    · exact Demo.down_noping
  clear hf
  rw [← hn] at H h1 h2
  clear hn
  generalize DemoDp.env = e at hp ⊢
  exact C112_modify_partial (fz := 4) (qz := 4) (uz := 4) (by decide) (by decide) (by decide) (C106_as_a_whole H) h1 h2 (by rw [hb]; decide) ⟨rfl, rfl, rfl⟩
    ⟨by decide, by decide, by decide⟩ hm hp fun x y i p hx hy _ _ => h3 x y i hx hy
/-- A moment of this modification when the uplink is already as after it and the downlink still as before it. -/
theorem Demo.mid112 : Demo.nSvc2.fateAfter (.modify 1 Demo.mod112 default) 2 DemoDp.up = some (.ok .drop) ∧
    Demo.nSvc2.fateAfter (.modify 1 Demo.mod112 default) 2 DemoDp.down = some (.ok (.redirect 7)) ∧
    Demo.nSvc2.fateAfter (.modify 1 Demo.mod112 default) 3 DemoDp.down = some (.ok .drop) := by decide +kernel

/-- C111 and the one-kind theorem of C112 during a modification that switches FAR 2 off. -/
def Demo.off112 : ModReq := { seid := 2, seq := 8, updateFar := [{ kind := .update, farId := some 2, applyAction := some [1] }] }
theorem Demo.off112_clean : Clean Demo.nSvc2 (.modify 1 Demo.off112 default) := by
  have h1 : (Demo.nSvc2.step (.modify 1 Demo.off112 default)).2.no73 = true := by decide +kernel
  have h2 : ((Demo.nSvc2.step (.modify 1 Demo.off112 default)).1.keyList.all fun x => (Demo.nSvc2.keyList.any fun y => y.1 == x.1) ||
    Demo.nSvc2.keyList.all fun y => y.2 != x.2) = true := by decide +kernel
  have h3 : ((Demo.nSvc2.step (.modify 1 Demo.off112 default)).1.keyList.all fun x => (Demo.nSvc2.step (.modify 1 Demo.off112 default)).1.keyList.all fun y =>
      (x.1 == y.1 || x.2 != y.2) && !(x.1.1 == y.1.1 && x.1.2.1 == y.1.2.1 && x.2.clash y.2)) = true := by decide +kernel
  have hall : (Demo.nSvc2.session? 1 2).map (fun x => (x.fars.get? 2).isSome) = some true := by decide +kernel
  have hse : Demo.off112.seid = 2 := rfl
  generalize Demo.nSvc2 = n at h1 h2 h3 hall ⊢
  refine clean_updates (by constructor <;> rfl) ?_ h1 h2 h3
  intro x hx
  rw [hse] at hx
  rw [hx] at hall
  refine ⟨?_, by intro ie hie; simp [Demo.off112] at hie, by intro ie hie; simp [Demo.off112] at hie⟩
  intro ie hie i hi
  simp only [Demo.off112, List.mem_singleton] at hie
  subst hie; cases hi; exact Option.some.inj hall
theorem Demo.off112_calm : (Demo.nSvc2.step (.modify 1 Demo.off112 default)).2 ≠ .crash := by
  have : (Demo.nSvc2.step (.modify 1 Demo.off112 default)).2 = .reply { type := .modification, seid := 100, seq := 8, cause := 1 } := by decide +kernel
  rw [this]; intro h; cases h
example (n : Node) (hn : n = Demo.nSvc2) (f : List U8) (hf : f = DemoDp.up ∨ f = DemoDp.down) (b : BpfObjects) (hm : n.moment (.modify 1 Demo.off112 default) b) :
    SameFate DemoDp.env f b (n.dp.timedAs b) ∨ SameFate DemoDp.env f b ((n.step (.modify 1 Demo.off112 default)).1.dp.timedAs b) := by
  obtain ⟨h, H, hb⟩ := Demo.svc2_hist
  have h1 := Demo.off112_clean
  have h2 := Demo.off112_calm
  have hp : ¬ PingsUpf DemoDp.env f := by
    rcases hf with rfl | rfl
    · exact Demo.up_noping
    · exact Demo.down_noping
  clear hf
  rw [← hn] at H h1 h2
  clear hn
  generalize DemoDp.env = e at hp ⊢
  exact C112_one_kind_partial (fz := 4) (qz := 4) (uz := 4) (by decide) (by decide) (by decide) (C106_as_a_whole H) h1 h2 (by rw [hb]; decide) ⟨rfl, rfl, rfl⟩
    ⟨by decide, by decide, by decide⟩ (.inl ⟨rfl, rfl⟩) hm hp

/-- C111_establish and C111_modify_partial: the establishment of `Demo.svc`, and the modification `Demo.mod112`. -/
example (n : Node) (hn : n = Demo.nSvc0) (b : BpfObjects) (hm : n.moment (.establish 1 Demo.svc) b) :
    ∃ r', r'.Cut Demo.svc ∧ Clean n (.establish 1 r') ∧ (n.step (.establish 1 r')).2 ≠ .crash ∧ TrafficEffect (n.step (.establish 1 r')).1.dp b := by
  have h1 := Demo.svc_clean
  have h2 := Demo.svc_calm
  rw [← hn] at h1 h2
  exact C111_establish h1 h2 hm
example (n : Node) (hn : n = Demo.nSvc2) (b : BpfObjects) (hm : n.moment (.modify 1 Demo.mod112 default) b) :
    ∃ r', r'.Cut Demo.mod112 ∧ Clean n (.modify 1 r' default) ∧ (n.step (.modify 1 r' default)).2 ≠ .crash ∧ TrafficEffect (n.step (.modify 1 r' default)).1.dp b := by
  have h1 := Demo.mod112_clean
  have h2 := Demo.mod112_calm
  rw [← hn] at h1 h2
  exact C111_modify_partial h1 h2 ⟨rfl, rfl, rfl⟩ hm
/-- C111_history_partial. -/
example (n : Node) (hn : n = Demo.nSvc2) (b : BpfObjects) (hm : n.moment (.modify 1 Demo.mod112 default) b) :
    ∃ h e, HistP Clean Demo.n0 h { (n.step e).1 with dp := b } := by
  obtain ⟨h, H, hb⟩ := Demo.svc2_hist
  have h1 := Demo.mod112_clean
  have h2 := Demo.mod112_calm
  rw [← hn] at h1 h2 H
  obtain ⟨h', e', -, -, H'⟩ := C111_history_partial (C106_as_a_whole H) h1 h2 (.inr ⟨_, _, _, rfl, rfl, rfl, rfl⟩) hm
  exact ⟨_, e', H'⟩

/-! ### two changes are seen one after the other -/

/-- as `Demo.svc`, but FAR 2 does not forward yet -/
def Demo.svc112 : EstReq := { Demo.svc with
  createFar := [{ kind := .create, farId := some 1, applyAction := some [2] },
                { kind := .create, farId := some 2, applyAction := some [1], forward := some (some (some ⟨0x0100, 0x200, some 0x0A000314, false⟩)), tlm := some 0x1CFF }] }
def Demo.n112 : Node := (Demo.nSvc0.step (.establish 1 Demo.svc112)).1
/-- FAR 2 forwards from now on, but the downlink gate of QER 1 is closed -/
def Demo.two112 : ModReq :=
  { seid := 2, seq := 8, updateFar := [{ kind := .update, farId := some 2, applyAction := some [2] }],
    updateQer := [{ qerId := some 1, gateDL := some 1 }] }

theorem Demo.svc112_own : ∀ ie ∈ Demo.svc112.createPdr, (∃ i, ie.farId = some i ∧ ∃ c ∈ Demo.svc112.createFar, c.farId.getD 0 = i) ∧
    ∃ i, ie.qerId = some i ∧ ∃ c ∈ Demo.svc112.createQer, c.qerId = some i := by
  intro ie hie
  simp only [Demo.svc112, Demo.svc, List.mem_cons, List.not_mem_nil, or_false] at hie
  rcases hie with rfl | rfl
  · exact ⟨⟨1, rfl, Demo.svc112.createFar[0], by simp [Demo.svc112], rfl⟩, 1, rfl, Demo.svc112.createQer[0], by simp [Demo.svc112, Demo.svc], rfl⟩
  · exact ⟨⟨2, rfl, Demo.svc112.createFar[1], by simp [Demo.svc112], rfl⟩, 1, rfl, Demo.svc112.createQer[0], by simp [Demo.svc112, Demo.svc], rfl⟩

theorem Demo.svc112_step : Demo.nSvc0.step (.establish 1 Demo.svc112) = (Demo.n112, .reply Demo.svcResp) := by
  have : (Demo.nSvc0.step (.establish 1 Demo.svc112)).2 = .reply Demo.svcResp := by decide +kernel
  exact Prod.ext (by simp only [Demo.n112]) this

theorem Demo.hist112 : ∃ h, HistP Clean Demo.n0 h Demo.n112 := by
  obtain ⟨h, s2, hb⟩ := Demo.two99
  have s3 := HistP.snoc s2 (clean_establish (orderly_establish (a := 1) (r := Demo.svc112) (by decide) (by decide +kernel) (by decide +kernel) (by decide +kernel))
    (by decide) (by decide) (by decide) Demo.svc112_own) Demo.svc112_step
  exact ⟨_, s3⟩

theorem Demo.two112_clean : Clean Demo.n112 (.modify 1 Demo.two112 default) := by
  have h1 : (Demo.n112.step (.modify 1 Demo.two112 default)).2.no73 = true := by decide +kernel
  have h2 : ((Demo.n112.step (.modify 1 Demo.two112 default)).1.keyList.all fun x => (Demo.n112.keyList.any fun y => y.1 == x.1) ||
    Demo.n112.keyList.all fun y => y.2 != x.2) = true := by decide +kernel
  have h3 : ((Demo.n112.step (.modify 1 Demo.two112 default)).1.keyList.all fun x => (Demo.n112.step (.modify 1 Demo.two112 default)).1.keyList.all fun y =>
      (x.1 == y.1 || x.2 != y.2) && !(x.1.1 == y.1.1 && x.1.2.1 == y.1.2.1 && x.2.clash y.2)) = true := by decide +kernel
  have hall : (Demo.n112.session? 1 2).map (fun x => ((x.fars.get? 2).isSome, (x.qers.get? 1).isSome)) = some (true, true) := by decide +kernel
  have hse : Demo.two112.seid = 2 := rfl
  generalize Demo.n112 = n at h1 h2 h3 hall ⊢
  refine clean_updates (by constructor <;> rfl) ?_ h1 h2 h3
  intro x hx
  rw [hse] at hx
  rw [hx] at hall
  simp only [Option.map_some, Option.some.injEq, Prod.mk.injEq] at hall
  refine ⟨?_, ?_, by intro ie hie; simp [Demo.two112] at hie⟩
  · intro ie hie i hi
    simp only [Demo.two112, List.mem_singleton] at hie
    subst hie; cases hi; exact hall.1
  · intro ie hie i hi
    simp only [Demo.two112, List.mem_singleton] at hie
    subst hie; cases hi; exact hall.2

theorem Demo.two112_mid : Demo.n112.fateAfter (.modify 1 Demo.two112 default) 1 DemoDp.down = some (.ok (.redirect 7)) ∧
    (runPacket DemoDp.env ⟨DemoDp.down, Demo.n112.dp, {}, {}⟩).2 = .ok .drop ∧
    (runPacket DemoDp.env ⟨DemoDp.down, (Demo.n112.step (.modify 1 Demo.two112 default)).1.dp, {}, {}⟩).2 = .ok .drop := by decide +kernel

/-- **C112: two changes about the same packet are not seen at once.** After a clean history a clean modification switches the FAR of a PDR to "forward" and closes the
gate of its QER. A packet for this PDR is dropped before the modification and after it, but forwarded at a moment in the middle of it. -/
theorem C112_two_changes : ∃ h n r b, HistP Clean Demo.n0 h n ∧ Clean n (.modify 1 r default) ∧ r.onlyAdds ∧ r.updatesOnce ∧ n.moment (.modify 1 r default) b ∧
    (runPacket DemoDp.env ⟨DemoDp.down, n.dp, {}, {}⟩).2 = .ok .drop ∧
    (runPacket DemoDp.env ⟨DemoDp.down, b, {}, {}⟩).2 = .ok (.redirect 7) ∧
    (runPacket DemoDp.env ⟨DemoDp.down, (n.step (.modify 1 r default)).1.dp, {}, {}⟩).2 = .ok .drop := by
  obtain ⟨h, H⟩ := Demo.hist112
  have hc := Demo.two112_clean
  obtain ⟨h1, h2, h3⟩ := Demo.two112_mid
  generalize Demo.n112 = n at H hc h1 h2 h3
  obtain ⟨b, hm, hd⟩ := Node.fateAfter_moment h1
  generalize DemoDp.down = f at hd h2 h3 ⊢
  generalize DemoDp.env = e at hd h2 h3 ⊢
  exact ⟨h, n, Demo.two112, b, H, hc, ⟨rfl, rfl, rfl⟩, ⟨by decide, by decide, by decide⟩, hm, h2, hd, h3⟩

end Eupf
