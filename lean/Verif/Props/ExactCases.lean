import Verif.Props.ExactPackets
import Verif.Props.GoneCases
/-
C98: concrete cases.
-/
namespace Eupf

/-- an event of an association, or a configuration change -/
theorem orderly_other {n : Node} {e : Ev} (h1 : ∀ a r, e ≠ .establish a r) (h2 : ∀ a r o, e ≠ .modify a r o) (h3 : ∀ a r o, e ≠ .delete a r o)
    (h4 : ∀ r, (n.step e).2 = .reply r → r.cause ≠ 73) (h5 : ((n.step e).1.keyList.all fun x => (n.keyList.any fun y => y.1 == x.1) || n.keyList.all fun y => y.2 != x.2) = true)
    (h6 : ((n.step e).1.keyList.all fun x => (n.step e).1.keyList.all fun y =>
      (x.1 == y.1 || x.2 != y.2) && !(x.1.1 == y.1.1 && x.1.2.1 == y.1.2.1 && x.2.clash y.2)) = true) : Orderly n e :=
  ⟨h4, fun a r o he => absurd he (h3 a r o), fun a r he => absurd he (h1 a r), fun a r o _ he => absurd he (h2 a r o), fresh_of h5, apart1_of h6⟩

/-- the answer's cause is not 73 -/
def Outcome.no73 : Outcome → Bool
  | .reply r => r.cause != 73
  | _ => true
theorem no73_of {o : Outcome} (h : o.no73 = true) : ∀ r, o = .reply r → r.cause ≠ 73 := by
  rintro r rfl
  simpa [Outcome.no73] using h

theorem orderly_establish {n : Node} {a : Addr} {r : EstReq} (h1 : (r.createPdr.map (·.pdrId)).Nodup)
    (h4 : (n.step (.establish a r)).2.no73 = true)
    (h5 : ((n.step (.establish a r)).1.keyList.all fun x => (n.keyList.any fun y => y.1 == x.1) || n.keyList.all fun y => y.2 != x.2) = true)
    (h6 : ((n.step (.establish a r)).1.keyList.all fun x => (n.step (.establish a r)).1.keyList.all fun y =>
      (x.1 == y.1 || x.2 != y.2) && !(x.1.1 == y.1.1 && x.1.2.1 == y.1.2.1 && x.2.clash y.2)) = true) : Orderly n (.establish a r) :=
  ⟨no73_of h4, fun a r o he => (by cases he), fun a r he => (by cases he; exact h1), fun a r o x he => (by cases he), fresh_of h5, apart1_of h6⟩

theorem orderly_modify {n : Node} {a : Addr} {r : ModReq} {o : Orders} (h1 : ∀ x, n.session? a r.seid = some x → r.orderly x)
    (h4 : (n.step (.modify a r o)).2.no73 = true)
    (h5 : ((n.step (.modify a r o)).1.keyList.all fun x => (n.keyList.any fun y => y.1 == x.1) || n.keyList.all fun y => y.2 != x.2) = true)
    (h6 : ((n.step (.modify a r o)).1.keyList.all fun x => (n.step (.modify a r o)).1.keyList.all fun y =>
      (x.1 == y.1 || x.2 != y.2) && !(x.1.1 == y.1.1 && x.1.2.1 == y.1.2.1 && x.2.clash y.2)) = true) : Orderly n (.modify a r o) :=
  ⟨no73_of h4, fun a r o he => (by cases he), fun a r he => (by cases he), fun a r o x he => (by cases he; exact h1 x), fresh_of h5, apart1_of h6⟩

theorem orderly_delete {n : Node} {a : Addr} {r : DelReq} {o : Orders} {resp : Resp} (h4 : (n.step (.delete a r o)).2 = .reply resp) (hc : resp.cause ≠ 73)
    (h5 : ((n.step (.delete a r o)).1.keyList.all fun x => (n.keyList.any fun y => y.1 == x.1) || n.keyList.all fun y => y.2 != x.2) = true)
    (h6 : ((n.step (.delete a r o)).1.keyList.all fun x => (n.step (.delete a r o)).1.keyList.all fun y =>
      (x.1 == y.1 || x.2 != y.2) && !(x.1.1 == y.1.1 && x.1.2.1 == y.1.2.1 && x.2.clash y.2)) = true) : Orderly n (.delete a r o) :=
  ⟨fun r' he => (by rw [h4] at he; cases he; exact hc), fun a' r' o' he => (by cases he; rw [h4]; intro h; cases h), fun a r he => (by cases he),
    fun a r o x he => (by cases he), fresh_of h5, apart1_of h6⟩

/-- In the session of `Demo.svc`: a new PDR 3, another FAR for PDR 2 instead of FAR 2, PDR 1 removed. -/
def Demo.mod98 : ModReq :=
  { seid := 2, seq := 8, createFar := [{ Demo.fwd with farId := some 3 }], removeFar := [some 2],
    createPdr := [{ pdrId := some 3, farId := some 1, qerId := some 1, ohr := some 0, pdi := some { fteid := some (some ⟨0x301, false, none⟩) } }],
    updatePdr := [{ pdrId := some 2, farId := some 3, qerId := some 1, pdi := some {} }], removePdr := [some 1] }
/-- two sessions, one is modified, the other is deleted -/
def Demo.nMod98 : Node := (Demo.nSvc2.step (.modify 1 Demo.mod98 default)).1
def Demo.nEnd98 : Node := (Demo.nMod98.step (.delete 2 ⟨2, 9⟩ default)).1

theorem Demo.mod98_out : (Demo.nSvc2.step (.modify 1 Demo.mod98 default)).2 = .reply { type := .modification, seid := 100, seq := 8, cause := 1 } := by decide +kernel
theorem Demo.del98_out : (Demo.nMod98.step (.delete 2 ⟨2, 9⟩ default)).2 =
    .reply { type := .deletion, seid := 200, seq := 9, cause := 1, reports := [⟨1, 1, 0, 0, 0⟩] } := by decide +kernel
theorem Demo.est98_out : (Demo.nSvc.step (.establish 2 (Demo.est 200))).2 =
    .reply { type := .establishment, seid := 200, seq := 5, cause := 1, fseid := some 2, created := [.fteid 1 1 0x0a000001, .ueIp 2 0x0a2d0001] } := by decide +kernel
theorem Demo.mod98_step : Demo.nSvc2.step (.modify 1 Demo.mod98 default) = (Demo.nMod98, .reply { type := .modification, seid := 100, seq := 8, cause := 1 }) :=
  Prod.ext (by simp only [Demo.nMod98]) Demo.mod98_out
theorem Demo.del98_step : Demo.nMod98.step (.delete 2 ⟨2, 9⟩ default) =
    (Demo.nEnd98, .reply { type := .deletion, seid := 200, seq := 9, cause := 1, reports := [⟨1, 1, 0, 0, 0⟩] }) :=
  Prod.ext (by simp only [Demo.nEnd98]) Demo.del98_out
theorem Demo.est98_step : Demo.nSvc.step (.establish 2 (Demo.est 200)) =
    (Demo.nSvc2, .reply { type := .establishment, seid := 200, seq := 5, cause := 1, fseid := some 2, created := [.fteid 1 1 0x0a000001, .ueIp 2 0x0a2d0001] }) :=
  Prod.ext (by simp only [Demo.nSvc2]) Demo.est98_out

theorem Demo.svc2_pdrs : (Demo.nSvc2.session? 1 2).map (fun x => x.pdrs.entries.map fun q => (q.1, q.2.key, q.2.info.sdf)) =
    some [(2, .dl4 0x0A3C0001, none), (1, .ul 0x100, none)] := by decide +kernel

theorem Demo.mod98_orderly : ∀ x, Demo.nSvc2.session? 1 2 = some x → Demo.mod98.orderly x := by
  intro x hx
  have hp := Demo.svc2_pdrs
  rw [hx] at hp
  simp only [Option.map_some, Option.some.injEq] at hp
  have mem : ∀ i p, x.pdrs.get? i = some p → (i, p.key, p.info.sdf) ∈ [((2 : U32), PdrKey.dl4 0x0A3C0001, (none : Option SdfFilter)), (1, .ul 0x100, none)] := by
    intro i p h
    rw [← hp]
    exact List.mem_map.2 ⟨(i, p), (GoMap.mem_entries_iff _ _ _).2 h, rfl⟩
  constructor
  · decide
  · intro ie hie i hi
    simp only [Demo.mod98, List.mem_singleton] at hie
    subst hie
    cases hi
    cases h : x.pdrs.get? (BitVec.zeroExtend 32 (3 : U16)) with
    | none => rfl
    | some p => exact absurd (mem _ _ h) (by simp)
  · intro ie hie d hd
    simp only [Demo.mod98, List.mem_singleton] at hie hd
    subst hie hd
    decide
  · intro ie hie
    simp only [Demo.mod98, List.mem_singleton] at hie
    subst hie
    have : ((2 : U32), PdrKey.dl4 0x0A3C0001, (none : Option SdfFilter)) ∈ List.map (fun q : U32 × SPdr => (q.1, q.2.key, q.2.info.sdf)) x.pdrs.entries := by
      rw [hp]; simp
    obtain ⟨⟨j, p⟩, hq, he⟩ := List.mem_map.1 this
    simp only [Prod.mk.injEq] at he
    obtain ⟨rfl, -, hs⟩ := he
    exact ⟨2, p, rfl, (GoMap.mem_entries_iff _ _ _).1 hq, .inl ⟨_, rfl, rfl, rfl⟩, hs, .inl rfl⟩
  · intro _ ie hie c
    simp only [Demo.mod98, List.cons_append, List.nil_append, List.mem_cons, List.not_mem_nil, or_false] at hie
    rcases hie with rfl | rfl <;> revert c <;> decide

theorem Demo.two98 : ∃ h, HistP Orderly Demo.n0 h Demo.nSvc0 ∧ attempts h = 0 := by
  have s1 := HistP.step (P := Orderly) (n0 := Demo.n0) (.assocSetup 1 1 (some (some ())) (some (some ()))) .init
    (orderly_other (by simp) (by simp) (by simp) (no73_of (by decide +kernel)) (by decide +kernel) (by decide +kernel)) (by decide +kernel)
  have s2 := HistP.step (.assocSetup 2 1 (some (some ())) (some (some ()))) s1
    (orderly_other (by simp) (by simp) (by simp) (no73_of (by decide +kernel)) (by decide +kernel) (by decide +kernel)) (by decide +kernel)
  exact ⟨_, s2, by simp [attempts]⟩

theorem Demo.mod98_ord : Orderly Demo.nSvc2 (.modify 1 Demo.mod98 default) := by
  have h0 : ∀ x, Demo.nSvc2.session? 1 Demo.mod98.seid = some x → Demo.mod98.orderly x := by
    intro x hx
    have : Demo.mod98.seid = 2 := rfl
    rw [this] at hx
    exact Demo.mod98_orderly x hx
  have h1 : (Demo.nSvc2.step (.modify 1 Demo.mod98 default)).2.no73 = true := by decide +kernel
  have h2 : ((Demo.nSvc2.step (.modify 1 Demo.mod98 default)).1.keyList.all fun x => (Demo.nSvc2.keyList.any fun y => y.1 == x.1) ||
    Demo.nSvc2.keyList.all fun y => y.2 != x.2) = true := by decide +kernel
  have h3 : ((Demo.nSvc2.step (.modify 1 Demo.mod98 default)).1.keyList.all fun x => (Demo.nSvc2.step (.modify 1 Demo.mod98 default)).1.keyList.all fun y =>
      (x.1 == y.1 || x.2 != y.2) && !(x.1.1 == y.1.1 && x.1.2.1 == y.1.2.1 && x.2.clash y.2)) = true := by decide +kernel
  generalize Demo.nSvc2 = n at h0 h1 h2 h3 ⊢
  exact orderly_modify h0 h1 h2 h3

theorem Demo.del98_orderly : Orderly Demo.nMod98 (.delete 2 ⟨2, 9⟩ default) := by
  have h1 := Demo.del98_out
  have h2 : ((Demo.nMod98.step (.delete 2 ⟨2, 9⟩ default)).1.keyList.all fun x => (Demo.nMod98.keyList.any fun y => y.1 == x.1) ||
    Demo.nMod98.keyList.all fun y => y.2 != x.2) = true := by decide +kernel
  have h3 : ((Demo.nMod98.step (.delete 2 ⟨2, 9⟩ default)).1.keyList.all fun x => (Demo.nMod98.step (.delete 2 ⟨2, 9⟩ default)).1.keyList.all fun y =>
      (x.1 == y.1 || x.2 != y.2) && !(x.1.1 == y.1.1 && x.1.2.1 == y.1.2.1 && x.2.clash y.2)) = true := by decide +kernel
  generalize Demo.nMod98 = n at h1 h2 h3 ⊢
  exact orderly_delete h1 (by decide) h2 h3

/-- An orderly history: two peers, two sessions, a modification that creates, updates and removes PDRs, a deletion. -/
theorem Demo.hist98 : ∃ h, HistP Orderly Demo.n0 h Demo.nEnd98 ∧ attempts h = 2 := by
  obtain ⟨h, s2, hb⟩ := Demo.two98
  have s3 := HistP.snoc s2 (orderly_establish (a := 1) (r := Demo.svc) (by decide) (by decide +kernel) (by decide +kernel) (by decide +kernel)) Demo.svc_step
  have s4 := HistP.snoc s3 (orderly_establish (a := 2) (r := Demo.est 200) (by decide) (by decide +kernel) (by decide +kernel) (by decide +kernel)) Demo.est98_step
  have s5 := HistP.snoc s4 Demo.mod98_ord Demo.mod98_step
  have s6 := HistP.snoc s5 Demo.del98_orderly Demo.del98_step
  refine ⟨_, s6, ?_⟩
  show attempts h + 1 + 1 = 2
  rw [hb]

theorem Demo.keys98 : Demo.nEnd98.keyList = [((1, 2, 2), .dl4 0x0A3C0001), ((1, 2, 3), .ul 0x301)] := by decide +kernel

/-- C98 on this history; the uplink PDR 3 is in the table, and TEID 0x100, which was removed, is passed on. -/
example : Exact Demo.nEnd98 ∧ (∃ p, Demo.nEnd98.hasPdr 1 2 3 p ∧ p.key = .ul 0x301) ∧
    ∀ (e : Env) (s : PS), s.dp = Demo.nEnd98.dp → FrameFor e s.frame (.ul 0x100) →
      ∃ s', runPacket e s = (s', .ok .pass) ∧ s'.frame = s.frame ∧ s'.dp = s.dp := by
  obtain ⟨h, H, b⟩ := Demo.hist98
  refine ⟨C98_exact_partial (fz := 4) (qz := 4) (uz := 4) (by decide) (by decide) (by decide) H (by rw [b]; decide), ?_, ?_⟩
  · exact mem_keyList.1 (by rw [Demo.keys98]; simp)
  · intro e s hdp hf
    refine C98_foreign_passed_partial (fz := 4) (qz := 4) (uz := 4) (by decide) (by decide) (by decide) H (by rw [b]; decide) ?_ e s hdp hf
    intro a s i p hp hk
    have := mem_keyList.2 ⟨p, hp, hk⟩
    rw [Demo.keys98] at this
    simp at this

/-- A frame is indeed sent: a G-PDU with TEID 0x301. -/
def Demo.up98 : List U8 := DemoDp.gpdu [0, 0, 3, 1] DemoDp.ueUp
theorem Demo.up98_sent : (runPacket DemoDp.env ⟨Demo.up98, Demo.nEnd98.dp, {}, {}⟩).2 = .ok (.redirect 7) := by decide +kernel

/-- C98_sent_partial on it -/
example : ∃ i p far, Demo.nEnd98.hasPdr 1 2 i p ∧ p.key = .ul 0x301 ∧ Demo.nEnd98.dp.far.lookup p.info.farId = some far ∧ far.action.getLsbD 1 = true := by
  obtain ⟨h, H, b⟩ := Demo.hist98
  have h1 := Demo.up98_sent
  have hk := Demo.keys98
  have he : ¬ IsGtpMsg DemoDp.env Demo.up98 1 := by
    intro h; have := h.type; revert this; decide
  have h5 : IsGtpMsg DemoDp.env Demo.up98 255 := ⟨⟨⟨by decide, by decide⟩, by decide, by decide, by decide, by decide⟩, by decide, by decide⟩
  have h6 : gtpTeid Demo.up98 = 0x301 := by decide
  generalize Demo.nEnd98 = n at H h1 hk ⊢
  generalize Demo.up98 = f at he h1 h5 h6
  obtain ⟨a, sd, i, p, far, qer, p1, p2, -, p4, p5, -⟩ := C98_sent_partial (fz := 4) (qz := 4) (uz := 4) (by decide) (by decide) (by decide) H
    (by rw [b]; decide) DemoDp.env ⟨f, n.dp, {}, {}⟩ rfl (Prod.ext rfl h1) rfl he
  have := mem_keyList.2 ⟨p, p1, rfl⟩
  rw [hk] at this
  simp only [List.mem_cons, List.not_mem_nil, or_false, Prod.mk.injEq] at this
  rcases this with ⟨⟨rfl, rfl, rfl⟩, hkey⟩ | ⟨⟨rfl, rfl, rfl⟩, hkey⟩
  · rw [hkey] at p2
    exact absurd h5.gtpu p2.1.notGtpu
  · exact ⟨3, p, far, p1, hkey, p4, p5⟩

/-! ### negations -/

/-- The establishment of `C12_no_rollback`: the second PDR cannot be created. -/
def Demo.nBad : Node := (Demo.nSvc0.step (.establish 1 Demo.badEst)).1
def Demo.upBad : List U8 := DemoDp.gpdu [0, 0, 0, 77] DemoDp.ueUp
theorem Demo.bad_sent : (runPacket DemoDp.env ⟨Demo.upBad, Demo.nBad.dp, {}, {}⟩).2 = .ok (.redirect 7) := by decide +kernel
theorem Demo.bad_out : (Demo.nSvc0.step (.establish 1 Demo.badEst)).2 = .reply { type := .establishment, seid := 100, seq := 5, cause := 73 } := by decide +kernel
theorem Demo.bad_keys : Demo.nBad.keyList = [] := by decide +kernel
theorem Demo.bad_entry : Demo.nBad.dp.entry? (.ul 77) ≠ none := by decide +kernel

/-- **C98 is false for all histories: a rejected establishment.** No session is live, and yet there is an entry for TEID 77 and user
traffic with this TEID is sent out. -/
theorem C98_not_exact : ∃ h n, Hist Demo.n0 h n ∧ (∀ a s i p, ¬ n.hasPdr a s i p) ∧ ¬ Exact n ∧ FrameFor DemoDp.env Demo.upBad (.ul 77) ∧
    (runPacket DemoDp.env ⟨Demo.upBad, n.dp, {}, {}⟩).2 = .ok (.redirect 7) := by
  obtain ⟨h, H, -⟩ := Demo.two98
  have H1 := Hist.step (.establish 1 Demo.badEst) H.hist (by rw [Demo.bad_out]; intro h; cases h)
  have hno : ∀ a s i p, ¬ Demo.nBad.hasPdr a s i p := by
    intro a s i p hp
    have := mem_keyList.2 ⟨p, hp, rfl⟩
    rw [Demo.bad_keys] at this
    cases this
  exact ⟨_, Demo.nBad, H1, hno, fun hex => Demo.bad_entry (hex.only _ fun a s i p hp => absurd hp (hno a s i p)),
    ⟨⟨⟨⟨by decide, by decide⟩, by decide, by decide, by decide, by decide⟩, by decide, by decide⟩, by decide⟩, Demo.bad_sent⟩

end Eupf
