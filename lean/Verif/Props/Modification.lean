import Verif.Props.Grouped
/-
C83 (Update PDR without PDI), C84 (rejected modifications).
-/
namespace Eupf
open Act

/-! ### C83 -/

/-- **C83, negation for every request.** An Update PDR without PDI (the IE is conditional in TS 29.244 table 7.5.4.2-1) is never accepted,
whatever else the request and the session contain. -/
theorem C83_without_pdi (n : Node) (addr : Addr) (r : ModReq) (ord : Orders) {ie : PdrIE} (hie : ie ∈ r.updatePdr) (hpdi : ie.pdi = none)
    {n' : Node} {resp : Resp} (hstep : n.step (.modify addr r ord) = (n', .reply resp)) : resp.cause ≠ 1 := by
  intro hacc
  cases hsess : n.session? addr r.seid with
  | none =>
    have hstep' : n.modify addr r ord = (n', .reply resp) := hstep
    cases modify_cases n addr r ord with
    | refused c x hcc hs' he =>
      rw [hstep'] at he
      cases he
      rcases hcc with rfl | rfl <;> cases hacc
    | ran a sess' hs' res ha hsess' hbody hl hrem he => simp [Node.session?, ha, hsess'] at hsess
  | some sess =>
    obtain ⟨hs', hb, -⟩ := modify_accepted hsess hstep hacc
    obtain ⟨s1, s2, s3, s4, s5, s6, s7, s8, s9, s10, s11, e1, e2, e3, e4, e5, e6, e7, e8, e9, e10, e11, e12⟩ := modify_phases hb
    obtain ⟨l1, l2, hl⟩ := List.append_of_mem hie
    rw [hl] at e11
    obtain ⟨t1, -, f2⟩ := each_append_ok l1 e11
    obtain ⟨t2, f3, -⟩ := each_cons_ok f2
    unfold updatePdr at f3
    cases hid : ie.pdrId with
    | none => simp [hid, Act.fail] at f3
    | some id =>
      simp only [hid] at f3
      obtain ⟨x, t3, g1, g2⟩ := bind_ok f3
      obtain ⟨y, t4, g3, g4⟩ := bind_ok g2
      unfold extractPdr at g3
      simp [hpdi] at g3

/-- The UE is handed over: peer 1 points PDR 2 of its session to a new FAR (to 10.0.3.21, TEID 0x300) with an Update PDR without PDI. -/
def Demo.repoint (pdi : Option Pdi) : ModReq :=
  { seid := 2, seq := 8,
    createFar := [{ kind := .create, farId := some 5, applyAction := some [2], forward := some (some (some ⟨0x0100, 0x300, some 0x0A000315, false⟩)) }],
    updatePdr := [{ pdrId := some 2, farId := some 5, pdi := pdi }] }

/-- **C83, negation.** The request is rejected (cause 73) and packets to the UE still go to the old peer; with the PDI repeated it is
accepted and they go to the new peer. -/
theorem C83_handover_rejected :
    let q := fun o => Demo.nSvc.step (.modify 1 (Demo.repoint o) default)
    let pdi : Pdi := { ueip := some (some { ipv4 := some 0x0A3C0001 }) }
    (q none).2 = .reply { type := .modification, seid := 100, seq := 8, cause := 73 } ∧
    (q (some pdi)).2 = .reply { type := .modification, seid := 100, seq := 8, cause := 1 } ∧
    be32 (runPacket DemoDp.env ⟨DemoDp.down, (q none).1.dp, {}, {}⟩).1.frame 30 = 0x0A000314 ∧
    be32 (runPacket DemoDp.env ⟨DemoDp.down, (q (some pdi)).1.dp, {}, {}⟩).1.frame 30 = 0x0A000315 := by
  decide +kernel

/-- **C83, positive part.** An Update PDR with PDI in an accepted modification is in effect: the PDR is recorded with the FAR, QER, outer
header removal and filter given (what is not given stays), and the forwarding plane uses it. -/
theorem C83_with_pdi_partial {n : Node} {addr : Addr} {r : ModReq} {ord : Orders} {sess0 : Session} {n' : Node} {resp : Resp}
    (hs : n.session? addr r.seid = some sess0) (hstep : n.step (.modify addr r ord) = (n', .reply resp)) (hacc : resp.cause = 1)
    (hrm : r.removePdr = []) (hcr : r.createPdr = []) {ie : PdrIE} (hr : r.updatePdr = [ie])
    {id : U16} (hid : ie.pdrId = some id) {old : SPdr} (hold : sess0.pdrs.get? (id.zeroExtend 32) = some old) :
    ie.pdi ≠ none ∧ ∃ sess p, n'.session? addr r.seid = some sess ∧ sess.pdrs.get? (id.zeroExtend 32) = some p ∧
      PdrUpdated ie sess old p ∧ InEffect n'.dp p := by
  refine ⟨fun h => C83_without_pdi n addr r ord (ie := ie) (by rw [hr]; simp) h hstep hacc, ?_⟩
  obtain ⟨sess, p, a1, a2, a3, a4⟩ := C18_update hs hstep hacc hrm (by simp [hcr]) (by simp [hr]) (l1 := []) (l2 := []) hr hid (by simp [hcr]) hold
  exact ⟨sess, p, a1, a2, a3, a4 (by simp)⟩

/-- Such a modification: the accepted one of `C83_handover_rejected`. -/
example : ∃ old, (Demo.nSvc.session? 1 2).bind (fun s => s.pdrs.get? 2) = some old ∧ old.ipv4 = some 0x0A3C0001 ∧
    (Demo.nSvc.step (.modify 1 (Demo.repoint (some { ueip := some (some { ipv4 := some 0x0A3C0001 }) })) default)).2 =
      .reply { type := .modification, seid := 100, seq := 8, cause := 1 } := by
  have h : ((Demo.nSvc.session? 1 2).bind (fun s => s.pdrs.get? 2)).map (·.ipv4) = some (some 0x0A3C0001) := by decide +kernel
  obtain ⟨old, h1, h2⟩ := Option.map_eq_some_iff.1 h
  exact ⟨old, h1, h2, by decide +kernel⟩

/-! ### C84 -/

theorem bind_of_ok {S α β : Type} {m : Act S α} {f : α → Act S β} {s s1 : S} {a : α} (h : m s = (s1, .ok a)) : (m >>= f) s = f a s1 := by
  show Act.bind m f s = _
  unfold Act.bind; rw [h]
theorem bind_of_panic {S α β : Type} {m : Act S α} {f : α → Act S β} {s s1 : S} (h : m s = (s1, .panic)) : (m >>= f) s = (s1, .panic) := by
  show Act.bind m f s = _
  unfold Act.bind; rw [h]

/-- The rejected request of C83, that also changes FAR 2 to drop. -/
def Demo.halfMod : ModReq :=
  { seid := 2, seq := 8, cpFseid := some (some 777), updateFar := [{ kind := .update, farId := some 2, applyAction := some [1] }],
    updatePdr := [{ pdrId := some 2, farId := some 2 }] }

/-- **C84, negation.** The modification is rejected (cause 73), but the UE's downlink is cut and the session has the new CP SEID, to which
already the rejection goes. -/
theorem C84_rejected_but_applied :
    let q := Demo.nSvc.step (.modify 1 Demo.halfMod default)
    q.2 = .reply { type := .modification, seid := 777, seq := 8, cause := 73 } ∧
    ((Demo.nSvc.session? 1 2).map (·.remoteSEID)) = some 100 ∧ ((q.1.session? 1 2).map (·.remoteSEID)) = some 777 ∧
    (runPacket DemoDp.env ⟨DemoDp.down, Demo.nSvc.dp, {}, {}⟩).2 = .ok (.redirect 7) ∧
    (runPacket DemoDp.env ⟨DemoDp.down, q.1.dp, {}, {}⟩).2 = .ok .drop := by
  decide +kernel

/-- **C84, general.** Whatever the later IEs: the Create/Update/Remove FARs and QERs before the first failing IE stay applied. Precisely, a
modification that fails in its PDR or URR part leaves the FAR and QER records of the session as the same request without the PDR and
URR part, which is accepted, would. -/
theorem C84_rules_stay (n : Node) (addr : Addr) (r : ModReq) (ord : Orders) {n' n1 : Node} {resp1 : Resp} {o : Outcome}
    (h1 : n.step (.modify addr { r with createUrr := [], updateUrr := [], removeUrr := [], createPdr := [], updatePdr := [], removePdr := [] } ord)
      = (n1, .reply resp1)) (hacc : resp1.cause = 1)
    (hstep : n.step (.modify addr r ord) = (n', o)) (ho : o ≠ .crash) {s1 : Session} (hs1 : n1.session? addr r.seid = some s1) :
    ∃ s', n'.session? addr r.seid = some s' ∧ s'.fars = s1.fars ∧ s'.qers = s1.qers ∧ s'.remoteSEID = s1.remoteSEID := by
  cases hsess : n.session? addr r.seid with
  | none =>
    exfalso
    have hstep' : n.modify addr { r with createUrr := [], updateUrr := [], removeUrr := [], createPdr := [], updatePdr := [], removePdr := [] } ord =
      (n1, .reply resp1) := h1
    cases modify_cases n addr { r with createUrr := [], updateUrr := [], removeUrr := [], createPdr := [], updatePdr := [], removePdr := [] } ord with
    | refused c x hcc hs' he =>
      rw [hstep'] at he
      cases he
      rcases hcc with rfl | rfl <;> cases hacc
    | ran a sess' hs' res ha hsess' hbody hl hrem he => simp [Node.session?, ha] at hsess; rw [hsess] at hsess'; cases hsess'
  | some sess =>
    obtain ⟨x, hb, q1, -⟩ := modify_accepted (r := { r with createUrr := [], updateUrr := [], removeUrr := [], createPdr := [], updatePdr := [], removePdr := [] })
      hsess h1 hacc
    obtain ⟨t1, t2, t3, t4, t5, t6, t7, t8, t9, t10, t11, e1, e2, e3, e4, e5, e6, e7, e8, e9, e10, e11, e12⟩ := modify_phases hb
    have hx : t6 = x := by
      have a7 := congrArg Prod.fst e7; have a8 := congrArg Prod.fst e8; have a9 := congrArg Prod.fst e9
      have a10 := congrArg Prod.fst e10; have a11 := congrArg Prod.fst e11; have a12 := congrArg Prod.fst e12
      exact a7.trans (a8.trans (a9.trans (a10.trans (a11.trans a12))))
    subst hx
    rw [show n1.session? addr r.seid = some t6.sess from q1] at hs1
    cases hs1
    cases modify_cases n addr r ord with
    | refused c x hcc hs' he => rw [hs'] at hsess; cases hsess
    | ran a sess' hs' res ha hsess' hbody hl hrem he =>
      have : sess' = sess := by
        simp only [Node.session?, ha, Option.bind_some, hsess'] at hsess; exact Option.some.inj hsess
      subst this
      have hstep' : n.modify addr r ord = (n', o) := hstep
      rw [hstep'] at he
      have hn' : n'.session? addr r.seid = some hs'.sess := by
        cases res <;> simp only [Node.modResult] at he <;> cases he <;> simp [Node.session?]
      refine ⟨hs'.sess, hn', ?_⟩
      have hnp : res ≠ .panic := by
        rintro rfl
        simp only [Node.modResult] at he
        cases he
        exact ho rfl
      have disp : ∀ (l : List PdrIE) (s : HS), Act.each displayPdr l s = (s, .ok ()) ∨ Act.each displayPdr l s = (s, .panic) := by
        intro l
        induction l with
        | nil => intro s; exact .inl rfl
        | cons x l ih =>
          intro s
          have : displayPdr x s = (s, .ok ()) ∨ displayPdr x s = (s, .panic) := by
            unfold displayPdr
            split
            · split
              · exact .inl rfl
              · exact .inr rfl
            · exact .inl rfl
          rcases this with h | h
          · rcases ih s with h' | h'
            · exact .inl ((bind_of_ok (f := fun _ => Act.each displayPdr l) h).trans h')
            · exact .inr ((bind_of_ok (f := fun _ => Act.each displayPdr l) h).trans h')
          · exact .inr (bind_of_panic (f := fun _ => Act.each displayPdr l) h)
      have k1 : Act.each createFar r.createFar (n.hs (sess'.setRemote r.cpFseid)) = (t1, .ok ()) := e1
      have k2 : Act.each updateFar r.updateFar t1 = (t2, .ok ()) := e2
      have k3 : Act.each removeFar r.removeFar t2 = (t3, .ok ()) := e3
      have k4 : Act.each createQer r.createQer t3 = (t4, .ok ()) := e4
      have k5 : Act.each updateQer r.updateQer t4 = (t5, .ok ()) := e5
      have k6 : Act.each removeQer r.removeQer t5 = (t6, .ok ()) := e6
      have hrem1 := ((modifyBody_seids (l := sess'.localSEID) (r := (sess'.setRemote r.cpFseid).remoteSEID) n.ueip ord
        { r with createUrr := [], updateUrr := [], removeUrr := [], createPdr := [], updatePdr := [], removePdr := [] }).apply
        (s := n.hs (sess'.setRemote r.cpFseid)) ⟨by unfold Session.setRemote Node.hs; split <;> rfl, rfl⟩).2
      rw [hb] at hrem1
      have hrec : RecFQ (fun f q => f = t6.sess.fars ∧ q = t6.sess.qers) hs' := by
        unfold modifyBody at hbody
        rcases disp r.createPdr (n.hs (sess'.setRemote r.cpFseid)) with d1 | d1
        · rw [bind_of_ok d1] at hbody
          rcases disp r.updatePdr (n.hs (sess'.setRemote r.cpFseid)) with d2 | d2
          · rw [bind_of_ok d2, bind_of_ok k1, bind_of_ok k2, bind_of_ok k3, bind_of_ok k4, bind_of_ok k5, bind_of_ok k6] at hbody
            have hp := ((Pres.bind (Pres.each (l := r.createUrr) fun x _ => createUrr_rec x) fun _ => Pres.bind (Pres.each (l := r.updateUrr) fun x _ => updateUrr_rec x) fun _ =>
              Pres.bind (Pres.each (l := r.removeUrr) fun x _ => removeUrr_rec x) fun _ => Pres.bind (Pres.each (l := r.createPdr) fun x _ => createPdr_rec n.ueip x) fun _ =>
              Pres.bind (Pres.each (l := r.updatePdr) fun x _ => updatePdr_rec n.ueip x) fun _ => Pres.each (l := r.removePdr) fun x _ => removePdr_rec ord x) :
              Pres (RecFQ (fun f q => f = t6.sess.fars ∧ q = t6.sess.qers)) _).apply (s := t6) ⟨rfl, rfl⟩
            rw [hbody] at hp
            exact hp
          · rw [bind_of_panic d2] at hbody; cases hbody; exact absurd rfl hnp
        · rw [bind_of_panic d1] at hbody; cases hbody; exact absurd rfl hnp
      exact ⟨hrec.1, hrec.2, hrem.trans hrem1.symm⟩

/-- The hypotheses of `C84_rules_stay` are met by `Demo.halfMod`: without its PDR part it is accepted. -/
example : (Demo.nSvc.step (.modify 1 { Demo.halfMod with updatePdr := [] } default)).2 = .reply { type := .modification, seid := 777, seq := 8, cause := 1 } ∧
    (Demo.nSvc.step (.modify 1 Demo.halfMod default)).2 ≠ .crash := by
  decide +kernel

end Eupf
