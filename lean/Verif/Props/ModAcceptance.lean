import Verif.ModAcceptLemmas
import Verif.Props.Acceptance
import Verif.Props.ExactCases
/-
C113: room means acceptance, for modifications.
-/
namespace Eupf
open Act

section
variable {cfg : NodeCfg} {rm : Option ResourceManager} {p f q u : U32} {h : List (Ev × Outcome)} {n : Node} {addr : Addr} {r : ModReq} {x : Session} {ord : Orders}

theorem setRemote_range {y : Session} (h : InRange f q u y) (c : Option (Option U64)) : InRange f q u (y.setRemote c) := by
  unfold Session.setRemote
  split
  · exact ⟨h.far, h.qer, h.urr⟩
  · exact h

theorem mod_ok_iff (hs : n.session? addr r.seid = some x) : (n.step (.modify addr r ord)).2.ok ↔ (modifyBody n.ueip ord r (n.hs (x.setRemote r.cpFseid))).2 = .ok () := by
  show (n.modify addr r ord).2.ok ↔ _
  cases modify_cases n addr r ord with
  | refused c y hc hs' he => rw [hs] at hs'; cases hs'
  | ran a sess hs' res ha hsess hbody hl hr he =>
    have : sess = x := by simp only [Node.session?, ha, Option.bind_some, hsess] at hs; exact Option.some.inj hs
    subst this
    rw [he, hbody]
    cases res with
    | ok a => exact ⟨fun _ => rfl, fun _ => ⟨_, rfl, rfl⟩⟩
    | err => exact ⟨fun h => (by obtain ⟨_, h1, h2⟩ := h; cases h1; cases h2), fun h => (by cases h)⟩
    | panic => exact ⟨fun h => (by obtain ⟨_, h1, h2⟩ := h; cases h1), fun h => (by cases h)⟩

/-- **C113, room means acceptance.** In every history: a modification of a live session, all parts of which are usable, is accepted if there are free slots for
the FARs, QERs and URRs it creates, free TEIDs and addresses for the PDRs that ask for them, and places in the PDR tables; and if it removes PDRs, then it creates and
updates none, the PDRs of the session have entries of their own, and the pools exist. -/
theorem C113_accepted_partial (hf : 0 < f.toNat) (hq : 0 < q.toNat) (hu : 0 < u.toNat) (H : Hist (Node.init cfg rm (BpfObjects.load p f q u)) h n)
    (hs : n.session? addr r.seid = some x) (hr : r.usable n.ueip)
    (hfar : r.createFar.length ≤ n.freeFars) (hqer : r.createQer.length ≤ n.freeQers) (hurr : r.createUrr.length ≤ n.freeUrrs)
    (hteid : teidsNeeded (r.createPdr ++ r.updatePdr) ≤ (freeTeids n.rm).length)
    (hip : n.ueip = true → ((r.createPdr ++ r.updatePdr).filter (·.asksIp)).length ≤ (freeIps n.rm).length)
    (hpdr : ModRoom n.dp r) (hrem : r.removePdr ≠ [] → r.createPdr = [] ∧ r.updatePdr = [] ∧ x.removable n.dp ∧ n.rm ≠ none) :
    (n.step (.modify addr r ord)).2.ok := by
  obtain ⟨hri, hz⟩ := ranges_hist hf hq hu H
  rw [mod_ok_iff hs]
  obtain ⟨s', fr, e⟩ := modBody_iff hf hq hu n.ueip ord r (n.hs (x.setRemote r.cpFseid)) ⟨setRemote_range (hri _ _ _ hs) _, hz⟩
  have u1 := fun ie hie => (usable_iff _ _).1 (hr.pdr ie hie)
  have u2 := fun ie hie => (usable_iff _ _).1 (hr.updPdr ie hie)
  rw [e]
  refine ⟨fun ie hie => (u1 ie hie).2.1, fun ie hie => (u2 ie hie).2.1, ⟨hr.far, hfar⟩, hr.updFar, fun _ _ => trivial, ⟨hr.qer, hqer⟩, hr.updQer, hr.remQer,
    ⟨hr.urr, hurr⟩, hr.updUrr, hr.remUrr, ?_⟩
  have hpool : PoolsFor n.ueip s' (r.createPdr ++ r.updatePdr) := by
    refine ⟨?_, fun hu => ?_⟩
    · rw [fr.cache, fr.rm]
      show needTeids GoMap.empty _ ≤ _
      rw [needTeids_empty]; exact hteid
    · rw [fr.rm]; exact hip hu
  have hroom : RoomPlus s'.dp r.createPdr r.updatePdr.length :=
    ⟨by rw [fr.ul]; exact hpdr.ul, by rw [fr.dl4]; exact hpdr.dl4, by rw [fr.dl6]; exact hpdr.dl6⟩
  obtain ⟨s1, e1, hp1, hr1⟩ := creates_can r.updatePdr r.updatePdr.length r.createPdr (fun ie hie => ⟨(u1 ie hie).1, (u1 ie hie).2.2⟩) hpool hroom
  obtain ⟨s2, e2⟩ := updates_can r.updatePdr (fun ie hie => ⟨(u2 ie hie).1, (u2 ie hie).2.2⟩) hp1 hr1
  refine bind_ok_iff.2 ⟨s1, (), e1, bind_ok_iff.2 ⟨s2, (), e2, ?_⟩⟩
  by_cases hne : r.removePdr = []
  · rw [hne]; rfl
  · obtain ⟨h1, h2, h3, h4⟩ := hrem hne
    rw [h1] at e1
    rw [h2] at e2
    cases e1; cases e2
    refine removes_can ord _ (by rw [fr.rm]; exact h4) ⟨fun i p hi => ?_, fun i j p q hi hj => ?_⟩
    · rw [fr.entry]
      rw [fr.pdrs] at hi
      exact h3.there i p (by rw [← show (x.setRemote r.cpFseid).pdrs = x.pdrs from (by unfold Session.setRemote; split <;> rfl)]; exact hi)
    · rw [fr.pdrs] at hi hj
      have hx : (x.setRemote r.cpFseid).pdrs = x.pdrs := by unfold Session.setRemote; split <;> rfl
      exact h3.apart i j p q (by rw [← hx]; exact hi) (by rw [← hx]; exact hj)

/-- What an accepted modification needed. -/
structure ModNeeded (n : Node) (addr : Addr) (r : ModReq) : Prop where
  session : (n.session? addr r.seid).isSome
  usable : r.usable n.ueip
  far : r.createFar.length ≤ n.freeFars
  qer : r.createQer.length ≤ n.freeQers
  urr : r.createUrr.length ≤ n.freeUrrs
  teid : teidsNeeded (r.createPdr ++ r.updatePdr) ≤ (freeTeids n.rm).length
  ip : ((r.createPdr ++ r.updatePdr).filter (·.mustGetIp)).length ≤ (freeIps n.rm).length

/-- **C113, all of it is needed.** In every history: an accepted modification was for a live session, all its parts were usable, and there were free slots, TEIDs and addresses
for what it creates *before* it was processed: what it removes does not make room for what it creates. -/
theorem C113_needed (hf : 0 < f.toNat) (hq : 0 < q.toNat) (hu : 0 < u.toNat) (H : Hist (Node.init cfg rm (BpfObjects.load p f q u)) h n)
    (hok : (n.step (.modify addr r ord)).2.ok) : ModNeeded n addr r := by
  obtain ⟨hri, hz⟩ := ranges_hist hf hq hu H
  have hs : ∃ x, n.session? addr r.seid = some x := by
    have hok : (n.modify addr r ord).2.ok := hok
    cases modify_cases n addr r ord with
    | refused c y hc hs' he =>
      rw [he] at hok
      obtain ⟨_, h1, h2⟩ := hok
      cases h1
      rcases hc with rfl | rfl <;> cases h2
    | ran a sess hs' res ha hsess hbody hl hr he => exact ⟨sess, by simp only [Node.session?, ha, Option.bind_some, hsess]⟩
  obtain ⟨x, hs⟩ := hs
  rw [mod_ok_iff hs] at hok
  obtain ⟨s', fr, e⟩ := modBody_iff hf hq hu n.ueip ord r (n.hs (x.setRemote r.cpFseid)) ⟨setRemote_range (hri _ _ _ hs) _, hz⟩
  obtain ⟨d1, d2, ⟨h1, h2⟩, h3, -, ⟨h4, h5⟩, h6, h7, ⟨h8, h9⟩, h10, h11, k⟩ := e.1 hok
  obtain ⟨s1, _, e1, k1⟩ := bind_ok_iff.1 k
  obtain ⟨s2, _, e2, k2⟩ := bind_ok_iff.1 k1
  obtain ⟨c1, c2, c3⟩ := creates_took r.updatePdr _ e1
  obtain ⟨v1, v2, v3⟩ := updates_took _ (s := s1) (by rw [e2])
  have t1 := c2 v2
  have t2 := c3 v3
  rw [fr.cache, fr.rm] at t1
  rw [fr.rm] at t2
  have t1 : needTeids GoMap.empty (r.createPdr ++ r.updatePdr) ≤ (freeTeids n.rm).length := t1
  rw [needTeids_empty] at t1
  exact ⟨by rw [hs]; rfl, ⟨h1, h4, h8, fun c hc => (usable_iff _ _).2 ⟨(c1 c hc).1, d1 c hc, (c1 c hc).2⟩, h3, h6, h10,
    fun c hc => (usable_iff _ _).2 ⟨(v1 c hc).1, d2 c hc, (v1 c hc).2⟩, h7, h11⟩, h2, h5, h9, t1, t2⟩

/-- **C113, exactly.** For a modification that removes no PDR, with places in the PDR tables and enough addresses. -/
theorem C113_exact_partial (hf : 0 < f.toNat) (hq : 0 < q.toNat) (hu : 0 < u.toNat) (H : Hist (Node.init cfg rm (BpfObjects.load p f q u)) h n)
    (hpdr : ModRoom n.dp r) (hip : n.ueip = true → ((r.createPdr ++ r.updatePdr).filter (·.asksIp)).length ≤ (freeIps n.rm).length) (hrem : r.removePdr = []) :
    (n.step (.modify addr r ord)).2.ok ↔
      (n.session? addr r.seid).isSome ∧ r.usable n.ueip ∧ r.createFar.length ≤ n.freeFars ∧ r.createQer.length ≤ n.freeQers ∧ r.createUrr.length ≤ n.freeUrrs ∧
      teidsNeeded (r.createPdr ++ r.updatePdr) ≤ (freeTeids n.rm).length := by
  constructor
  · intro h
    have N := C113_needed hf hq hu H h
    exact ⟨N.session, N.usable, N.far, N.qer, N.urr, N.teid⟩
  · rintro ⟨h1, h2, h3, h4, h5, h6⟩
    obtain ⟨x, hx⟩ := Option.isSome_iff_exists.1 h1
    exact C113_accepted_partial hf hq hu H hx h2 h3 h4 h5 h6 hip hpdr (fun hne => absurd hrem hne)

/-- **C113, what an update needs.** In every history: a modification of a live session that only updates FARs, QERs and URRs, in a usable way, is accepted, however full the UPF is. -/
theorem C113_updates (hf : 0 < f.toNat) (hq : 0 < q.toNat) (hu : 0 < u.toNat) (H : Hist (Node.init cfg rm (BpfObjects.load p f q u)) h n)
    (hs : n.session? addr r.seid = some x) (hr : r.usable n.ueip) (hcf : r.createFar = []) (hcq : r.createQer = []) (hcu : r.createUrr = [])
    (hcp : r.createPdr = []) (hup : r.updatePdr = []) (hrp : r.removePdr = []) : (n.step (.modify addr r ord)).2.ok := by
  have S := sizes_hist H
  have hz : teidsNeeded (r.createPdr ++ r.updatePdr) = 0 := by rw [hcp, hup]; rfl
  refine C113_accepted_partial hf hq hu H hs hr (by rw [hcf]; exact Nat.zero_le _) (by rw [hcq]; exact Nat.zero_le _) (by rw [hcu]; exact Nat.zero_le _)
    (by rw [hz]; exact Nat.zero_le _) (fun _ => by rw [hcp, hup]; exact Nat.zero_le _) ⟨?_, ?_, ?_⟩ (fun hne => absurd hrp hne)
  · rw [hcp, hup]; exact Nat.le_trans S.ul.2 (Nat.le_of_eq S.ul.1.symm)
  · rw [hcp, hup]; exact Nat.le_trans S.dl4.2 (Nat.le_of_eq S.dl4.1.symm)
  · rw [hcp, hup]; exact Nat.le_trans S.dl6.2 (Nat.le_of_eq S.dl6.1.symm)

/-- **C113, PDRs can be removed.** With orderly control planes: a modification that creates nothing, updates no PDR and is usable is accepted, whichever PDRs it removes. -/
theorem C113_removals_partial (hf : 0 < f.toNat) (hq : 0 < q.toNat) (hu : 0 < u.toNat) (H : HistP Orderly (Node.init cfg rm (BpfObjects.load p f q u)) h n)
    (hb : attempts h < 2 ^ 64 - 2) (hrm : n.rm ≠ none)
    (hs : n.session? addr r.seid = some x) (hr : r.usable n.ueip) (hcf : r.createFar = []) (hcq : r.createQer = []) (hcu : r.createUrr = [])
    (hcp : r.createPdr = []) (hup : r.updatePdr = []) : (n.step (.modify addr r ord)).2.ok := by
  have S := sizes_hist H.hist
  obtain ⟨X, A⟩ := exactS_hist hf hq hu H hb
  have hz : teidsNeeded (r.createPdr ++ r.updatePdr) = 0 := by rw [hcp, hup]; rfl
  refine C113_accepted_partial hf hq hu H.hist hs hr (by rw [hcf]; exact Nat.zero_le _) (by rw [hcq]; exact Nat.zero_le _) (by rw [hcu]; exact Nat.zero_le _)
    (by rw [hz]; exact Nat.zero_le _) (fun _ => by rw [hcp, hup]; exact Nat.zero_le _) ⟨?_, ?_, ?_⟩
    (fun _ => ⟨hcp, hup, ⟨fun i p hi => (by rw [X.live _ _ _ _ ⟨x, hs, hi⟩]; rfl), fun i j p q hi hj hk => (A.keys _ _ _ _ _ _ _ _ ⟨x, hs, hi⟩ ⟨x, hs, hj⟩ hk).2.2⟩, hrm⟩)
  · rw [hcp, hup]; exact Nat.le_trans S.ul.2 (Nat.le_of_eq S.ul.1.symm)
  · rw [hcp, hup]; exact Nat.le_trans S.dl4.2 (Nat.le_of_eq S.dl4.1.symm)
  · rw [hcp, hup]; exact Nat.le_trans S.dl6.2 (Nat.le_of_eq S.dl6.1.symm)
end

namespace Demo
/-- The session of `Demo.nSvc2` gets three more FARs, one of its FARs goes. -/
def swap113 : ModReq := { seid := 2, seq := 9, createFar := [{ fwd with farId := some 8 }, { fwd with farId := some 9 }, { fwd with farId := some 10 }], removeFar := [some 1] }
/-- One FAR, QER, URR more; a PDR with a chosen TEID; PDR 2 updated; FAR 1 and QER 1 updated. -/
def grow113 : ModReq :=
  { seid := 2, seq := 9, createFar := [{ fwd with farId := some 8 }], createQer := [{ qerId := some 8 }], createUrr := [some 8],
    updateFar := [{ kind := .update, farId := some 1, applyAction := some [1] }], updateQer := [{ qerId := some 1, gateDL := some 1 }],
    createPdr := [{ pdrId := some 8, farId := some 8, pdi := some { fteid := some (some { teid := 0, ch := true, chooseId := none }) } }],
    updatePdr := [{ pdrId := some 2, farId := some 8, pdi := some { ueip := some (some { ipv4 := some 0x0A3C0001 }) } }] }
/-- PDR 3 goes. -/
def drop113 : ModReq := { seid := 2, seq := 9, removePdr := [some 3] }

theorem grow113_usable : grow113.usable true := by
  refine ⟨?_, ?_, ?_, ?_, ?_, ?_, ?_, ?_, ?_, ?_⟩ <;> intro c hc <;> simp only [grow113, List.mem_singleton, List.not_mem_nil] at hc <;> first | cases hc; done | subst hc
  · exact ⟨by decide, by decide, fun o ho => by simp only [fwd, Option.some.injEq] at ho; subst ho; exact ⟨_, rfl, rfl⟩⟩
  · rfl
  · rfl
  · exact ⟨rfl, ⟨_, rfl, rfl, by simp, fun h => (by cases h)⟩, fun t h => (by cases h)⟩
  · exact ⟨rfl, by decide, by decide, fun o ho => (by cases ho)⟩
  · rfl
  · exact ⟨rfl, ⟨_, rfl, rfl, by simp, fun _ u hu => (by cases hu; exact ⟨_, rfl, .inl rfl⟩)⟩, fun t h => (by cases h)⟩

theorem drop113_usable (b : Bool) : drop113.usable b := by
  refine ⟨?_, ?_, ?_, ?_, ?_, ?_, ?_, ?_, ?_, ?_⟩ <;> intro c hc <;> simp only [drop113, List.not_mem_nil] at hc
end Demo

/-- Non-vacuity of `C113_accepted_partial` and `C113_exact_partial`: after an orderly history, `grow113` meets every hypothesis. -/
example : ∃ h, HistP Orderly Demo.n0 h Demo.nEnd98 ∧ (Demo.nEnd98.session? 1 Demo.grow113.seid).isSome ∧ Demo.grow113.usable Demo.nEnd98.ueip ∧
    Demo.grow113.createFar.length ≤ Demo.nEnd98.freeFars ∧ Demo.grow113.createQer.length ≤ Demo.nEnd98.freeQers ∧ Demo.grow113.createUrr.length ≤ Demo.nEnd98.freeUrrs ∧
    teidsNeeded (Demo.grow113.createPdr ++ Demo.grow113.updatePdr) = 1 ∧
    teidsNeeded (Demo.grow113.createPdr ++ Demo.grow113.updatePdr) ≤ (freeTeids Demo.nEnd98.rm).length ∧
    ((Demo.grow113.createPdr ++ Demo.grow113.updatePdr).filter (·.asksIp)).length ≤ (freeIps Demo.nEnd98.rm).length ∧ ModRoom Demo.nEnd98.dp Demo.grow113 := by
  obtain ⟨h, H, -⟩ := Demo.hist98
  have hue : Demo.nEnd98.ueip = true := by decide +kernel
  exact ⟨h, H, by decide +kernel, by rw [hue]; exact Demo.grow113_usable, by decide +kernel, by decide +kernel, by decide +kernel, by decide +kernel, by decide +kernel,
    by decide +kernel, ⟨by decide +kernel, by decide +kernel, by decide +kernel⟩⟩
/-- Non-vacuity of `C113_removals_partial`: `drop113`. -/
example : ∃ h, HistP Orderly Demo.n0 h Demo.nEnd98 ∧ attempts h < 2 ^ 64 - 2 ∧ Demo.nEnd98.rm ≠ none ∧ (Demo.nEnd98.session? 1 Demo.drop113.seid).isSome ∧
    (∃ p, Demo.nEnd98.hasPdr 1 Demo.drop113.seid 3 p) ∧ Demo.drop113.usable Demo.nEnd98.ueip := by
  obtain ⟨h, H, b⟩ := Demo.hist98
  refine ⟨h, H, by rw [b]; decide, ?_, by decide +kernel, ?_, Demo.drop113_usable _⟩
  · have hm : Demo.nEnd98.rm.isSome = true := by decide +kernel
    generalize Demo.nEnd98 = n at hm ⊢
    intro h; rw [h] at hm; cases hm
  · obtain ⟨p, hp, -⟩ := mem_keyList.1 (show ((1, 2, 3), PdrKey.ul 0x301) ∈ Demo.nEnd98.keyList by rw [Demo.keys98]; simp)
    exact ⟨p, hp⟩
/-- **C113, what is removed makes no room.** Two FAR slots are free; a modification that removes a FAR and creates three is rejected, though it would fit. -/
theorem C113_no_reuse : Demo.nEnd98.freeFars = 2 ∧ Demo.swap113.createFar.length = Demo.nEnd98.freeFars + Demo.swap113.removeFar.length ∧
    (∀ x, Demo.nEnd98.session? 1 Demo.swap113.seid = some x → ∀ i ∈ Demo.swap113.removeFar, ∃ k, i = some k ∧ (x.fars.get? k).isSome) ∧
    ∀ ord, ¬ (Demo.nEnd98.step (.modify 1 Demo.swap113 ord)).2.ok := by
  obtain ⟨h, H, -⟩ := Demo.hist98
  have hf : Demo.nEnd98.freeFars = 2 := by decide +kernel
  have hx : (Demo.nEnd98.session? 1 2).all (fun x => (x.fars.get? 1).isSome) = true := by decide +kernel
  generalize Demo.nEnd98 = n at H hf hx ⊢
  refine ⟨hf, by rw [hf]; rfl, fun x hs i hi => ?_, fun ord hok => ?_⟩
  · have hs : n.session? 1 2 = some x := hs
    rw [hs] at hx
    simp only [Demo.swap113, List.mem_singleton] at hi
    exact ⟨1, hi, hx⟩
  · have := (C113_needed (f := 4) (q := 4) (u := 4) (by decide) (by decide) (by decide) H.hist hok).far
    rw [hf] at this
    exact absurd this (by decide)

end Eupf
