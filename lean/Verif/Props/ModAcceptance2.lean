import Verif.Props.ModAcceptance
import Verif.KeyGuard
import Verif.Props.NoCrash
/-
C113: modifications that create, update and remove PDRs.
-/
namespace Eupf
open Act

/-- the modification without its Remove PDR IEs -/
def ModReq.keepPdrs (r : ModReq) : ModReq := { r with removePdr := [] }

section
variable {cfg : NodeCfg} {rm : Option ResourceManager} {p f q u : U32} {h : List (Ev × Outcome)} {n : Node} {addr : Addr} {r : ModReq} {x : Session} {ord : Orders}

/-- If a modification without its Remove PDR IEs is accepted, and leaves PDRs that can be removed, it is accepted with them. -/
theorem mod_with_removals (hs : n.session? addr r.seid = some x) (hok : (n.step (.modify addr r.keepPdrs ord)).2.ok)
    (hrem : ∀ y, (n.step (.modify addr r.keepPdrs ord)).1.session? addr r.seid = some y → y.removable (n.step (.modify addr r.keepPdrs ord)).1.dp)
    (hrm : (n.step (.modify addr r.keepPdrs ord)).1.rm ≠ none) : (n.step (.modify addr r ord)).2.ok := by
  rw [mod_ok_iff hs, modifyBody_split]
  rw [mod_ok_iff (r := r.keepPdrs) hs] at hok
  rcases hb : modifyBody n.ueip ord r.keepPdrs (n.hs (x.setRemote r.cpFseid)) with ⟨t, res⟩
  have hb' : modifyBody n.ueip ord r.keepPdrs (n.hs (x.setRemote r.keepPdrs.cpFseid)) = (t, res) := hb
  rw [hb'] at hok
  have hres : res = .ok () := hok
  subst hres
  refine bind_ok_iff.2 ⟨t, (), hb, ?_⟩
  have hstep : ∃ a : Assoc, (n.step (.modify addr r.keepPdrs ord)).1 =
      { n with rm := t.rm, dp := t.dp, assocs := n.assocs.set addr { a with sessions := a.sessions.set r.seid t.sess } } := by
    show ∃ a : Assoc, (n.modify addr r.keepPdrs ord).1 = _
    cases modify_cases n addr r.keepPdrs ord with
    | refused c y hc hs' he =>
      have hs' : n.session? addr r.seid = none := hs'
      rw [hs] at hs'; cases hs'
    | ran a sess hs' res' ha hsess hbody hl hr he =>
      have hx : sess = x := by
        have hsess : a.sessions.get? r.seid = some sess := hsess
        simp only [Node.session?, ha, Option.bind_some, hsess] at hs
        exact Option.some.inj hs
      subst hx
      rw [hb'] at hbody
      obtain ⟨rfl, rfl⟩ := Prod.mk.inj hbody
      exact ⟨a, by rw [he]; rfl⟩
  obtain ⟨a, hn⟩ := hstep
  rw [hn] at hrem hrm
  refine removes_can ord _ hrm (hrem t.sess ?_)
  simp [Node.session?]

/-- **C113, room means acceptance, with removals.** With orderly control planes: a modification of a live session, all parts of which are usable, is accepted if
there are free slots for the FARs, QERs and URRs it creates, free TEIDs and addresses for the PDRs that ask for them, and places in the PDR tables - whatever it
removes; if it removes PDRs, the rest of it must be orderly (its new PDRs do not share match keys with others, its Update PDRs keep their match keys) and the pools exist. -/
theorem C113_accepted_orderly_partial (hf : 0 < f.toNat) (hq : 0 < q.toNat) (hu : 0 < u.toNat) (H : HistP Orderly (Node.init cfg rm (BpfObjects.load p f q u)) h n)
    (hb : attempts h < 2 ^ 64 - 2) (hrm : n.rm ≠ none) (hs : n.session? addr r.seid = some x) (hr : r.usable n.ueip)
    (hfar : r.createFar.length ≤ n.freeFars) (hqer : r.createQer.length ≤ n.freeQers) (hurr : r.createUrr.length ≤ n.freeUrrs)
    (hteid : teidsNeeded (r.createPdr ++ r.updatePdr) ≤ (freeTeids n.rm).length)
    (hip : n.ueip = true → ((r.createPdr ++ r.updatePdr).filter (·.asksIp)).length ≤ (freeIps n.rm).length)
    (hpdr : ModRoom n.dp r) (hord : r.removePdr ≠ [] → Orderly n (.modify addr r.keepPdrs ord)) :
    (n.step (.modify addr r ord)).2.ok := by
  by_cases hne : r.removePdr = []
  · exact C113_accepted_partial hf hq hu H.hist hs hr hfar hqer hurr hteid hip hpdr (fun h => absurd hne h)
  · have hr' : r.keepPdrs.usable n.ueip := ⟨hr.far, hr.qer, hr.urr, hr.pdr, hr.updFar, hr.updQer, hr.updUrr, hr.updPdr, hr.remQer, hr.remUrr⟩
    have hok : (n.step (.modify addr r.keepPdrs ord)).2.ok :=
      C113_accepted_partial (r := r.keepPdrs) hf hq hu H.hist hs hr' hfar hqer hurr hteid hip ⟨hpdr.ul, hpdr.dl4, hpdr.dl6⟩ (fun h => absurd rfl h)
    have farS : ∀ ie : FarIE, ie.usable → ie.sound := fun ie hu => ⟨hu.action, fun he => by obtain ⟨_, h1, _⟩ := hu.header none he; cases h1⟩
    have pdrS : ∀ ie : PdrIE, ie.usable n.ueip → ie.sound := fun ie hu => ((usable_iff _ _).1 hu).2.1
    have hrm' := (C59_no_crash_partial n hrm (.modify addr r.keepPdrs ord) ⟨fun ie hie => by
      rcases List.mem_append.1 hie with h | h
      · exact farS ie (hr.far ie h)
      · exact farS ie (hr.updFar ie h).2, fun ie hie => by
      rcases List.mem_append.1 hie with h | h
      · exact pdrS ie (hr.pdr ie h)
      · exact pdrS ie (hr.updPdr ie h)⟩).2
    have hk : (n.step (.modify addr r.keepPdrs ord)).2 ≠ .crash := by
      obtain ⟨_, h1, _⟩ := hok; rw [h1]; simp
    have H' := HistP.step _ H (hord hne) hk
    obtain ⟨X, A⟩ := exactS_hist hf hq hu H' (by simpa [attempts] using hb)
    refine mod_with_removals hs hok (fun y hy => ⟨fun i p hi => ?_, fun i j p q hi hj hkey => ?_⟩) hrm'
    · rw [X.live _ _ _ _ ⟨y, hy, hi⟩]; rfl
    · exact (A.keys _ _ _ _ _ _ _ _ ⟨y, hy, hi⟩ ⟨y, hy, hj⟩ hkey).2.2

/-- **C113, exactly, with removals.** -/
theorem C113_exact_orderly_partial (hf : 0 < f.toNat) (hq : 0 < q.toNat) (hu : 0 < u.toNat) (H : HistP Orderly (Node.init cfg rm (BpfObjects.load p f q u)) h n)
    (hb : attempts h < 2 ^ 64 - 2) (hrm : n.rm ≠ none)
    (hpdr : ModRoom n.dp r) (hip : n.ueip = true → ((r.createPdr ++ r.updatePdr).filter (·.asksIp)).length ≤ (freeIps n.rm).length)
    (hord : r.removePdr ≠ [] → Orderly n (.modify addr r.keepPdrs ord)) :
    (n.step (.modify addr r ord)).2.ok ↔
      (n.session? addr r.seid).isSome ∧ r.usable n.ueip ∧ r.createFar.length ≤ n.freeFars ∧ r.createQer.length ≤ n.freeQers ∧ r.createUrr.length ≤ n.freeUrrs ∧
      teidsNeeded (r.createPdr ++ r.updatePdr) ≤ (freeTeids n.rm).length := by
  constructor
  · intro h
    have N := C113_needed hf hq hu H.hist h
    exact ⟨N.session, N.usable, N.far, N.qer, N.urr, N.teid⟩
  · rintro ⟨h1, h2, h3, h4, h5, h6⟩
    obtain ⟨x, hx⟩ := Option.isSome_iff_exists.1 h1
    exact C113_accepted_orderly_partial hf hq hu H hb hrm hx h2 h3 h4 h5 h6 hip hpdr hord
end

namespace Demo
theorem keep98_ord : Orderly nSvc2 (.modify 1 mod98.keepPdrs default) := by
  have h0 : ∀ x, nSvc2.session? 1 mod98.keepPdrs.seid = some x → mod98.keepPdrs.orderly x := by
    intro x hx
    have ho := mod98_orderly x hx
    exact ⟨ho.ids, ho.new, fun _ _ d hd => (by cases hd), ho.upd, fun h => absurd rfl h⟩
  have h1 : (nSvc2.step (.modify 1 mod98.keepPdrs default)).2.no73 = true := by decide +kernel
  have h2 : ((nSvc2.step (.modify 1 mod98.keepPdrs default)).1.keyList.all fun x => (nSvc2.keyList.any fun y => y.1 == x.1) ||
    nSvc2.keyList.all fun y => y.2 != x.2) = true := by decide +kernel
  have h3 : ((nSvc2.step (.modify 1 mod98.keepPdrs default)).1.keyList.all fun x => (nSvc2.step (.modify 1 mod98.keepPdrs default)).1.keyList.all fun y =>
      (x.1 == y.1 || x.2 != y.2) && !(x.1.1 == y.1.1 && x.1.2.1 == y.1.2.1 && x.2.clash y.2)) = true := by decide +kernel
  generalize nSvc2 = n at h0 h1 h2 h3 ⊢
  exact orderly_modify h0 h1 h2 h3
theorem mod98_usable (b : Bool) : mod98.usable b := by
  refine ⟨?_, ?_, ?_, ?_, ?_, ?_, ?_, ?_, ?_, ?_⟩ <;> intro c hc <;> simp only [mod98, List.mem_singleton, List.not_mem_nil] at hc <;> first | cases hc; done | subst hc
  · exact ⟨by decide, by decide, fun o ho => by simp only [fwd, Option.some.injEq] at ho; subst ho; exact ⟨_, rfl, rfl⟩⟩
  · exact ⟨rfl, ⟨_, rfl, rfl, by simp, fun h => (by cases h)⟩, fun t h => (by cases h)⟩
  · exact ⟨rfl, ⟨_, rfl, rfl, by simp, fun _ u hu => (by cases hu)⟩, fun t h => (by cases h)⟩
end Demo

/-- Non-vacuity of `C113_accepted_orderly_partial` and `C113_exact_orderly_partial`: a modification that creates a PDR, updates another and removes a third. -/
example : ∃ h, HistP Orderly Demo.n0 h Demo.nSvc2 ∧ attempts h < 2 ^ 64 - 2 ∧ Demo.nSvc2.rm ≠ none ∧ (Demo.nSvc2.session? 1 Demo.mod98.seid).isSome ∧
    Demo.mod98.usable Demo.nSvc2.ueip ∧ Demo.mod98.createFar.length ≤ Demo.nSvc2.freeFars ∧ Demo.mod98.createQer.length ≤ Demo.nSvc2.freeQers ∧
    Demo.mod98.createUrr.length ≤ Demo.nSvc2.freeUrrs ∧ teidsNeeded (Demo.mod98.createPdr ++ Demo.mod98.updatePdr) ≤ (freeTeids Demo.nSvc2.rm).length ∧
    ((Demo.mod98.createPdr ++ Demo.mod98.updatePdr).filter (·.asksIp)).length ≤ (freeIps Demo.nSvc2.rm).length ∧ ModRoom Demo.nSvc2.dp Demo.mod98 ∧
    Demo.mod98.removePdr ≠ [] ∧ Orderly Demo.nSvc2 (.modify 1 Demo.mod98.keepPdrs default) := by
  obtain ⟨h, s2, hb⟩ := Demo.two98
  have s3 := HistP.snoc s2 (orderly_establish (a := 1) (r := Demo.svc) (by decide) (by decide +kernel) (by decide +kernel) (by decide +kernel)) Demo.svc_step
  have s4 := HistP.snoc s3 (orderly_establish (a := 2) (r := Demo.est 200) (by decide) (by decide +kernel) (by decide +kernel) (by decide +kernel)) Demo.est98_step
  have hm : Demo.nSvc2.rm.isSome = true := by decide +kernel
  have hk := Demo.keep98_ord
  have hr : ModRoom Demo.nSvc2.dp Demo.mod98 := ⟨by decide +kernel, by decide +kernel, by decide +kernel⟩
  refine ⟨_, s4, ?_, ?_, by decide +kernel, Demo.mod98_usable _, by decide +kernel, by decide +kernel, by decide +kernel, by decide +kernel, by decide +kernel, hr, by decide, hk⟩
  · show attempts h + 1 + 1 < _
    rw [hb]; decide
  · generalize Demo.nSvc2 = n at hm
    intro h; rw [h] at hm; cases hm

end Eupf
