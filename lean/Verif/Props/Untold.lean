import Verif.Props.ChosenFeature
import Verif.Props.Leaks
/-
C124: what the UPF chooses for an Update PDR.
-/
namespace Eupf

theorem extract_teid {ue : Bool} {ie : PdrIE} {p q : SPdr} {s s1 : HS} {c : Option U8} (hc : s.cache = GoMap.empty)
    (h : extractPdr ue ie p s = (s1, .ok q)) (ha : ie.asksTeid = some c) :
    freeTeids s.rm = q.teid :: freeTeids s1.rm ∧ q.ipv4 = p.ipv4 ∧ q.ipv6 = p.ipv6 := by
  unfold PdrIE.asksTeid at ha
  split at ha
  · rename_i f u src hp
    unfold extractPdr at h
    simp only [] at h
    rw [hp] at h
    simp only at h
    split at h
    · cases h
    · by_cases hch : f.ch = true
      · unfold pdrFteid at h
        rw [if_pos hch] at h
        have hn : f.chooseId.bind s.cache.get? = none := by
          rw [hc]; cases f.chooseId <;> simp
        rw [hn] at h
        simp only at h
        rcases hal : allocTeid s.sess.remoteSEID p.pdrId s.rm with ⟨rm, _ | t⟩
        · rw [hal] at h; cases h
        · rw [hal] at h
          have ht := (allocTeid_takes hal).1
          cases hcid : f.chooseId with
          | none => rw [hcid] at h; cases h; exact ⟨ht, rfl, rfl⟩
          | some c => rw [hcid] at h; cases h; exact ⟨ht, rfl, rfl⟩
      · rw [if_neg hch] at ha; cases ha
  · cases ha

theorem extract_ip {ie : PdrIE} {p q : SPdr} {s s1 : HS}
    (h : extractPdr true ie p s = (s1, .ok q)) (ha : ie.asksIp = true) :
    freeIps s.rm = [] ∨ ∃ ip, freeIps s.rm = ip :: freeIps s1.rm ∧ q.ipv4 = some ip := by
  unfold PdrIE.asksIp at ha
  split at ha
  · rename_i u src hp
    unfold extractPdr at h
    simp only [] at h
    rw [hp] at h
    simp only at h
    split at h
    · cases h
    · unfold pdrUeIp at h
      rw [ha] at h
      simp only [Bool.and_self, if_true] at h
      rcases hal : allocIp s.sess.remoteSEID s.rm with ⟨rm, _ | ip⟩
      · left
        unfold allocIp at hal
        cases hr : s.rm with
        | none => rfl
        | some r =>
          rw [hr] at hal
          simp only [IPAM.allocate] at hal
          cases hf : r.ipam.freeIPs with
          | nil => simp [freeIps, hf]
          | cons a l => rw [hf] at hal; cases hal
      · right
        rw [hal] at h
        cases h
        refine ⟨ip, ?_, rfl⟩
        unfold allocIp at hal
        cases hr : s.rm with
        | none => rw [hr] at hal; cases hal
        | some r =>
          rw [hr] at hal
          simp only [IPAM.allocate] at hal
          cases hf : r.ipam.freeIPs with
          | nil => rw [hf] at hal; cases hal
          | cons a l => rw [hf] at hal; cases hal; simp [freeIps, hf]
  · cases ha

/-- An accepted modification that creates and removes no PDR, and updates one. -/
theorem one_update {n : Node} {addr : Addr} {r : ModReq} {ord : Orders} {sess0 : Session} {n' : Node} {resp : Resp} {ie : PdrIE}
    (hs : n.session? addr r.seid = some sess0) (hstep : n.step (.modify addr r ord) = (n', .reply resp)) (hacc : resp.cause = 1)
    (hc : r.createPdr = []) (hu : r.updatePdr = [ie]) (hr : r.removePdr = []) :
    ∃ (s9 s1 : HS) (i : U16) (p : SPdr) (sess : Session), s9.cache = GoMap.empty ∧ s9.rm = n.rm ∧ ie.pdrId = some i ∧
      extractPdr n.ueip ie (sess0.getPdr (i.zeroExtend 32)) s9 = (s1, .ok p) ∧ n'.rm = s1.rm ∧
      n'.session? addr r.seid = some sess ∧ sess.pdrs.get? (i.zeroExtend 32) = some p ∧ (n'.dp.entry? p.key).isSome = true := by
  obtain ⟨hs', hb, h3, h4, h5, -, -⟩ := modify_accepted hs hstep hacc
  obtain ⟨s1, s2, s3, s4, s5, s6, s7, s8, s9, s10, s11, e1, e2, e3, e4, e5, e6, e7, e8, e9, e10, e11, e12⟩ := modify_phases hb
  have fr : s9.cache = GoMap.empty ∧ s9.rm = n.rm ∧ s9.sess.pdrs = sess0.pdrs := by
    have hI : ∀ {s s' : HS}, RuleFrame s s' → (s.cache = GoMap.empty ∧ s.rm = n.rm ∧ s.sess.pdrs = sess0.pdrs) →
        s'.cache = GoMap.empty ∧ s'.rm = n.rm ∧ s'.sess.pdrs = sess0.pdrs := fun h h' => ⟨h.cache.trans h'.1, h.rm.trans h'.2.1, h.pdrs.trans h'.2.2⟩
    have h0 : (n.hs (sess0.setRemote r.cpFseid)).cache = GoMap.empty ∧ (n.hs (sess0.setRemote r.cpFseid)).rm = n.rm ∧
        (n.hs (sess0.setRemote r.cpFseid)).sess.pdrs = sess0.pdrs := by
      refine ⟨rfl, rfl, ?_⟩
      show (sess0.setRemote r.cpFseid).pdrs = _
      unfold Session.setRemote
      split <;> rfl
    have f1 := pres_each_ok (fun _ _ => pres_of fun s h => hI (createFar_rf _ s) h) e1 h0
    have f2 := pres_each_ok (fun _ _ => pres_of fun s h => hI (updateFar_rf _ s) h) e2 f1
    have f3 := pres_each_ok (fun _ _ => pres_of fun s h => hI (removeFar_rf _ s) h) e3 f2
    have f4 := pres_each_ok (fun _ _ => pres_of fun s h => hI (createQer_rf _ s) h) e4 f3
    have f5 := pres_each_ok (fun _ _ => pres_of fun s h => hI (updateQer_rf _ s) h) e5 f4
    have f6 := pres_each_ok (fun _ _ => pres_of fun s h => hI (removeQer_rf _ s) h) e6 f5
    have f7 := pres_each_ok (fun _ _ => pres_of fun s h => hI (createUrr_rf _ s) h) e7 f6
    have f8 := pres_each_ok (fun _ _ => pres_of fun s h => hI (updateUrr_rf _ s) h) e8 f7
    exact pres_each_ok (fun _ _ => pres_of fun s h => hI (removeUrr_rf _ s) h) e9 f8
  rw [hc] at e10; rw [hu] at e11; rw [hr] at e12
  cases e10; cases e12
  obtain ⟨t, k1, k2⟩ := each_cons_ok e11
  cases k2
  obtain ⟨i, p, t1, hi, hx, hse, hrm⟩ := updatePdr_rm k1
  obtain ⟨i', p', t1', hi', hx', hse', -, hk⟩ := updatePdr_ok k1
  rw [hi] at hi'; cases hi'
  rw [hx] at hx'; cases hx'
  refine ⟨s9, t1, i, p, hs'.sess, fr.1, fr.2.1, hi, ?_, ?_, h3, ?_, ?_⟩
  · rw [← hx]; unfold Session.getPdr; rw [fr.2.2]
  · rw [h5]; exact hrm
  · rw [hse]; simp [Session.putPdr]
  · rw [h4, hk]; simp

/-- **C124 (a), untold.** In every state, for every modification: the response reports choices for Create PDRs only. If the request creates no PDR,
the response reports no choice, whatever its Update PDRs asked for. -/
theorem C124_updates_untold {n : Node} {addr : Addr} {r : ModReq} {ord : Orders} {sess0 : Session} {n' : Node} {resp : Resp}
    (hs : n.session? addr r.seid = some sess0) (hstep : n.step (.modify addr r ord) = (n', .reply resp)) (hacc : resp.cause = 1)
    (hc : r.createPdr = []) : resp.created = [] := by
  obtain ⟨h1, h2, -, -⟩ := C17_modification hs hstep hacc
  rcases hl : resp.created with _ | ⟨c, l⟩
  · rfl
  · exfalso
    have hm : c ∈ resp.created := by rw [hl]; exact List.mem_cons_self
    cases c with
    | fteid i t a =>
      obtain ⟨-, -, ie, hi, -⟩ := h1 i t a hm
      rw [hc] at hi; cases hi
    | ueIp i ip =>
      obtain ⟨-, ie, hi, -⟩ := h2 i ip hm
      rw [hc] at hi; cases hi

/-- **C124 (b), a TEID is chosen all the same.** In every state: an accepted modification whose Update PDR asks the UPF to choose a TEID takes a free
TEID out of the pool, the rule gets it, and (if it is a rule for uplink traffic) a table entry under it exists from then on; the response says
nothing of it. -/
theorem C124_update_teid {n : Node} {addr : Addr} {r : ModReq} {ord : Orders} {sess0 : Session} {n' : Node} {resp : Resp} {ie : PdrIE}
    (hs : n.session? addr r.seid = some sess0) (hstep : n.step (.modify addr r ord) = (n', .reply resp)) (hacc : resp.cause = 1)
    (hc : r.createPdr = []) (hu : r.updatePdr = [ie]) (hr : r.removePdr = []) (hask : ie.asksTeid.isSome = true) :
    resp.created = [] ∧ ∃ i t sess p, ie.pdrId = some i ∧ freeTeids n.rm = t :: freeTeids n'.rm ∧
      n'.session? addr r.seid = some sess ∧ sess.pdrs.get? (i.zeroExtend 32) = some p ∧ p.teid = t ∧
      ((sess0.getPdr (i.zeroExtend 32)).ipv4 = none → (sess0.getPdr (i.zeroExtend 32)).ipv6 = none → (n'.dp.entry? (.ul t)).isSome = true) := by
  refine ⟨C124_updates_untold hs hstep hacc hc, ?_⟩
  obtain ⟨s9, s1, i, p, sess, k1, k2, k3, k4, k5, k6, k7, k8⟩ := one_update hs hstep hacc hc hu hr
  obtain ⟨c, hask⟩ := Option.isSome_iff_exists.1 hask
  obtain ⟨x1, x2, x3⟩ := extract_teid k1 k4 hask
  refine ⟨i, p.teid, sess, p, k3, ?_, k6, k7, rfl, fun h4 h6 => ?_⟩
  · rw [← k2, x1, k5]
  · have : p.key = .ul p.teid := by unfold SPdr.key; rw [x2, x3, h4, h6]
    rw [← this]; exact k8

/-- **C124 (c), and an address too.** The same for an Update PDR that asks for a UE address while the feature is on and an address is free: the rule
gets it and serves it, and the response says nothing of it. -/
theorem C124_update_ip {n : Node} {addr : Addr} {r : ModReq} {ord : Orders} {sess0 : Session} {n' : Node} {resp : Resp} {ie : PdrIE}
    (hs : n.session? addr r.seid = some sess0) (hstep : n.step (.modify addr r ord) = (n', .reply resp)) (hacc : resp.cause = 1)
    (hc : r.createPdr = []) (hu : r.updatePdr = [ie]) (hr : r.removePdr = []) (hask : ie.asksIp = true) (hfeat : n.ueip = true)
    (hfree : freeIps n.rm ≠ []) :
    resp.created = [] ∧ ∃ i ip sess p, ie.pdrId = some i ∧ freeIps n.rm = ip :: freeIps n'.rm ∧
      n'.session? addr r.seid = some sess ∧ sess.pdrs.get? (i.zeroExtend 32) = some p ∧ p.ipv4 = some ip ∧
      (n'.dp.entry? (.dl4 ip)).isSome = true := by
  refine ⟨C124_updates_untold hs hstep hacc hc, ?_⟩
  obtain ⟨s9, s1, i, p, sess, k1, k2, k3, k4, k5, k6, k7, k8⟩ := one_update hs hstep hacc hc hu hr
  rw [hfeat] at k4
  rcases extract_ip k4 hask with h | ⟨ip, h1, h2⟩
  · rw [k2] at h; exact absurd h hfree
  · refine ⟨i, ip, sess, p, k3, ?_, k6, k7, h2, ?_⟩
    · rw [← k2, h1, k5]
    · have : p.key = .dl4 ip := by unfold SPdr.key; rw [h2]
      rw [← this]; exact k8

theorem modify_session {n : Node} {addr : Addr} {r : ModReq} {ord : Orders} {n' : Node} {resp : Resp}
    (hstep : n.step (.modify addr r ord) = (n', .reply resp)) (hacc : resp.cause = 1) : ∃ x, n.session? addr r.seid = some x := by
  have hstep' : n.modify addr r ord = _ := hstep
  rcases modify_cases n addr r ord with ⟨c, x, hc, -, h⟩ | ⟨as, se, hs, res, h1, h2, -, -, -, h⟩
  · rw [h] at hstep'
    cases hstep'
    have hacc' : c = 1 := hacc
    rcases hc with rfl | rfl <;> cases hacc'
  · exact ⟨se, by unfold Node.session?; rw [h1]; exact h2⟩

/-- **C124 (d), until none is left.** A sequence of such modifications, all accepted, of any length: each has taken a TEID. (So the number of accepted
ones is at most the size of the pool, though the peer holds one rule only.) -/
theorem C124_drain {addr : Addr} (l : List (ModReq × Orders)) : ∀ (n : Node),
    (∀ x ∈ l, x.1.createPdr = [] ∧ x.1.removePdr = [] ∧ ∃ ie, x.1.updatePdr = [ie] ∧ ie.asksTeid.isSome = true) →
    (n.run (l.map fun x => .modify addr x.1 x.2)).2.map Outcome.accepted = l.map (fun _ => true) →
    (freeTeids n.rm).length = l.length + (freeTeids (n.run (l.map fun x => .modify addr x.1 x.2)).1.rm).length := by
  induction l with
  | nil => intro n _ _; simp [Node.run]
  | cons x l ih =>
    intro n hl ha
    obtain ⟨h1, h2, ie, h3, h4⟩ := hl x List.mem_cons_self
    simp only [List.map_cons, Node.run] at ha ⊢
    rcases hst : n.step (.modify addr x.1 x.2) with ⟨n', o⟩
    rw [hst] at ha
    have hcase : ∃ resp, o = .reply resp := by
      cases o with
      | reply resp => exact ⟨resp, rfl⟩
      | silent => simp [Outcome.accepted] at ha
      | crash => simp [Outcome.accepted] at ha
    obtain ⟨resp, rfl⟩ := hcase
    simp only [List.map_cons, List.cons.injEq] at ha
    have hacc : resp.cause = 1 := by
      have := ha.1
      unfold Outcome.accepted at this
      exact eq_of_beq this
    obtain ⟨sess0, hs⟩ := modify_session hst hacc
    obtain ⟨-, i, t, sess, p, -, hf, -⟩ := C124_update_teid hs hst hacc h1 h3 h2 h4
    have := ih n' (fun y hy => hl y (List.mem_cons_of_mem _ hy)) ha.2
    rw [hf]
    simp only [List.length_cons]
    omega

namespace Demo
/-- a node whose peer has one session, with one rule; of the TEIDs 1 and 2 one is free -/
def nHeld : Node := (nTwo.run [assoc 1, .establish 1 (estPdrs 100 [ch 1 none])]).1
/-- its rule is to get a new TEID -/
def reqNew : ModReq := { seid := 2, seq := 2, updatePdr := [ch 1 none] }
end Demo

/-- Non-vacuity of `C124_update_teid` and `C124_drain`: the update is accepted, takes TEID 2 and tells nothing; the next one is refused. -/
example : (Demo.nHeld.step (.modify 1 Demo.reqNew default)).2 = .reply { type := .modification, seid := 100, seq := 2, cause := 1 } ∧
    (Demo.nHeld.session? 1 2).isSome = true ∧ freeTeids Demo.nHeld.rm = [2] ∧ freeTeids (Demo.nHeld.step (.modify 1 Demo.reqNew default)).1.rm = [] ∧
    ((Demo.nHeld.step (.modify 1 Demo.reqNew default)).1.dp.entry? (.ul 2)).isSome = true ∧
    (Demo.nHeld.run [.modify 1 Demo.reqNew default, .modify 1 Demo.reqNew default]).2.map Outcome.accepted = [true, false] := by
  refine ⟨by decide +kernel, by decide +kernel, by decide +kernel, by decide +kernel, by decide +kernel, by decide +kernel⟩

end Eupf
