import Verif.Props.CleanCuts
import Verif.Props.Atomic
/-
C112: a modification that changes one thing about a packet takes effect for it at once.
-/
namespace Eupf
open Act

theorem update_pdrs_keep {ue : Bool} {ie : PdrIE} {s s' : HS} (h : updatePdr ue ie s = (s', .ok ())) {j : U32}
    (hj : ∀ i, ie.pdrId = some i → i.zeroExtend 32 ≠ j) : s'.sess.pdrs.get? j = s.sess.pdrs.get? j := by
  obtain ⟨id', p', t0, f1, f2, f3, -⟩ := updatePdr_ok h
  rw [f3]
  simp only [Session.putPdr, GoMap.get?_set]
  rw [if_neg (fun e => hj id' f1 e.symm)]

theorem updates_pdrs_keep {ue : Bool} : ∀ (l : List PdrIE) {s s' : HS}, Act.each (updatePdr ue) l s = (s', .ok ()) → ∀ {j : U32},
    (∀ ie ∈ l, ∀ i, ie.pdrId = some i → i.zeroExtend 32 ≠ j) → s'.sess.pdrs.get? j = s.sess.pdrs.get? j
  | [], s, s', h, j, _ => by cases h; rfl
  | ie :: l, s, s', h, j, hj => by
    obtain ⟨s1, h1, h2⟩ := each_cons_ok h
    rw [updates_pdrs_keep l h2 fun x hx => hj x (List.mem_cons_of_mem _ hx), update_pdrs_keep h1 (hj ie (by simp))]

/-- what a shorter modification leaves of the FARs, QERs and PDRs: the old ones or the new ones -/
structure Between (x y' y : Session) : Prop where
  far : ∀ j f, x.fars.get? j = some f → ∃ f', y'.fars.get? j = some f' ∧ f'.gid = f.gid ∧ (f' = f ∨ y.fars.get? j = some f')
  qer : ∀ j f, x.qers.get? j = some f → ∃ f', y'.qers.get? j = some f' ∧ f'.gid = f.gid ∧ (f' = f ∨ y.qers.get? j = some f')
  pdr : ∀ i p, x.pdrs.get? i = some p → ∃ p', y'.pdrs.get? i = some p' ∧ p'.key = p.key ∧ (p' = p ∨ (y.pdrs.get? i = some p' ∧ y'.fars = y.fars ∧ y'.qers = y.qers))
  new : ∀ i p, x.pdrs.get? i = none → y'.pdrs.get? i = some p → y.pdrs.get? i = some p ∧ y'.fars = y.fars ∧ y'.qers = y.qers

theorem late_fars {ue : Bool} {ord : Orders} {r : ModReq} {s6 s7 s8 s9 s10 s11 s' : HS}
    (e7 : Act.each createUrr r.createUrr s6 = (s7, .ok ())) (e8 : Act.each updateUrr r.updateUrr s7 = (s8, .ok ()))
    (e9 : Act.each removeUrr r.removeUrr s8 = (s9, .ok ())) (e10 : Act.each (createPdr ue) r.createPdr s9 = (s10, .ok ()))
    (e11 : Act.each (updatePdr ue) r.updatePdr s10 = (s11, .ok ())) (e12 : Act.each (removePdr ord) r.removePdr s11 = (s', .ok ())) :
    s'.sess.fars = s6.sess.fars ∧ s'.sess.qers = s6.sess.qers :=
  late_phases_rec (R := fun f q => f = s6.sess.fars ∧ q = s6.sess.qers) e7 e8 e9 e10 e11 e12 ⟨rfl, rfl⟩

theorem between_of {ue : Bool} {ord : Orders} {r' r : ModReq} (c : r'.Cut r) {s0 t t' : HS} (h : modifyBody ue ord r s0 = (t, .ok ()))
    (h' : modifyBody ue ord r' s0 = (t', .ok ())) (ho : r.orderly s0.sess) (hadd : r.onlyAdds) (hon : r.updatesOnce)
    (hn : NewIds r.createFar r.createQer r.createUrr s0.sess) : Between s0.sess t'.sess t.sess := by
  obtain ⟨a1, a2, a3⟩ := hadd
  obtain ⟨b1, b2, b3⟩ := c.onlyAdds ⟨a1, a2, a3⟩
  obtain ⟨s1, s2, s3, s4, s5, s6, s7, s8, s9, s10, s11, e1, e2, e3, e4, e5, e6, e7, e8, e9, e10, e11, e12⟩ := modify_phases h
  obtain ⟨u1, u2, u3, u4, u5, u6, u7, u8, u9, u10, u11, f1, f2, f3, f4, f5, f6, f7, f8, f9, f10, f11, f12⟩ := modify_phases h'
  have p9 := early_phases_pdrs e1 e2 e3 e4 e5 e6 e7 e8 e9
  have q9 := early_phases_pdrs f1 f2 f3 f4 f5 f6 f7 f8 f9
  obtain ⟨l1, l2⟩ := late_fars e7 e8 e9 e10 e11 e12
  obtain ⟨m1, m2⟩ := late_fars f7 f8 f9 f10 f11 f12
  rw [a3] at e12; cases e12
  rw [b3] at f12; cases f12
  rw [a1] at e3; cases e3
  rw [b1] at f3; cases f3
  rw [a2] at e6; cases e6
  rw [b2] at f6; cases f6
  -- FARs after the QER phases
  have l1' : t.sess.fars = s2.sess.fars := by
    have x4 := pres_each_ok (I := RecF (fun m => m = s2.sess.fars)) (fun x _ => createQer_recF x) e4 rfl
    have x5 := pres_each_ok (fun x _ => updateQer_recF x) e5 x4
    exact l1.trans x5
  have m1' : t'.sess.fars = u2.sess.fars := by
    have x4 := pres_each_ok (I := RecF (fun m => m = u2.sess.fars)) (fun x _ => createQer_recF x) f4 rfl
    have x5 := pres_each_ok (fun x _ => updateQer_recF x) f5 x4
    exact m1.trans x5
  -- QERs after the FAR phases
  have q2 : s2.sess.qers = s0.sess.qers := by
    have x4 := pres_each_ok (I := RecQ (fun m => m = s0.sess.qers)) (fun x _ => createFar_recQ x) e1 rfl
    exact pres_each_ok (I := RecQ (fun m => m = s0.sess.qers)) (fun x _ => updateFar_recQ x) e2 x4
  have q2' : u2.sess.qers = s0.sess.qers := by
    have x4 := pres_each_ok (I := RecQ (fun m => m = s0.sess.qers)) (fun x _ => createFar_recQ x) f1 rfl
    exact pres_each_ok (I := RecQ (fun m => m = s0.sess.qers)) (fun x _ => updateFar_recQ x) f2 x4
  -- when PDRs are written, FARs and QERs are finished
  have late : r'.createPdr ≠ [] ∨ r'.updatePdr ≠ [] → t'.sess.fars = t.sess.fars ∧ t'.sess.qers = t.sess.qers ∧ u9 = s9 := by
    intro hne
    obtain ⟨c1, c2, c3, c4, c5, c6, c7, c8, c9⟩ := c.rules (hne.imp id .inl)
    have w1 := each_same e1 f1 c1 rfl
    have w2 := each_same e2 f2 c2 w1
    have w4 := each_same e4 f4 c4 w2
    have w5 := each_same e5 f5 c5 w4
    have w7 := each_same e7 f7 c7 w5
    have w8 := each_same e8 f8 c8 w7
    have w9 := each_same e9 f9 c9 w8
    exact ⟨by rw [m1', l1', w2], by rw [m2, l2, w5], w9⟩
  have keepNew : ∀ j q, s0.sess.pdrs.get? j = some q → s10.sess.pdrs.get? j = some q := by
    intro j q hq
    rw [creates_pdrs_keep _ e10, p9, hq]
    rintro ie hie i hi rfl
    rw [ho.new ie hie i hi] at hq; cases hq
  have keepNew' : ∀ j q, s0.sess.pdrs.get? j = some q → u10.sess.pdrs.get? j = some q := by
    intro j q hq
    rw [creates_pdrs_keep _ f10, q9, hq]
    rintro ie hie i hi rfl
    rw [ho.new ie (c.createPdr.subset hie) i hi] at hq; cases hq
  refine ⟨?_, ?_, ?_, ?_⟩
  · intro j f hf
    rw [m1', l1']
    have hnew : ∀ x ∈ r.createFar, x.farId.getD 0 ≠ j := fun x hx he => by have := hn.farNew x hx; rw [he, hf] at this; cases this
    have hg : ∃ f', u2.sess.fars.get? j = some f' ∧ f'.gid = f.gid := by
      have x1 := pres_each_ok (I := FarAt j f.gid) (fun x hx => farAt_create (hnew x (c.createFar.subset hx))) f1 (by unfold FarAt; rw [hf]; rfl)
      exact Option.map_eq_some_iff.1 (pres_each_ok (I := FarAt j f.gid) (fun x hx => farAt_update x) f2 x1)
    obtain ⟨f', hf', hgid⟩ := hg
    refine ⟨f', hf', hgid, ?_⟩
    have x1 := pres_each_ok (I := RecF (fun m => m.get? j = some f)) (fun x hx => createFar_other x (hnew x (c.createFar.subset hx))) f1 hf
    by_cases hj : ∃ x ∈ r'.updateFar, x.farId = some j
    · right
      obtain ⟨x, hx, hxj⟩ := hj
      obtain rfl := each_same e1 f1 (c.far1 (.inl (List.ne_nil_of_mem hx))) rfl
      obtain ⟨l, hl⟩ := c.updateFar
      have hnd := hon.far
      rw [← hl] at e2 hnd
      obtain ⟨v, v1, v2⟩ := each_append_ok _ e2
      obtain rfl := each_same v1 f2 rfl rfl
      rw [List.map_append, List.nodup_append] at hnd
      refine pres_each_ok (I := RecF (fun m => m.get? j = some f')) (fun y hy => updateFar_other y ?_) v2 hf'
      intro hyj
      exact hnd.2.2 _ (List.mem_map_of_mem hx) _ (List.mem_map_of_mem hy) (hxj.trans hyj.symm)
    · left
      have x2 := pres_each_ok (I := RecF (fun m => m.get? j = some f)) (fun y hy => updateFar_other y fun hyj => hj ⟨y, hy, hyj⟩) f2 x1
      exact Option.some.inj (hf'.symm.trans x2)
  · intro j f hf
    rw [m2, l2]
    have hnew : ∀ x ∈ r.createQer, x.qerId ≠ some j := fun x hx he => by have := hn.qerNew x hx j he; rw [hf] at this; cases this
    have hg : ∃ f', u5.sess.qers.get? j = some f' ∧ f'.gid = f.gid := by
      have x1 := pres_each_ok (I := QerAt j f.gid) (fun x hx => qerAt_create (hnew x (c.createQer.subset hx))) f4 (by unfold QerAt; rw [q2', hf]; rfl)
      exact Option.map_eq_some_iff.1 (pres_each_ok (I := QerAt j f.gid) (fun x hx => qerAt_update x) f5 x1)
    obtain ⟨f', hf', hgid⟩ := hg
    refine ⟨f', hf', hgid, ?_⟩
    have x1 := pres_each_ok (I := RecQ (fun m => m.get? j = some f)) (fun x hx => createQer_other x (hnew x (c.createQer.subset hx))) f4 (by unfold RecQ; rw [q2']; exact hf)
    by_cases hj : ∃ x ∈ r'.updateQer, x.qerId = some j
    · right
      obtain ⟨x, hx, hxj⟩ := hj
      obtain ⟨k1, k2, -⟩ := c.qer0 (.inr (.inl (List.ne_nil_of_mem hx)))
      have w1 := each_same e1 f1 k1 rfl
      have w2 := each_same e2 f2 k2 w1
      obtain rfl := each_same e4 f4 (c.qer1 (.inl (List.ne_nil_of_mem hx))) w2
      obtain ⟨l, hl⟩ := c.updateQer
      have hnd := hon.qer
      rw [← hl] at e5 hnd
      obtain ⟨v, v1, v2⟩ := each_append_ok _ e5
      obtain rfl := each_same v1 f5 rfl rfl
      rw [List.map_append, List.nodup_append] at hnd
      refine pres_each_ok (I := RecQ (fun m => m.get? j = some f')) (fun y hy => updateQer_other y ?_) v2 hf'
      intro hyj
      exact hnd.2.2 _ (List.mem_map_of_mem hx) _ (List.mem_map_of_mem hy) (hxj.trans hyj.symm)
    · left
      have x2 := pres_each_ok (I := RecQ (fun m => m.get? j = some f)) (fun y hy => updateQer_other y fun hyj => hj ⟨y, hy, hyj⟩) f5 x1
      exact Option.some.inj (hf'.symm.trans x2)
  · intro i p hp
    have hp10 := keepNew' i p hp
    have k11 : SameKeys u10.sess t'.sess := keys_updates _ (fun ie hie => by
      obtain ⟨i, p, h1, h2, h3, -⟩ := ho.upd ie (c.updatePdr.subset hie)
      exact ⟨i, p.key, h1, by rw [keepNew' _ p h2]; rfl, h3⟩) f11
    obtain ⟨p', hp', hk⟩ := k11.sub i p hp10
    refine ⟨p', hp', hk, ?_⟩
    by_cases hj : ∃ x ∈ r'.updatePdr, ∃ k, x.pdrId = some k ∧ k.zeroExtend 32 = i
    · right
      obtain ⟨x, hx, k, hk, rfl⟩ := hj
      have hne : r'.updatePdr ≠ [] := List.ne_nil_of_mem hx
      obtain ⟨w1, w2, w3⟩ := late (.inr hne)
      refine ⟨?_, w1, w2⟩
      subst w3
      obtain rfl := each_same e10 f10 (c.pdr1 (.inl hne)) rfl
      obtain ⟨l, hl⟩ := c.updatePdr
      have hnd := hon.pdr
      rw [← hl] at e11 hnd
      obtain ⟨v, v1, v2⟩ := each_append_ok _ e11
      obtain rfl := each_same v1 f11 rfl rfl
      rw [List.map_append, List.nodup_append] at hnd
      rw [updates_pdrs_keep _ v2, hp']
      intro y hy k' hk' he
      exact hnd.2.2 _ (List.mem_map_of_mem hx) _ (List.mem_map_of_mem hy) (by rw [hk, hk', zext_inj he])
    · left
      rw [updates_pdrs_keep _ f11 (fun y hy k hk he => hj ⟨y, hy, k, hk, he⟩), hp10] at hp'
      exact (Option.some.inj hp').symm
  · intro i p hnone hp
    have notUpd : ∀ y ∈ r.updatePdr, ∀ k, y.pdrId = some k → k.zeroExtend 32 ≠ i := by
      intro y hy k hk he
      obtain ⟨k', q, h1, h2, -⟩ := ho.upd y hy
      rw [hk] at h1; cases h1
      rw [he, hnone] at h2; cases h2
    rw [updates_pdrs_keep _ f11 (fun y hy => notUpd y (c.updatePdr.subset hy))] at hp
    rw [updates_pdrs_keep _ e11 notUpd]
    have hcr : ∃ ie ∈ r'.createPdr, ∃ k, ie.pdrId = some k ∧ k.zeroExtend 32 = i := by
      refine Classical.byContradiction fun hno => ?_
      rw [creates_pdrs_keep _ f10 (j := i) (fun ie hie k hk he => hno ⟨ie, hie, k, hk, he⟩), q9, hnone] at hp
      cases hp
    obtain ⟨ie, hie, k, hk, rfl⟩ := hcr
    obtain ⟨w1, w2, w3⟩ := late (.inl (List.ne_nil_of_mem hie))
    refine ⟨?_, w1, w2⟩
    subst w3
    obtain ⟨l, hl⟩ := c.createPdr
    have hnd := ho.ids
    rw [← hl] at e10 hnd
    obtain ⟨v, v1, v2⟩ := each_append_ok _ e10
    obtain rfl := each_same v1 f10 rfl rfl
    rw [List.map_append, List.nodup_append] at hnd
    rw [creates_pdrs_keep _ v2, hp]
    intro y hy k' hk' he
    exact hnd.2.2 _ (List.mem_map_of_mem hie) _ (List.mem_map_of_mem hy) (by rw [hk, hk', zext_inj he])

theorem setRemote_four (x : Session) (c) : (x.setRemote c).pdrs = x.pdrs ∧ (x.setRemote c).fars = x.fars ∧ (x.setRemote c).qers = x.qers ∧
    (x.setRemote c).urrs = x.urrs := by
  unfold Session.setRemote; split <;> exact ⟨rfl, rfl, rfl, rfl⟩

/-- without removals the PDRs stay, with their keys -/
theorem mod_pdrs_stay {ue : Bool} {ord : Orders} {r : ModReq} {s0 t : HS} (h : modifyBody ue ord r s0 = (t, .ok ())) (ho : r.orderly s0.sess)
    (hrem : r.removePdr = []) : SubKeys s0.sess t.sess := by
  obtain ⟨s1, s2, s3, s4, s5, s6, s7, s8, s9, s10, s11, e1, e2, e3, e4, e5, e6, e7, e8, e9, e10, e11, e12⟩ := modify_phases h
  rw [hrem] at e12; cases e12
  have p9 := early_phases_pdrs e1 e2 e3 e4 e5 e6 e7 e8 e9
  have keepNew : SubKeys s0.sess s10.sess := by
    intro j q hq
    refine ⟨q, ?_, rfl⟩
    rw [creates_pdrs_keep _ e10, p9, hq]
    rintro ie hie i hi rfl
    rw [ho.new ie hie i hi] at hq; cases hq
  refine keepNew.trans (SameKeys.sub (keys_updates _ (fun ie hie => ?_) e11))
  obtain ⟨i, p, h1, h2, h3, -⟩ := ho.upd ie hie
  obtain ⟨q, hq, hk⟩ := keepNew _ p h2
  exact ⟨i, p.key, h1, by rw [hq]; exact congrArg some hk, h3⟩

/-- rules that are not updated stay -/
theorem mod_unchanged {ue : Bool} {ord : Orders} {r : ModReq} {s0 t : HS} (h : modifyBody ue ord r s0 = (t, .ok ())) (hadd : r.onlyAdds)
    {i j k : U32} {p : SPdr} {f : SFar} {q : SQer} (hi : ∀ ie ∈ r.createPdr, ∀ c, ie.pdrId = some c → c.zeroExtend 32 ≠ i)
    (hj : ∀ c ∈ r.createFar, c.farId.getD 0 ≠ j) (hk : ∀ c ∈ r.createQer, c.qerId ≠ some k) (hp : s0.sess.pdrs.get? i = some p)
    (hf : s0.sess.fars.get? j = some f) (hq : s0.sess.qers.get? k = some q) :
    (r.updatePdr = [] → t.sess.pdrs.get? i = some p) ∧ (r.updateFar = [] → t.sess.fars.get? j = some f) ∧ (r.updateQer = [] → t.sess.qers.get? k = some q) := by
  obtain ⟨a1, a2, a3⟩ := hadd
  obtain ⟨s1, s2, s3, s4, s5, s6, s7, s8, s9, s10, s11, e1, e2, e3, e4, e5, e6, e7, e8, e9, e10, e11, e12⟩ := modify_phases h
  have p9 := early_phases_pdrs e1 e2 e3 e4 e5 e6 e7 e8 e9
  obtain ⟨l1, l2⟩ := late_fars e7 e8 e9 e10 e11 e12
  rw [a3] at e12; cases e12
  rw [a1] at e3; cases e3
  rw [a2] at e6; cases e6
  refine ⟨fun h0 => ?_, fun h0 => ?_, fun h0 => ?_⟩
  · rw [h0] at e11; cases e11
    rw [creates_pdrs_keep _ e10 hi, p9, hp]
  · rw [h0] at e2; cases e2
    rw [l1]
    have x1 := pres_each_ok (I := RecF (fun m => m.get? j = some f)) (fun x hx => createFar_other x (hj x hx)) e1 hf
    have x4 := pres_each_ok (fun x _ => createQer_recF x) e4 x1
    exact pres_each_ok (I := RecF (fun m => m.get? j = some f)) (fun x _ => updateQer_recF x) e5 x4
  · rw [h0] at e5; cases e5
    rw [l2]
    have x1 := pres_each_ok (I := RecQ (fun m => m.get? k = some q)) (fun x _ => createFar_recQ x) e1 hq
    have x2 := pres_each_ok (fun x _ => updateFar_recQ x) e2 x1
    exact pres_each_ok (I := RecQ (fun m => m.get? k = some q)) (fun x hx => createQer_other x (hk x hx)) e4 x2

/-- an orderly modification of a session succeeds, and its result is the session afterwards -/
theorem mod_done {n : Node} {a : Addr} {r : ModReq} {ord : Orders} (ho : Orderly n (.modify a r ord)) (hc : (n.step (.modify a r ord)).2 ≠ .crash) {x : Session}
    (hx : n.session? a r.seid = some x) : ∃ t, modifyBody n.ueip ord r (n.hs (x.setRemote r.cpFseid)) = (t, .ok ()) ∧
      (n.step (.modify a r ord)).1.session? a r.seid = some t.sess := by
  have hans := ho.answered
  generalize hst : n.step (.modify a r ord) = st at *
  have hst' : n.modify a r ord = st := hst
  cases modify_cases n a r ord with
  | refused c _ hcc hs he => rw [hx] at hs; cases hs
  | ran as x' hs res ha hsess hbody hl hrem he =>
    rw [he] at hst'
    have hx' : n.session? a r.seid = some x' := by simp [Node.session?, ha, hsess]
    rw [hx] at hx'; cases hx'
    have hres : res = .ok () := by
      cases res with
      | err => subst hst'; exact absurd rfl (hans _ rfl)
      | panic => subst hst'; exact absurd rfl hc
      | ok _ => rfl
    subst hres
    exact ⟨hs, hbody, by subst hst'; simp [Node.modResult, Node.session?]⟩

/-- without the session nothing happens -/
theorem mod_absent {n : Node} {a : Addr} {r : ModReq} {ord : Orders} (hx : n.session? a r.seid = none) : (n.step (.modify a r ord)).1 = n := by
  have hst : n.step (.modify a r ord) = n.modify a r ord := rfl
  rw [hst]
  cases modify_cases n a r ord with
  | refused c _ hcc hs he => rw [he]
  | ran as x' hs res ha hsess hbody hl hrem he =>
    have hx' : n.session? a r.seid = some x' := by simp [Node.session?, ha, hsess]
    rw [hx] at hx'; cases hx'

/-- Two nodes with clean histories, whose sessions have the same PDR with key `K`, using the same FAR and the same QER. -/
theorem alike_pdr {cfg cfg' : NodeCfg} {rm rm' : Option ResourceManager} {pz fz qz uz pz' fz' qz' uz' : U32} (hfz : 0 < fz.toNat) (hqz : 0 < qz.toNat) (huz : 0 < uz.toNat)
    (hfz' : 0 < fz'.toNat) (hqz' : 0 < qz'.toNat) (huz' : 0 < uz'.toNat)
    {h h' : List (Ev × Outcome)} {m n : Node} (H : HistP Clean (Node.init cfg rm (BpfObjects.load pz fz qz uz)) h m) (hb : attempts h < 2 ^ 64 - 2)
    (H' : HistP Clean (Node.init cfg' rm' (BpfObjects.load pz' fz' qz' uz')) h' n) (hb' : attempts h' < 2 ^ 64 - 2)
    {e : Env} {fr : List U8} {a : Addr} {s : U64} {x y : Session} (hx : m.session? a s = some x) (hy : n.session? a s = some y)
    {i : U32} {p : SPdr} (hf : FrameFor e fr p.key) (hp : x.pdrs.get? i = some p) (hp' : y.pdrs.get? i = some p) {j : U32} {f : SFar} (hj : x.fars.get? j = some f)
    (hj' : y.fars.get? j = some f) (hg : f.gid = p.info.farId) {k : U32} {q : SQer} (hk : x.qers.get? k = some q) (hk' : y.qers.get? k = some q)
    (hgq : q.gid = p.info.qerId) : AlikeFor e fr m.dp (n.dp.timedAs m.dp) := by
  obtain ⟨ex, -⟩ := exactS_hist hfz hqz huz (H.mono fun n e (h : Clean n e) => h.orderly) hb
  obtain ⟨ex', -⟩ := exactS_hist hfz' hqz' huz' (H'.mono fun n e (h : Clean n e) => h.orderly) hb'
  have l1 := ex.live a s i p ⟨x, hx, hp⟩
  have l2 := ex'.live a s i p ⟨y, hy, hp'⟩
  have G := (H.mono fun n e (h : Clean n e) => h.tidy.known).good fun _ _ h => h
  have G' := (H'.mono fun n e (h : Clean n e) => h.tidy.known).good fun _ _ h => h
  have c1 := (C09_agrees_partial G hx j).1 f hj
  have c2 := (C09_agrees_partial G' hy j).1 f hj'
  obtain ⟨q1, d1, r1, r2, r3, r4, r5⟩ := (C09_agrees_partial G hx k).2 q hk
  obtain ⟨q2, d2, t1, t2, t3, t4, t5⟩ := (C09_agrees_partial G' hy k).2 q hk'
  refine alikeFor_key hf (by rw [timedAs_entry, l1, l2]) fun r hr => ?_
  obtain rfl := frameRule_store l1 hf hr
  refine ⟨?_, ?_⟩
  · show m.dp.far.lookup p.info.farId = n.dp.far.lookup p.info.farId
    rw [← hg, c1, c2]
  · show m.dp.qer.lookup p.info.qerId = (n.dp.timedAs m.dp).qer.lookup p.info.qerId
    rw [← hgq, d1]
    unfold ArrMap.lookup at d1 d2 ⊢
    split at d1
    · cases d1
      split at d2
      · rename_i hlt
        cases d2
        show _ = if q.gid.toNat < n.dp.qer.size.toNat then _ else _
        rw [if_pos hlt]
        show some (m.dp.qer.val q.gid) = some { n.dp.qer.val q.gid with startUL := (m.dp.qer.val q.gid).startUL, startDL := (m.dp.qer.val q.gid).startDL }
        congr 1
        simp only
        rw [t1, t2, t3, t4, t5, ← r1, ← r2, ← r3, ← r4, ← r5]
      · cases d2
    · cases d1

/-- Update IEs for rules of one kind change one thing. -/
theorem changes_one_kind {n : Node} {a : Addr} {r : ModReq} {ord : Orders} (hcl : Clean n (.modify a r ord)) (hc : (n.step (.modify a r ord)).2 ≠ .crash)
    (hadd : r.onlyAdds)
    (hkind : (r.updateQer = [] ∧ r.updatePdr = []) ∨ (r.updateFar = [] ∧ r.updatePdr = []) ∨ (r.updateFar = [] ∧ r.updateQer = []))
    {e : Env} {f : List U8} : ∀ x y i p, n.session? a r.seid = some x → (n.step (.modify a r ord)).1.session? a r.seid = some y → x.pdrs.get? i = some p → FrameFor e f p.key →
      x.changesOne y i := by
  intro x y i p hx hy hpi hf p' j fa k q hp' hj hg hk hgq
  obtain ⟨t, bd, hy'⟩ := mod_done hcl.orderly hc hx
  rw [hy] at hy'; cases hy'
  obtain ⟨z1, z2, z3, z4⟩ := setRemote_four x r.cpFseid
  have ho := hcl.orderly.modif a r ord x rfl hx
  have hn := hcl.tidy.modif a r ord x rfl hx
  have u := mod_unchanged bd hadd (i := i) (p := p') (j := j) (f := fa) (k := k) (q := q)
    (fun ie hie c hc he => by rw [← he, ho.new ie hie c hc] at hp'; cases hp')
    (fun c hc he => by have := hn.farNew c hc; rw [he, hj] at this; cases this)
    (fun c hc he => by have := hn.qerNew c hc k he; rw [hk] at this; cases this)
    (by show (x.setRemote r.cpFseid).pdrs.get? i = _; rw [z1]; exact hp')
    (by show (x.setRemote r.cpFseid).fars.get? j = _; rw [z2]; exact hj)
    (by show (x.setRemote r.cpFseid).qers.get? k = _; rw [z3]; exact hk)
  obtain ⟨u1, u2, u3⟩ := u
  rcases hkind with ⟨k1, k2⟩ | ⟨k1, k2⟩ | ⟨k1, k2⟩
  · exact .inr (.inl ⟨u1 k2, u3 k1⟩)
  · exact .inl ⟨u1 k2, u2 k1⟩
  · exact .inr (.inr ⟨u2 k1, u3 k2⟩)

section
variable {cfg : NodeCfg} {rm : Option ResourceManager} {pz fz qz uz : U32} (hfz : 0 < fz.toNat) (hqz : 0 < qz.toNat)
    (huz : 0 < uz.toNat) {h : List (Ev × Outcome)} {n : Node} (H : HistI Clean (Node.init cfg rm (BpfObjects.load pz fz qz uz)) h n)
include hfz hqz huz H

/-- **C112.** After every history as in C99, at every moment of a further such modification that removes no FAR, QER or PDR and updates no rule twice, a packet
meets the fate it meets before the modification or the fate it meets after it (with the rate limiters' timers as they are), if of the PDR that is
for the packet, its FAR and its QER the modification changes at most one. Not for pings of the UPF itself. -/
theorem C112_modify_partial {a : Addr} {r : ModReq} {ord : Orders} (hcl : Clean n (.modify a r ord)) (hc : (n.step (.modify a r ord)).2 ≠ .crash)
    (hb : attempts h < 2 ^ 64 - 2) (hadd : r.onlyAdds) (hon : r.updatesOnce) {b : BpfObjects} (hm : n.moment (.modify a r ord) b) {e : Env} {f : List U8}
    (hp : ¬ PingsUpf e f)
    (hone : ∀ x y i p, n.session? a r.seid = some x → (n.step (.modify a r ord)).1.session? a r.seid = some y → x.pdrs.get? i = some p → FrameFor e f p.key →
      x.changesOne y i) :
    SameFate e f b (n.dp.timedAs b) ∨ SameFate e f b ((n.step (.modify a r ord)).1.dp.timedAs b) := by
  obtain ⟨h', H', he⟩ := C106_interleaved H
  have hb' : attempts h' < 2 ^ 64 - 2 := by rw [← attempts_plainly h', he, attempts_plainly]; exact hb
  by_cases hf : ∃ K, FrameFor e f K
  swap
  · exact .inl ((alike_foreign (fun K hK => hf ⟨K, hK⟩) _ _).fate hp)
  obtain ⟨K, hf⟩ := hf
  obtain ⟨r', cut, hcl', hc', hte⟩ := C111_modify_partial hcl hc hadd hm
  have H1 := HistP.step (.modify a r ord) H' hcl hc
  have hb1 : attempts ((Ev.modify a r ord, (n.step (.modify a r ord)).2) :: h') < 2 ^ 64 - 2 := hb'
  have H2 := HistP.traffic (HistP.step (.modify a r' ord) H' hcl' hc') hte
  have hb2 : attempts ((Ev.modify a r' ord, (n.step (.modify a r' ord)).2) :: h') < 2 ^ 64 - 2 := hb'
  obtain ⟨ex, -⟩ := exactS_hist hfz hqz huz (H2.mono fun n e (h : Clean n e) => h.orderly) hb2
  have hses : ∀ a' s', ({ (n.step (.modify a r' ord)).1 with dp := b } : Node).session? a' s' = (n.step (.modify a r' ord)).1.session? a' s' := fun _ _ => rfl
  have hdp : ({ (n.step (.modify a r' ord)).1 with dp := b } : Node).dp = b := rfl
  generalize ({ (n.step (.modify a r' ord)).1 with dp := b } : Node) = m at H2 ex hses hdp
  subst hdp
  have oth : ∀ a' s', (a', s') ≠ (a, r.seid) → m.session? a' s' = n.session? a' s' := by
    intro a' s' hne
    rw [hses]
    exact (C05_isolation n a a' s').2.1 r' ord (by rw [cut.seid]; exact hne)
  by_cases hno : ∃ a' s' i p, m.hasPdr a' s' i p ∧ p.key = K
  · obtain ⟨a', s', i, p, ⟨y', hy', hpi⟩, rfl⟩ := hno
    obtain ⟨j, fa, k, qe, g1, g2, g3, g4, -⟩ := C99_own_rules_partial hfz hqz huz H2 hy' hpi
    by_cases hk : (a', s') = (a, r.seid)
    · cases hk
      cases hx : n.session? a r.seid with
      | none =>
        -- then there is no such session afterwards
        left
        rw [hses, mod_absent (by rw [cut.seid]; exact hx), hx] at hy'
        cases hy'
      | some x =>
        obtain ⟨t, bd, hy⟩ := mod_done hcl.orderly hc hx
        obtain ⟨t', bd', hyy⟩ := mod_done hcl'.orderly hc' (r := r') (x := x) (by rw [cut.seid]; exact hx)
        rw [cut.seid, ← hses, hy'] at hyy
        rw [cut.cpFseid] at bd'
        obtain rfl := Option.some.inj hyy
        have hbt : Between x t'.sess t.sess := by
          obtain ⟨z1, z2, z3, z4⟩ := setRemote_four x r.cpFseid
          have ho := hcl.orderly.modif a r ord x rfl hx
          have hn := hcl.tidy.modif a r ord x rfl hx
          have := between_of cut bd bd' (by
            refine ⟨ho.ids, ?_, ho.kept, ?_, ho.choose⟩
            · show ∀ ie ∈ r.createPdr, ∀ i, ie.pdrId = some i → (x.setRemote r.cpFseid).pdrs.get? (i.zeroExtend 32) = none
              rw [z1]; exact ho.new
            · show ∀ ie ∈ r.updatePdr, ∃ i p, ie.pdrId = some i ∧ (x.setRemote r.cpFseid).pdrs.get? (i.zeroExtend 32) = some p ∧ _
              rw [z1]; exact ho.upd) hadd hon (by
            refine ⟨hn.far, ?_, hn.qer, ?_, hn.urr, ?_⟩
            · show ∀ c ∈ r.createFar, (x.setRemote r.cpFseid).fars.get? _ = none
              rw [z2]; exact hn.farNew
            · show ∀ c ∈ r.createQer, ∀ j, c.qerId = some j → (x.setRemote r.cpFseid).qers.get? _ = none
              rw [z3]; exact hn.qerNew
            · show ∀ j, some j ∈ r.createUrr → (x.setRemote r.cpFseid).urrs.get? _ = none
              rw [z4]; exact hn.urrNew)
          obtain ⟨k1, k2, k3, k4⟩ := this
          have hs0 : (n.hs (x.setRemote r.cpFseid)).sess = x.setRemote r.cpFseid := rfl
          rw [hs0] at k1 k2 k3 k4
          exact ⟨by rw [z2] at k1; exact k1, by rw [z3] at k2; exact k2, by rw [z1] at k3; exact k3, by rw [z1] at k4; exact k4⟩
        have after : t.sess.pdrs.get? i = some p → t'.sess.fars = t.sess.fars → t'.sess.qers = t.sess.qers →
            SameFate e f m.dp ((n.step (.modify a r ord)).1.dp.timedAs m.dp) := fun w1 w2 w3 =>
          (alike_pdr hfz hqz huz hfz hqz huz H2 hb2 H1 hb1 hy' hy hf hpi w1 g1 (by rw [← w2]; exact g1) g3.symm g2 (by rw [← w3]; exact g2) g4.symm).fate hp
        cases hxi : x.pdrs.get? i with
        | none =>
          obtain ⟨w1, w2, w3⟩ := hbt.new i p hxi hpi
          exact .inr (after w1 w2 w3)
        | some p0 =>
          obtain ⟨p', w1, w2, w3⟩ := hbt.pdr i p0 hxi
          rw [hpi] at w1; cases w1
          rcases w3 with rfl | ⟨v1, v2, v3⟩
          swap
          · exact .inr (after v1 v2 v3)
          obtain ⟨j0, f0, k0, q0, o1, o2, o3, o4, -⟩ := C99_own_rules_partial hfz hqz huz H' hx hxi
          obtain ⟨f1, u1, u2, u3⟩ := hbt.far j0 f0 o1
          obtain ⟨q1, v1, v2, v3⟩ := hbt.qer k0 q0 o2
          have same : f1 = f0 → q1 = q0 → SameFate e f m.dp (n.dp.timedAs m.dp) := by
            rintro rfl rfl
            exact (alike_pdr hfz hqz huz hfz hqz huz H2 hb2 H' hb' hy' hx hf hpi hxi u1 o1 o3.symm v1 o2 o4.symm).fate hp
          have same' : t.sess.pdrs.get? i = some p → t.sess.fars.get? j0 = some f1 → t.sess.qers.get? k0 = some q1 →
              SameFate e f m.dp ((n.step (.modify a r ord)).1.dp.timedAs m.dp) := fun i1 i2 i3 =>
            (alike_pdr hfz hqz huz hfz hqz huz H2 hb2 H1 hb1 hy' hy hf hpi i1 u1 i2 (u2.trans o3.symm) v1 i3 (v2.trans o4.symm)).fate hp
          rcases hone x t.sess i p hx hy hxi hf p j0 f0 k0 q0 hxi o1 o3.symm o2 o4.symm with ⟨c1, c2⟩ | ⟨c1, c2⟩ | ⟨c1, c2⟩
          · have hff : f1 = f0 := by rcases u3 with u3 | u3; exact u3; rw [c2] at u3; exact (Option.some.inj u3).symm
            rcases v3 with v3 | v3
            · exact .inl (same hff v3)
            · exact .inr (same' c1 (by rw [hff]; exact c2) v3)
          · have hqq : q1 = q0 := by rcases v3 with v3 | v3; exact v3; rw [c2] at v3; exact (Option.some.inj v3).symm
            rcases u3 with u3 | u3
            · exact .inl (same u3 hqq)
            · exact .inr (same' c1 u3 (by rw [hqq]; exact c2))
          · have hff : f1 = f0 := by rcases u3 with u3 | u3; exact u3; rw [c1] at u3; exact (Option.some.inj u3).symm
            have hqq : q1 = q0 := by rcases v3 with v3 | v3; exact v3; rw [c2] at v3; exact (Option.some.inj v3).symm
            exact .inl (same hff hqq)
    · -- a session the modification is not about
      left
      have hx := hy'
      rw [oth a' s' hk] at hx
      exact (alike_pdr hfz hqz huz hfz hqz huz H2 hb2 H' hb' hy' hx hf hpi hpi g1 g1 g3.symm g2 g2 g4.symm).fate hp
  · -- no PDR with the key, neither then nor before
    left
    have e1 : m.dp.entry? K = none := ex.only K fun a' s' i p hp hk => hno ⟨a', s', i, p, hp, hk⟩
    obtain ⟨ex0, -⟩ := exactS_hist hfz hqz huz (H'.mono fun n e (h : Clean n e) => h.orderly) hb'
    have e2 : n.dp.entry? K = none := by
      refine ex0.only K fun a' s' i p hp0 hk => hno ?_
      obtain ⟨x, hx, hpx⟩ := hp0
      by_cases hk' : (a', s') = (a, r.seid)
      · cases hk'
        obtain ⟨t', bd', hyy⟩ := mod_done hcl'.orderly hc' (r := r') (x := x) (by rw [cut.seid]; exact hx)
        obtain ⟨q, w1, w2⟩ := mod_pdrs_stay bd' (s0 := n.hs (x.setRemote r'.cpFseid)) (by
          have ho := hcl'.orderly.modif a r' ord x rfl (by rw [cut.seid]; exact hx)
          obtain ⟨z1, -⟩ := setRemote_four x r'.cpFseid
          refine ⟨ho.ids, ?_, ho.kept, ?_, ho.choose⟩
          · show ∀ ie ∈ r'.createPdr, ∀ i, ie.pdrId = some i → (x.setRemote r'.cpFseid).pdrs.get? (i.zeroExtend 32) = none
            rw [z1]; exact ho.new
          · show ∀ ie ∈ r'.updatePdr, ∃ i p, ie.pdrId = some i ∧ (x.setRemote r'.cpFseid).pdrs.get? (i.zeroExtend 32) = some p ∧ _
            rw [z1]; exact ho.upd) (cut.onlyAdds hadd).2.2 i p (by
          show (x.setRemote r'.cpFseid).pdrs.get? i = _
          rw [(setRemote_four x r'.cpFseid).1]; exact hpx)
        exact ⟨a, r.seid, i, q, ⟨t'.sess, by rw [hses, ← cut.seid]; exact hyy, w1⟩, w2.trans hk⟩
      · exact ⟨a', s', i, p, ⟨x, by rw [oth a' s' hk']; exact hx, hpx⟩, hk⟩
    exact (alike_gone hf e1 e2).fate hp

/-- **C112, one kind of rules.** In particular if the Update IEs of the modification are all for FARs, all for QERs, or all for PDRs: then this holds for all packets. -/
theorem C112_one_kind_partial {a : Addr} {r : ModReq} {ord : Orders} (hcl : Clean n (.modify a r ord)) (hc : (n.step (.modify a r ord)).2 ≠ .crash)
    (hb : attempts h < 2 ^ 64 - 2) (hadd : r.onlyAdds) (hon : r.updatesOnce)
    (hkind : (r.updateQer = [] ∧ r.updatePdr = []) ∨ (r.updateFar = [] ∧ r.updatePdr = []) ∨ (r.updateFar = [] ∧ r.updateQer = []))
    {b : BpfObjects} (hm : n.moment (.modify a r ord) b) {e : Env} {f : List U8} (hp : ¬ PingsUpf e f) :
    SameFate e f b (n.dp.timedAs b) ∨ SameFate e f b ((n.step (.modify a r ord)).1.dp.timedAs b) := by
  exact C112_modify_partial hfz hqz huz H hcl hc hb hadd hon hm hp (changes_one_kind hcl hc hadd hkind)

end

end Eupf
