import Verif.Props.WriteOrder
import Verif.Props.MomentIsolation
import Verif.Spec.Atomic
/-
C111: at every moment of a request the tables are those after a shorter request, which is as clean as the whole one.
-/
namespace Eupf
open Act

/-- every PDR of `n'` is in `m`, with the same key -/
def KeySub (n' m : Node) : Prop := ∀ a s x', n'.session? a s = some x' → ∃ x, m.session? a s = some x ∧
  ∀ i p, x'.pdrs.get? i = some p → ∃ q, x.pdrs.get? i = some q ∧ q.key = p.key

theorem KeySub.has {n' m : Node} (h : KeySub n' m) {a : Addr} {s : U64} {i : U32} {p : SPdr} (hp : n'.hasPdr a s i p) : ∃ q, m.hasPdr a s i q ∧ q.key = p.key := by
  obtain ⟨x', hx', hp'⟩ := hp
  obtain ⟨x, hx, hs⟩ := h a s x' hx'
  obtain ⟨q, hq, hk⟩ := hs i p hp'
  exact ⟨q, ⟨x, hx, hq⟩, hk⟩

theorem KeySub.apart {n' m : Node} (h : KeySub n' m) (ha : Apart1 m) : Apart1 n' := by
  refine ⟨?_, ?_⟩
  · intro a s i p b t j q hp hq hk
    obtain ⟨p', hp', k1⟩ := h.has hp
    obtain ⟨q', hq', k2⟩ := h.has hq
    exact ha.keys _ _ _ _ _ _ _ _ hp' hq' (by rw [k1, k2, hk])
  · intro a s i p x' hx' hp t ht j q t' hq hk hb
    obtain ⟨x, hx, hs⟩ := h a s x' hx'
    obtain ⟨p', hp', k1⟩ := hs i p hp
    obtain ⟨q', hq', k2⟩ := hs j q hq
    exact ha.alone a s i p' x hx hp' t (k1.trans ht) j q' t' hq' (k2.trans hk) hb

theorem KeySub.fresh {n n' m : Node} (h : KeySub n' m)
    (hf : ∀ a s i p, m.hasPdr a s i p → (∀ q, ¬ n.hasPdr a s i q) → ∀ b t j q, n.hasPdr b t j q → q.key ≠ p.key) :
    ∀ a s i p, n'.hasPdr a s i p → (∀ q, ¬ n.hasPdr a s i q) → ∀ b t j q, n.hasPdr b t j q → q.key ≠ p.key := by
  intro a s i p hp hn b t j q hq
  obtain ⟨p', hp', k⟩ := h.has hp
  rw [← k]
  exact hf a s i p' hp' hn b t j q hq

theorem each_same {α : Type} {f : α → Act HS Unit} {l l' : List α} {s s' t t' : HS} (h : Act.each f l s = (t, .ok ())) (h' : Act.each f l' s' = (t', .ok ()))
    (hl : l' = l) (hs : s' = s) : t' = t := by
  subst hl hs
  rw [h] at h'; cases h'; rfl

/-! ### establishments -/

theorem est_prefix {ue : Bool} {r' r : EstReq} (c : r'.Cut r) {s0 t t' : HS} (h : establishBody ue r s0 = (t, .ok ())) (h' : establishBody ue r' s0 = (t', .ok ()))
    (h0 : ∀ i, s0.sess.pdrs.get? i = none) (hnd : (r.createPdr.map (·.pdrId)).Nodup) : ∀ i p, t'.sess.pdrs.get? i = some p → t.sess.pdrs.get? i = some p := by
  unfold establishBody at h h'
  obtain ⟨_, x0, e0, b1⟩ := bind_ok h
  obtain rfl := display_ok e0
  obtain ⟨_, s1, e1, b2⟩ := bind_ok b1
  obtain ⟨_, s2, e2, b3⟩ := bind_ok b2
  obtain ⟨_, s3, e3, e4⟩ := bind_ok b3
  obtain ⟨_, x0', e0', b1'⟩ := bind_ok h'
  obtain rfl := display_ok e0'
  obtain ⟨_, s1', e1', b2'⟩ := bind_ok b1'
  obtain ⟨_, s2', e2', b3'⟩ := bind_ok b2'
  obtain ⟨_, s3', e3', e4'⟩ := bind_ok b3'
  have none3 : ∀ i, s3'.sess.pdrs.get? i = none := by
    let I : HS → Prop := fun s => ∀ i, s.sess.pdrs.get? i = none
    have hI : ∀ {s s' : HS}, RuleFrame s s' → I s → I s' := fun hf hi i => by rw [hf.pdrs]; exact hi i
    have i1 := pres_each_ok (I := I) (fun _ _ => pres_of fun _ h => hI (createFar_rf ..) h) e1' h0
    have i2 := pres_each_ok (I := I) (fun _ _ => pres_of fun _ h => hI (createQer_rf ..) h) e2' i1
    exact pres_each_ok (I := I) (fun _ _ => pres_of fun _ h => hI (createUrr_rf ..) h) e3' i2
  by_cases hp : r'.createPdr = []
  · rw [hp] at e4'
    cases e4'
    intro i p hi
    rw [none3] at hi; cases hi
  · obtain ⟨c1, c2, c3⟩ := c.pdrAfter hp
    have q1 := each_same e1 e1' c1 rfl
    have q2 := each_same e2 e2' c2 q1
    have q3 := each_same e3 e3' c3 q2
    obtain ⟨l, hl⟩ := c.pdr
    rw [← hl] at e4 hnd
    obtain ⟨u, u1, u2⟩ := each_append_ok _ e4
    have q4 := each_same u1 e4' rfl q3
    subst q4
    rw [List.map_append, List.nodup_append] at hnd
    intro i p hi
    have new : ∃ ie ∈ r'.createPdr, ∃ k, ie.pdrId = some k ∧ k.zeroExtend 32 = i := by
      refine Classical.byContradiction fun hno => ?_
      rw [creates_pdrs_keep _ e4' (j := i), none3] at hi
      · cases hi
      · rintro ie hie k hk hc
        exact hno ⟨ie, hie, k, hk, hc⟩
    obtain ⟨ie, hie, k, hk, rfl⟩ := new
    rw [creates_pdrs_keep _ u2, hi]
    intro ie' hie' k' hk' hc
    exact hnd.2.2 _ (List.mem_map_of_mem hie) _ (List.mem_map_of_mem hie') (by rw [hk, hk', zext_inj hc])

/-- **C111, establishment.** At every moment of a clean establishment the tables are those after a clean establishment that has a first part of its IEs. -/
theorem C111_establish {n : Node} {a : Addr} {r : EstReq} (hcl : Clean n (.establish a r)) (hc : (n.step (.establish a r)).2 ≠ .crash)
    {b : BpfObjects} (hb : n.moment (.establish a r) b) :
    ∃ r', r'.Cut r ∧ Clean n (.establish a r') ∧ (n.step (.establish a r')).2 ≠ .crash ∧ TrafficEffect (n.step (.establish a r')).1.dp b := by
  cases hj : n.job (.establish a r) with
  | none =>
    refine ⟨r, by constructor <;> simp, hcl, hc, ?_⟩
    unfold Node.moment at hb
    rw [hj] at hb
    rw [job_none_dp hj]; exact hb
  | some x =>
    obtain ⟨s, l⟩ := x
    obtain ⟨l1, l2, hcut, ht⟩ := moment_cut hj hb
    have hst := step_pieces hj
    obtain ⟨remote, as, hv, ha, hj'⟩ : ∃ remote as, validateRequest r.nodeId r.cpFseid = some remote ∧ n.assocs.get? a = some as ∧
        some (n.hs (Session.new (as.nextSessionID + 1) remote), estPieces n.ueip r) = some (s, l) := by
      simp only [Node.job] at hj
      split at hj
      · rename_i remote as hv ha; exact ⟨remote, as, hv, ha, hj⟩
      · cases hj
    cases hj'
    have hcp := (validateRequest_some hv).2
    have hans := hcl.orderly.answered
    rcases hall : Act.all (estPieces n.ueip r) (n.hs (Session.new (as.nextSessionID + 1) remote)) with ⟨t, res⟩
    rw [hall] at hst
    have hres : res = .ok () := by
      cases res with
      | ok u => rfl
      | err =>
        refine absurd rfl (hans { type := .establishment, seid := remote, seq := r.seq, cause := causeRuleFailure } ?_)
        rw [hst]; simp only [Node.conclude, hcp, ha]
      | panic => refine absurd ?_ hc; rw [hst]; simp only [Node.conclude, hcp, ha]
    subst hres
    obtain ⟨r', cut, e1, e2⟩ := est_cut hcut (n.hs (Session.new (as.nextSessionID + 1) remote))
    have hok1 : (Act.all l1 (n.hs (Session.new (as.nextSessionID + 1) remote))).2 = .ok () := by
      rcases hr : Act.all l1 (n.hs (Session.new (as.nextSessionID + 1) remote)) with ⟨u, v⟩
      refine Classical.byContradiction fun hn => ?_
      rw [hcut, Act.all_failed hr hn] at hall
      cases hall; exact hn rfl
    have hb' := e2 hok1
    rcases hbody' : establishBody n.ueip r' (n.hs (Session.new (as.nextSessionID + 1) remote)) with ⟨t', res'⟩
    rw [hbody'] at hb' e1
    simp only at hb' e1
    subst hb'
    rw [e1] at ht
    have hj2 : n.job (.establish a r') = some (n.hs (Session.new (as.nextSessionID + 1) remote), estPieces n.ueip r') := by
      simp only [Node.job]
      rw [cut.nodeId, cut.cpFseid, hv, ha]
    have hst' := step_pieces hj2
    rw [← establish_pieces, hbody'] at hst'
    rw [← establish_pieces] at hall
    have hcp' : r'.cpFseid = some (some remote) := by rw [cut.cpFseid]; exact hcp
    simp only [Node.conclude, hcp, hcp', ha] at hst hst'
    have hsub : KeySub (n.step (.establish a r')).1 (n.step (.establish a r)).1 := by
      have pre := est_prefix cut hall hbody' (fun i => by simp [Node.hs, Session.new]) (hcl.orderly.est a r rfl)
      intro a' s' x' hx'
      rw [hst'] at hx'
      rw [hst]
      simp only [Node.session?, GoMap.get?_set] at hx' ⊢
      by_cases hba : a' = a
      · subst hba
        simp only [if_true, Option.bind_some, GoMap.get?_set] at hx' ⊢
        split at hx'
        · rename_i hs
          cases hx'
          rw [if_pos hs]
          exact ⟨t.sess, rfl, fun i p hp => ⟨p, pre i p hp, rfl⟩⟩
        · rename_i hs
          rw [if_neg hs]
          exact ⟨x', hx', fun i p hp => ⟨p, hp, rfl⟩⟩
      · rw [if_neg hba] at hx' ⊢
        exact ⟨x', hx', fun i p hp => ⟨p, hp, rfl⟩⟩
    have hno73 : ∀ resp, (n.step (.establish a r')).2 = .reply resp → resp.cause ≠ 73 := by
      intro resp hr
      rw [hst'] at hr
      cases hr
      show causeAccepted ≠ 73
      decide
    refine ⟨r', cut, ⟨⟨hno73, (fun _ _ _ he => (by cases he)), ?_, (fun _ _ _ _ he => (by cases he)), hsub.fresh hcl.orderly.fresh, hsub.apart hcl.orderly.apart⟩, ⟨trivial, ?_, (fun _ _ _ _ he => (by cases he))⟩,
      ⟨?_, (fun _ _ _ _ he => (by cases he))⟩⟩, ?_, ?_⟩
    · intro a' r'' he; cases he
      exact (cut.pdr.map _).sublist.nodup (hcl.orderly.est a r rfl)
    · intro a' r'' he; cases he
      obtain ⟨k, -⟩ := hcl.tidy.est a r rfl
      exact ⟨⟨(cut.far.map _).sublist.nodup k.far, fun c hc => k.farNew c (cut.far.subset hc), (cut.qer.map _).sublist.nodup k.qer, fun c hc => k.qerNew c (cut.qer.subset hc),
        cut.urr.sublist.nodup k.urr, fun j hj => k.urrNew j (cut.urr.subset hj)⟩, hno73⟩
    · intro a' r'' he; cases he
      intro ie hie
      obtain ⟨c1, c2, -⟩ := cut.pdrAfter (List.ne_nil_of_mem hie)
      rw [c1, c2]
      exact hcl.own.estab a r rfl ie (cut.pdr.subset hie)
    · rw [hst']; intro h; cases h
    · rw [hst']; exact ht

/-! ### modifications -/

theorem keys_update {ue : Bool} {ie : PdrIE} {s s' : HS} (h : updatePdr ue ie s = (s', .ok ())) {i : U16} (hi : ie.pdrId = some i) {k : PdrKey}
    (hp : (s.sess.pdrs.get? (i.zeroExtend 32)).map SPdr.key = some k) (hk : ie.keepsKey k) : SameKeys s.sess s'.sess := by
  obtain ⟨p, hp0, rfl⟩ := Option.map_eq_some_iff.1 hp
  clear hp
  have hp := hp0
  obtain ⟨id', p', t0, f1, f2, f3, -⟩ := updatePdr_ok h
  rw [hi] at f1; cases f1
  have hg : s.sess.getPdr (i.zeroExtend 32) = p := by simp [Session.getPdr, hp]
  rw [hg] at f2
  obtain ⟨k1, -⟩ := extract_keeps f2 hk
  intro j
  rw [f3]
  simp only [Session.putPdr, GoMap.get?_set]
  split
  · rename_i hj; subst hj; rw [hp]; simp [k1]
  · rfl

theorem keys_updates {ue : Bool} : ∀ (l : List PdrIE) {s s' : HS}, (∀ ie ∈ l, ∃ i k, ie.pdrId = some i ∧ (s.sess.pdrs.get? (i.zeroExtend 32)).map SPdr.key = some k ∧
    ie.keepsKey k) → Act.each (updatePdr ue) l s = (s', .ok ()) → SameKeys s.sess s'.sess
  | [], s, s', _, h => by cases h; exact fun _ => rfl
  | ie :: l, s, s', hl, h => by
    obtain ⟨t1, h1, h2⟩ := each_cons_ok h
    obtain ⟨i, k, g1, g2, g3⟩ := hl ie (by simp)
    have k1 := keys_update h1 g1 g2 g3
    have k2 := keys_updates l (fun ie' hie' => by
      obtain ⟨i', k', g1', g2', g3'⟩ := hl ie' (List.mem_cons_of_mem _ hie')
      exact ⟨i', k', g1', by rw [k1]; exact g2', g3'⟩) h2
    exact fun j => (k2 j).trans (k1 j)

/-- the records are there too, with the same keys -/
def SubKeys (x y : Session) : Prop := ∀ i p, x.pdrs.get? i = some p → ∃ q, y.pdrs.get? i = some q ∧ q.key = p.key

theorem SubKeys.trans {x y z : Session} (h : SubKeys x y) (h' : SubKeys y z) : SubKeys x z := by
  intro i p hp
  obtain ⟨q, hq, k⟩ := h i p hp
  obtain ⟨u, hu, k'⟩ := h' i q hq
  exact ⟨u, hu, k'.trans k⟩
theorem SubKeys.refl (x : Session) : SubKeys x x := fun _ p hp => ⟨p, hp, rfl⟩
theorem SubKeys.of_eq {x y : Session} (h : x.pdrs = y.pdrs) : SubKeys x y := fun _ p hp => ⟨p, by rw [← h]; exact hp, rfl⟩
theorem SameKeys.sub {x y : Session} (h : SameKeys x y) : SubKeys x y := by
  intro i p hp
  have := h i
  rw [hp] at this
  exact Option.map_eq_some_iff.1 this
theorem SameKeys.sub' {x y : Session} (h : SameKeys x y) : SubKeys y x := SameKeys.sub fun j => (h j).symm

/-- the FAR, QER and URR phases keep the PDRs -/
theorem early_phases_pdrs {r : ModReq} {s0 s1 s2 s3 s4 s5 s6 s7 s8 s9 : HS}
    (e1 : Act.each createFar r.createFar s0 = (s1, .ok ())) (e2 : Act.each updateFar r.updateFar s1 = (s2, .ok ()))
    (e3 : Act.each removeFar r.removeFar s2 = (s3, .ok ())) (e4 : Act.each createQer r.createQer s3 = (s4, .ok ()))
    (e5 : Act.each updateQer r.updateQer s4 = (s5, .ok ())) (e6 : Act.each removeQer r.removeQer s5 = (s6, .ok ()))
    (e7 : Act.each createUrr r.createUrr s6 = (s7, .ok ())) (e8 : Act.each updateUrr r.updateUrr s7 = (s8, .ok ()))
    (e9 : Act.each removeUrr r.removeUrr s8 = (s9, .ok ())) : s9.sess.pdrs = s0.sess.pdrs := by
  let I : HS → Prop := fun s => s.sess.pdrs = s0.sess.pdrs
  have hI : ∀ {s s' : HS}, RuleFrame s s' → I s → I s' := fun hf hi => hf.pdrs.trans hi
  have i1 := pres_each_ok (I := I) (fun _ _ => pres_of fun _ h => hI (createFar_rf ..) h) e1 rfl
  have i2 := pres_each_ok (I := I) (fun _ _ => pres_of fun _ h => hI (updateFar_rf ..) h) e2 i1
  have i3 := pres_each_ok (I := I) (fun _ _ => pres_of fun _ h => hI (removeFar_rf ..) h) e3 i2
  have i4 := pres_each_ok (I := I) (fun _ _ => pres_of fun _ h => hI (createQer_rf ..) h) e4 i3
  have i5 := pres_each_ok (I := I) (fun _ _ => pres_of fun _ h => hI (updateQer_rf ..) h) e5 i4
  have i6 := pres_each_ok (I := I) (fun _ _ => pres_of fun _ h => hI (removeQer_rf ..) h) e6 i5
  have i7 := pres_each_ok (I := I) (fun _ _ => pres_of fun _ h => hI (createUrr_rf ..) h) e7 i6
  have i8 := pres_each_ok (I := I) (fun _ _ => pres_of fun _ h => hI (updateUrr_rf ..) h) e8 i7
  exact pres_each_ok (I := I) (fun _ _ => pres_of fun _ h => hI (removeUrr_rf ..) h) e9 i8

/-- the shorter modification leaves PDRs that the whole one leaves too, with the same keys -/
theorem mod_sub {ue : Bool} {ord : Orders} {r' r : ModReq} (c : r'.Cut r) {s0 t t' : HS} (h : modifyBody ue ord r s0 = (t, .ok ()))
    (h' : modifyBody ue ord r' s0 = (t', .ok ())) (ho : r.orderly s0.sess) (hrem : r.removePdr = []) : SubKeys t'.sess t.sess := by
  obtain ⟨s1, s2, s3, s4, s5, s6, s7, s8, s9, s10, s11, e1, e2, e3, e4, e5, e6, e7, e8, e9, e10, e11, e12⟩ := modify_phases h
  obtain ⟨u1, u2, u3, u4, u5, u6, u7, u8, u9, u10, u11, f1, f2, f3, f4, f5, f6, f7, f8, f9, f10, f11, f12⟩ := modify_phases h'
  have hrem' : r'.removePdr = [] := by have := c.removePdr; rw [hrem] at this; exact List.prefix_nil.1 this
  rw [hrem] at e12; cases e12
  rw [hrem'] at f12; cases f12
  have p9 := early_phases_pdrs e1 e2 e3 e4 e5 e6 e7 e8 e9
  have q9 := early_phases_pdrs f1 f2 f3 f4 f5 f6 f7 f8 f9
  have old10 : SubKeys s9.sess s10.sess := by
    intro j q hq
    refine ⟨q, ?_, rfl⟩
    rw [creates_pdrs_keep _ e10, hq]
    rintro ie hie i hi rfl
    rw [p9, ho.new ie hie i hi] at hq; cases hq
  have upd : ∀ ie ∈ r.updatePdr, ∃ i k, ie.pdrId = some i ∧ (s10.sess.pdrs.get? (i.zeroExtend 32)).map SPdr.key = some k ∧ ie.keepsKey k := by
    intro ie hie
    obtain ⟨i, p, h1, h2, h3, -⟩ := ho.upd ie hie
    obtain ⟨q, hq, hk⟩ := old10 _ p (by rw [p9]; exact h2)
    exact ⟨i, p.key, h1, by rw [hq]; exact congrArg some hk, h3⟩
  have k11 : SameKeys s10.sess t.sess := keys_updates _ upd e11
  by_cases hn : r'.createPdr = [] ∧ r'.updatePdr = []
  · rw [hn.2] at f11; cases f11
    rw [hn.1] at f10; cases f10
    exact (SubKeys.of_eq (q9.trans p9.symm)).trans (old10.trans k11.sub)
  have hne : r'.createPdr ≠ [] ∨ r'.updatePdr ≠ [] ∨ r'.removePdr ≠ [] := by
    by_cases h0 : r'.createPdr = []
    · exact .inr (.inl fun h1 => hn ⟨h0, h1⟩)
    · exact .inl h0
  obtain ⟨c1, c2, c3, c4, c5, c6, c7, c8, c9⟩ := c.rules hne
  have q1 := each_same e1 f1 c1 rfl
  have q2 := each_same e2 f2 c2 q1
  have q3 := each_same e3 f3 c3 q2
  have q4 := each_same e4 f4 c4 q3
  have q5 := each_same e5 f5 c5 q4
  have q6 := each_same e6 f6 c6 q5
  have q7 := each_same e7 f7 c7 q6
  have q8 := each_same e8 f8 c8 q7
  have qq := each_same e9 f9 c9 q8
  subst qq
  by_cases hu : r'.updatePdr = []
  · rw [hu] at f11; cases f11
    refine SubKeys.trans ?_ k11.sub
    obtain ⟨l, hl⟩ := c.createPdr
    have hnd := ho.ids
    rw [← hl] at e10 hnd
    obtain ⟨u, v1, v2⟩ := each_append_ok _ e10
    obtain rfl := each_same v1 f10 rfl rfl
    rw [List.map_append, List.nodup_append] at hnd
    intro j q hq
    refine ⟨q, ?_, rfl⟩
    rw [creates_pdrs_keep _ v2, hq]
    intro ie' hie' k' hk' hc
    have new := ho.new ie' (by rw [← hl]; simp [hie']) k' hk'
    by_cases hno : ∃ ie ∈ r'.createPdr, ∃ i, ie.pdrId = some i ∧ i.zeroExtend 32 = j
    · obtain ⟨ie, hie, i, hi, rfl⟩ := hno
      exact hnd.2.2 _ (List.mem_map_of_mem hie) _ (List.mem_map_of_mem hie') (by rw [hi, hk', zext_inj hc])
    · rw [creates_pdrs_keep _ f10 (j := j) (fun ie hie i hi hc => hno ⟨ie, hie, i, hi, hc⟩), p9, ← hc, new] at hq
      cases hq
  · have w := each_same e10 f10 (c.pdr1 (.inl hu)) rfl
    subst w
    have k11' : SameKeys u10.sess t'.sess := keys_updates _ (fun ie hie => upd ie (c.updatePdr.subset hie)) f11
    exact k11'.sub'.trans k11.sub

theorem ModReq.Cut.orderly {r' r : ModReq} (c : r'.Cut r) {x : Session} (h : r.orderly x) : r'.orderly x where
  ids := (c.createPdr.map _).sublist.nodup h.ids
  new ie hie := h.new ie (c.createPdr.subset hie)
  kept ie hie d hd := h.kept ie (c.createPdr.subset hie) d (c.removePdr.subset hd)
  upd ie hie := h.upd ie (c.updatePdr.subset hie)
  choose hne ie hie := h.choose (fun h0 => hne (by have := c.removePdr; rw [h0] at this; exact List.prefix_nil.1 this)) ie (by
    rcases List.mem_append.1 hie with h1 | h1
    · exact List.mem_append_left _ (c.createPdr.subset h1)
    · exact List.mem_append_right _ (c.updatePdr.subset h1))

theorem ModReq.Cut.newIds {r' r : ModReq} (c : r'.Cut r) {x : Session} (k : NewIds r.createFar r.createQer r.createUrr x) : NewIds r'.createFar r'.createQer r'.createUrr x :=
  ⟨(c.createFar.map _).sublist.nodup k.far, fun d hd => k.farNew d (c.createFar.subset hd), (c.createQer.map _).sublist.nodup k.qer,
    fun d hd => k.qerNew d (c.createQer.subset hd), c.createUrr.sublist.nodup k.urr, fun j hj => k.urrNew j (c.createUrr.subset hj)⟩

theorem ModReq.Cut.onlyAdds {r' r : ModReq} (c : r'.Cut r) (h : r.onlyAdds) : r'.onlyAdds := by
  obtain ⟨h1, h2, h3⟩ := h
  have a := c.removeFar; have b := c.removeQer; have d := c.removePdr
  rw [h1] at a; rw [h2] at b; rw [h3] at d
  exact ⟨List.prefix_nil.1 a, List.prefix_nil.1 b, List.prefix_nil.1 d⟩

theorem ModReq.Cut.namesOwn {r' r : ModReq} (c : r'.Cut r) (hadd : r.onlyAdds) {x : Session} (h : r.namesOwn x) : r'.namesOwn x := by
  obtain ⟨a1, a2, a3⟩ := hadd
  obtain ⟨b1, b2, b3⟩ := c.onlyAdds ⟨a1, a2, a3⟩
  have stays : r'.createPdr ≠ [] ∨ r'.updatePdr ≠ [] → (∀ i, r.farStays x i → r'.farStays x i) ∧ ∀ i, r.qerStays x i → r'.qerStays x i := by
    intro hne
    obtain ⟨c1, -, -, c4, -⟩ := c.rules (hne.imp id .inl)
    unfold ModReq.farStays ModReq.qerStays
    rw [c1, c4, a1, a2, b1, b2]
    exact ⟨fun _ h => h, fun _ h => h⟩
  refine ⟨?_, ?_, fun d hd => (by rw [b1] at hd; cases hd), fun j hj => (by rw [b2] at hj; cases hj)⟩
  · intro ie hie
    obtain ⟨s1, s2⟩ := stays (.inl (List.ne_nil_of_mem hie))
    obtain ⟨⟨i, h1, h2⟩, k, h3, h4⟩ := h.create ie (c.createPdr.subset hie)
    exact ⟨⟨i, h1, s1 i h2⟩, k, h3, s2 k h4⟩
  · intro ie hie
    obtain ⟨s1, s2⟩ := stays (.inr (List.ne_nil_of_mem hie))
    obtain ⟨h1, h2⟩ := h.update ie (c.updatePdr.subset hie)
    exact ⟨fun i hi => s1 i (h1 i hi), fun i hi => s2 i (h2 i hi)⟩

/-- **C111, modification.** At every moment of a clean modification that removes no FAR, QER or PDR the tables are those after a clean modification
that has a first part of its IEs. -/
theorem C111_modify_partial {n : Node} {a : Addr} {r : ModReq} {ord : Orders} (hcl : Clean n (.modify a r ord)) (hc : (n.step (.modify a r ord)).2 ≠ .crash)
    (hadd : r.onlyAdds) {b : BpfObjects} (hb : n.moment (.modify a r ord) b) :
    ∃ r', r'.Cut r ∧ Clean n (.modify a r' ord) ∧ (n.step (.modify a r' ord)).2 ≠ .crash ∧ TrafficEffect (n.step (.modify a r' ord)).1.dp b := by
  cases hj : n.job (.modify a r ord) with
  | none =>
    refine ⟨r, by constructor <;> simp, hcl, hc, ?_⟩
    unfold Node.moment at hb
    rw [hj] at hb
    rw [job_none_dp hj]; exact hb
  | some y =>
    obtain ⟨s, l⟩ := y
    obtain ⟨l1, l2, hcut, ht⟩ := moment_cut hj hb
    have hst := step_pieces hj
    obtain ⟨x, as, ha, hx, hj'⟩ : ∃ x as, n.assocs.get? a = some as ∧ as.sessions.get? r.seid = some x ∧
        some (n.hs (x.setRemote r.cpFseid), modPieces n.ueip ord r) = some (s, l) := by
      simp only [Node.job] at hj
      split at hj
      · rename_i x hx
        obtain ⟨as, h1, h2⟩ := Option.bind_eq_some_iff.1 hx
        exact ⟨x, as, h1, h2, hj⟩
      · cases hj
    cases hj'
    have hsx : n.session? a r.seid = some x := by simp [Node.session?, ha, hx]
    have hans := hcl.orderly.answered
    rcases hall : Act.all (modPieces n.ueip ord r) (n.hs (x.setRemote r.cpFseid)) with ⟨t, res⟩
    rw [hall] at hst
    have hres : res = .ok () := by
      cases res with
      | ok u => rfl
      | err =>
        refine absurd rfl (hans { type := .modification, seid := t.sess.remoteSEID, seq := r.seq, cause := causeRuleFailure } ?_)
        rw [hst]; simp only [Node.conclude, ha]
      | panic => refine absurd ?_ hc; rw [hst]; simp only [Node.conclude, ha]
    subst hres
    obtain ⟨r', cut, e1, e2⟩ := mod_cut hcut (n.hs (x.setRemote r.cpFseid))
    have hok1 : (Act.all l1 (n.hs (x.setRemote r.cpFseid))).2 = .ok () := by
      rcases hr : Act.all l1 (n.hs (x.setRemote r.cpFseid)) with ⟨u, v⟩
      refine Classical.byContradiction fun hn => ?_
      rw [hcut, Act.all_failed hr hn] at hall
      cases hall; exact hn rfl
    have hb' := e2 hok1
    rcases hbody' : modifyBody n.ueip ord r' (n.hs (x.setRemote r.cpFseid)) with ⟨t', res'⟩
    rw [hbody'] at hb' e1
    simp only at hb' e1
    subst hb'
    rw [e1] at ht
    have hj2 : n.job (.modify a r' ord) = some (n.hs (x.setRemote r.cpFseid), modPieces n.ueip ord r') := by
      simp only [Node.job]
      rw [ha, cut.seid, cut.cpFseid, Option.bind_some, hx]
    have hst' := step_pieces hj2
    rw [← modify_pieces, hbody'] at hst'
    rw [← modify_pieces] at hall
    simp only [Node.conclude, ha] at hst hst'
    have hrem0 : (x.setRemote r.cpFseid).pdrs = x.pdrs := by unfold Session.setRemote; split <;> rfl
    have hor := hcl.orderly.modif a r ord x rfl hsx
    have hor' : r.orderly (n.hs (x.setRemote r.cpFseid)).sess := by
      refine ⟨hor.ids, ?_, hor.kept, ?_, hor.choose⟩
      · show ∀ ie ∈ r.createPdr, ∀ i, ie.pdrId = some i → (x.setRemote r.cpFseid).pdrs.get? (i.zeroExtend 32) = none
        rw [hrem0]; exact hor.new
      · show ∀ ie ∈ r.updatePdr, ∃ i p, ie.pdrId = some i ∧ (x.setRemote r.cpFseid).pdrs.get? (i.zeroExtend 32) = some p ∧ _
        rw [hrem0]; exact hor.upd
    have hsub : KeySub (n.step (.modify a r' ord)).1 (n.step (.modify a r ord)).1 := by
      have pre := mod_sub cut hall hbody' hor' hadd.2.2
      intro a' s' x' hx'
      rw [hst'] at hx'
      rw [hst]
      simp only [Node.session?, GoMap.get?_set] at hx' ⊢
      by_cases hba : a' = a
      · subst hba
        simp only [if_true, Option.bind_some, GoMap.get?_set, cut.seid] at hx' ⊢
        split at hx'
        · rename_i hs
          cases hx'
          rw [if_pos hs]
          exact ⟨t.sess, rfl, pre⟩
        · rename_i hs
          rw [if_neg hs]
          exact ⟨x', hx', fun i p hp => ⟨p, hp, rfl⟩⟩
      · rw [if_neg hba] at hx' ⊢
        exact ⟨x', hx', fun i p hp => ⟨p, hp, rfl⟩⟩
    have hno73 : ∀ resp, (n.step (.modify a r' ord)).2 = .reply resp → resp.cause ≠ 73 := by
      intro resp hr
      rw [hst'] at hr
      cases hr
      show causeAccepted ≠ 73
      decide
    refine ⟨r', cut, ⟨⟨hno73, (fun _ _ _ he => (by cases he)), (fun _ _ he => (by cases he)), ?_, hsub.fresh hcl.orderly.fresh, hsub.apart hcl.orderly.apart⟩, ⟨?_, (fun _ _ he => (by cases he)), ?_⟩,
      ⟨(fun _ _ he => (by cases he)), ?_⟩⟩, ?_, ?_⟩
    · intro a' r'' o y he hy; cases he
      rw [cut.seid, hsx] at hy; cases hy
      exact cut.orderly hor
    · intro y hy
      rw [cut.seid] at hy
      exact cut.refsKnown (hcl.tidy.known y hy)
    · intro a' r'' o y he hy; cases he
      rw [cut.seid] at hy
      exact cut.newIds (hcl.tidy.modif a r ord y rfl hy)
    · intro a' r'' o y he hy; cases he
      rw [cut.seid] at hy
      exact cut.namesOwn hadd (hcl.own.mods a r ord y rfl hy)
    · rw [hst']; intro h; cases h
    · rw [hst']; exact ht

/-- **C111, histories.** So the tables at such a moment are those after a clean history, and everything that C98 to C102 say of the tables and of packets after
clean histories holds at this moment, with the shorter request in place of the whole one. -/
theorem C111_history_partial {n0 : Node} {h : List (Ev × Outcome)} {n : Node} (H : HistI Clean n0 h n) {e : Ev} (hcl : Clean n e) (hc : (n.step e).2 ≠ .crash)
    (hk : (∃ a r, e = .establish a r) ∨ ∃ a r o, e = .modify a r o ∧ r.onlyAdds) {b : BpfObjects} (hm : n.moment e b) :
    ∃ h' e', plainly h' = plainly h ∧ ((∃ a r r', e = .establish a r ∧ e' = .establish a r' ∧ r'.Cut r) ∨ ∃ a r r' o, e = .modify a r o ∧ e' = .modify a r' o ∧ r'.Cut r) ∧
      HistP Clean n0 ((e', (n.step e').2) :: h') { (n.step e').1 with dp := b } := by
  obtain ⟨h', H', he⟩ := C106_interleaved H
  rcases hk with ⟨a, r, rfl⟩ | ⟨a, r, o, rfl, hadd⟩
  · obtain ⟨r', cut, hcl', hc', hte⟩ := C111_establish hcl hc hm
    exact ⟨h', .establish a r', he, .inl ⟨a, r, r', rfl, rfl, cut⟩, .traffic (.step _ H' hcl' hc') hte⟩
  · obtain ⟨r', cut, hcl', hc', hte⟩ := C111_modify_partial hcl hc hadd hm
    exact ⟨h', .modify a r' o, he, .inr ⟨a, r, r', o, rfl, rfl, cut⟩, .traffic (.step _ H' hcl' hc') hte⟩

end Eupf
