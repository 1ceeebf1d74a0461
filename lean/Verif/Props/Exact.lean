import Verif.ExactLemmas
import Verif.Props.Merge
/-
C98: the forwarding plane's PDR tables say exactly what the live sessions say.
-/
namespace Eupf
open Act

/-- the invariant: exactly the entries that the PDRs of live sessions give when stored on their own -/
structure ExactS (n : Node) : Prop where
  live : ∀ a s i p, n.hasPdr a s i p → n.dp.entry? p.key = some (pdrToStore none p.info)
  only : ∀ k, (∀ a s i p, n.hasPdr a s i p → p.key ≠ k) → n.dp.entry? k = none

theorem ExactS.exact {n : Node} (h : ExactS n) : Exact n := by
  refine ⟨fun a s i p hp m => ?_, h.only⟩
  rw [h.live a s i p hp, classify_store]
  unfold PdrInfo.says
  cases p.info.sdf <;> rfl

theorem hasPdr_congr {n n' : Node} (h : ∀ a s, n'.session? a s = n.session? a s) (a : Addr) (s : U64) (i : U32) (p : SPdr) :
    n'.hasPdr a s i p ↔ n.hasPdr a s i p := by
  unfold Node.hasPdr; rw [h]

theorem ExactS.same {n n' : Node} (h : ExactS n) (hs : ∀ a s, n'.session? a s = n.session? a s) (hd : ∀ k, n'.dp.entry? k = n.dp.entry? k) : ExactS n' :=
  ⟨fun a s i p hp => by rw [hd]; exact h.live a s i p ((hasPdr_congr hs a s i p).1 hp),
   fun k hk => by rw [hd]; exact h.only k fun a s i p hp => hk a s i p ((hasPdr_congr hs a s i p).2 hp)⟩

/-- one session changed from `x` (or nothing) to `y`: the tables follow its PDRs and leave the rest -/
theorem ExactS.change {n n' : Node} (h : ExactS n) {a : Addr} {s : U64} {pdrs0 : GoMap U32 SPdr} {y : Session}
    (h0 : ∀ i p, n.hasPdr a s i p ↔ pdrs0.get? i = some p) (hy : n'.session? a s = some y)
    (hoth : ∀ a' s', (a', s') ≠ (a, s) → n'.session? a' s' = n.session? a' s') (hap : Apart1 n')
    (hinj : ∀ i p b t j q, n.hasPdr a s i p → n.hasPdr b t j q → p.key = q.key → (b, t) = (a, s))
    (own : ∀ i p, y.pdrs.get? i = some p → n'.dp.entry? p.key = some (pdrToStore none p.info))
    (rest : ∀ k, (∀ i p, y.pdrs.get? i = some p → p.key ≠ k) → ((∀ i p, pdrs0.get? i = some p → p.key ≠ k) → n'.dp.entry? k = n.dp.entry? k) ∧
      ((∃ i p, pdrs0.get? i = some p ∧ p.key = k) → n'.dp.entry? k = none)) : ExactS n' := by
  have hown : ∀ i p, n'.hasPdr a s i p ↔ y.pdrs.get? i = some p := by
    intro i p; unfold Node.hasPdr; rw [hy]; simp
  constructor
  · intro b t j q hq
    by_cases hbt : (b, t) = (a, s)
    · cases hbt
      exact own j q ((hown j q).1 hq)
    · have hqn : n.hasPdr b t j q := by
        obtain ⟨z, hz, hz'⟩ := hq
        exact ⟨z, by rw [← hoth b t hbt]; exact hz, hz'⟩
      have hny : ∀ i p, y.pdrs.get? i = some p → p.key ≠ q.key := by
        intro i p hp hk
        obtain ⟨e1, e2, -⟩ := hap.keys _ _ _ _ _ _ _ _ ((hown i p).2 hp) hq hk
        exact hbt (by rw [e1, e2])
      have hnx : ∀ i p, pdrs0.get? i = some p → p.key ≠ q.key := fun i p hp hk => hbt (hinj i p b t j q ((h0 i p).2 hp) hqn hk)
      rw [(rest q.key hny).1 hnx]
      exact h.live b t j q hqn
  · intro k hk
    have hny : ∀ i p, y.pdrs.get? i = some p → p.key ≠ k := fun i p hp => hk a s i p ((hown i p).2 hp)
    by_cases hx : ∃ i p, pdrs0.get? i = some p ∧ p.key = k
    · exact (rest k hny).2 hx
    · rw [(rest k hny).1 fun i p hp hkk => hx ⟨i, p, hp, hkk⟩]
      refine h.only k fun b t j q hq hqk => ?_
      by_cases hbt : (b, t) = (a, s)
      · cases hbt
        exact hx ⟨j, q, (h0 j q).1 hq, hqk⟩
      · obtain ⟨z, hz, hz'⟩ := hq
        exact hk b t j q ⟨z, by rw [hoth b t hbt]; exact hz, hz'⟩ hqk

theorem exactS_establish {n : Node} (h : ExactS n) {addr : Addr} {r : EstReq} (ho : Orderly n (.establish addr r))
    (hfresh : ∀ as, n.assocs.get? addr = some as → n.session? addr (as.nextSessionID + 1) = none) (hc : (n.step (.establish addr r)).2 ≠ .crash) :
    ExactS (n.step (.establish addr r)).1 := by
  have hans := ho.answered
  have hfr := ho.fresh
  have hap := ho.apart
  have hnd := ho.est addr r rfl
  generalize hst : n.step (.establish addr r) = st at *
  have hst' : n.establish addr r = st := hst
  cases establish_cases n addr r with
  | refused c hcc he =>
    rw [he] at hst'; subst hst'; exact h
  | ran remote a hs res hid hcp ha hbody hl hrem he =>
    rw [he] at hst'
    cases res with
    | err => subst hst'; exact absurd rfl (hans _ rfl)
    | panic => subst hst'; exact absurd rfl hc
    | ok _ =>
      have hse : st.1.session? addr (a.nextSessionID + 1) = some hs.sess := by subst hst'; simp [Node.estResult, Node.session?, Assoc.bumped]
      have hdp : st.1.dp = hs.dp := by subst hst'; rfl
      have hoth : ∀ a' s', (a', s') ≠ (addr, a.nextSessionID + 1) → st.1.session? a' s' = n.session? a' s' := by
        intro a' s' hne
        have := (C05_isolation n addr a' s').1 r (fun as has => by rw [ha] at has; cases has; exact hne)
        rw [← this, ← hst]
      have hno : ∀ i p, ¬ n.hasPdr addr (a.nextSessionID + 1) i p := by
        rintro i p ⟨x, hx, -⟩
        rw [hfresh a ha] at hx; cases hx
      unfold establishBody at hbody
      obtain ⟨_, s0, e0, b1⟩ := bind_ok hbody
      obtain rfl := display_ok e0
      obtain ⟨_, s1, e1, b2⟩ := bind_ok b1
      obtain ⟨_, s2, e2, b3⟩ := bind_ok b2
      obtain ⟨_, s3, e3, e4⟩ := bind_ok b3
      let I : HS → Prop := fun s => Own n.dp.entry? s ∧ ∀ i, s.sess.pdrs.get? i = none
      have hI : ∀ {s s' : HS}, RuleFrame s s' → I s → I s' := fun hf hi => ⟨hi.1.frame hf, fun i => by rw [hf.pdrs]; exact hi.2 i⟩
      have i0 : I (n.hs (Session.new (a.nextSessionID + 1) remote)) :=
        ⟨⟨fun i p hp => by simp [Node.hs, Session.new] at hp, fun k _ => rfl⟩, fun i => by simp [Node.hs, Session.new]⟩
      have i1 := pres_each_ok (I := I) (fun _ _ => pres_of fun _ h => hI (createFar_rf ..) h) e1 i0
      have i2 := pres_each_ok (I := I) (fun _ _ => pres_of fun _ h => hI (createQer_rf ..) h) e2 i1
      have i3 := pres_each_ok (I := I) (fun _ _ => pres_of fun _ h => hI (createUrr_rf ..) h) e3 i2
      have o4 : Own n.dp.entry? hs := by
        refine own_creates _ e4 hnd (fun ie _ i _ => i3.2 _) ?_ ?_ i3.1
        · intro j p hp _
          exact h.only p.key fun b t j' q hq => hfr addr (a.nextSessionID + 1) j p ⟨_, hse, hp⟩ (fun q => hno j q) b t j' q hq
        · intro i j p q hp hq hk
          exact (hap.keys _ _ _ _ _ _ _ _ ⟨_, hse, hp⟩ ⟨_, hse, hq⟩ hk).2.2
      refine h.change (pdrs0 := GoMap.empty) (fun i p => ⟨fun hh => absurd hh (hno i p), fun hh => by simp at hh⟩) hse hoth hap
        (fun i p b t j q hp => absurd hp (hno i p)) (fun i p hp => by rw [hdp]; exact o4.own i p hp) ?_
      intro k hk
      exact ⟨fun _ => by rw [hdp]; exact o4.rest k hk, fun ⟨i, p, hh, _⟩ => by simp at hh⟩

theorem exactS_modify {n : Node} (h : ExactS n) (hap0 : Apart1 n) {addr : Addr} {r : ModReq} {ord : Orders} (ho : Orderly n (.modify addr r ord))
    (hc : (n.step (.modify addr r ord)).2 ≠ .crash) : ExactS (n.step (.modify addr r ord)).1 := by
  have hans := ho.answered
  have hfr := ho.fresh
  have hap := ho.apart
  have hmo := ho.modif addr r ord
  generalize hst : n.step (.modify addr r ord) = st at *
  have hst' : n.modify addr r ord = st := hst
  cases modify_cases n addr r ord with
  | refused c x hcc hs he => rw [he] at hst'; subst hst'; exact h
  | ran a x hs res ha hsess hbody hl hrem he =>
    rw [he] at hst'
    have hx : n.session? addr r.seid = some x := by simp [Node.session?, ha, hsess]
    have hor := hmo x rfl hx
    have hres : res = .ok () := by
      cases res with
      | err => subst hst'; exact absurd rfl (hans _ rfl)
      | panic => subst hst'; exact absurd rfl hc
      | ok _ => rfl
    subst hres
    have hse : st.1.session? addr r.seid = some hs.sess := by subst hst'; simp [Node.modResult, Node.session?]
    have hdp : st.1.dp = hs.dp := by subst hst'; rfl
    have hoth : ∀ a' s', (a', s') ≠ (addr, r.seid) → st.1.session? a' s' = n.session? a' s' := by
      intro a' s' hne
      have := (C05_isolation n addr a' s').2.1 r ord hne
      rw [← this, ← hst]
    have hown : ∀ i p, n.hasPdr addr r.seid i p ↔ x.pdrs.get? i = some p := by
      intro i p; unfold Node.hasPdr; rw [hx]; simp
    have hfin : ∀ i p, hs.sess.pdrs.get? i = some p → st.1.hasPdr addr r.seid i p := fun i p hp => ⟨_, hse, hp⟩
    obtain ⟨s1, s2, s3, s4, s5, s6, s7, s8, s9, s10, s11, e1, e2, e3, e4, e5, e6, e7, e8, e9, e10, e11, e12⟩ := modify_phases hbody
    let O : PdrKey → Option PdrEntry := fun k => open Classical in if ∃ i p, x.pdrs.get? i = some p ∧ p.key = k then none else n.dp.entry? k
    have hO1 : ∀ k, (∃ i p, x.pdrs.get? i = some p ∧ p.key = k) → O k = none := fun k hk => if_pos hk
    have hO2 : ∀ k, (¬ ∃ i p, x.pdrs.get? i = some p ∧ p.key = k) → O k = n.dp.entry? k := fun k hk => if_neg hk
    clear_value O
    have hrem0 : (x.setRemote r.cpFseid).pdrs = x.pdrs := by unfold Session.setRemote; split <;> rfl
    -- the rules other than PDRs
    let I : HS → Prop := fun s => Own O s ∧ s.sess.pdrs = x.pdrs ∧ s.cache = GoMap.empty
    have hI : ∀ {s s' : HS}, RuleFrame s s' → I s → I s' := fun hf hi => ⟨hi.1.frame hf, by rw [hf.pdrs]; exact hi.2.1, by rw [hf.cache]; exact hi.2.2⟩
    have i0 : I (n.hs (x.setRemote r.cpFseid)) := by
      refine ⟨⟨fun i p hp => ?_, fun k hk => ?_⟩, hrem0, rfl⟩
      · exact h.live addr r.seid i p ((hown i p).2 (by rw [← hrem0]; exact hp))
      · rw [hO2 k]
        · rfl
        · rintro ⟨i, p, hp, hkk⟩
          exact hk i p (by show (x.setRemote r.cpFseid).pdrs.get? i = _; rw [hrem0]; exact hp) hkk
    have i1 := pres_each_ok (I := I) (fun _ _ => pres_of fun _ h => hI (createFar_rf ..) h) e1 i0
    have i2 := pres_each_ok (I := I) (fun _ _ => pres_of fun _ h => hI (updateFar_rf ..) h) e2 i1
    have i3 := pres_each_ok (I := I) (fun _ _ => pres_of fun _ h => hI (removeFar_rf ..) h) e3 i2
    have i4 := pres_each_ok (I := I) (fun _ _ => pres_of fun _ h => hI (createQer_rf ..) h) e4 i3
    have i5 := pres_each_ok (I := I) (fun _ _ => pres_of fun _ h => hI (updateQer_rf ..) h) e5 i4
    have i6 := pres_each_ok (I := I) (fun _ _ => pres_of fun _ h => hI (removeQer_rf ..) h) e6 i5
    have i7 := pres_each_ok (I := I) (fun _ _ => pres_of fun _ h => hI (createUrr_rf ..) h) e7 i6
    have i8 := pres_each_ok (I := I) (fun _ _ => pres_of fun _ h => hI (updateUrr_rf ..) h) e8 i7
    obtain ⟨o9, p9, c9⟩ := pres_each_ok (I := I) (fun _ _ => pres_of fun _ h => hI (removeUrr_rf ..) h) e9 i8
    -- what is in the session after the creations
    have old10 : ∀ j q, x.pdrs.get? j = some q → s10.sess.pdrs.get? j = some q := by
      intro j q hq
      rw [creates_pdrs_keep _ e10, p9, hq]
      rintro ie hie i hi rfl
      rw [hor.new ie hie i hi] at hq; cases hq
    have new10 : ∀ j, x.pdrs.get? j = none → ∀ q, s10.sess.pdrs.get? j = some q → ∃ ie ∈ r.createPdr, ∃ i, ie.pdrId = some i ∧ i.zeroExtend 32 = j := by
      intro j hj q hq
      apply Classical.byContradiction
      intro hno
      rw [creates_pdrs_keep _ e10 (j := j), p9, hj] at hq
      · cases hq
      · rintro ie hie i hi hc
        exact hno ⟨ie, hie, i, hi, hc⟩
    let D : U32 → Prop := fun j => ∃ d ∈ r.removePdr, BitVec.zeroExtend 32 (d.getD 0) = j
    have newD : ∀ j, x.pdrs.get? j = none → ∀ q, s10.sess.pdrs.get? j = some q → ¬ D j := by
      rintro j hj q hq ⟨d, hd, hdj⟩
      obtain ⟨ie, hie, i, hi, hij⟩ := new10 j hj q hq
      refine hor.kept ie hie d hd ?_
      rw [hi]
      exact zext_inj (hij.trans hdj.symm)
    -- removals keep the others
    have rem12 : ∀ j, ¬ D j → hs.sess.pdrs.get? j = s11.sess.pdrs.get? j := by
      intro j hj
      have key : ∀ (l : List (Option U16)) {s s' : HS}, (∀ d ∈ l, BitVec.zeroExtend 32 (d.getD 0) ≠ j) → Act.each (removePdr ord) l s = (s', .ok ()) →
          s'.sess.pdrs.get? j = s.sess.pdrs.get? j := by
        intro l
        induction l with
        | nil => intro s s' _ hh; cases hh; rfl
        | cons d l ih =>
          intro s s' hd hh
          obtain ⟨t1, h1, h2⟩ := each_cons_ok hh
          rw [ih (fun d' hd' => hd d' (List.mem_cons_of_mem _ hd')) h2]
          cases hq : s.sess.pdrs.get? (BitVec.zeroExtend 32 (d.getD 0)) with
          | none => rw [removePdr_unknown hq] at h1; cases h1; rfl
          | some q =>
            rw [removePdr_known hq] at h1
            generalize hg : ({ s with sess := s.sess.removePdr (BitVec.zeroExtend 32 (d.getD 0)) } : HS) = g at h1
            have hgj : g.sess.pdrs.get? j = s.sess.pdrs.get? j := by
              subst hg
              simp only [Session.removePdr, GoMap.get?_erase]
              rw [if_neg (fun e => hd d (by simp) e.symm)]
            obtain ⟨rm, e⟩ := deletePdr_dp ord q g
            rw [h1] at e
            simp only at e
            rw [← hgj, e]
            cases deletePdrEntry_cases q g with
            | gone dp c hdl _ _ _ => rw [hdl]
            | absent hdl _ => rw [hdl]
            | skipped hdl _ _ => rw [hdl]
      exact key _ (fun d hd hc => hj ⟨d, hd, hc⟩) e12
    have upd11 : ∀ O' : PdrKey → Option PdrEntry, Own O' s10 →
        (∀ i j p q, s10.sess.pdrs.get? i = some p → s10.sess.pdrs.get? j = some q → p.key = q.key → i = j) → Own O' s11 ∧ SameKeys s10.sess s11.sess := by
      intro O' ho' hinj'
      refine own_updates _ e11 ?_ hinj' ho'
      intro ie hie
      obtain ⟨i, p, h1, h2, h3, h4, h5⟩ := hor.upd ie hie
      exact ⟨i, p, h1, old10 _ _ h2, h3, h4, h5⟩
    -- updates keep ids and keys
    have same11 : SameKeys s10.sess s11.sess := by
      have key : ∀ (l : List PdrIE) {s s' : HS}, (∀ ie ∈ l, ∃ i k, ie.pdrId = some i ∧ (s.sess.pdrs.get? (i.zeroExtend 32)).map SPdr.key = some k ∧
          ie.keepsKey k) → Act.each (updatePdr n.ueip) l s = (s', .ok ()) → SameKeys s.sess s'.sess := by
        intro l
        induction l with
        | nil => intro s s' _ hh; cases hh; exact fun _ => rfl
        | cons ie l ih =>
          intro s s' hl hh
          obtain ⟨t1, h1, h2⟩ := each_cons_ok hh
          obtain ⟨i, k, g1, g2, g3⟩ := hl ie (by simp)
          obtain ⟨p, hp, rfl⟩ := Option.map_eq_some_iff.1 g2
          have k1 : SameKeys s.sess t1.sess := by
            obtain ⟨id', p', t0, f1, f2, f3, -⟩ := updatePdr_ok h1
            rw [g1] at f1; cases f1
            have hg : s.sess.getPdr (i.zeroExtend 32) = p := by simp [Session.getPdr, hp]
            rw [hg] at f2
            obtain ⟨k1, -⟩ := extract_keeps f2 g3
            intro j
            rw [f3]
            simp only [Session.putPdr, GoMap.get?_set]
            split
            · rename_i hj; subst hj; rw [hp]; simp [k1]
            · rfl
          have k2 := ih (s := t1) (by
            intro ie' hie'
            obtain ⟨i', k', g1', g2', g3'⟩ := hl ie' (List.mem_cons_of_mem _ hie')
            exact ⟨i', k', g1', by rw [k1]; exact g2', g3'⟩) h2
          exact fun j => (k2 j).trans (k1 j)
      refine key _ ?_ e11
      intro ie hie
      obtain ⟨i, p, h1, h2, h3, h4, h5⟩ := hor.upd ie hie
      exact ⟨i, p.key, h1, by rw [old10 _ _ h2]; rfl, h3⟩
    -- new PDRs are in the final session, with the same key
    have newfin : ∀ j, x.pdrs.get? j = none → ∀ q, s10.sess.pdrs.get? j = some q → ∃ q', hs.sess.pdrs.get? j = some q' ∧ q'.key = q.key := by
      intro j hj q hq
      rw [rem12 j (newD j hj q hq)]
      have := same11 j
      rw [hq] at this
      exact Option.map_eq_some_iff.1 this
    have newkey : ∀ j, x.pdrs.get? j = none → ∀ q, s10.sess.pdrs.get? j = some q → ∀ b t j' q', n.hasPdr b t j' q' → q'.key ≠ q.key := by
      intro j hj q hq b t j' q' hq'
      obtain ⟨q2, f1, f2⟩ := newfin j hj q hq
      rw [← f2]
      refine hfr addr r.seid j q2 (hfin j q2 f1) ?_ b t j' q' hq'
      intro q3 hq3
      rw [hown, hj] at hq3; cases hq3
    have inj10 : ∀ i j p q, s10.sess.pdrs.get? i = some p → s10.sess.pdrs.get? j = some q → p.key = q.key → i = j := by
      intro i j p q hp hq hk
      cases hxi : x.pdrs.get? i with
      | none =>
        cases hxj : x.pdrs.get? j with
        | none =>
          obtain ⟨p2, f1, f2⟩ := newfin i hxi p hp
          obtain ⟨q2, g1, g2⟩ := newfin j hxj q hq
          exact (hap.keys _ _ _ _ _ _ _ _ (hfin i p2 f1) (hfin j q2 g1) (by rw [f2, g2, hk])).2.2
        | some q0 =>
          have := old10 j q0 hxj; rw [hq] at this; cases this
          exact absurd hk.symm (newkey i hxi p hp addr r.seid j q ((hown j q).2 hxj))
      | some p0 =>
        have := old10 i p0 hxi; rw [hp] at this; cases this
        cases hxj : x.pdrs.get? j with
        | none => exact absurd hk (newkey j hxj q hq addr r.seid i p ((hown i p).2 hxi))
        | some q0 =>
          have := old10 j q0 hxj; rw [hq] at this; cases this
          exact (hap0.keys _ _ _ _ _ _ _ _ ((hown i p).2 hxi) ((hown j q).2 hxj) hk).2.2
    have o10 : Own O s10 := by
      refine own_creates _ e10 hor.ids (fun ie hie i hi => by rw [p9]; exact hor.new ie hie i hi) ?_ inj10 o9
      intro j p hp hj
      rw [p9] at hj
      have hnk := newkey j hj p hp
      rw [hO2]
      · exact h.only p.key fun b t j' q' hq' => hnk b t j' q' hq'
      · rintro ⟨i, q, hq, hk⟩
        exact hnk addr r.seid i q ((hown i q).2 hq) hk
    obtain ⟨o11, -⟩ := upd11 O o10 inj10
    have inj11 := same11.inj inj10
    -- a PDR that is removed was in the session before, with the same key
    have oldD : ∀ j q, D j → s11.sess.pdrs.get? j = some q → ∃ q0, x.pdrs.get? j = some q0 ∧ q0.key = q.key := by
      intro j q hD hq
      have := same11 j
      rw [hq] at this
      obtain ⟨q1, f1, f2⟩ := Option.map_eq_some_iff.1 this.symm
      cases hxj : x.pdrs.get? j with
      | none => exact absurd hD (newD j hxj q1 f1)
      | some q0 =>
        have := old10 j q0 hxj; rw [f1] at this; cases this
        exact ⟨q1, rfl, f2⟩
    have hfinal : Own O hs := by
      by_cases hre : r.removePdr = []
      · rw [hre] at e12; cases e12; exact o11
      · have c10 : CacheIs GoMap.empty s10 := pres_each_ok (I := CacheIs GoMap.empty)
          (fun ie hie => cache_create (hor.choose hre ie (List.mem_append_left _ hie)) _ _) e10 c9
        have c11 : CacheIs GoMap.empty s11 := pres_each_ok (I := CacheIs GoMap.empty)
          (fun ie hie => cache_update (hor.choose hre ie (List.mem_append_right _ hie)) _ _) e11 c10
        have r11 : Removing O s11.sess D s11 :=
          ⟨o11, fun _ _ h => h, fun _ _ _ h => h, fun b hb => by rw [show s11.cache = GoMap.empty from c11] at hb; simp at hb⟩
        have key : ∀ (l : List (Option U16)), (∀ d ∈ l, d ∈ r.removePdr) → ∀ {s s' : HS}, Removing O s11.sess D s → Act.each (removePdr ord) l s = (s', .ok ()) →
            Removing O s11.sess D s' := by
          intro l
          induction l with
          | nil => intro _ s s' hr hh; cases hh; exact hr
          | cons d l ih =>
            intro hl s s' hr hh
            obtain ⟨t1, h1, h2⟩ := each_cons_ok hh
            have hD : D (BitVec.zeroExtend 32 (d.getD 0)) := ⟨d, hl d (by simp), rfl⟩
            refine ih (fun d' hd' => hl d' (List.mem_cons_of_mem _ hd')) (removing_step inj11 ?_ ord hD ?_ h1 hr) h2
            · intro i j p q hDi hDj hp hq hkp hkq hb
              obtain ⟨p0, f1, f2⟩ := oldD i p hDi hp
              obtain ⟨q0, g1, g2⟩ := oldD j q hDj hq
              exact hap0.alone addr r.seid j q0 x hx g1 q.teid (by rw [g2, hkq]) i p0 p.teid f1 (by rw [f2, hkp]) hb
            · intro p hp
              obtain ⟨p0, f1, f2⟩ := oldD _ p hD hp
              exact hO1 _ ⟨_, p0, f1, f2⟩
        exact (key _ (fun _ h => h) r11 e12).toOwn
    refine h.change (pdrs0 := x.pdrs) hown hse hoth hap ?_ (fun i p hp => by rw [hdp]; exact hfinal.own i p hp) ?_
    · intro i p b t j q hp hq hk
      obtain ⟨f1, f2, -⟩ := hap0.keys _ _ _ _ _ _ _ _ hp hq hk
      rw [f1, f2]
    · intro k hk
      refine ⟨fun hn => ?_, fun hh => ?_⟩
      · rw [hdp, hfinal.rest k hk, hO2]
        rintro ⟨i, p, hp, hkk⟩
        exact hn i p hp hkk
      · rw [hdp, hfinal.rest k hk, hO1 k hh]

theorem exactS_delete {n : Node} (h : ExactS n) (hap0 : Apart1 n) {addr : Addr} {r : DelReq} {ord : Orders} (ho : Orderly n (.delete addr r ord))
    (hc : (n.step (.delete addr r ord)).2 ≠ .crash) : ExactS (n.step (.delete addr r ord)).1 := by
  have hdel := ho.deleted addr r ord rfl
  generalize hst : n.step (.delete addr r ord) = st at *
  have hst' : n.delete addr r ord = st := hst
  cases delete_cases n addr r ord with
  | refused c hcc hs he => rw [he] at hst'; subst hst'; exact h
  | ran a x hs res ha hsess hbody he =>
    rw [he] at hst'
    have hx : n.session? addr r.seid = some x := by simp [Node.session?, ha, hsess]
    have hres : res = .ok () := by
      cases res with
      | err => subst hst'; exact absurd rfl hdel
      | panic => subst hst'; exact absurd rfl hc
      | ok _ => rfl
    subst hres
    have hex : ∀ k, (Removes (ord.visits x) k → st.1.dp.entry? k = none) ∧ (¬ Removes (ord.visits x) k → st.1.dp.entry? k = n.dp.entry? k) := by
      subst hst'
      exact fun k => C10_exact_partial hx hst rfl k
    have hoth : ∀ a' s', (a', s') ≠ (addr, r.seid) → st.1.session? a' s' = n.session? a' s' := by
      intro a' s' hne
      have := (C05_isolation n addr a' s').2.2 r ord hne
      rw [← this, ← hst]
    have hgone : st.1.session? addr r.seid = none := by subst hst'; simp [Node.delResult, Node.session?]
    have hown : ∀ i p, n.hasPdr addr r.seid i p ↔ x.pdrs.get? i = some p := by
      intro i p; unfold Node.hasPdr; rw [hx]; simp
    have hrm : ∀ i p, x.pdrs.get? i = some p → Removes (ord.visits x) p.key := by
      intro i p hp
      refine ⟨⟨p, mem_visits.2 ⟨i, hp⟩, rfl⟩, fun t ht => findSome_teid _ (mem_visits.2 ⟨i, hp⟩) ht ?_⟩
      intro q hq t' hk hb
      obtain ⟨j, hj⟩ := mem_visits.1 hq
      exact hap0.alone addr r.seid i p x hx hp t ht j q t' hj hk hb
    constructor
    · intro b t j q hq
      have hbt : (b, t) ≠ (addr, r.seid) := by
        rintro hbt; cases hbt
        obtain ⟨y, hy, -⟩ := hq; rw [hgone] at hy; cases hy
      have hqn : n.hasPdr b t j q := by
        obtain ⟨z, hz, hz'⟩ := hq
        exact ⟨z, by rw [← hoth b t hbt]; exact hz, hz'⟩
      rw [(hex q.key).2]
      · exact h.live b t j q hqn
      · rintro ⟨⟨p, hp, hk⟩, -⟩
        obtain ⟨i, hi⟩ := mem_visits.1 hp
        obtain ⟨f1, f2, -⟩ := hap0.keys _ _ _ _ _ _ _ _ ((hown i p).2 hi) hqn hk
        exact hbt (by rw [f1, f2])
    · intro k hk
      by_cases hr : ∃ i p, x.pdrs.get? i = some p ∧ p.key = k
      · obtain ⟨i, p, hp, rfl⟩ := hr
        exact (hex p.key).1 (hrm i p hp)
      · rw [(hex k).2]
        · refine h.only k fun b t j q hq hqk => ?_
          by_cases hbt : (b, t) = (addr, r.seid)
          · cases hbt
            exact hr ⟨j, q, (hown j q).1 hq, hqk⟩
          · obtain ⟨z, hz, hz'⟩ := hq
            exact hk b t j q ⟨z, by rw [hoth b t hbt]; exact hz, hz'⟩ hqk
        · rintro ⟨⟨p, hp, hkk⟩, -⟩
          obtain ⟨i, hi⟩ := mem_visits.1 hp
          exact hr ⟨i, p, hi, hkk⟩

theorem exactS_lost {cfg : NodeCfg} {rm : Option ResourceManager} {pz fz qz uz : U32} (hfz : 0 < fz.toNat) (hqz : 0 < qz.toNat)
    (huz : 0 < uz.toNat) {h0 : List (Ev × Outcome)} {n : Node} (H0 : Hist (Node.init cfg rm (BpfObjects.load pz fz qz uz)) h0 n)
    (h : ExactS n) (hap0 : Apart1 n) {addr : Addr} {ord : Orders} (hc : (n.step (.peerLost addr ord)).2 ≠ .crash) :
    ExactS (n.step (.peerLost addr ord)).1 := by
  cases ha : n.assocs.get? addr with
  | none =>
    exfalso; apply hc
    simp only [Node.step, Node.deleteAssociation, ha]
  | some a =>
    obtain ⟨-, -, g1, g2, g3⟩ := C45_peer_lost hfz hqz huz H0 (by rw [ha]; rfl) (n' := (n.step (.peerLost addr ord)).1)
      (o := (n.step (.peerLost addr ord)).2) rfl hc
    have hkeep : ∀ k, (∀ s i p, n.hasPdr addr s i p → p.key ≠ k) → (n.step (.peerLost addr ord)).1.dp.entry? k = n.dp.entry? k := by
      intro k hk
      simp only [Node.step, Node.deleteAssociation, ha]
      rcases hd : dropSessions ord (ord.sessions.run a.sessions.entries) n.rm n.dp with ⟨rm', dp', b⟩
      have h1 := kb_dropSessions (K := k) (e0 := n.dp.entry? k) ord _ n.rm n.dp (by
        intro e he i p hp
        have hm := (a.sessions.mem_entries_iff e.1 e.2).1 ((ord.sessions.perm _).mem_iff.1 he)
        exact hk e.1 i p ⟨e.2, by simp [Node.session?, ha, hm], hp⟩) rfl _ _ _ hd
      cases b <;> exact h1
    constructor
    · intro b t j q hq
      have hb : b ≠ addr := by
        rintro rfl
        obtain ⟨y, hy, -⟩ := hq; rw [g1] at hy; cases hy
      have hqn : n.hasPdr b t j q := by
        obtain ⟨z, hz, hz'⟩ := hq
        exact ⟨z, by rw [← g2 b t hb]; exact hz, hz'⟩
      rw [hkeep]
      · exact h.live b t j q hqn
      · intro s i p hp hk
        exact hb (hap0.keys _ _ _ _ _ _ _ _ hp hqn hk).1.symm
    · intro k hk
      by_cases hr : ∃ s i p, n.hasPdr addr s i p ∧ p.key = k
      · obtain ⟨s, i, p, ⟨x, hx, hp⟩, rfl⟩ := hr
        exact (g3 s x hx).2.2 (fun i p hp j p' hp' k1 k2 hb => hap0.alone addr s j p' x hx hp' p'.teid k2 i p p.teid hp k1 hb) i p hp
      · rw [hkeep k fun s i p hp hkk => hr ⟨s, i, p, hp, hkk⟩]
        refine h.only k fun b t j q hq hqk => ?_
        by_cases hb : b = addr
        · subst hb; exact hr ⟨t, j, q, hq, hqk⟩
        · obtain ⟨z, hz, hz'⟩ := hq
          exact hk b t j q ⟨z, by rw [g2 b t hb]; exact hz, hz'⟩ hqk

theorem exactS_hist {cfg : NodeCfg} {rm : Option ResourceManager} {pz fz qz uz : U32} (hfz : 0 < fz.toNat) (hqz : 0 < qz.toNat)
    (huz : 0 < uz.toNat) {h : List (Ev × Outcome)} {n : Node} (H : HistP Orderly (Node.init cfg rm (BpfObjects.load pz fz qz uz)) h n)
    (hb : attempts h < 2 ^ 64 - 2) : ExactS n ∧ Apart1 n := by
  induction H with
  | init =>
    have hno : ∀ a s i p, ¬ (Node.init cfg rm (BpfObjects.load pz fz qz uz)).hasPdr a s i p := by
      rintro a s i p ⟨x, hx, -⟩
      simp [Node.session?, Node.init] at hx
    refine ⟨⟨fun a s i p hp => absurd hp (hno a s i p), fun k _ => ?_⟩, ⟨fun a s i p b t j q hp => absurd hp (hno a s i p), fun a s i p x hx => ?_⟩⟩
    · cases k <;> rfl
    · simp [Node.session?, Node.init] at hx
  | traffic _ t ih =>
    obtain ⟨i1, i2⟩ := ih hb
    exact ⟨i1.same (fun _ _ => rfl) (fun k => entry_pdr t.pdrUl t.pdrDl4 t.pdrDl6 k), ⟨i2.keys, i2.alone⟩⟩
  | @step h n e H ho hc ih =>
    have hb' : attempts h < 2 ^ 64 - 2 := Nat.lt_of_le_of_lt (attempts_cons ..) hb
    obtain ⟨i1, i2⟩ := ih hb'
    refine ⟨?_, ho.apart⟩
    have other : e.isNodeMsg = true → ExactS (n.step e).1 := by
      intro he
      rcases other_step n e he with h1 | ⟨b, hbn, h1⟩
      · rw [h1]; exact i1
      · rw [h1]
        refine i1.same (fun a s => ?_) (fun _ => rfl)
        simp only [Node.session?, GoMap.get?_set]
        split
        · rename_i hab; subst hab; rw [hbn]; simp [Assoc.new]
        · rfl
    cases e with
    | assocSetup => exact other rfl
    | assocSetupResp => exact other rfl
    | assocUpdate => exact other rfl
    | heartbeatReq => exact other rfl
    | heartbeatResp => exact other rfl
    | setConfig => exact i1.same (fun _ _ => rfl) (fun _ => rfl)
    | establish addr r =>
      refine exactS_establish i1 ho ?_ hc
      intro as has
      apply Classical.byContradiction
      intro hne
      exact (linv_hist H.hist hb').fresh hb' hne as has rfl
    | modify addr r ord => exact exactS_modify i1 i2 ho hc
    | delete addr r ord => exact exactS_delete i1 i2 ho hc
    | peerLost addr ord => exact exactS_lost hfz hqz huz H.hist i1 i2 hc

/-- **C98.** After every orderly history the PDR tables of the forwarding plane say exactly what the PDRs of the live sessions say. -/
theorem C98_exact_partial {cfg : NodeCfg} {rm : Option ResourceManager} {pz fz qz uz : U32} (hfz : 0 < fz.toNat) (hqz : 0 < qz.toNat)
    (huz : 0 < uz.toNat) {h : List (Ev × Outcome)} {n : Node} (H : HistP Orderly (Node.init cfg rm (BpfObjects.load pz fz qz uz)) h n)
    (hb : attempts h < 2 ^ 64 - 2) : Exact n := (exactS_hist hfz hqz huz H hb).1.exact

end Eupf
