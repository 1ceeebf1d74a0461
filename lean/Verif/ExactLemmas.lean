import Verif.Spec.Exact
import Verif.Props.Gone
import Verif.LeakLemmas
/-
The PDR tables follow the PDRs of the sessions (C98): handler bodies. Models no code.
-/
namespace Eupf
open Act

/-- the session's own PDRs are in the tables, and the rest is as `O` says -/
structure Own (O : PdrKey → Option PdrEntry) (s : HS) : Prop where
  own : ∀ i p, s.sess.pdrs.get? i = some p → s.dp.entry? p.key = some (pdrToStore none p.info)
  rest : ∀ k, (∀ i p, s.sess.pdrs.get? i = some p → p.key ≠ k) → s.dp.entry? k = O k

theorem Own.frame {O : PdrKey → Option PdrEntry} {s s' : HS} (hf : RuleFrame s s') (h : Own O s) : Own O s' :=
  ⟨fun i p hp => by rw [hf.entry]; exact h.own i p (by rw [← hf.pdrs]; exact hp),
   fun k hk => by rw [hf.entry]; exact h.rest k fun i p hp => hk i p (by rw [hf.pdrs]; exact hp)⟩

/-- a Create PDR with a new id and a new key -/
theorem own_create {O : PdrKey → Option PdrEntry} {ue : Bool} {ie : PdrIE} {s s' : HS} (h : createPdr ue ie s = (s', .ok ())) {id : U16}
    (hid : ie.pdrId = some id) (hnew : s.sess.pdrs.get? (id.zeroExtend 32) = none)
    (hO : ∀ p, s'.sess.pdrs.get? (id.zeroExtend 32) = some p → O p.key = none)
    (hk : ∀ p j q, s'.sess.pdrs.get? (id.zeroExtend 32) = some p → s.sess.pdrs.get? j = some q → q.key ≠ p.key)
    (ho : Own O s) : Own O s' := by
  obtain ⟨id', p, s1, e1, -, e2, -, -, -, e3⟩ := createPdr_ok h
  rw [hid] at e1; cases e1
  have hp : s'.sess.pdrs.get? (id.zeroExtend 32) = some p := by rw [e2]; simp [Session.putPdr]
  have hnone : s.dp.entry? p.key = none := by
    rw [ho.rest p.key (fun j q hq => hk p j q hp hq)]; exact hO p hp
  have hget : ∀ j q, s'.sess.pdrs.get? j = some q → (j = id.zeroExtend 32 ∧ q = p) ∨ (j ≠ id.zeroExtend 32 ∧ s.sess.pdrs.get? j = some q) := by
    intro j q hq
    rw [e2] at hq
    simp only [Session.putPdr, GoMap.get?_set] at hq
    split at hq
    · rename_i hj; cases hq; exact .inl ⟨hj, rfl⟩
    · rename_i hj; exact .inr ⟨hj, hq⟩
  constructor
  · intro j q hq
    rcases hget j q hq with ⟨-, rfl⟩ | ⟨-, hq'⟩
    · rw [e3, if_pos rfl, hnone]
    · rw [e3, if_neg (hk p j q hp hq')]; exact ho.own j q hq'
  · intro k hkk
    have : k ≠ p.key := fun e => hkk _ p hp e.symm
    rw [e3, if_neg this]
    refine ho.rest k fun j q hq => ?_
    have hne : j ≠ id.zeroExtend 32 := by rintro rfl; rw [hnew] at hq; cases hq
    exact hkk j q (by rw [e2]; simp only [Session.putPdr, GoMap.get?_set]; rw [if_neg hne]; exact hq)

/-- creations keep the PDRs with other ids -/
theorem create_pdrs_keep {ue : Bool} {ie : PdrIE} {s s' : HS} (h : createPdr ue ie s = (s', .ok ())) {j : U32}
    (hj : ∀ i, ie.pdrId = some i → i.zeroExtend 32 ≠ j) : s'.sess.pdrs.get? j = s.sess.pdrs.get? j := by
  obtain ⟨id', p, s1, e1, -, e2, -⟩ := createPdr_ok h
  rw [e2]
  simp only [Session.putPdr, GoMap.get?_set]
  rw [if_neg (fun e => hj id' e1 e.symm)]

theorem creates_pdrs_keep {ue : Bool} : ∀ (l : List PdrIE) {s s' : HS}, Act.each (createPdr ue) l s = (s', .ok ()) → ∀ {j : U32},
    (∀ ie ∈ l, ∀ i, ie.pdrId = some i → i.zeroExtend 32 ≠ j) → s'.sess.pdrs.get? j = s.sess.pdrs.get? j
  | [], s, s', h, j, _ => by cases h; rfl
  | ie :: l, s, s', h, j, hj => by
    obtain ⟨s1, h1, h2⟩ := each_cons_ok h
    rw [creates_pdrs_keep l h2 fun x hx => hj x (List.mem_cons_of_mem _ hx), create_pdrs_keep h1 (hj ie (by simp))]

/-- creations: with new ids; the final records have keys that `O` does not have, that the first records do not have, and different ones -/
theorem own_creates {O : PdrKey → Option PdrEntry} {ue : Bool} : ∀ (l : List PdrIE) {s s' : HS}, Act.each (createPdr ue) l s = (s', .ok ()) →
    (l.map (·.pdrId)).Nodup → (∀ ie ∈ l, ∀ i, ie.pdrId = some i → s.sess.pdrs.get? (i.zeroExtend 32) = none) →
    (∀ j p, s'.sess.pdrs.get? j = some p → s.sess.pdrs.get? j = none → O p.key = none) →
    (∀ i j p q, s'.sess.pdrs.get? i = some p → s'.sess.pdrs.get? j = some q → p.key = q.key → i = j) → Own O s → Own O s'
  | [], s, s', h, _, _, _, _, ho => by cases h; exact ho
  | ie :: l, s, s', h, hnd, hnew, hO, hinj, ho => by
    obtain ⟨s1, h1, h2⟩ := each_cons_ok h
    rw [List.map_cons, List.nodup_cons] at hnd
    obtain ⟨id, p, -, hid, -, e2, -⟩ := createPdr_ok h1
    have hlater : ∀ x ∈ l, ∀ i, x.pdrId = some i → i.zeroExtend 32 ≠ id.zeroExtend 32 := by
      intro x hx i hi hc
      exact hnd.1 (List.mem_map.2 ⟨x, hx, by rw [hid, hi, zext_inj hc]⟩)
    have hp1 : s1.sess.pdrs.get? (id.zeroExtend 32) = some p := by rw [e2]; simp [Session.putPdr]
    have hp' : s'.sess.pdrs.get? (id.zeroExtend 32) = some p := by rw [creates_pdrs_keep l h2 hlater, hp1]
    have hn0 := hnew ie (by simp) id hid
    have hkeep1 : ∀ j q, s.sess.pdrs.get? j = some q → s'.sess.pdrs.get? j = some q := by
      intro j q hq
      rw [creates_pdrs_keep (ie :: l) h, hq]
      intro x hx i hi hc
      rw [← hc, hnew x hx i hi] at hq; cases hq
    have o1 : Own O s1 := by
      refine own_create h1 hid hn0 ?_ ?_ ho
      · intro p2 hp2; rw [hp1] at hp2; cases hp2; exact hO _ p hp' hn0
      · intro p2 j q hp2 hq hk
        rw [hp1] at hp2; cases hp2
        have := hinj _ _ _ _ (hkeep1 j q hq) hp' hk
        rw [this, hn0] at hq; cases hq
    refine own_creates l h2 hnd.2 ?_ ?_ hinj o1
    · intro x hx i hi
      rw [create_pdrs_keep h1, hnew x (List.mem_cons_of_mem _ hx) i hi]
      intro i' hi' hc
      rw [hid] at hi'; cases hi'
      exact hlater x hx i hi hc.symm
    · intro j q hq hj
      refine hO j q hq ?_
      rw [← create_pdrs_keep h1 (j := j)]; exact hj
      intro i hi hc
      rw [hid] at hi; cases hi
      rw [← hc, hp1] at hj; cases hj

/-! ### updates -/

theorem extract_keeps {ue : Bool} {ie : PdrIE} {p p' : SPdr} {s s1 : HS} (h : extractPdr ue ie p s = (s1, .ok p')) (hk : ie.keepsKey p.key) :
    p'.key = p.key ∧ s1 = s := by
  unfold extractPdr at h
  simp only [] at h
  cases hpdi : ie.pdi with
  | none => rw [hpdi] at h; cases h
  | some pdi =>
    rw [hpdi] at h
    simp only at h
    cases hsdf : pdrSdf ie (pdrRefs s.sess ie p.info) with
    | none => rw [hsdf] at h; cases h
    | some info =>
      rw [hsdf] at h
      simp only at h
      rcases hk with ⟨pdi', h1, h2, h3⟩ | hk
      · rw [hpdi] at h1; cases h1
        rw [h2, h3] at h
        cases h; exact ⟨rfl, rfl⟩
      · cases hkey : p.key with
        | ul t =>
          rw [hkey] at hk
          obtain ⟨pdi', f, h1, h2, h3, h4⟩ := hk
          rw [hpdi] at h1; cases h1
          rw [h2] at h
          simp only [pdrFteid, h3, Bool.false_eq_true, if_false] at h
          cases h
          refine ⟨?_, rfl⟩
          unfold SPdr.key at hkey ⊢
          split at hkey <;> simp_all
        | dl4 ip =>
          rw [hkey] at hk
          obtain ⟨pdi', u, h1, h2, h3, h4, h5⟩ := hk
          rw [hpdi] at h1; cases h1
          rw [h2, h3] at h
          simp only [pdrUeIp, h4, h5, Bool.and_false, Bool.false_eq_true, if_false] at h
          cases h
          exact ⟨rfl, rfl⟩
        | dl6 ip =>
          rw [hkey] at hk
          obtain ⟨pdi', u, h1, h2, h3, h4, h5, h6⟩ := hk
          rw [hpdi] at h1; cases h1
          rw [h2, h3] at h
          simp only [pdrUeIp, h4, h5, h6, Bool.and_false, Bool.false_eq_true, if_false] at h
          cases h
          refine ⟨?_, rfl⟩
          unfold SPdr.key at hkey ⊢
          split at hkey <;> simp_all

theorem extract_sdf_none {ue : Bool} {ie : PdrIE} {p p' : SPdr} {s s1 : HS} (h : extractPdr ue ie p s = (s1, .ok p')) (hs : p.info.sdf = none)
    (hi : ie.sdf = none ∨ ie.sdf = some []) : p'.info.sdf = none := by
  obtain ⟨-, -, -, -, -, -, -, h8⟩ := extractPdr_ok h
  rcases hi with hi | hi <;> rw [hi] at h8 <;> exact h8.trans hs

/-- the records have the same ids and keys -/
def SameKeys (x y : Session) : Prop := ∀ j, (y.pdrs.get? j).map SPdr.key = (x.pdrs.get? j).map SPdr.key

theorem own_update {O : PdrKey → Option PdrEntry} {ue : Bool} {ie : PdrIE} {s s' : HS} (h : updatePdr ue ie s = (s', .ok ())) {id : U16}
    (hid : ie.pdrId = some id) {p : SPdr} (hp : s.sess.pdrs.get? (id.zeroExtend 32) = some p) (hk : ie.keepsKey p.key) (hsdf : p.info.sdf = none)
    (hi : ie.sdf = none ∨ ie.sdf = some [])
    (hinj : ∀ i j p q, s.sess.pdrs.get? i = some p → s.sess.pdrs.get? j = some q → p.key = q.key → i = j) (ho : Own O s) :
    Own O s' ∧ SameKeys s.sess s'.sess ∧ (∃ p', s'.sess.pdrs.get? (id.zeroExtend 32) = some p' ∧ p'.info.sdf = none) ∧
      ∀ j, j ≠ id.zeroExtend 32 → s'.sess.pdrs.get? j = s.sess.pdrs.get? j := by
  obtain ⟨id', p', s1, e1, e2, e3, -, e4⟩ := updatePdr_ok h
  rw [hid] at e1; cases e1
  have hg : s.sess.getPdr (id.zeroExtend 32) = p := by simp [Session.getPdr, hp]
  rw [hg] at e2
  obtain ⟨k1, -⟩ := extract_keeps e2 hk
  have k2 := extract_sdf_none e2 hsdf hi
  have hget : ∀ j, s'.sess.pdrs.get? j = if j = id.zeroExtend 32 then some p' else s.sess.pdrs.get? j := by
    intro j; rw [e3]; simp only [Session.putPdr, GoMap.get?_set]
  have hp' : s'.sess.pdrs.get? (id.zeroExtend 32) = some p' := by rw [hget, if_pos rfl]
  refine ⟨⟨?_, ?_⟩, ?_, ⟨p', hp', k2⟩, fun j hj => by rw [hget, if_neg hj]⟩
  · intro j q hq
    rw [hget] at hq
    split at hq
    · cases hq
      rw [e4, if_pos rfl]
      simp [pdrToStore, k2]
    · rename_i hj
      rw [e4, if_neg]
      · exact ho.own j q hq
      · intro hc
        exact hj (hinj _ _ _ _ hq hp (hc.trans k1))
  · intro k hk'
    have : k ≠ p'.key := fun e => hk' _ p' hp' e.symm
    rw [e4, if_neg this]
    refine ho.rest k fun j q hq hqk => ?_
    by_cases hj : j = id.zeroExtend 32
    · subst hj; rw [hp] at hq; cases hq
      exact this (by rw [k1, hqk])
    · exact hk' j q (by rw [hget, if_neg hj]; exact hq) hqk
  · intro j
    rw [hget]
    split
    · rename_i hj; subst hj; rw [hp]; simp [k1]
    · rfl

theorem SameKeys.inj {x y : Session} (h : SameKeys x y) (hinj : ∀ i j p q, x.pdrs.get? i = some p → x.pdrs.get? j = some q → p.key = q.key → i = j) :
    ∀ i j p q, y.pdrs.get? i = some p → y.pdrs.get? j = some q → p.key = q.key → i = j := by
  intro i j p q hp hq hk
  have a1 := h i; have a2 := h j
  rw [hp] at a1; rw [hq] at a2
  obtain ⟨p0, b1, c1⟩ := Option.map_eq_some_iff.1 a1.symm
  obtain ⟨q0, b2, c2⟩ := Option.map_eq_some_iff.1 a2.symm
  exact hinj i j p0 q0 b1 b2 (by rw [c1, c2, hk])

theorem own_updates {O : PdrKey → Option PdrEntry} {ue : Bool} : ∀ (l : List PdrIE) {s s' : HS}, Act.each (updatePdr ue) l s = (s', .ok ()) →
    (∀ ie ∈ l, ∃ i p, ie.pdrId = some i ∧ s.sess.pdrs.get? (i.zeroExtend 32) = some p ∧ ie.keepsKey p.key ∧ p.info.sdf = none ∧
      (ie.sdf = none ∨ ie.sdf = some [])) →
    (∀ i j p q, s.sess.pdrs.get? i = some p → s.sess.pdrs.get? j = some q → p.key = q.key → i = j) → Own O s → Own O s' ∧ SameKeys s.sess s'.sess
  | [], s, s', h, _, _, ho => by cases h; exact ⟨ho, fun _ => rfl⟩
  | ie :: l, s, s', h, hu, hinj, ho => by
    obtain ⟨s1, h1, h2⟩ := each_cons_ok h
    obtain ⟨id, p, u1, u2, u3, u4, u5⟩ := hu ie (by simp)
    obtain ⟨o1, k1, ⟨p1, f1, f2⟩, f3⟩ := own_update h1 u1 u2 u3 u4 u5 hinj ho
    obtain ⟨o2, k2⟩ := own_updates l h2 (by
      intro x hx
      obtain ⟨i, q, v1, v2, v3, v4, v5⟩ := hu x (List.mem_cons_of_mem _ hx)
      by_cases hi : i.zeroExtend 32 = id.zeroExtend 32
      · have := k1 (i.zeroExtend 32)
        rw [v2, hi, f1] at this
        have hk : p1.key = q.key := Option.some.inj this
        exact ⟨i, p1, v1, by rw [hi]; exact f1, by rw [hk]; exact v3, f2, v5⟩
      · exact ⟨i, q, v1, by rw [f3 _ hi]; exact v2, v3, v4, v5⟩) (k1.inj hinj) o1
    exact ⟨o2, fun j => (k2 j).trans (k1 j)⟩

/-! ### the cache -/

theorem extract_cache_same {ue : Bool} {ie : PdrIE} (hc : ∀ c, ie.asksTeid ≠ some (some c)) (p : SPdr) (s : HS) :
    (extractPdr ue ie p s).1.cache = s.cache := by
  unfold extractPdr
  simp only []
  split
  · rfl
  · rename_i pdi hpdi
    split
    · rfl
    · split
      · rfl
      · rename_i f hf
        unfold pdrFteid
        split
        · rename_i hch
          have : ie.asksTeid = some f.chooseId := by
            unfold PdrIE.asksTeid; rw [hpdi]; obtain ⟨a, b, c⟩ := pdi; simp only at hf; rw [hf]; simp [hch]
          have hn : f.chooseId = none := by
            cases hx : f.chooseId with
            | none => rfl
            | some c => exact absurd (by rw [this, hx]) (hc c)
          rw [hn]
          simp only [Option.bind_none]
          split <;> rfl
        · rfl
      · split
        · rfl
        · unfold pdrUeIp
          simp only []
          split <;> rfl
        · rfl

/-- the cache stays -/
def CacheIs (c : GoMap U8 U32) (s : HS) : Prop := s.cache = c

theorem cache_apply (c : GoMap U8 U32) (p : SPdr) : Pres (CacheIs c) (applyPdr p) := by
  apply pres_of; intro s h
  rcases applyPdr_entries p s with ⟨dp, e, -⟩ | e <;> rw [e] <;> exact h
theorem cache_extract {ie : PdrIE} (hc : ∀ c, ie.asksTeid ≠ some (some c)) (c : GoMap U8 U32) (ue : Bool) (p : SPdr) : Pres (CacheIs c) (extractPdr ue ie p) :=
  pres_of fun s h => (extract_cache_same hc p s).trans h
theorem cache_modify (c : GoMap U8 U32) (f : HS → HS) (hf : ∀ s, (f s).cache = s.cache) : Pres (CacheIs c) (Act.modify f) :=
  pres_of fun s h => (hf s).trans h
theorem cache_create {ie : PdrIE} (hc : ∀ c, ie.asksTeid ≠ some (some c)) (c : GoMap U8 U32) (ue : Bool) : Pres (CacheIs c) (createPdr ue ie) := by
  unfold createPdr
  cases ie.pdrId with
  | none => exact Pres.fail
  | some id => exact Pres.bind (cache_extract hc c ue _) fun p => Pres.bind (cache_modify c _ fun _ => rfl) fun _ => Pres.bind (cache_apply c p) fun _ =>
      cache_modify c _ fun _ => rfl
theorem cache_update {ie : PdrIE} (hc : ∀ c, ie.asksTeid ≠ some (some c)) (c : GoMap U8 U32) (ue : Bool) : Pres (CacheIs c) (updatePdr ue ie) := by
  unfold updatePdr
  cases ie.pdrId with
  | none => exact Pres.fail
  | some id =>
    apply pres_of; intro s h
    exact (Pres.bind (cache_extract hc c ue (s.sess.getPdr (id.zeroExtend 32))) fun p =>
      Pres.bind (cache_modify c (fun s => { s with sess := s.sess.putPdr (id.zeroExtend 32) p }) fun _ => rfl) fun _ => cache_apply c p).apply h

/-! ### removals -/

/-- while PDRs are removed: the tables follow, `O` has none of the keys of `x`, and the cache only knows TEIDs of `x` that are gone -/
structure Removing (O : PdrKey → Option PdrEntry) (x : Session) (D : U32 → Prop) (s : HS) : Prop extends Own O s where
  sub : ∀ j q, s.sess.pdrs.get? j = some q → x.pdrs.get? j = some q
  stay : ∀ j q, ¬ D j → x.pdrs.get? j = some q → s.sess.pdrs.get? j = some q
  cache : ∀ b, (s.cache.get? b).isSome → ∃ i p, D i ∧ x.pdrs.get? i = some p ∧ p.key = .ul p.teid ∧ p.teid.truncate 8 = b ∧ s.sess.pdrs.get? i = none

theorem removing_step {O : PdrKey → Option PdrEntry} {x : Session} {D : U32 → Prop} (hinj : ∀ i j p q, x.pdrs.get? i = some p → x.pdrs.get? j = some q → p.key = q.key → i = j)
    (hal : ∀ i j p q, D i → D j → x.pdrs.get? i = some p → x.pdrs.get? j = some q → p.key = .ul p.teid → q.key = .ul q.teid →
      p.teid.truncate 8 = q.teid.truncate 8 → p.teid = q.teid) (ord : Orders) {d : Option U16} (hd : D (BitVec.zeroExtend 32 (d.getD 0)))
    (hO : ∀ p, x.pdrs.get? (BitVec.zeroExtend 32 (d.getD 0)) = some p → O p.key = none) {s s' : HS} (h : removePdr ord d s = (s', .ok ()))
    (hr : Removing O x D s) : Removing O x D s' := by
  cases hq : s.sess.pdrs.get? (BitVec.zeroExtend 32 (d.getD 0)) with
  | none => rw [removePdr_unknown hq] at h; cases h; exact hr
  | some q =>
    rw [removePdr_known hq] at h
    have hxq := hr.sub _ _ hq
    generalize hs1 : ({ s with sess := s.sess.removePdr (BitVec.zeroExtend 32 (d.getD 0)) } : HS) = s1 at h
    have hget : ∀ j, s1.sess.pdrs.get? j = if j = BitVec.zeroExtend 32 (d.getD 0) then none else s.sess.pdrs.get? j := by
      intro j; subst hs1; simp only [Session.removePdr, GoMap.get?_erase]
    have hc1 : s1.cache = s.cache := by subst hs1; rfl
    have hdp1 : s1.dp = s.dp := by subst hs1; rfl
    have hsub : ∀ j y, s1.sess.pdrs.get? j = some y → j ≠ BitVec.zeroExtend 32 (d.getD 0) ∧ s.sess.pdrs.get? j = some y := by
      intro j y hy
      rw [hget] at hy
      split at hy
      · cases hy
      · exact ⟨by assumption, hy⟩
    obtain ⟨rm, e⟩ := deletePdr_dp ord q s1
    rw [h] at e
    simp only at e
    cases deletePdrEntry_cases q s1 with
    | gone dp c hdl _ hdp hc =>
      rw [hdl] at e
      subst e
      refine ⟨⟨?_, ?_⟩, ?_, ?_, ?_⟩
      · intro j y hy
        obtain ⟨hj, hy⟩ := hsub j y hy
        show dp.entry? y.key = _
        rw [hdp, if_neg, hdp1]; exact hr.own j y hy
        intro hk
        exact hj (hinj _ _ _ _ (hr.sub j y hy) hxq hk)
      · intro k hk
        show dp.entry? k = O k
        rw [hdp]
        split
        · rename_i hkq; rw [hkq]; exact (hO q hxq).symm
        · rename_i hkq
          rw [hdp1]
          refine hr.rest k fun j y hy hyk => ?_
          by_cases hj : j = BitVec.zeroExtend 32 (d.getD 0)
          · subst hj; rw [hq] at hy; cases hy; exact hkq hyk.symm
          · exact hk j y (by show s1.sess.pdrs.get? j = _; rw [hget, if_neg hj]; exact hy) hyk
      · intro j y hy; exact hr.sub j y (hsub j y hy).2
      · intro j y hj hy
        show s1.sess.pdrs.get? j = _
        rw [hget, if_neg (by rintro rfl; exact hj hd)]; exact hr.stay j y hj hy
      · intro b hb
        have hb : (c.get? b).isSome := hb
        have old : (s.cache.get? b).isSome → ∃ i p, D i ∧ x.pdrs.get? i = some p ∧ p.key = .ul p.teid ∧ p.teid.truncate 8 = b ∧ s1.sess.pdrs.get? i = none := by
          intro hb
          obtain ⟨i, p, a0, a1, a2, a3, a4⟩ := hr.cache b hb
          refine ⟨i, p, a0, a1, a2, a3, ?_⟩
          rw [hget]; split
          · rfl
          · exact a4
        rcases hc with ⟨rfl, _⟩ | ⟨hk, rfl, _⟩
        · exact old (by rw [← hc1]; exact hb)
        · rw [GoMap.get?_set] at hb
          split at hb
          · rename_i hbb
            exact ⟨_, q, hd, hxq, hk, hbb.symm, by show s1.sess.pdrs.get? _ = none; rw [hget, if_pos rfl]⟩
          · exact old (by rw [← hc1]; exact hb)
    | absent hdl hnone =>
      exfalso
      rw [hdp1, hr.own _ q hq] at hnone; cases hnone
    | skipped hdl hk hcs =>
      exfalso
      rw [hc1] at hcs
      obtain ⟨i, p, a0, a1, a2, a3, a4⟩ := hr.cache _ hcs
      have := hal _ _ _ _ a0 hd a1 hxq a2 hk a3
      rw [this] at a2
      have hii := hinj _ _ _ _ a1 hxq (by rw [a2, hk])
      rw [hii, hq] at a4; cases a4

end Eupf
