import Verif.Spec.Installed
import Verif.PdrLemmas
/-
C18 (an accepted PDR is installed), C19, C20 (SDF and default PDRs), C56-C58.
-/
namespace Eupf
open Act

theorem zext_inj {a b : U16} (h : a.zeroExtend 32 = b.zeroExtend 32) : a = b := by
  have := congrArg BitVec.toNat h
  simp only [BitVec.truncate_eq_setWidth, BitVec.toNat_setWidth] at this
  have := a.isLt; have := b.isLt
  apply BitVec.eq_of_toNat_eq; omega

/-- common part of a successful Create PDR and Update PDR -/
def PutsPdr (f : PdrIE → Act HS Unit) : Prop := ∀ ie s s', f ie s = (s', .ok ()) → ∃ id p, ie.pdrId = some id ∧
  s'.sess = s.sess.putPdr (id.zeroExtend 32) p ∧
  ∀ k, s'.dp.entry? k = if k = p.key then some (pdrToStore (s.dp.entry? p.key) p.info) else s.dp.entry? k

theorem createPdr_puts (ue : Bool) : PutsPdr (createPdr ue) := by
  intro ie s s' h
  obtain ⟨id, p, s1, h1, h2, h3, -, -, -, h5⟩ := createPdr_ok h
  exact ⟨id, p, h1, h3, h5⟩
theorem updatePdr_puts (ue : Bool) : PutsPdr (updatePdr ue) := by
  intro ie s s' h
  obtain ⟨id, p, s1, h1, h2, h3, -, h5⟩ := updatePdr_ok h
  exact ⟨id, p, h1, h3, h5⟩

theorem puts_later {f : PdrIE → Act HS Unit} (hf : PutsPdr f) : ∀ (l : List PdrIE) (s s' : HS), Act.each f l s = (s', .ok ()) →
    (l.map (·.pdrId)).Nodup →
    (∀ k, (∀ x ∈ l, ∀ j p', x.pdrId = some j → s'.sess.pdrs.get? (j.zeroExtend 32) = some p' → p'.key ≠ k) →
      s'.dp.entry? k = s.dp.entry? k) ∧
    (∀ id : U16, (∀ x ∈ l, x.pdrId ≠ some id) → s'.sess.pdrs.get? (id.zeroExtend 32) = s.sess.pdrs.get? (id.zeroExtend 32)) ∧
    s'.sess.fars = s.sess.fars ∧ s'.sess.qers = s.sess.qers
  | [], s, s', h, _ => by cases h; exact ⟨fun _ _ => rfl, fun _ _ => rfl, rfl, rfl⟩
  | x :: l, s, s', h, hnd => by
    simp only [List.map_cons, List.nodup_cons] at hnd
    obtain ⟨s1, h1, h2⟩ := each_cons_ok h
    obtain ⟨id, p, hid, hsess, hent⟩ := hf x s s1 h1
    obtain ⟨i1, i2, i3, i4⟩ := puts_later hf l s1 s' h2 hnd.2
    have hrec : s1.sess.pdrs.get? (id.zeroExtend 32) = some p := by
      rw [hsess]; exact (GoMap.get?_set ..).trans (if_pos rfl)
    have hfin : s'.sess.pdrs.get? (id.zeroExtend 32) = some p := by
      rw [i2 id ?_, hrec]
      intro y hy he
      exact hnd.1 (List.mem_map.2 ⟨y, hy, he.trans hid.symm⟩)
    refine ⟨?_, ?_, ?_, ?_⟩
    · intro k hk
      rw [i1 k (fun y hy => hk y (by simp [hy])), hent k, if_neg]
      intro hc
      exact hk x (by simp) id p hid hfin hc.symm
    · intro id' hid'
      rw [i2 id' (fun y hy => hid' y (by simp [hy])), hsess]
      refine (GoMap.get?_set ..).trans (if_neg ?_)
      intro hc
      have := zext_inj hc
      subst this
      exact hid' x (by simp) hid
    · rw [i3, hsess]; rfl
    · rw [i4, hsess]; rfl

theorem inEffect_of {dp : BpfObjects} {p : SPdr} {cur : Option PdrEntry} (h : dp.entry? p.key = some (pdrToStore cur p.info)) :
    InEffect dp p := by
  intro m hm
  rw [h, classify_store]
  cases hs : p.info.sdf with
  | none => rfl
  | some f => simp [hm f hs]

/-- the match key after `extractPdr` when nothing is left to choose -/
theorem extractPdr_key {ue : Bool} {ie : PdrIE} {p p' : SPdr} {s s' : HS} (h : extractPdr ue ie p s = (s', .ok p')) :
    (∀ pdi f, ie.pdi = some pdi → pdi.fteid = some (some f) → f.ch = false → p'.teid = f.teid ∧ p'.ipv4 = p.ipv4 ∧ p'.ipv6 = p.ipv6 ∧
      s'.rm = s.rm ∧ s'.cache = s.cache) ∧
    (∀ pdi u ip, ie.pdi = some pdi → pdi.fteid = none → pdi.ueip = some (some u) → u.chv4 = false → u.ipv4 = some ip →
      p'.ipv4 = some ip ∧ s'.rm = s.rm ∧ s'.cache = s.cache) ∧
    (∀ pdi u ip, ie.pdi = some pdi → pdi.fteid = none → pdi.ueip = some (some u) → u.chv4 = false → u.ipv4 = none → u.ipv6 = some ip →
      p'.ipv4 = p.ipv4 ∧ p'.ipv6 = some ip ∧ s'.rm = s.rm ∧ s'.cache = s.cache) ∧
    (∀ pdi, ie.pdi = some pdi → pdi.fteid = none → pdi.ueip = none → p'.teid = p.teid ∧ p'.ipv4 = p.ipv4 ∧ p'.ipv6 = p.ipv6) := by
  unfold extractPdr at h
  simp only [] at h
  refine ⟨?_, ?_, ?_, ?_⟩
  · intro pdi f h1 h2 h3
    rw [h1] at h
    simp only [h2] at h
    split at h
    · cases h
    · unfold pdrFteid at h
      rw [h3] at h
      cases h; exact ⟨rfl, rfl, rfl, rfl, rfl⟩
  · intro pdi u ip h1 h2 h3 h4 h5
    rw [h1] at h
    simp only [h2, h3] at h
    split at h
    · cases h
    · unfold pdrUeIp at h
      simp only [h4, Bool.and_false, h5] at h
      cases h; exact ⟨rfl, rfl, rfl⟩
  · intro pdi u ip h1 h2 h3 h4 h5 h6
    rw [h1] at h
    simp only [h2, h3] at h
    split at h
    · cases h
    · unfold pdrUeIp at h
      simp only [h4, Bool.and_false, h5, h6] at h
      cases h; exact ⟨rfl, rfl, rfl, rfl⟩
  · intro pdi h1 h2 h3
    rw [h1] at h
    simp only [h2, h3] at h
    split at h
    · cases h
    · cases h; exact ⟨rfl, rfl, rfl⟩

theorem given_of {ue : Bool} {ie : PdrIE} {id : U32} {p : SPdr} {s s1 : HS} (h : extractPdr ue ie { pdrId := id } s = (s1, .ok p))
    (sess : Session) (hf : sess.fars = s.sess.fars) (hq : sess.qers = s.sess.qers) : PdrGiven ie sess p := by
  obtain ⟨-, -, -, -, h1, h2, h3, h4⟩ := extractPdr_ok h
  obtain ⟨k1, k2, k3, -⟩ := extractPdr_key h
  refine ⟨h1, ?_, ?_, ?_, ?_, ?_, ?_, ?_⟩
  · intro i f hi hff
    rw [h2, hi]
    rw [hf] at hff
    simp [Session.getFar, hff]
  · intro i f hi hff
    rw [h3, hi]
    rw [hq] at hff
    simp [Session.getQer, hff]
  · rintro (hn | hn) <;> rw [hn] at h4 <;> exact h4
  · intro c cs hc; rw [hc] at h4; exact h4
  · intro pdi f a b c
    obtain ⟨x, y, z, -⟩ := k1 pdi f a b c
    simp [SPdr.key, x, y, z]
  · intro pdi u ip a b c d e
    simp [SPdr.key, (k2 pdi u ip a b c d e).1]
  · intro pdi u ip a b c d e g
    obtain ⟨x, y, -⟩ := k3 pdi u ip a b c d e g
    simp [SPdr.key, x, y]

theorem updated_of {ue : Bool} {ie : PdrIE} {old p : SPdr} {s s1 : HS} (h : extractPdr ue ie old s = (s1, .ok p))
    (sess : Session) (hf : sess.fars = s.sess.fars) (hq : sess.qers = s.sess.qers) : PdrUpdated ie sess old p := by
  obtain ⟨-, -, -, -, h1, h2, h3, h4⟩ := extractPdr_ok h
  obtain ⟨k1, k2, -, k4⟩ := extractPdr_key h
  refine ⟨h1, ?_, ?_, ?_, ?_, ?_, ?_, ?_, ?_, ?_⟩
  · intro i f hi hff
    rw [h2, hi]
    rw [hf] at hff
    simp [Session.getFar, hff]
  · intro hi; rw [h2, hi]
  · intro i f hi hff
    rw [h3, hi]
    rw [hq] at hff
    simp [Session.getQer, hff]
  · intro hi; rw [h3, hi]
  · rintro (hn | hn) <;> rw [hn] at h4 <;> exact h4
  · intro c cs hc; rw [hc] at h4; exact h4
  · intro pdi f a b c d
    obtain ⟨x, y, z, -⟩ := k1 pdi f a b c
    unfold SPdr.key at d ⊢
    rw [x, y, z]
    cases h4 : old.ipv4 with
    | some _ => rw [h4] at d; cases d
    | none => cases h6 : old.ipv6 with
      | some _ => rw [h4, h6] at d; cases d
      | none => rfl
  · intro pdi u ip a b c d e
    simp [SPdr.key, (k2 pdi u ip a b c d e).1]
  · intro pdi a b c
    obtain ⟨x, y, z⟩ := k4 pdi a b c
    simp [SPdr.key, x, y, z]

/-- `establish` was accepted: the body ran through. -/
theorem establish_accepted {n : Node} {addr : Addr} {r : EstReq} {n' : Node} {resp : Resp}
    (hstep : n.step (.establish addr r) = (n', .reply resp)) (hacc : resp.cause = 1) :
    ∃ seid remote hs', resp.fseid = some seid ∧ r.cpFseid = some (some remote) ∧
      establishBody n.ueip r (n.hs (Session.new seid remote)) = (hs', .ok ()) ∧
      n'.session? addr seid = some hs'.sess ∧ n'.dp = hs'.dp ∧ n'.rm = hs'.rm ∧
      resp.created = createdIEs n.cfg.n3 hs'.created := by
  have hstep' : n.establish addr r = (n', .reply resp) := hstep
  cases establish_cases n addr r with
  | refused c hcc he =>
    rw [hstep'] at he
    have := congrArg Prod.snd he
    cases this
    rcases hcc with h | h <;> subst h <;> simp at hacc
  | ran remote a hs res hid hcp ha hbody hl hrem he =>
    rw [hstep'] at he
    have hres : res = .ok () := by
      have hsnd := congrArg Prod.snd he
      cases res with
      | ok _ => rfl
      | err => simp only [Node.estResult] at hsnd; cases hsnd; simp [causeRuleFailure] at hacc
      | panic => simp [Node.estResult] at hsnd
    subst hres
    simp only [Node.estResult] at he
    cases he
    exact ⟨_, remote, hs, rfl, hcp, hbody, by simp [Node.session?, Assoc.bumped], rfl, rfl, rfl⟩

/-- **C18, establishment.** Every Create PDR of an accepted establishment (PDR ids are not repeated) is recorded in the
new session with the outer header removal, FAR, QER and filter it gives, and is in effect in the forwarding plane
unless a later Create PDR of the same request has the same TEID or UE address. -/
theorem C18_establish {n : Node} {addr : Addr} {r : EstReq} {n' : Node} {resp : Resp}
    (hstep : n.step (.establish addr r) = (n', .reply resp)) (hacc : resp.cause = 1)
    (hnd : (r.createPdr.map (·.pdrId)).Nodup) {l1 l2 : List PdrIE} {ie : PdrIE} (hr : r.createPdr = l1 ++ ie :: l2) :
    ∃ id seid sess p, ie.pdrId = some id ∧ resp.fseid = some seid ∧ n'.session? addr seid = some sess ∧
      sess.pdrs.get? (id.zeroExtend 32) = some p ∧ PdrGiven ie sess p ∧
      ((∀ x ∈ l2, ∀ j p', x.pdrId = some j → sess.pdrs.get? (j.zeroExtend 32) = some p' → p'.key ≠ p.key) → InEffect n'.dp p) := by
  obtain ⟨seid, remote, hs', h1, h2, hb, h3, h4, -, -⟩ := establish_accepted hstep hacc
  unfold establishBody at hb
  obtain ⟨_, s0, e0, hb⟩ := bind_ok hb
  obtain rfl := display_ok e0
  obtain ⟨_, s1, e1, hb⟩ := bind_ok hb
  obtain ⟨_, s2, e2, hb⟩ := bind_ok hb
  obtain ⟨_, s3, e3, e4⟩ := bind_ok hb
  rw [hr] at e4 hnd
  obtain ⟨t1, f1, f2⟩ := each_append_ok l1 e4
  obtain ⟨t2, f3, f4⟩ := each_cons_ok f2
  obtain ⟨id, p, u, hid, hx, hsess, -, -, -, hent⟩ := createPdr_ok f3
  simp only [List.map_append, List.map_cons] at hnd
  have hnd2 := (List.nodup_append.1 hnd).2.1
  rw [List.nodup_cons] at hnd2
  obtain ⟨i1, i2, i3, i4⟩ := puts_later (createPdr_puts _) l2 t2 hs' f4 hnd2.2
  have hrec : hs'.sess.pdrs.get? (id.zeroExtend 32) = some p := by
    rw [i2 id ?_, hsess]
    · exact (GoMap.get?_set ..).trans (if_pos rfl)
    · intro y hy he
      exact hnd2.1 (List.mem_map.2 ⟨y, hy, he.trans hid.symm⟩)
  refine ⟨id, seid, hs'.sess, p, hid, h1, h3, hrec, given_of hx _ ?_ ?_, ?_⟩
  · rw [i3, hsess]; rfl
  · rw [i4, hsess]; rfl
  · intro hl
    rw [h4]
    apply inEffect_of (cur := t1.dp.entry? p.key)
    rw [i1 p.key hl, hent, if_pos rfl]

/-- **C18, Create PDR in a modification** (that neither updates nor removes PDRs). -/
theorem C18_create {n : Node} {addr : Addr} {r : ModReq} {ord : Orders} {sess0 : Session} {n' : Node} {resp : Resp}
    (hs : n.session? addr r.seid = some sess0) (hstep : n.step (.modify addr r ord) = (n', .reply resp)) (hacc : resp.cause = 1)
    (hup : r.updatePdr = []) (hrm : r.removePdr = [])
    (hnd : (r.createPdr.map (·.pdrId)).Nodup) {l1 l2 : List PdrIE} {ie : PdrIE} (hr : r.createPdr = l1 ++ ie :: l2) :
    ∃ id sess p, ie.pdrId = some id ∧ n'.session? addr r.seid = some sess ∧
      sess.pdrs.get? (id.zeroExtend 32) = some p ∧ PdrGiven ie sess p ∧
      ((∀ x ∈ l2, ∀ j p', x.pdrId = some j → sess.pdrs.get? (j.zeroExtend 32) = some p' → p'.key ≠ p.key) → InEffect n'.dp p) := by
  obtain ⟨hs', hb, h3, h4, -, -, -⟩ := modify_accepted hs hstep hacc
  obtain ⟨s1, s2, s3, s4, s5, s6, s7, s8, s9, s10, s11, e1, e2, e3, e4, e5, e6, e7, e8, e9, e10, e11, e12⟩ := modify_phases hb
  rw [hup] at e11
  rw [hrm] at e12
  have q1 : s10 = s11 := congrArg Prod.fst e11
  have q2 : s11 = hs' := congrArg Prod.fst e12
  rw [q1, q2, hr] at e10
  rw [hr] at hnd
  obtain ⟨t1, f1, f2⟩ := each_append_ok l1 e10
  obtain ⟨t2, f3, f4⟩ := each_cons_ok f2
  obtain ⟨id, p, u, hid, hx, hsess, -, -, -, hent⟩ := createPdr_ok f3
  simp only [List.map_append, List.map_cons] at hnd
  have hnd2 := (List.nodup_append.1 hnd).2.1
  rw [List.nodup_cons] at hnd2
  obtain ⟨i1, i2, i3, i4⟩ := puts_later (createPdr_puts _) l2 t2 hs' f4 hnd2.2
  have hrec : hs'.sess.pdrs.get? (id.zeroExtend 32) = some p := by
    rw [i2 id ?_, hsess]
    · exact (GoMap.get?_set ..).trans (if_pos rfl)
    · intro y hy he
      exact hnd2.1 (List.mem_map.2 ⟨y, hy, he.trans hid.symm⟩)
  refine ⟨id, hs'.sess, p, hid, h3, hrec, given_of hx _ ?_ ?_, ?_⟩
  · rw [i3, hsess]; rfl
  · rw [i4, hsess]; rfl
  · intro hl
    rw [h4]
    apply inEffect_of (cur := t1.dp.entry? p.key)
    rw [i1 p.key hl, hent, if_pos rfl]

/-- **C18, Update PDR.** A PDR `old` of the session is updated by an accepted modification that does not create or
remove it. -/
theorem C18_update {n : Node} {addr : Addr} {r : ModReq} {ord : Orders} {sess0 : Session} {n' : Node} {resp : Resp}
    (hs : n.session? addr r.seid = some sess0) (hstep : n.step (.modify addr r ord) = (n', .reply resp)) (hacc : resp.cause = 1)
    (hrm : r.removePdr = []) (hcnd : (r.createPdr.map (·.pdrId)).Nodup)
    (hnd : (r.updatePdr.map (·.pdrId)).Nodup) {l1 l2 : List PdrIE} {ie : PdrIE} (hr : r.updatePdr = l1 ++ ie :: l2)
    {id : U16} (hid : ie.pdrId = some id) (hnc : ∀ x ∈ r.createPdr, x.pdrId ≠ some id)
    {old : SPdr} (hold : sess0.pdrs.get? (id.zeroExtend 32) = some old) :
    ∃ sess p, n'.session? addr r.seid = some sess ∧
      sess.pdrs.get? (id.zeroExtend 32) = some p ∧ PdrUpdated ie sess old p ∧
      ((∀ x ∈ l2, ∀ j p', x.pdrId = some j → sess.pdrs.get? (j.zeroExtend 32) = some p' → p'.key ≠ p.key) → InEffect n'.dp p) := by
  obtain ⟨hs', hb, h3, h4, -, -, -⟩ := modify_accepted hs hstep hacc
  obtain ⟨s1, s2, s3, s4, s5, s6, s7, s8, s9, s10, s11, e1, e2, e3, e4, e5, e6, e7, e8, e9, e10, e11, e12⟩ := modify_phases hb
  rw [hrm] at e12
  have q2 : s11 = hs' := congrArg Prod.fst e12
  rw [q2, hr] at e11
  rw [hr] at hnd
  -- the record before the PDR phases
  have pdrsKept : s9.sess.pdrs = sess0.pdrs := by
    have I : ∀ {α : Type} {f : α → Act HS Unit} {l : List α} {s s' : HS}, (∀ x ∈ l, Pres (fun t : HS => t.sess.pdrs = sess0.pdrs) (f x)) →
        Act.each f l s = (s', .ok ()) → s.sess.pdrs = sess0.pdrs → s'.sess.pdrs = sess0.pdrs :=
      fun h e hs => pres_each_ok (I := fun t : HS => t.sess.pdrs = sess0.pdrs) h e hs
    refine I ?_ e9 (I ?_ e8 (I ?_ e7 (I ?_ e6 (I ?_ e5 (I ?_ e4 (I ?_ e3 (I ?_ e2 (I ?_ e1 ?_))))))))
    · intro x _; apply pres_of; intro s h; unfold removeUrr; split
      · exact h
      · rename_i j _
        simp only []
        rcases s.dp.deleteUrr (s.sess.getUrr j).gid with ⟨dp, b⟩
        cases b <;> exact h
    · intro x _; apply pres_of; intro s h; unfold updateUrr; split
      · exact h
      · simp only []; split <;> exact h
    · intro x _; apply pres_of; intro s h; unfold createUrr; split
      · exact h
      · rcases s.dp.newUrr {} with ⟨dp, g⟩
        cases g <;> exact h
    · intro x _; apply pres_of; intro s h; unfold removeQer; split
      · exact h
      · rename_i j _
        simp only []
        rcases s.dp.deleteQer (s.sess.getQer j).gid with ⟨dp, b⟩
        cases b <;> exact h
    · intro x _; apply pres_of; intro s h; unfold updateQer; split
      · exact h
      · simp only []; split <;> exact h
    · intro x _; apply pres_of; intro s h; unfold createQer; split
      · exact h
      · simp only []
        rcases s.dp.newQer (mergeQer {} x) with ⟨dp, g⟩
        cases g <;> exact h
    · intro x _; apply pres_of; intro s h; unfold removeFar; simp only []
      rcases s.dp.deleteFar (s.sess.getFar (x.getD 0)).gid with ⟨dp, b⟩
      cases b <;> exact h
    · intro x _; apply pres_of; intro s h; unfold updateFar; split
      · exact h
      · split
        · simp only []; split <;> exact h
        · exact h
        · exact h
    · intro x _; apply pres_of; intro s h; unfold createFar; split
      · rename_i y _
        rcases s.dp.newFar y with ⟨dp, g⟩
        cases g <;> exact h
      · exact h
      · exact h
    · exact (setRemote_rules sess0 _).2.2.2
  obtain ⟨c1, c2, c3, c4⟩ := puts_later (createPdr_puts _) _ _ _ e10 hcnd
  simp only [List.map_append, List.map_cons] at hnd
  have hnd1 := (List.nodup_append.1 hnd).1
  have hnd2 := (List.nodup_append.1 hnd).2.1
  have hnd3 := (List.nodup_append.1 hnd).2.2
  rw [List.nodup_cons] at hnd2
  obtain ⟨t1, f1, f2⟩ := each_append_ok l1 e11
  obtain ⟨d1, d2, d3, d4⟩ := puts_later (updatePdr_puts _) _ _ _ f1 hnd1
  obtain ⟨t2, f3, f4⟩ := each_cons_ok f2
  obtain ⟨id', p, u, hid', hx, hsess, -, hent⟩ := updatePdr_ok f3
  have : id' = id := by rw [hid] at hid'; exact (Option.some.inj hid').symm
  subst this
  have hg : t1.sess.getPdr (id'.zeroExtend 32) = old := by
    have h1 : t1.sess.pdrs.get? (id'.zeroExtend 32) = some old := by
      rw [d2 id' (fun x hx he => hnd3 (some id') (List.mem_map.2 ⟨x, hx, he⟩) (some id') (by simp [hid]) rfl),
        c2 id' hnc, pdrsKept, hold]
    unfold Session.getPdr; rw [h1]; rfl
  rw [hg] at hx
  obtain ⟨i1, i2, i3, i4⟩ := puts_later (updatePdr_puts _) l2 t2 hs' f4 hnd2.2
  have hrec : hs'.sess.pdrs.get? (id'.zeroExtend 32) = some p := by
    rw [i2 id' ?_, hsess]
    · exact (GoMap.get?_set ..).trans (if_pos rfl)
    · intro y hy he
      exact hnd2.1 (List.mem_map.2 ⟨y, hy, he.trans hid.symm⟩)
  refine ⟨hs'.sess, p, h3, hrec, updated_of hx _ ?_ ?_, ?_⟩
  · rw [i3, hsess]; rfl
  · rw [i4, hsess]; rfl
  · intro hl
    rw [h4]
    apply inEffect_of (cur := t1.dp.entry? p.key)
    rw [i1 p.key hl, hent, if_pos rfl]

/-- Non-vacuity of C18: the demo session (1,3) was accepted, its uplink PDR 1 names FAR 1 and QER 1 of the session. -/
example : ∃ p f q, Demo.s13.pdrs.get? 1 = some p ∧ Demo.s13.fars.get? 1 = some f ∧ Demo.s13.qers.get? 1 = some q ∧
    p.info.rule = ⟨0, f.gid, q.gid⟩ ∧ p.key = .ul 2 ∧ classify (Demo.nEnd.dp.entry? (.ul 2)) (fun _ => false) = some p.info.rule := by
  refine ⟨(Demo.s13.pdrs.get? 1).get (by decide +kernel), (Demo.s13.fars.get? 1).get (by decide +kernel),
    (Demo.s13.qers.get? 1).get (by decide +kernel), by simp, by simp, by simp, by decide +kernel, by decide +kernel, by decide +kernel⟩

/-! ### SDF and default PDRs on the same key -/

/-- **C19 (default first).** Installing a PDR with a filter over an entry without filter: matching packets get the new
PDR's rule, all other packets keep the rule they had. (For the uplink table; the same holds for the two downlink
tables.) -/
theorem C19_default_first_partial {b b' : BpfObjects} {p : PdrInfo} {f : SdfFilter} (hf : p.sdf = some f) {d : PdrEntry}
    (hd : d.sdfMode = 0) (m : KFilter → Bool) :
    (∀ t, b.entry? (.ul t) = some d → b.putPdrUplink t p = some b' →
      classify (b'.entry? (.ul t)) m = if m (toKFilter f) then some p.rule else classify (b.entry? (.ul t)) m) ∧
    (∀ ip, b.entry? (.dl4 ip) = some d → b.putPdrDownlink ip p = some b' →
      classify (b'.entry? (.dl4 ip)) m = if m (toKFilter f) then some p.rule else classify (b.entry? (.dl4 ip)) m) ∧
    (∀ ip, b.entry? (.dl6 ip) = some d → b.putDownlinkPdrIp6 ip p = some b' →
      classify (b'.entry? (.dl6 ip)) m = if m (toKFilter f) then some p.rule else classify (b.entry? (.dl6 ip)) m) := by
  have hcl : classify (some d) m = some ⟨d.ohr, d.farId, d.qerId⟩ := by simp [classify, hd]
  refine ⟨?_, ?_, ?_⟩
  · intro t h hp
    obtain ⟨x, hx, rfl⟩ := Option.map_eq_some_iff.1 hp
    have := hmap_put hx t
    rw [if_pos rfl] at this
    simp only [BpfObjects.entry?] at h ⊢
    rw [this, classify_store, hf, h, hcl]; rfl
  · intro t h hp
    obtain ⟨x, hx, rfl⟩ := Option.map_eq_some_iff.1 hp
    have := hmap_put hx t
    rw [if_pos rfl] at this
    simp only [BpfObjects.entry?] at h ⊢
    rw [this, classify_store, hf, h, hcl]; rfl
  · intro t h hp
    obtain ⟨x, hx, rfl⟩ := Option.map_eq_some_iff.1 hp
    have := hmap_put hx t
    rw [if_pos rfl] at this
    simp only [BpfObjects.entry?] at h ⊢
    rw [this, classify_store, hf, h, hcl]; rfl

/-- two PDRs of one session for TEID 5: a default one with FAR 1 and one with a filter with FAR 2 -/
def Demo.sdfPdr : PdrIE :=
  { pdrId := some 1, farId := some 2, pdi := some { fteid := some (some ⟨5, false, none⟩) }, sdf := some "permit out udp from any to assigned".toList }
def Demo.dfltPdr : PdrIE :=
  { pdrId := some 2, farId := some 1, pdi := some { fteid := some (some ⟨5, false, none⟩) } }
def Demo.estSdf (pdrs : List PdrIE) : EstReq :=
  { seq := 5, nodeId := some (some ()), cpFseid := some (some 100),
    createFar := [{ kind := .create, farId := some 1, applyAction := some [2] }, { kind := .create, farId := some 2, applyAction := some [1] }],
    createPdr := pdrs }
def Demo.nAssoc : Node := (Demo.n0.run [.assocSetup 1 1 (some (some ())) (some (some ()))]).1

/-- **C19, negation.** Both orders are accepted, but with the default PDR first a matching packet gets FAR slot 1 (the
filter's), with the default PDR last FAR slot 0. -/
theorem C19_order_matters :
    let a := Demo.nAssoc.step (.establish 1 (Demo.estSdf [Demo.dfltPdr, Demo.sdfPdr]))
    let b := Demo.nAssoc.step (.establish 1 (Demo.estSdf [Demo.sdfPdr, Demo.dfltPdr]))
    (∃ resp, a.2 = .reply resp ∧ resp.cause = 1) ∧ (∃ resp, b.2 = .reply resp ∧ resp.cause = 1) ∧
    classify (a.1.dp.entry? (.ul 5)) (fun _ => true) = some ⟨0, 1, 0⟩ ∧
    classify (b.1.dp.entry? (.ul 5)) (fun _ => true) = some ⟨0, 0, 0⟩ := by
  refine ⟨⟨{ type := .establishment, seid := 100, seq := 5, cause := 1, fseid := some 2 }, by decide +kernel, rfl⟩,
    ⟨{ type := .establishment, seid := 100, seq := 5, cause := 1, fseid := some 2 }, by decide +kernel, rfl⟩, by decide +kernel, by decide +kernel⟩

/-- **C20, negation.** Whatever the PDR and filter: after the PDR was installed on a key without default PDR, a packet not
matching the filter is not classified; after installing the same PDR once more (any Update PDR), the same packet is
classified to FAR slot 0 and QER slot 0, whoever owns them. -/
theorem C20_misclassified (b b1 b2 : BpfObjects) (p : PdrInfo) (f : SdfFilter) (hf : p.sdf = some f) (t : U32)
    (h0 : b.entry? (.ul t) = none) (h1 : b.putPdrUplink t p = some b1) (h2 : b1.putPdrUplink t p = some b2)
    (m : KFilter → Bool) (hm : m (toKFilter f) = false) :
    classify (b1.entry? (.ul t)) m = none ∧ classify (b2.entry? (.ul t)) m = some ⟨0, 0, 0⟩ := by
  obtain ⟨x, hx, rfl⟩ := Option.map_eq_some_iff.1 h1
  obtain ⟨y, hy, rfl⟩ := Option.map_eq_some_iff.1 h2
  have e1 := hmap_put hx t
  have e2 := hmap_put hy t
  rw [if_pos rfl] at e1 e2
  simp only [BpfObjects.entry?] at h0 e1 e2 ⊢
  rw [h0] at e1
  refine ⟨by rw [e1, classify_store, hf]; simp [hm], ?_⟩
  rw [e2, classify_store, hf, e1]
  simp [hm, pdrToStore, hf, combineWithSdf]

/-- The hypotheses of `C20_misclassified` are met: a session gets an SDF PDR on TEID 5, which is then updated. -/
example : let a := (Demo.nAssoc.step (.establish 1 (Demo.estSdf [Demo.sdfPdr]))).1
    let b := a.step (.modify 1 { seid := 2, seq := 6, updatePdr := [Demo.sdfPdr] } default)
    b.2 = .reply { type := .modification, seid := 100, seq := 6, cause := 1 } ∧
    classify (a.dp.entry? (.ul 5)) (fun _ => false) = none ∧ classify (b.1.dp.entry? (.ul 5)) (fun _ => false) = some ⟨0, 0, 0⟩ := by
  decide +kernel

/-- **C20, positive part.** With a default PDR installed under the key, re-installing an SDF PDR keeps the classification of
every packet. -/
theorem C20_with_default_partial (b b1 b2 : BpfObjects) (p : PdrInfo) (f : SdfFilter) (hf : p.sdf = some f) (t : U32) {d : PdrEntry}
    (h0 : b.entry? (.ul t) = some d) (h1 : b.putPdrUplink t p = some b1) (h2 : b1.putPdrUplink t p = some b2)
    (m : KFilter → Bool) : classify (b2.entry? (.ul t)) m = classify (b1.entry? (.ul t)) m := by
  obtain ⟨x, hx, rfl⟩ := Option.map_eq_some_iff.1 h1
  obtain ⟨y, hy, rfl⟩ := Option.map_eq_some_iff.1 h2
  have e1 := hmap_put hx t
  have e2 := hmap_put hy t
  rw [if_pos rfl] at e1 e2
  simp only [BpfObjects.entry?] at h0 e1 e2 ⊢
  rw [h0] at e1
  rw [e2, e1, classify_store, classify_store, hf]
  simp [pdrToStore, hf, combineWithSdf]

/-! ### more negations -/

/-- **C56, negation.** An Update PDR gives PDR 2 of a session TEID 6 instead of 5 and is accepted; packets with TEID 5 still
get its rule. -/
theorem C56_stale_teid : let a := (Demo.nAssoc.step (.establish 1 (Demo.estSdf [Demo.dfltPdr]))).1
    let b := a.step (.modify 1 { seid := 2, seq := 6, updatePdr := [{ Demo.dfltPdr with pdi := some { fteid := some (some ⟨6, false, none⟩) } }] } default)
    b.2 = .reply { type := .modification, seid := 100, seq := 6, cause := 1 } ∧
    ((b.1.session? 1 2).bind (fun s => s.pdrs.get? 2)).map (·.teid) = some 6 ∧
    classify (b.1.dp.entry? (.ul 5)) (fun _ => false) = some ⟨0, 0, 0⟩ ∧
    classify (b.1.dp.entry? (.ul 6)) (fun _ => false) = some ⟨0, 0, 0⟩ := by decide +kernel

/-- **C56, general.** No update removes a key: after an accepted modification that removes no PDR, every key that was in the
tables still is. -/
theorem C56_keys_kept {n : Node} {addr : Addr} {r : ModReq} {ord : Orders} {sess0 : Session} {n' : Node} {resp : Resp}
    (hs : n.session? addr r.seid = some sess0) (hstep : n.step (.modify addr r ord) = (n', .reply resp)) (hacc : resp.cause = 1)
    (hrm : r.removePdr = []) (k : PdrKey) (hk : (n.dp.entry? k).isSome) : (n'.dp.entry? k).isSome := by
  obtain ⟨hs', hb, h3, h4, -, -, -⟩ := modify_accepted hs hstep hacc
  rw [h4]
  obtain ⟨s1, s2, s3, s4, s5, s6, s7, s8, s9, s10, s11, e1, e2, e3, e4, e5, e6, e7, e8, e9, e10, e11, e12⟩ := modify_phases hb
  rw [hrm] at e12
  have q2 : s11 = hs' := congrArg Prod.fst e12
  rw [q2] at e11
  let I : HS → Prop := fun t => (t.dp.entry? k).isSome
  have step : ∀ {s s' : HS}, s'.dp.pdrUl = s.dp.pdrUl → s'.dp.pdrDl4 = s.dp.pdrDl4 → s'.dp.pdrDl6 = s.dp.pdrDl6 → I s → I s' := by
    intro s s' a b c h
    show (s'.dp.entry? k).isSome
    rw [entry_pdr a b c]; exact h
  have puts : ∀ {f : PdrIE → Act HS Unit}, PutsPdr f → ∀ (l : List PdrIE) (s s' : HS), Act.each f l s = (s', .ok ()) → I s → I s' := by
    intro f hf l
    induction l with
    | nil => intro s s' h hI; cases h; exact hI
    | cons x l ih =>
      intro s s' h hI
      obtain ⟨t, g1, g2⟩ := each_cons_ok h
      obtain ⟨id, p, -, -, hent⟩ := hf x s t g1
      refine ih t s' g2 ?_
      show (t.dp.entry? k).isSome
      rw [hent k]; split
      · rfl
      · exact hI
  refine puts (updatePdr_puts _) _ _ _ e11 (puts (createPdr_puts _) _ _ _ e10 ?_)
  have J : ∀ {α : Type} {f : α → Act HS Unit} {l : List α} {s s' : HS}, (∀ x ∈ l, Pres I (f x)) →
      Act.each f l s = (s', .ok ()) → I s → I s' := fun h e hs => pres_each_ok h e hs
  refine J ?_ e9 (J ?_ e8 (J ?_ e7 (J ?_ e6 (J ?_ e5 (J ?_ e4 (J ?_ e3 (J ?_ e2 (J ?_ e1 hk))))))))
  · intro x _; apply pres_of; intro s h; unfold removeUrr; split
    · exact h
    · rename_i j _
      simp only []
      have fr := deleteUrr_frame s.dp (s.sess.getUrr j).gid
      rcases hd : s.dp.deleteUrr (s.sess.getUrr j).gid with ⟨dp, b⟩
      rw [hd] at fr
      obtain ⟨_, _, rfl⟩ := fr
      cases b <;> exact step (s := s) rfl rfl rfl h
  · intro x _; apply pres_of; intro s h; unfold updateUrr; split
    · exact h
    · simp only []; split
      · rename_i hu; obtain ⟨_, _, rfl⟩ := Option.map_eq_some_iff.1 hu; exact step (s := s) rfl rfl rfl h
      · exact h
  · intro x _; apply pres_of; intro s h; unfold createUrr; split
    · exact h
    · have fr : ∀ u, ∃ a i, (s.dp.newUrr u).1 = { s.dp with urr := a, urrIds := i } := by
        intro u; unfold BpfObjects.newUrr; simp only []; repeat' split
        all_goals exact ⟨_, _, rfl⟩
      have fr := fr {}
      rcases hd : s.dp.newUrr {} with ⟨dp, g⟩
      rw [hd] at fr
      obtain ⟨_, _, rfl⟩ := fr
      cases g <;> exact step (s := s) rfl rfl rfl h
  · intro x _; apply pres_of; intro s h; unfold removeQer; split
    · exact h
    · rename_i j _
      simp only []
      have fr := deleteQer_frame s.dp (s.sess.getQer j).gid
      rcases hd : s.dp.deleteQer (s.sess.getQer j).gid with ⟨dp, b⟩
      rw [hd] at fr
      obtain ⟨_, _, rfl⟩ := fr
      cases b <;> exact step (s := s) rfl rfl rfl h
  · intro x _; apply pres_of; intro s h; unfold updateQer; split
    · exact h
    · simp only []; split
      · rename_i hu; obtain ⟨_, _, rfl⟩ := Option.map_eq_some_iff.1 hu; exact step (s := s) rfl rfl rfl h
      · exact h
  · intro x _; apply pres_of; intro s h; unfold createQer; split
    · exact h
    · have fr : ∀ u, ∃ a i, (s.dp.newQer u).1 = { s.dp with qer := a, qerIds := i } := by
        intro u; unfold BpfObjects.newQer; simp only []; repeat' split
        all_goals exact ⟨_, _, rfl⟩
      have fr := fr (mergeQer {} x)
      simp only []
      rcases hd : s.dp.newQer (mergeQer {} x) with ⟨dp, g⟩
      rw [hd] at fr
      obtain ⟨_, _, rfl⟩ := fr
      cases g <;> exact step (s := s) rfl rfl rfl h
  · intro x _; apply pres_of; intro s h; unfold removeFar; simp only []
    have fr := deleteFar_frame s.dp (s.sess.getFar (x.getD 0)).gid
    rcases hd : s.dp.deleteFar (s.sess.getFar (x.getD 0)).gid with ⟨dp, b⟩
    rw [hd] at fr
    obtain ⟨_, _, rfl⟩ := fr
    cases b <;> exact step (s := s) rfl rfl rfl h
  · intro x _; apply pres_of; intro s h; unfold updateFar; split
    · exact h
    · split
      · simp only []; split
        · rename_i hu; obtain ⟨_, _, rfl⟩ := Option.map_eq_some_iff.1 hu; exact step (s := s) rfl rfl rfl h
        · exact h
      · exact h
      · exact h
  · intro x _; apply pres_of; intro s h; unfold createFar; split
    · rename_i y _
      have fr : ∀ u, ∃ a i, (s.dp.newFar u).1 = { s.dp with far := a, farIds := i } := by
        intro u; unfold BpfObjects.newFar; simp only []; repeat' split
        all_goals exact ⟨_, _, rfl⟩
      have fr := fr y
      rcases hd : s.dp.newFar y with ⟨dp, g⟩
      rw [hd] at fr
      obtain ⟨_, _, rfl⟩ := fr
      cases g <;> exact step (s := s) rfl rfl rfl h
    · exact h
    · exact h

/-- **C57, negation.** A PDR whose PDI has neither F-TEID nor UE address is accepted and gets all uplink packets with
TEID 0. -/
theorem C57_no_key : let a := Demo.nAssoc.step (.establish 1 (Demo.estSdf [{ pdrId := some 1, farId := some 1, pdi := some {} }]))
    a.2 = .reply { type := .establishment, seid := 100, seq := 5, cause := 1, fseid := some 2 } ∧
    classify (a.1.dp.entry? (.ul 0)) (fun _ => false) = some ⟨0, 0, 0⟩ := by decide +kernel

/-- **C58, negation.** Session (1,2) has a QER with closed gates in slot 0; the PDR of session (1,3) names no QER, and its
packets are policed by slot 0, i.e. by the closed gates of the other session. -/
theorem C58_policed_by_other :
    let e1 : EstReq := { seq := 5, nodeId := some (some ()), cpFseid := some (some 100), createQer := [{ qerId := some 1, gateUL := some 1, gateDL := some 1 }] }
    let n := (Demo.nAssoc.run [.establish 1 e1, .establish 1 (Demo.estSdf [Demo.dfltPdr])]).1
    (n.session? 1 3).map (fun s => s.qers.size) = some 0 ∧
    classify (n.dp.entry? (.ul 5)) (fun _ => false) = some ⟨0, 0, 0⟩ ∧
    ((n.session? 1 2).bind (fun s => s.qers.get? 1)).map (·.gid) = some 0 ∧
    (n.dp.qer.lookup 0).map (·.gateUL) = some 1 := by decide +kernel

end Eupf
