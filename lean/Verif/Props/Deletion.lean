import Verif.DeleteLemmas
import Verif.SlotNode
import Verif.Demo
import Verif.Props.Slots
/-
C10, C11, C39, C45: removing sessions.
-/
namespace Eupf
open Act

theorem bind_ok {S α β : Type} {m : Act S α} {g : α → Act S β} {s s' : S} {b : β} (h : (m >>= g) s = (s', .ok b)) :
    ∃ a s1, m s = (s1, .ok a) ∧ g a s1 = (s', .ok b) := by
  rw [Act.bind_def] at h
  unfold Act.bind at h
  rcases hm : m s with ⟨s1, r⟩
  rw [hm] at h
  cases r with
  | ok a => exact ⟨a, s1, rfl, h⟩
  | err => simp at h
  | panic => simp at h

theorem pairwise_mem {α : Type} {R : α → α → Prop} (hsym : ∀ a b, R a b → R b a) : ∀ {l : List α}, l.Pairwise R →
    ∀ {a b : α}, a ∈ l → b ∈ l → a ≠ b → R a b
  | [], _, _, _, ha, _, _ => by cases ha
  | x :: xs, hp, a, b, ha, hb, hne => by
    rw [List.pairwise_cons] at hp
    rcases List.mem_cons.1 ha with rfl | ha' <;> rcases List.mem_cons.1 hb with rfl | hb'
    · exact absurd rfl hne
    · exact hp.1 b hb'
    · exact hsym _ _ (hp.1 a ha')
    · exact pairwise_mem hsym hp.2 ha' hb' hne

section
variable {f q u : U32}

/-- The loops of a session deletion that ran to their end. -/
theorem deleteBody_gone {ord : Orders} {sess : Session} {hs0 hs : HS} (hz : Sized f q u hs0.dp) (hr : InRange f q u sess)
    (hc : hs0.cache = GoMap.empty) (hok : deleteBody ord sess hs0 = (hs, .ok ())) :
    ((∀ i p, sess.pdrs.get? i = some p → ∀ j p', sess.pdrs.get? j = some p' → p.key = .ul p.teid → p'.key = .ul p'.teid →
        p.teid.truncate 8 = p'.teid.truncate 8 → p.teid = p'.teid) →
      ∀ i p, sess.pdrs.get? i = some p → hs.dp.entry? p.key = none) ∧
    (∀ k, hs0.dp.entry? k = none → hs.dp.entry? k = none) ∧
    (∀ i x, sess.fars.get? i = some x → farGone hs.dp x.gid) ∧ (∀ i x, sess.qers.get? i = some x → qerGone hs.dp x.gid) ∧
    (∀ i x, sess.urrs.get? i = some x → urrGone hs.dp x.gid) := by
  unfold deleteBody at hok
  obtain ⟨_, s1, e1, hok⟩ := bind_ok hok
  obtain ⟨_, s2, e2, hok⟩ := bind_ok hok
  obtain ⟨_, s3, e3, e4⟩ := bind_ok hok
  -- the PDR loop keeps sizes and never adds entries
  have a1 := (each_ok_all (L := ord.pdrs.run sess.pdrs.entries) (I := fun s => Sized f q u s.dp ∧
      ∀ k, hs0.dp.entry? k = none → s.dp.entry? k = none) (Q := fun _ _ => True)
    (fun x _ s h => ⟨h.1.part (deletePdr_part ord x.2 s).1, fun k hk => deletePdr_none ord x.2 s k (h.2 k hk)⟩)
    (fun _ _ _ _ _ _ _ => trivial) (fun _ _ _ _ _ => trivial) _ _ _ (fun _ h => h)
    (show _ ∧ _ from ⟨hz, fun k h => h⟩) e1).1
  -- the FAR loop
  have a2 := each_ok_all (L := ord.fars.run sess.fars.entries) (I := fun s => Sized f q u s.dp ∧
      ∀ k, s1.dp.entry? k = none → s.dp.entry? k = none) (Q := fun x s => farGone s.dp x.2.gid)
    (fun x _ s h => by
      rw [dropFar_dp]
      refine ⟨deleteFar_sized h.1 _, fun k hk => ?_⟩
      obtain ⟨_, _, e⟩ := deleteFar_frame s.dp x.2.gid
      rw [e]; exact (entry_pdr rfl rfl rfl k).trans (h.2 k hk))
    (fun y _ x hx s h hq => by
      rw [dropFar_dp]
      exact (deleteFar_gone h.1 (hr.far _ _ (mem_run_get _ _ x hx))).2.2 _ hq)
    (fun x hx s h _ => by
      rw [dropFar_dp]
      exact (deleteFar_gone h.1 (hr.far _ _ (mem_run_get _ _ x hx))).2.1) _ _ _ (fun _ h => h)
    (show _ ∧ _ from ⟨a1.1, fun k h => h⟩) e2
  have a3 := each_ok_all (L := ord.qers.run sess.qers.entries) (I := fun s => Sized f q u s.dp ∧
      (∀ k, s2.dp.entry? k = none → s.dp.entry? k = none) ∧ s.dp.far = s2.dp.far ∧ s.dp.farIds = s2.dp.farIds)
      (Q := fun x s => qerGone s.dp x.2.gid)
    (fun x _ s h => by
      rw [dropQer_dp]
      refine ⟨deleteQer_sized h.1 _, ?_⟩
      obtain ⟨_, _, e⟩ := deleteQer_frame s.dp x.2.gid
      rw [e]; exact ⟨fun k hk => (entry_pdr rfl rfl rfl k).trans (h.2.1 k hk), h.2.2⟩)
    (fun y _ x hx s h hq => by
      rw [dropQer_dp]
      exact (deleteQer_gone h.1 (hr.qer _ _ (mem_run_get _ _ x hx))).2.2 _ hq)
    (fun x hx s h _ => by
      rw [dropQer_dp]
      exact (deleteQer_gone h.1 (hr.qer _ _ (mem_run_get _ _ x hx))).2.1) _ _ _ (fun _ h => h)
    (show _ ∧ _ from ⟨a2.1.1, fun k h => h, rfl, rfl⟩) e3
  have a4 := each_ok_all (L := ord.urrs.run sess.urrs.entries) (I := fun s => Sized f q u s.dp ∧
      (∀ k, s3.dp.entry? k = none → s.dp.entry? k = none) ∧ s.dp.far = s3.dp.far ∧ s.dp.farIds = s3.dp.farIds ∧
      s.dp.qer = s3.dp.qer ∧ s.dp.qerIds = s3.dp.qerIds)
      (Q := fun x s => urrGone s.dp x.2.gid)
    (fun x _ s h => by
      rw [(dropUrr_dp _ _).1]
      refine ⟨deleteUrr_sized h.1 _, ?_⟩
      obtain ⟨_, _, e⟩ := deleteUrr_frame s.dp x.2.gid
      rw [e]; exact ⟨fun k hk => (entry_pdr rfl rfl rfl k).trans (h.2.1 k hk), h.2.2⟩)
    (fun y _ x hx s h hq => by
      rw [(dropUrr_dp _ _).1]
      exact (deleteUrr_gone h.1 (hr.urr _ _ (mem_run_get _ _ x hx)).1).2.2.1 _ hq)
    (fun x hx s h _ => by
      rw [(dropUrr_dp _ _).1]
      exact (deleteUrr_gone h.1 (hr.urr _ _ (mem_run_get _ _ x hx)).1).2.1) _ _ _ (fun _ h => h)
    (show _ ∧ _ from ⟨a3.1.1, fun k h => h, rfl, rfl, rfl, rfl⟩) e4
  have mem : ∀ {V : Type} (sh : Shuffle (U32 × V)) (m : GoMap U32 V) (i : U32) (x : V), m.get? i = some x → (i, x) ∈ sh.run m.entries :=
    fun sh m i x h => (sh.perm _).mem_iff.2 ((m.mem_entries_iff i x).2 h)
  have e14 : ∀ k, s1.dp.entry? k = none → hs.dp.entry? k = none := fun k h => a4.1.2.1 k (a3.1.2.1 k (a2.1.2 k h))
  refine ⟨?_, fun k h => e14 k (a1.2 k h), ?_, ?_, ?_⟩
  · intro hlow i p hp
    apply e14
    have hL : LowOctet ((ord.pdrs.run sess.pdrs.entries).map Prod.snd) := by
      intro p hp p' hp' h1 h2 h3
      obtain ⟨⟨i, _⟩, hi, rfl⟩ := List.mem_map.1 hp
      obtain ⟨⟨j, _⟩, hj, rfl⟩ := List.mem_map.1 hp'
      exact hlow i _ (mem_run_get _ _ _ hi) j _ (mem_run_get _ _ _ hj) h1 h2 h3
    have := each_ok_all (L := ord.pdrs.run sess.pdrs.entries) (f := fun e => deletePdr ord e.2)
      (I := CacheOk ((ord.pdrs.run sess.pdrs.entries).map Prod.snd))
      (Q := fun x s => s.dp.entry? x.2.key = none)
      (fun x hx s h => (deletePdr_gone hL ord (List.mem_map.2 ⟨x, hx, rfl⟩) h).1)
      (fun y _ x hx s h hq => (deletePdr_gone hL ord (List.mem_map.2 ⟨x, hx, rfl⟩) h).2.2 _ hq)
      (fun x hx s h _ => (deletePdr_gone hL ord (List.mem_map.2 ⟨x, hx, rfl⟩) h).2.1) _ _ _ (fun _ h => h)
      (by intro b hb; rw [hc] at hb; simp at hb) e1
    exact this.2.1 (i, p) (mem _ _ i p hp)
  · intro i x hx
    have := a2.2.1 (i, x) (mem _ _ i x hx)
    unfold farGone at *
    rw [a4.1.2.2.1, a4.1.2.2.2.1, a3.1.2.2.1, a3.1.2.2.2]; exact this
  · intro i x hx
    have := a3.2.1 (i, x) (mem _ _ i x hx)
    unfold qerGone at *
    rw [a4.1.2.2.2.2.1, a4.1.2.2.2.2.2]; exact this
  · intro i x hx
    exact a4.2.1 (i, x) (mem _ _ i x hx)
end

/-- An accepted deletion: its body ran to the end. -/
theorem delete_accepted {n : Node} {addr : Addr} {r : DelReq} {ord : Orders} {resp : Resp}
    (h : (n.delete addr r ord).2 = .reply resp) (hc : resp.cause = 1) :
    ∃ a sess hs, n.assocs.get? addr = some a ∧ a.sessions.get? r.seid = some sess ∧
      deleteBody ord sess (n.hs sess) = (hs, .ok ()) ∧ n.delete addr r ord = n.delResult addr r ord a sess hs (.ok ()) := by
  cases delete_cases n addr r ord with
  | refused c hcc hs he =>
    rw [he] at h; cases h
    rcases hcc with rfl | rfl <;> simp at hc
  | ran a sess hs res ha hsess hbody he =>
    rw [he] at h
    cases res with
    | ok _ => exact ⟨a, sess, hs, ha, hsess, hbody, he⟩
    | err => cases h
    | panic => cases h

/-- **C10.** After an accepted session deletion in any history: the session is gone, no PDR key of it is in the
tables, its FAR, QER and URR slots are empty and free. Restricted to sessions whose uplink TEIDs differ in the
low octet when they differ. -/
theorem C10_removed_partial {cfg : NodeCfg} {rm : Option ResourceManager} {p f q u : U32} (hf : 0 < f.toNat) (hq : 0 < q.toNat)
    (hu : 0 < u.toNat) {h : List (Ev × Outcome)} {n : Node} (H : Hist (Node.init cfg rm (BpfObjects.load p f q u)) h n)
    {addr : Addr} {r : DelReq} {ord : Orders} {sess : Session} (hs : n.session? addr r.seid = some sess)
    (hlow : ∀ i p, sess.pdrs.get? i = some p → ∀ j p', sess.pdrs.get? j = some p' → p.key = .ul p.teid →
      p'.key = .ul p'.teid → p.teid.truncate 8 = p'.teid.truncate 8 → p.teid = p'.teid)
    {n' : Node} {resp : Resp} (hstep : n.step (.delete addr r ord) = (n', .reply resp)) (hacc : resp.cause = 1) :
    n'.session? addr r.seid = none ∧
    (∀ i p, sess.pdrs.get? i = some p → n'.dp.entry? p.key = none) ∧
    (∀ i x, sess.fars.get? i = some x → n'.dp.far.lookup x.gid = some {} ∧ n'.dp.farIds.free x.gid = true) ∧
    (∀ i x, sess.qers.get? i = some x → n'.dp.qer.lookup x.gid = some {} ∧ n'.dp.qerIds.free x.gid = true) ∧
    (∀ i x, sess.urrs.get? i = some x → n'.dp.urr.lookup x.gid = some {} ∧ n'.dp.urrIds.free x.gid = true) := by
  obtain ⟨hr, hz⟩ := ranges_hist hf hq hu H
  have hstep' : n.delete addr r ord = (n', .reply resp) := hstep
  obtain ⟨a, sess', hs', ha, hsess, hb, he⟩ := delete_accepted (by rw [hstep']) hacc
  have : sess' = sess := by
    simp only [Node.session?, ha, Option.bind_some, hsess] at hs; exact Option.some.inj hs
  subst this
  obtain ⟨g1, _, g3, g4, g5⟩ := deleteBody_gone (f := f) (q := q) (u := u) hz (hr _ _ _ hs) rfl hb
  rw [hstep'] at he
  have hn : n' = _ := congrArg Prod.fst he
  subst hn
  refine ⟨?_, g1 hlow, g3, g4, g5⟩
  simp [Node.delResult, Node.session?]

/-! ### C11 -/

section
variable {f q u : U32}

/-- A PDR loop over PDRs with different keys (uplink PDRs may share a TEID) that are all installed succeeds. -/
theorem deletePdrs_ok (ord : Orders) : ∀ (l : List (U32 × SPdr)) (s : HS), (s.rm ≠ none ∨ ∀ e ∈ l, e.2.teid = 0) →
    (∀ e ∈ l, (∀ t, e.2.key ≠ .ul t) → (s.dp.entry? e.2.key).isSome) →
    (∀ e ∈ l, e.2.key = .ul e.2.teid → (s.dp.entry? e.2.key).isSome ∨ (s.cache.get? (e.2.teid.truncate 8)).isSome) →
    (l.Pairwise (fun e e' => e.2.key = e'.2.key → e.2.key = .ul e.2.teid)) →
    ∃ s', Act.each (fun e => deletePdr ord e.2) l s = (s', .ok ()) ∧ SamePart s'.dp s.dp ∧ s'.sess = s.sess ∧ s'.reports = s.reports
  | [], s, _, _, _, _ => ⟨s, rfl, SamePart.rfl' _, rfl, rfl⟩
  | e :: l, s, hrm, hdl, hul, hpw => by
    rw [List.pairwise_cons] at hpw
    have ulkey : ∀ p : SPdr, (∃ t, p.key = .ul t) → p.key = .ul p.teid := by
      intro p ⟨t, ht⟩
      unfold SPdr.key at *
      split at ht <;> simp_all
    -- the entry step succeeds
    have hent : ∃ s1, deletePdrEntry e.2 s = (s1, .ok ()) ∧ s1.rm = s.rm ∧ SamePart s1.dp s.dp ∧ s1.sess = s.sess ∧
        s1.reports = s.reports ∧
        (∀ e' ∈ l, (∀ t, e'.2.key ≠ .ul t) → (s1.dp.entry? e'.2.key).isSome) ∧
        (∀ e' ∈ l, e'.2.key = .ul e'.2.teid → (s1.dp.entry? e'.2.key).isSome ∨ (s1.cache.get? (e'.2.teid.truncate 8)).isSome) := by
      have hpart := deletePdrEntry_part e.2 s
      cases deletePdrEntry_cases e.2 s with
      | gone dp c hd hsome hdp hc =>
        rw [hd] at hpart
        refine ⟨_, hd, rfl, hpart.1, rfl, rfl, ?_, ?_⟩
        · intro e' he' hk
          simp only [hdp]
          split
          · rename_i hkk
            exact absurd (ulkey e'.2 ⟨e.2.teid, by rw [hkk]; exact hpw.1 e' he' hkk.symm⟩) (hk _)
          · exact hdl e' (by simp [he']) hk
        · intro e' he' hk
          simp only [hdp]
          rcases hc with ⟨rfl, hnu⟩ | ⟨hkk, rfl, _⟩
          · have hne : e'.2.key ≠ e.2.key := by rw [hk]; exact fun h => hnu _ h.symm
            rw [if_neg hne]
            exact hul e' (by simp [he']) hk
          · by_cases hb : e'.2.teid.truncate 8 = e.2.teid.truncate 8
            · right; simp [hb]
            · have hne : e'.2.key ≠ e.2.key := by
                rw [hk, hkk]; intro h; exact hb (by rw [PdrKey.ul.inj h])
              rw [if_neg hne]
              rcases hul e' (by simp [he']) hk with h | h
              · exact Or.inl h
              · right; simp only [GoMap.get?_set, if_neg hb]; exact h
      | absent hd hnone =>
        exfalso
        by_cases hk : ∃ t, e.2.key = .ul t
        · rcases hul e (by simp) (ulkey _ hk) with h | h
          · rw [hnone] at h; cases h
          · have h4 : e.2.ipv4 = none ∧ e.2.ipv6 = none := by
              obtain ⟨t, ht⟩ := hk
              unfold SPdr.key at ht
              split at ht <;> simp_all
            unfold deletePdrEntry at hd
            rw [h4.1, h4.2] at hd
            simp only [] at hd
            rw [if_pos h] at hd
            cases hd
        · have := hdl e (by simp) (fun t ht => hk ⟨t, ht⟩)
          rw [hnone] at this; cases this
      | skipped hd hk hc =>
        exact ⟨s, hd, rfl, SamePart.rfl' _, rfl, rfl, fun e' he' => hdl e' (by simp [he']), fun e' he' => hul e' (by simp [he'])⟩
    obtain ⟨s1, hd, hrm1, hpart, hsess, hrep, h5, h6⟩ := hent
    have hdel : ∃ rm, deletePdr ord e.2 s = ({ s1 with rm := rm }, .ok ()) ∧ (rm ≠ none ∨ ∀ e' ∈ l, e'.2.teid = 0) := by
      unfold deletePdr
      simp only [Act.bind_def, Act.bind, hd]
      split
      · rename_i ht
        rcases hrm with h | h
        · rw [← hrm1] at h
          obtain ⟨m, hm⟩ := Option.ne_none_iff_exists'.1 h
          unfold releaseTeids
          simp only [hm]
          exact ⟨_, rfl, Or.inl (by simp)⟩
        · exact absurd (h e (by simp)) ht
      · refine ⟨s1.rm, rfl, ?_⟩
        rw [hrm1]
        rcases hrm with h | h
        · exact Or.inl h
        · exact Or.inr (fun e' he' => h e' (by simp [he']))
    obtain ⟨rm, hdel, hrm2⟩ := hdel
    obtain ⟨s', i1, i2, i3, i4⟩ := deletePdrs_ok ord l { s1 with rm := rm } hrm2 h5 h6 hpw.2
    refine ⟨s', ?_, ?_, by rw [i3]; exact hsess, by rw [i4]; exact hrep⟩
    · show Act.bind (deletePdr ord e.2) (fun _ => Act.each _ l) s = _
      unfold Act.bind
      rw [hdel]
      exact i1
    · exact ⟨i2.far.trans hpart.far, i2.qer.trans hpart.qer, i2.urr.trans hpart.urr, i2.farIds.trans hpart.farIds,
        i2.qerIds.trans hpart.qerIds, i2.urrIds.trans hpart.urrIds⟩

theorem each_ok_of {S α : Type} {f : α → Act S Unit} {I : S → Prop} : ∀ (l : List α) (s : S), I s →
    (∀ x ∈ l, ∀ s, I s → (f x s).2 = .ok () ∧ I (f x s).1) → ∃ s', Act.each f l s = (s', .ok ()) ∧ I s'
  | [], s, h, _ => ⟨s, rfl, h⟩
  | x :: xs, s, h, hx => by
    obtain ⟨h1, h2⟩ := hx x (by simp) s h
    rcases hm : f x s with ⟨s1, r⟩
    rw [hm] at h1 h2
    cases h1
    obtain ⟨s', h3, h4⟩ := each_ok_of xs s1 h2 (fun y hy => hx y (by simp [hy]))
    refine ⟨s', ?_, h4⟩
    show Act.bind (f x) (fun _ => Act.each f xs) s = _
    unfold Act.bind
    rw [hm]; exact h3

theorem deleteBody_ok {ord : Orders} {sess : Session} {s : HS} (hz : Sized f q u s.dp) (hr : InRange f q u sess)
    (hrm : s.rm ≠ none ∨ ∀ i p, sess.pdrs.get? i = some p → p.teid = 0)
    (hinst : ∀ i p, sess.pdrs.get? i = some p → (s.dp.entry? p.key).isSome)
    (hdist : ∀ i p j p', sess.pdrs.get? i = some p → sess.pdrs.get? j = some p' → i ≠ j → p.key = p'.key → p.key = .ul p.teid) :
    (deleteBody ord sess s).2 = .ok () := by
  obtain ⟨s1, e1, p1, _, _⟩ := deletePdrs_ok ord (ord.pdrs.run sess.pdrs.entries) s
    (hrm.imp id (fun h e he => h _ _ (mem_run_get _ _ e he)))
    (fun e he _ => hinst _ _ (mem_run_get _ _ e he)) (fun e he _ => Or.inl (hinst _ _ (mem_run_get _ _ e he))) (by
      have := each_perm_nodup ord.pdrs sess.pdrs
      rw [List.Nodup, List.pairwise_map] at this
      refine this.imp_of_mem ?_
      intro a b ha hb hab hk
      exact hdist _ _ _ _ (mem_run_get _ _ a ha) (mem_run_get _ _ b hb) hab hk)
  obtain ⟨s2, e2, z2⟩ := each_ok_of (f := dropFar) (I := fun s => Sized f q u s.dp) (ord.fars.run sess.fars.entries) s1 (hz.part p1) (by
    intro x hx s h
    refine ⟨?_, by rw [dropFar_dp]; exact deleteFar_sized h _⟩
    have := (deleteFar_gone h (hr.far _ _ (mem_run_get _ _ x hx))).1
    unfold dropFar
    rcases hd : s.dp.deleteFar x.2.gid with ⟨d, b⟩
    rw [hd] at this; cases this; rfl)
  obtain ⟨s3, e3, z3⟩ := each_ok_of (f := dropQer) (I := fun s => Sized f q u s.dp) (ord.qers.run sess.qers.entries) s2 z2 (by
    intro x hx s h
    refine ⟨?_, by rw [dropQer_dp]; exact deleteQer_sized h _⟩
    have := (deleteQer_gone h (hr.qer _ _ (mem_run_get _ _ x hx))).1
    unfold dropQer
    rcases hd : s.dp.deleteQer x.2.gid with ⟨d, b⟩
    rw [hd] at this; cases this; rfl)
  obtain ⟨s4, e4, _⟩ := each_ok_of (f := dropUrr) (I := fun _ => True) (ord.urrs.run sess.urrs.entries) s3 trivial (by
    intro x hx s h
    refine ⟨?_, trivial⟩
    unfold dropUrr
    rcases hd : s.dp.deleteUrr x.2.gid with ⟨d, b⟩
    cases b <;> rfl)
  unfold deleteBody
  simp only [Act.bind_def, Act.bind, e1, e2, e3, e4]
end

/-- **C11.** A deletion request for an existing session whose PDRs are installed and whose downlink PDRs match on
different addresses is accepted, in every history and for every iteration order (with working address pools). -/
theorem C11_deletable_partial {cfg : NodeCfg} {rm : Option ResourceManager} {p f q u : U32} (hf : 0 < f.toNat) (hq : 0 < q.toNat)
    (hu : 0 < u.toNat) {h : List (Ev × Outcome)} {n : Node} (H : Hist (Node.init cfg rm (BpfObjects.load p f q u)) h n)
    {addr : Addr} {r : DelReq} {sess : Session} (hs : n.session? addr r.seid = some sess) (hrm : n.rm ≠ none)
    (hinst : ∀ i p, sess.pdrs.get? i = some p → (n.dp.entry? p.key).isSome)
    (hdist : ∀ i p j p', sess.pdrs.get? i = some p → sess.pdrs.get? j = some p' → i ≠ j → p.key = p'.key → p.key = .ul p.teid)
    (ord : Orders) :
    ∃ n' resp, n.step (.delete addr r ord) = (n', .reply resp) ∧ resp.cause = 1 ∧ n'.session? addr r.seid = none := by
  obtain ⟨hr, hz⟩ := ranges_hist hf hq hu H
  have hok := deleteBody_ok (ord := ord) (s := n.hs sess) hz (hr _ _ _ hs) (Or.inl hrm) hinst hdist
  cases delete_cases n addr r ord with
  | refused c hcc hs' he => rw [hs] at hs'; cases hs'
  | ran a sess' hs' res ha hsess hbody he =>
    have : sess' = sess := by
      simp only [Node.session?, ha, Option.bind_some, hsess] at hs; exact Option.some.inj hs
    subst this
    rw [hbody] at hok
    cases hok
    refine ⟨_, _, he, rfl, ?_⟩
    simp [Node.session?]

/-- **C11, negation.** Whenever a session has two PDRs with the same UE address (of the same family), no deletion
request for it is ever accepted: no response is sent (or the process dies), whatever the iteration order, and the
session stays. -/
theorem C11_undeletable (n : Node) {addr : Addr} {r : DelReq} {sess : Session} (hs : n.session? addr r.seid = some sess)
    {i j : U32} {x y : SPdr} (hx : sess.pdrs.get? i = some x) (hy : sess.pdrs.get? j = some y) (hij : i ≠ j)
    (hk : x.key = y.key) (hdl : ∀ t, x.key ≠ .ul t) (ord : Orders) :
    (∀ resp, (n.step (.delete addr r ord)).2 ≠ .reply resp) ∧
    (n.step (.delete addr r ord)).1.session? addr r.seid = some sess := by
  have key : ∀ hs', deleteBody ord sess (n.hs sess) ≠ (hs', .ok ()) := by
    intro hs' hok
    unfold deleteBody at hok
    obtain ⟨_, s1, e1, _⟩ := bind_ok hok
    -- a successful loop has pairwise different downlink keys
    have aux : ∀ (l : List (U32 × SPdr)) (s s' : HS), Act.each (fun e => deletePdr ord e.2) l s = (s', .ok ()) →
        (∀ e ∈ l, (∀ t, e.2.key ≠ .ul t) → s.dp.entry? e.2.key ≠ none) ∧
        l.Pairwise (fun e e' => (∀ t, e.2.key ≠ .ul t) → e.2.key ≠ e'.2.key) := by
      intro l
      induction l with
      | nil => intro s s' _; exact ⟨by simp, List.Pairwise.nil⟩
      | cons e l ih =>
        intro s s' he
        have he' : (deletePdr ord e.2 >>= fun _ => Act.each (fun e => deletePdr ord e.2) l) s = (s', .ok ()) := he
        obtain ⟨_, s1, h1, h2⟩ := bind_ok he'
        obtain ⟨i1, i2⟩ := ih s1 s' h2
        have h3 : s1 = (deletePdr ord e.2 s).1 := by rw [h1]
        have hself : (∀ t, e.2.key ≠ .ul t) → s.dp.entry? e.2.key ≠ none ∧ s1.dp.entry? e.2.key = none := by
          intro hnu
          obtain ⟨rm, e3⟩ := deletePdr_dp ord e.2 s
          cases deletePdrEntry_cases e.2 s with
          | gone dp c hd hsome hdp hc =>
            refine ⟨(by intro h; rw [h] at hsome; cases hsome), ?_⟩
            rw [h3, e3, hd]; simp [hdp]
          | absent hd hnone =>
            unfold deletePdr at h1
            simp only [Act.bind_def, Act.bind, hd] at h1
            simp at h1
          | skipped hd hk _ => exact absurd hk (hnu _)
        constructor
        · intro e' he'' hnu
          rcases List.mem_cons.1 he'' with rfl | hm
          · exact (hself hnu).1
          · intro hn
            exact i1 e' hm hnu (by rw [h3]; exact deletePdr_none ord e.2 s _ hn)
        · refine List.Pairwise.cons ?_ i2
          intro e' hm hnu hkk
          exact i1 e' hm (fun t => by rw [← hkk]; exact hnu t) (by rw [← hkk]; exact (hself hnu).2)
    obtain ⟨_, hpw⟩ := aux _ _ _ e1
    have m1 : (i, x) ∈ ord.pdrs.run sess.pdrs.entries := (ord.pdrs.perm _).mem_iff.2 ((sess.pdrs.mem_entries_iff i x).2 hx)
    have m2 : (j, y) ∈ ord.pdrs.run sess.pdrs.entries := (ord.pdrs.perm _).mem_iff.2 ((sess.pdrs.mem_entries_iff j y).2 hy)
    have hsym : (ord.pdrs.run sess.pdrs.entries).Pairwise (fun e e' : U32 × SPdr =>
        ¬ (e.2.key = e'.2.key ∧ ∀ t, e.2.key ≠ .ul t)) := hpw.imp (fun h ⟨h1, h2⟩ => h h2 h1)
    have hsym' : ∀ a b : U32 × SPdr, ¬ (a.2.key = b.2.key ∧ ∀ t, a.2.key ≠ .ul t) → ¬ (b.2.key = a.2.key ∧ ∀ t, b.2.key ≠ .ul t) := by
      rintro a b h ⟨h1, h2⟩; exact h ⟨h1.symm, fun t => by rw [← h1]; exact h2 t⟩
    have hne : (i, x) ≠ (j, y) := by intro h; cases h; exact hij rfl
    exact pairwise_mem hsym' hsym m1 m2 hne ⟨hk, hdl⟩
  cases delete_cases n addr r ord with
  | refused c hcc hs' he => rw [hs] at hs'; cases hs'
  | ran a sess' hs' res ha hsess hbody he =>
    have : sess' = sess := by
      have h := hs
      simp only [Node.session?, ha, Option.bind_some, hsess] at h; exact Option.some.inj h
    subst this
    have : n.step (.delete addr r ord) = n.delResult addr r ord a sess' hs' res := he
    rw [this]
    cases res with
    | ok _ => exact absurd hbody (key hs')
    | err => exact ⟨(by intro resp h; cases h), hs⟩
    | panic => exact ⟨(by intro resp h; cases h), hs⟩

end Eupf
