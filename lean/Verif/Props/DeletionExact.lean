import Verif.Props.DeletionCases
import Verif.Props.NoCrash
/-
C10 and C11, exactly: which table entries an accepted deletion removes, and which deletions are accepted, for every history, session and
iteration order.
-/
namespace Eupf
open Act

/-- The TEID of the first uplink PDR, in this order, whose TEID has the low octet `b`. -/
def firstTeid (l : List SPdr) (b : U8) : Option U32 :=
  l.findSome? (fun p => match p.key with
    | .ul t => if t.truncate 8 = b then some t else none
    | _ => none)

/-- A deletion that visits the PDRs in this order removes the entry under this key: a UE address of one of them, or a TEID of one of them
that is the first with its low octet. -/
def Removes (l : List SPdr) (k : PdrKey) : Prop :=
  (∃ p ∈ l, p.key = k) ∧ ∀ t, k = .ul t → firstTeid l (t.truncate 8) = some t

theorem key_ul (p : SPdr) {t : U32} (h : p.key = .ul t) : t = p.teid := by
  unfold SPdr.key at h
  split at h <;> simp_all

theorem firstTeid_cons_ul {p : SPdr} {l : List SPdr} {b : U8} (hk : p.key = .ul p.teid) :
    firstTeid (p :: l) b = if p.teid.truncate 8 = b then some p.teid else firstTeid l b := by
  unfold firstTeid
  rw [List.findSome?_cons, hk]
  simp only
  by_cases h : p.teid.truncate 8 = b
  · rw [if_pos h]; simp [h]
  · rw [if_neg h]; simp [h]

theorem firstTeid_cons_dl {p : SPdr} {l : List SPdr} {b : U8} (hk : ∀ t, p.key ≠ .ul t) :
    firstTeid (p :: l) b = firstTeid l b := by
  unfold firstTeid
  rw [List.findSome?_cons]
  cases h : p.key with
  | ul t => exact absurd h (hk t)
  | dl4 _ => rfl
  | dl6 _ => rfl

theorem firstTeid_mem {l : List SPdr} {b : U8} {t : U32} (h : firstTeid l b = some t) :
    t.truncate 8 = b ∧ ∃ p ∈ l, p.key = .ul t := by
  unfold firstTeid at h
  obtain ⟨p, hp, h2⟩ := List.exists_of_findSome?_eq_some h
  split at h2
  · rename_i t' hk
    split at h2
    · rename_i hb; cases h2; exact ⟨hb, p, hp, hk⟩
    · cases h2
  · cases h2

/-- what the loop over the PDRs `l` takes out, from a state with this cache -/
def Hit (l : List SPdr) (c : GoMap U8 U32) (k : PdrKey) : Prop :=
  match k with
  | .ul t => c.get? (t.truncate 8) = none ∧ firstTeid l (t.truncate 8) = some t
  | k => ∃ p ∈ l, p.key = k

/-- the loop over the PDRs `l` runs to its end -/
structure LoopOk (l : List SPdr) (s : HS) : Prop where
  rm : s.rm ≠ none ∨ ∀ p ∈ l, p.teid = 0
  dl : ∀ p ∈ l, (∀ t, p.key ≠ .ul t) → (s.dp.entry? p.key).isSome
  ul : ∀ t, s.cache.get? (t.truncate 8) = none → firstTeid l (t.truncate 8) = some t → (s.dp.entry? (.ul t)).isSome
  dist : l.Pairwise (fun p p' => p.key = p'.key → p.key = .ul p.teid)

theorem ulkey {p : SPdr} (h : ∃ t, p.key = .ul t) : p.key = .ul p.teid := by
  obtain ⟨t, ht⟩ := h
  rw [ht, key_ul p ht]

/-- one step of the loop, exactly -/
theorem deletePdr_exact (ord : Orders) (p : SPdr) (l : List SPdr) (s : HS) :
    (∀ s1, deletePdr ord p s = (s1, .ok ()) → ((LoopOk l s1 ↔ LoopOk (p :: l) s) ∧
      ∀ b : BpfObjects, (∀ k, (Hit l s1.cache k → b.entry? k = none) ∧ (¬ Hit l s1.cache k → b.entry? k = s1.dp.entry? k)) →
        ∀ k, (Hit (p :: l) s.cache k → b.entry? k = none) ∧ (¬ Hit (p :: l) s.cache k → b.entry? k = s.dp.entry? k))) ∧
    ((∀ s1, deletePdr ord p s ≠ (s1, .ok ())) → ¬ LoopOk (p :: l) s) := by
  have rmlem : ∀ s1 : HS, s1.rm = s.rm → deletePdrEntry p s = (s1, .ok ()) →
      (p.teid ≠ 0 ∧ s.rm = none ∧ deletePdr ord p s = (s1, .panic)) ∨
      (∃ rm, (rm = none ↔ s.rm = none) ∧ (s.rm ≠ none ∨ p.teid = 0) ∧ deletePdr ord p s = ({ s1 with rm := rm }, .ok ())) := by
    intro s1 h1 h2
    unfold deletePdr
    simp only [Act.bind_def, Act.bind, h2]
    split
    · rename_i ht
      unfold releaseTeids
      cases hr : s1.rm with
      | none => exact Or.inl ⟨ht, h1 ▸ hr, rfl⟩
      | some m => right; rw [hr] at h1; exact ⟨_, by simp [← h1], Or.inl (by simp [← h1]), rfl⟩
    · rename_i ht
      right
      exact ⟨s1.rm, by rw [h1], Or.inr (Classical.not_not.1 ht), rfl⟩
  have rmok : ∀ rm : Option ResourceManager, (rm = none ↔ s.rm = none) → (s.rm ≠ none ∨ p.teid = 0) →
      ((rm ≠ none ∨ ∀ p ∈ l, p.teid = 0) ↔ (s.rm ≠ none ∨ ∀ p' ∈ p :: l, p'.teid = 0)) := by
    intro rm h1 h2
    by_cases h : s.rm = none
    · have h' := h1.2 h
      simp only [h, h', ne_eq, not_true_eq_false, false_or] at h2 ⊢
      simp [h2]
    · have h' : rm ≠ none := fun e => h (h1.1 e)
      simp [h, h']
  cases deletePdrEntry_cases p s with
  | absent hd hnone =>
    have he : deletePdr ord p s = (s, .err) := by
      unfold deletePdr; simp only [Act.bind_def, Act.bind, hd]
    refine ⟨fun s1 h => (by rw [he] at h; cases h), fun _ hl => ?_⟩
    by_cases hk : ∃ t, p.key = .ul t
    · have hk' := ulkey hk
      have hc : s.cache.get? (p.teid.truncate 8) = none := by
        cases hc : s.cache.get? (p.teid.truncate 8) with
        | none => rfl
        | some x =>
          have h4 : p.ipv4 = none ∧ p.ipv6 = none := by
            unfold SPdr.key at hk'
            split at hk' <;> simp_all
          unfold deletePdrEntry at hd
          rw [h4.1, h4.2] at hd
          simp only [] at hd
          rw [if_pos (by rw [hc]; rfl)] at hd
          cases hd
      have := hl.ul p.teid hc (by rw [firstTeid_cons_ul hk', if_pos rfl])
      rw [hk'] at hnone
      rw [hnone] at this; cases this
    · have := hl.dl p (by simp) (fun t ht => hk ⟨t, ht⟩)
      rw [hnone] at this; cases this
  | skipped hd hk hc =>
    have hhit : ∀ k, Hit (p :: l) s.cache k ↔ Hit l s.cache k := by
      intro k
      cases k with
      | ul t =>
        simp only [Hit, firstTeid_cons_ul hk]
        refine and_congr_right fun hn => ?_
        rw [if_neg (fun e => by rw [e, hn] at hc; cases hc)]
      | dl4 a => simp [Hit, hk]
      | dl6 a => simp [Hit, hk]
    have hul : (∀ t, s.cache.get? (t.truncate 8) = none → firstTeid (p :: l) (t.truncate 8) = some t → (s.dp.entry? (.ul t)).isSome) ↔
        ∀ t, s.cache.get? (t.truncate 8) = none → firstTeid l (t.truncate 8) = some t → (s.dp.entry? (.ul t)).isSome := by
      refine forall_congr' fun t => forall_congr' fun hn => ?_
      rw [firstTeid_cons_ul hk, if_neg (fun e => by rw [e, hn] at hc; cases hc)]
    rcases rmlem s rfl hd with ⟨ht, hrm, he⟩ | ⟨rm, h1, h2, he⟩
    · refine ⟨fun s1 h => (by rw [he] at h; cases h), fun _ hl => ?_⟩
      rcases hl.rm with h | h
      · exact h hrm
      · exact ht (h p (by simp))
    · refine ⟨fun s1 h => ?_, fun h => absurd he (h _)⟩
      rw [he] at h
      have h : { s with rm := rm } = s1 := (Prod.mk.inj h).1
      subst h
      refine ⟨⟨fun hl => ⟨(rmok rm h1 h2).1 hl.rm, ?_, hul.2 hl.ul, ?_⟩, fun hl => ⟨(rmok rm h1 h2).2 hl.rm, ?_, hul.1 hl.ul, ?_⟩⟩, ?_⟩
      · intro p' hp' hk'
        rcases List.mem_cons.1 hp' with rfl | hp'
        · exact absurd hk (hk' _)
        · exact hl.dl p' hp' hk'
      · exact List.pairwise_cons.2 ⟨fun _ _ _ => hk, hl.dist⟩
      · exact fun p' hp' => hl.dl p' (by simp [hp'])
      · exact (List.pairwise_cons.1 hl.dist).2
      · intro b hb k
        rw [hhit]
        exact hb k
  | gone dp c hd hsome hdp hc =>
    have hhit : ∀ k, Hit (p :: l) s.cache k ↔ k = p.key ∨ Hit l c k := by
      intro k
      rcases hc with ⟨rfl, hnu⟩ | ⟨hk, rfl, hn⟩
      · cases k with
        | ul t => simp [Hit, firstTeid_cons_dl hnu, Ne.symm (hnu t)]
        | dl4 a => simp [Hit, eq_comm]
        | dl6 a => simp [Hit, eq_comm]
      · cases k with
        | ul t =>
          simp only [Hit, firstTeid_cons_ul hk, GoMap.get?_set, hk, PdrKey.ul.injEq]
          by_cases ht : t = p.teid
          · subst ht; simp [hn]
          · by_cases hb : p.teid.truncate 8 = t.truncate 8
            · simp [hb, ht, Ne.symm ht]
            · simp [hb, ht, Ne.symm hb]
        | dl4 a => simp [Hit, hk]
        | dl6 a => simp [Hit, hk]
    have hloop : ∀ rm, (rm = none ↔ s.rm = none) → (s.rm ≠ none ∨ p.teid = 0) →
        (LoopOk l { s with dp := dp, cache := c, rm := rm } ↔ LoopOk (p :: l) s) := by
      intro rm h1 h2
      constructor
      · intro hl
        refine ⟨(rmok rm h1 h2).1 hl.rm, ?_, ?_, List.pairwise_cons.2 ⟨?_, hl.dist⟩⟩
        · intro p' hp' hk'
          rcases List.mem_cons.1 hp' with rfl | hp'
          · exact hsome
          · have := hl.dl p' hp' hk'
            simp only [hdp] at this
            split at this
            · cases this
            · exact this
        · intro t h3 h4
          have hh : Hit (p :: l) s.cache (.ul t) := ⟨h3, h4⟩
          rcases (hhit _).1 hh with h | h
          · rw [h]; exact hsome
          · have := hl.ul t h.1 h.2
            simp only [hdp] at this
            split at this
            · cases this
            · exact this
        · intro p' hp' hkk
          apply Classical.byContradiction
          intro hnu
          have hnu' : ∀ t, p'.key ≠ .ul t := fun t ht => hnu (ulkey ⟨t, hkk.trans ht⟩)
          have := hl.dl p' hp' hnu'
          simp only [hdp, hkk, if_true] at this
          cases this
      · intro hl
        have hp := List.pairwise_cons.1 hl.dist
        refine ⟨(rmok rm h1 h2).2 hl.rm, ?_, ?_, hp.2⟩
        · intro p' hp' hk'
          simp only [hdp]
          split
          · rename_i e
            exact absurd (e.trans (hp.1 p' hp' e.symm)) (hk' _)
          · exact hl.dl p' (by simp [hp']) hk'
        · intro t h3 h4
          have hh : Hit l c (.ul t) := ⟨h3, h4⟩
          have h5 := (hhit (.ul t)).2 (Or.inr hh)
          simp only [hdp]
          split
          · rename_i e
            exfalso
            rcases hc with ⟨rfl, hnu⟩ | ⟨hk, rfl, hn⟩
            · exact hnu t e.symm
            · rw [hk] at e
              have := PdrKey.ul.inj e
              subst this
              simp at h3
          · exact hl.ul t h5.1 h5.2
    rcases rmlem { s with dp := dp, cache := c } rfl hd with ⟨ht, hrm, he⟩ | ⟨rm, h1, h2, he⟩
    · refine ⟨fun s1 h => (by rw [he] at h; cases h), fun _ hl => ?_⟩
      rcases hl.rm with h | h
      · exact h hrm
      · exact ht (h p (by simp))
    · refine ⟨fun s1 h => ?_, fun h => absurd he (h _)⟩
      rw [he] at h
      have h : { s with dp := dp, cache := c, rm := rm } = s1 := (Prod.mk.inj h).1
      subst h
      refine ⟨hloop rm h1 h2, fun b hb k => ?_⟩
      rw [hhit]
      have hbk := hb k
      constructor
      · rintro (rfl | h)
        · by_cases hh : Hit l c p.key
          · exact hbk.1 hh
          · rw [hbk.2 hh]; simp [hdp]
        · exact hbk.1 h
      · intro hn
        rw [hbk.2 (fun h => hn (Or.inr h))]
        simp only [hdp]
        rw [if_neg (fun h => hn (Or.inl h))]

/-- The loop over the PDRs, exactly. -/
theorem deletePdrs_exact (ord : Orders) : ∀ (l : List (U32 × SPdr)) (s : HS),
    ((∃ s', Act.each (fun e => deletePdr ord e.2) l s = (s', .ok ())) ↔ LoopOk (l.map Prod.snd) s) ∧
    ∀ s', Act.each (fun e => deletePdr ord e.2) l s = (s', .ok ()) → ∀ k,
      (Hit (l.map Prod.snd) s.cache k → s'.dp.entry? k = none) ∧ (¬ Hit (l.map Prod.snd) s.cache k → s'.dp.entry? k = s.dp.entry? k)
  | [], s => by
    refine ⟨⟨fun _ => ⟨Or.inr (by simp), by simp, fun t _ h => (by cases h), List.Pairwise.nil⟩, fun _ => ⟨s, rfl⟩⟩, ?_⟩
    intro s' h k
    cases h
    refine ⟨fun h => ?_, fun _ => rfl⟩
    cases k with
    | ul t => cases h.2
    | dl4 a => obtain ⟨p, hp, _⟩ := h; cases hp
    | dl6 a => obtain ⟨p, hp, _⟩ := h; cases hp
  | e :: l, s => by
    obtain ⟨d1, d2⟩ := deletePdr_exact ord e.2 (l.map Prod.snd) s
    have hcons : ∀ s', Act.each (fun e => deletePdr ord e.2) (e :: l) s = (s', .ok ()) ↔
        ∃ s1, deletePdr ord e.2 s = (s1, .ok ()) ∧ Act.each (fun e => deletePdr ord e.2) l s1 = (s', .ok ()) := by
      intro s'
      constructor
      · intro h
        have h : (deletePdr ord e.2 >>= fun _ => Act.each (fun e => deletePdr ord e.2) l) s = (s', .ok ()) := h
        obtain ⟨_, s1, h1, h2⟩ := bind_ok h
        exact ⟨s1, h1, h2⟩
      · rintro ⟨s1, h1, h2⟩
        show Act.bind (deletePdr ord e.2) (fun _ => Act.each _ l) s = _
        unfold Act.bind
        rw [h1]; exact h2
    constructor
    · constructor
      · rintro ⟨s', h⟩
        obtain ⟨s1, h1, h2⟩ := (hcons s').1 h
        exact (d1 s1 h1).1.1 ((deletePdrs_exact ord l s1).1.1 ⟨s', h2⟩)
      · intro hl
        by_cases hs : ∃ s1, deletePdr ord e.2 s = (s1, .ok ())
        · obtain ⟨s1, h1⟩ := hs
          obtain ⟨s', h2⟩ := (deletePdrs_exact ord l s1).1.2 ((d1 s1 h1).1.2 hl)
          exact ⟨s', (hcons s').2 ⟨s1, h1, h2⟩⟩
        · exact absurd hl (d2 (fun s1 h => hs ⟨s1, h⟩))
    · intro s' h
      obtain ⟨s1, h1, h2⟩ := (hcons s').1 h
      exact (d1 s1 h1).2 s'.dp ((deletePdrs_exact ord l s1).2 s' h2)

/-- from an empty cache, what the loop takes out is what the specification says -/
theorem hit_removes {l : List SPdr} {k : PdrKey} : Hit l GoMap.empty k ↔ Removes l k := by
  unfold Removes
  cases k with
  | ul t =>
    constructor
    · intro h
      refine ⟨?_, fun t' ht => ?_⟩
      · exact (firstTeid_mem h.2).2
      · cases ht; exact h.2
    · intro h; exact ⟨by simp, h.2 t rfl⟩
  | dl4 a => exact ⟨fun h => ⟨h, fun t ht => by cases ht⟩, fun h => h.1⟩
  | dl6 a => exact ⟨fun h => ⟨h, fun t ht => by cases ht⟩, fun h => h.1⟩

/-- the order in which a deletion visits the PDRs of a session -/
def Orders.visits (ord : Orders) (sess : Session) : List SPdr := (ord.pdrs.run sess.pdrs.entries).map Prod.snd

theorem mem_visits {ord : Orders} {sess : Session} {p : SPdr} : p ∈ ord.visits sess ↔ ∃ i, sess.pdrs.get? i = some p := by
  unfold Orders.visits
  simp only [List.mem_map, (ord.pdrs.perm _).mem_iff, Prod.exists, exists_eq_right, GoMap.mem_entries_iff]

section
variable {f q u : U32}

/-- the later loops of a deletion do not touch the PDR tables -/
theorem deleteBody_entries {ord : Orders} {sess : Session} {s s' : HS} (hok : deleteBody ord sess s = (s', .ok ())) :
    ∃ s1, Act.each (fun e => deletePdr ord e.2) (ord.pdrs.run sess.pdrs.entries) s = (s1, .ok ()) ∧
      ∀ k, s'.dp.entry? k = s1.dp.entry? k := by
  unfold deleteBody at hok
  obtain ⟨_, s1, e1, hok⟩ := bind_ok hok
  obtain ⟨_, s2, e2, hok⟩ := bind_ok hok
  obtain ⟨_, s3, e3, e4⟩ := bind_ok hok
  refine ⟨s1, e1, fun k => ?_⟩
  have keep : ∀ {α : Type} (g : α → Act HS Unit), (∀ x t, (g x t).1.dp.entry? k = t.dp.entry? k) → ∀ (l : List α) (a b : HS),
      Act.each g l a = (b, .ok ()) → b.dp.entry? k = a.dp.entry? k := by
    intro α g hg l
    induction l with
    | nil => intro a b h; cases h; rfl
    | cons x xs ih =>
      intro a b h
      have h : (g x >>= fun _ => Act.each g xs) a = (b, .ok ()) := h
      obtain ⟨_, c, h1, h2⟩ := bind_ok h
      rw [ih c b h2]
      have := hg x a
      rwa [h1] at this
  have k2 := keep dropFar (fun x t => by
    rw [dropFar_dp]; obtain ⟨_, _, e⟩ := deleteFar_frame t.dp x.2.gid; rw [e]; exact entry_pdr rfl rfl rfl k) _ _ _ e2
  have k3 := keep dropQer (fun x t => by
    rw [dropQer_dp]; obtain ⟨_, _, e⟩ := deleteQer_frame t.dp x.2.gid; rw [e]; exact entry_pdr rfl rfl rfl k) _ _ _ e3
  have k4 := keep dropUrr (fun x t => by
    rw [(dropUrr_dp _ _).1]; obtain ⟨_, _, e⟩ := deleteUrr_frame t.dp x.2.gid; rw [e]; exact entry_pdr rfl rfl rfl k) _ _ _ e4
  rw [k4, k3, k2]

/-- the later loops of a deletion always run to their end -/
theorem deleteBody_iff {ord : Orders} {sess : Session} {s : HS} (hz : Sized f q u s.dp) (hr : InRange f q u sess) :
    (deleteBody ord sess s).2 = .ok () ↔ LoopOk (ord.visits sess) s := by
  have hx := (deletePdrs_exact ord (ord.pdrs.run sess.pdrs.entries) s).1
  constructor
  · intro h
    obtain ⟨s1, h1, _⟩ := deleteBody_entries (s' := (deleteBody ord sess s).1) (ord := ord) (sess := sess) (s := s)
      (Prod.ext rfl h)
    exact hx.1 ⟨s1, h1⟩
  · intro hl
    obtain ⟨s1, e1⟩ := hx.2 hl
    have p1 : Sized f q u s1.dp := by
      have := (each_ok_all (L := ord.pdrs.run sess.pdrs.entries) (f := fun e => deletePdr ord e.2) (I := fun s => Sized f q u s.dp) (Q := fun _ _ => True)
        (fun x _ s h => h.part (deletePdr_part ord x.2 s).1)
        (fun _ _ _ _ _ _ _ => trivial) (fun _ _ _ _ _ => trivial) _ _ _ (fun _ h => h) hz e1).1
      exact this
    obtain ⟨s2, e2, z2⟩ := each_ok_of (f := dropFar) (I := fun s => Sized f q u s.dp) (ord.fars.run sess.fars.entries) s1 p1 (by
      intro x hx s h
      refine ⟨?_, by rw [dropFar_dp]; exact deleteFar_sized h _⟩
      have := (deleteFar_gone h (hr.far _ _ (mem_run_get _ _ x hx))).1
      unfold dropFar
      rcases hd : s.dp.deleteFar x.2.gid with ⟨d, b⟩
      rw [hd] at this; cases this; rfl)
    obtain ⟨s3, e3, z3⟩ := each_ok_of (f := dropQer) (I := fun s => Sized f q u s.dp) (ord.qers.run sess.qers.entries) s2 z2 (by
      intro x hx s h
      refine ⟨?_, by rw [dropQer_dp]; exact deleteQer_sized h _⟩
      have := (deleteQer_gone h (hr.qer _ _ (mem_run_get _ _ x hx))).1
      unfold dropQer
      rcases hd : s.dp.deleteQer x.2.gid with ⟨d, b⟩
      rw [hd] at this; cases this; rfl)
    obtain ⟨s4, e4, _⟩ := each_ok_of (f := dropUrr) (I := fun _ => True) (ord.urrs.run sess.urrs.entries) s3 trivial (by
      intro x hx s h
      refine ⟨?_, trivial⟩
      unfold dropUrr
      rcases hd : s.dp.deleteUrr x.2.gid with ⟨d, b⟩
      cases b <;> rfl)
    unfold deleteBody
    simp only [Act.bind_def, Act.bind, e1, e2, e3, e4]
end

/-- **C10, exactly.** What an accepted deletion does to the PDR tables, in every state, for every session and iteration order: it removes
the entries under the UE addresses of the session's PDRs, and of the TEIDs of its uplink PDRs only those that come first among the TEIDs
with the same low octet; every other entry stays as it is. -/
theorem C10_exact_partial {n : Node} {addr : Addr} {r : DelReq} {ord : Orders} {sess : Session} (hs : n.session? addr r.seid = some sess)
    {n' : Node} {resp : Resp} (hstep : n.step (.delete addr r ord) = (n', .reply resp)) (hacc : resp.cause = 1) (k : PdrKey) :
    (Removes (ord.visits sess) k → n'.dp.entry? k = none) ∧
    (¬ Removes (ord.visits sess) k → n'.dp.entry? k = n.dp.entry? k) := by
  have hstep' : n.delete addr r ord = (n', .reply resp) := hstep
  obtain ⟨a, sess', hs', ha, hsess, hb, he⟩ := delete_accepted (by rw [hstep']) hacc
  have : sess' = sess := by
    simp only [Node.session?, ha, Option.bind_some, hsess] at hs; exact Option.some.inj hs
  subst this
  obtain ⟨s1, h1, h2⟩ := deleteBody_entries hb
  have h3 := (deletePdrs_exact ord _ _).2 s1 h1 k
  rw [hstep'] at he
  have hn : n' = _ := congrArg Prod.fst he
  have hdp : n'.dp = hs'.dp := by rw [hn]; rfl
  rw [hdp, h2]
  rw [← hit_removes]
  exact h3

/-- **C10, negation.** Whenever a session has two uplink PDRs with different TEIDs that agree in the low octet, both installed, an accepted
deletion of the session leaves at least one of the two in the table, whatever the iteration order. -/
theorem C10_stale {n : Node} {addr : Addr} {r : DelReq} {ord : Orders} {sess : Session} (hs : n.session? addr r.seid = some sess)
    {i j : U32} {p p' : SPdr} (_hp : sess.pdrs.get? i = some p) (_hp' : sess.pdrs.get? j = some p') {t t' : U32}
    (_hk : p.key = .ul t) (_hk' : p'.key = .ul t') (hne : t ≠ t') (hlow : t.truncate 8 = t'.truncate 8)
    (hin : (n.dp.entry? (.ul t)).isSome) (hin' : (n.dp.entry? (.ul t')).isSome)
    {n' : Node} {resp : Resp} (hstep : n.step (.delete addr r ord) = (n', .reply resp)) (hacc : resp.cause = 1) :
    n'.session? addr r.seid = none ∧ ((n'.dp.entry? (.ul t)).isSome ∨ (n'.dp.entry? (.ul t')).isSome) := by
  constructor
  · obtain ⟨a, sess', hs', ha, hsess, hb, he⟩ := delete_accepted (n := n) (addr := addr) (r := r) (ord := ord) (resp := resp)
      (by rw [show n.delete addr r ord = (n', .reply resp) from hstep]) hacc
    rw [show n.delete addr r ord = (n', .reply resp) from hstep] at he
    have hn : n' = _ := congrArg Prod.fst he
    subst hn
    simp [Node.delResult, Node.session?]
  · have h1 := C10_exact_partial hs hstep hacc (.ul t)
    have h2 := C10_exact_partial hs hstep hacc (.ul t')
    by_cases hr : Removes (ord.visits sess) (.ul t)
    · right
      rw [h2.2]
      · exact hin'
      · intro hr'
        have e1 := hr.2 t rfl
        have e2 := hr'.2 t' rfl
        rw [hlow, e2] at e1
        exact hne (Option.some.inj e1).symm
    · left
      rw [h1.2 hr]; exact hin

/-- A deletion that visits the PDRs of a session in this order finds everything it removes: the entries under the UE addresses, which are
pairwise different, and, for each low octet, the entry under the first TEID. -/
structure Deletable (b : BpfObjects) (l : List SPdr) : Prop where
  downlink : ∀ p ∈ l, (∀ t, p.key ≠ .ul t) → (b.entry? p.key).isSome
  uplink : ∀ o t, firstTeid l o = some t → (b.entry? (.ul t)).isSome
  distinct : l.Pairwise (fun p p' => (∀ t, p.key ≠ .ul t) → p.key ≠ p'.key)

/-- **C11, exactly.** In every history and for every iteration order, a deletion request for an existing session is accepted if and only if
the entries it looks for are there and no two PDRs of the session have the same UE address (with working pools; otherwise it is not
answered at all, and the session stays). -/
theorem C11_exact_partial {cfg : NodeCfg} {rm : Option ResourceManager} {p f q u : U32} (hf : 0 < f.toNat) (hq : 0 < q.toNat)
    (hu : 0 < u.toNat) {h : List (Ev × Outcome)} {n : Node} (H : Hist (Node.init cfg rm (BpfObjects.load p f q u)) h n)
    {addr : Addr} {r : DelReq} {sess : Session} (hs : n.session? addr r.seid = some sess) (hrm : n.rm ≠ none) (ord : Orders) :
    (Deletable n.dp (ord.visits sess) →
      ∃ resp, (n.step (.delete addr r ord)).2 = .reply resp ∧ resp.cause = 1 ∧
        (n.step (.delete addr r ord)).1.session? addr r.seid = none) ∧
    (¬ Deletable n.dp (ord.visits sess) →
      (n.step (.delete addr r ord)).2 = .silent ∧ (n.step (.delete addr r ord)).1.session? addr r.seid = some sess) := by
  obtain ⟨hr, hz⟩ := ranges_hist hf hq hu H
  have hiff := deleteBody_iff (ord := ord) (s := n.hs sess) hz (hr _ _ _ hs)
  have hd : LoopOk (ord.visits sess) (n.hs sess) ↔ Deletable n.dp (ord.visits sess) := by
    constructor
    · intro hl
      refine ⟨hl.dl, fun o t ho => ?_, hl.dist.imp fun h hnu e => hnu _ (h e)⟩
      have := (firstTeid_mem ho).1
      subst this
      exact hl.ul t (by simp [Node.hs]) ho
    · intro hl
      refine ⟨Or.inl hrm, hl.downlink, fun t _ h => hl.uplink _ t h, hl.distinct.imp fun h e => ?_⟩
      exact ulkey (Classical.byContradiction fun hn => h (fun t ht => hn ⟨t, ht⟩) e)
  rw [hd] at hiff
  have hcalm : (deleteBody ord sess (n.hs sess)).2 ≠ .panic := ((Calm.bind (Calm.each fun _ _ => deletePdr_calm _ _) fun _ =>
    Calm.bind (Calm.each fun _ _ => dropFar_calm _) fun _ => Calm.bind (Calm.each fun _ _ => dropQer_calm _) fun _ =>
    Calm.each fun _ _ => dropUrr_calm _ : Calm (deleteBody ord sess)) (n.hs sess) hrm).1
  cases delete_cases n addr r ord with
  | refused c hcc hs' he => rw [hs] at hs'; cases hs'
  | ran a sess' hs' res ha hsess hbody he =>
    have : sess' = sess := by
      simp only [Node.session?, ha, Option.bind_some, hsess] at hs; exact Option.some.inj hs
    subst this
    have hst : n.step (.delete addr r ord) = _ := he
    rw [hbody] at hiff hcalm
    refine ⟨fun hdel => ?_, fun hdel => ?_⟩
    · have := hiff.2 hdel
      cases this
      rw [hst]
      exact ⟨_, rfl, rfl, by simp [Node.delResult, Node.session?]⟩
    · cases res with
      | ok x => exact absurd (hiff.1 rfl) hdel
      | panic => exact absurd rfl hcalm
      | err =>
        rw [hst]
        refine ⟨rfl, ?_⟩
        exact hs

/-- Non-vacuity of C10_exact_partial and C10_stale: the session with the TEIDs 1 and 257, both installed, and its deletion accepted. -/
example : ∃ h n sess p p', Hist Demo.n0 h n ∧ n.session? 1 2 = some sess ∧ sess.pdrs.get? 1 = some p ∧ sess.pdrs.get? 2 = some p' ∧
    p.key = .ul 1 ∧ p'.key = .ul 257 ∧ (1 : U32) ≠ 257 ∧ (1 : U32).truncate 8 = (257 : U32).truncate 8 ∧
    (n.dp.entry? (.ul 1)).isSome ∧ (n.dp.entry? (.ul 257)).isSome ∧
    (n.step (.delete 1 ⟨2, 9⟩ default)).2 = .reply { type := .deletion, seid := 100, seq := 9, cause := 1 } := by
  let n := (Demo.n0.run Demo.evsAlias).1
  let sess := (n.session? 1 2).get (by decide +kernel)
  exact ⟨Demo.n0.observed Demo.evsAlias, n, sess, (sess.pdrs.get? 1).get (by decide +kernel), (sess.pdrs.get? 2).get (by decide +kernel),
    hist_run_init _ (by decide +kernel), by simp [sess], by simp, by simp, by decide +kernel, by decide +kernel, by decide +kernel,
    by decide +kernel, by decide +kernel, by decide +kernel, by decide +kernel⟩

/-- Non-vacuity of C11_exact_partial, accepted: the session (1,3) of the demo state is deletable. -/
example : Demo.nEnd.rm ≠ none ∧ Deletable Demo.nEnd.dp ((default : Orders).visits Demo.s13) := by
  refine ⟨by decide +kernel, Classical.byContradiction fun hn => ?_⟩
  have := ((C11_exact_partial (by decide) (by decide) (by decide) Demo.hist_end (r := ⟨3, 7⟩) Demo.s13_eq (by decide +kernel) default).2 hn).1
  have h2 : (Demo.nEnd.step (.delete 1 ⟨3, 7⟩ default)).2 ≠ .silent := by decide +kernel
  exact h2 this

/-- Non-vacuity of C11_exact_partial, unanswered: the session with two PDRs for one UE address is not deletable. -/
example : ∃ h n sess, Hist Demo.n0 h n ∧ n.session? 1 2 = some sess ∧ n.rm ≠ none ∧ ¬ Deletable n.dp ((default : Orders).visits sess) := by
  let n := (Demo.n0.run Demo.evsSameIp).1
  let sess := (n.session? 1 2).get (by decide +kernel)
  have hh : Hist Demo.n0 (Demo.n0.observed Demo.evsSameIp) n := hist_run_init _ (by decide +kernel)
  have hs : n.session? 1 2 = some sess := by simp [sess]
  have hr : n.rm ≠ none := by decide +kernel
  refine ⟨_, n, sess, hh, hs, hr, fun hd => ?_⟩
  obtain ⟨resp, h, _⟩ := (C11_exact_partial (by decide) (by decide) (by decide) hh (r := ⟨2, 7⟩) hs hr default).1 hd
  have h2 : (n.step (.delete 1 ⟨2, 7⟩ default)).2 = .silent := by decide +kernel
  rw [h2] at h; cases h

/-! ### What losing a peer keeps -/

/-- the URR part of the tables and the UE addresses, which losing a peer does not touch -/
structure KeepsUrr (b : BpfObjects) (rm : Option ResourceManager) (b' : BpfObjects) (rm' : Option ResourceManager) : Prop where
  urr : b'.urr = b.urr
  ids : b'.urrIds = b.urrIds
  ipam : rm'.map ResourceManager.ipam = rm.map ResourceManager.ipam

theorem deletePdr_ipam (ord : Orders) (p : SPdr) (s : HS) :
    (deletePdr ord p s).1.rm.map ResourceManager.ipam = s.rm.map ResourceManager.ipam := by
  unfold deletePdr
  simp only [Act.bind_def, Act.bind]
  obtain ⟨_, _, h⟩ := deletePdrEntry_frame p s
  rcases hd : deletePdrEntry p s with ⟨s1, r⟩
  rw [hd] at h
  have h : s1 = _ := h
  have hrm : s1.rm = s.rm := by rw [h]
  cases r with
  | err => simp only [hrm]
  | panic => simp only [hrm]
  | ok _ =>
    simp only
    split
    · unfold releaseTeids
      rw [hrm]
      cases hr : s.rm with
      | none => simp [hrm, hr]
      | some m => simp
    · show s1.rm.map _ = _
      rw [hrm]

theorem deleteSessionBody_keeps (ord : Orders) (sess : Session) (s : HS) :
    KeepsUrr s.dp s.rm (deleteSessionBody ord sess s).1.dp (deleteSessionBody ord sess s).1.rm := by
  refine (deleteSessionBody_pres (I := fun t => KeepsUrr s.dp s.rm t.dp t.rm) (ord := ord) (sess := sess) ?_ ?_ ?_).apply ⟨rfl, rfl, rfl⟩
  · refine fun e _ => pres_of fun t h => ?_
    have p := (deletePdr_part ord e.2 t).1
    exact ⟨p.urr.trans h.urr, p.urrIds.trans h.ids, (deletePdr_ipam ord e.2 t).trans h.ipam⟩
  · refine fun e _ => pres_of fun t h => ?_
    rw [dropFar_dp]
    obtain ⟨_, _, he⟩ := deleteFar_frame t.dp e.2.gid
    rw [he]
    exact ⟨h.urr, h.ids, h.ipam⟩
  · refine fun e _ => pres_of fun t h => ?_
    rw [dropQer_dp]
    obtain ⟨_, _, he⟩ := deleteQer_frame t.dp e.2.gid
    rw [he]
    exact ⟨h.urr, h.ids, h.ipam⟩

theorem dropSessions_keeps (ord : Orders) : ∀ (l : List (U64 × Session)) (rm : Option ResourceManager) (b : BpfObjects),
    KeepsUrr b rm (dropSessions ord l rm b).2.1 (dropSessions ord l rm b).1
  | [], _, _ => ⟨rfl, rfl, rfl⟩
  | (_, sess) :: l, rm, b => by
    have h := deleteSessionBody_keeps ord sess ⟨sess, GoMap.empty, rm, b, [], []⟩
    have e := dropSessions_keeps ord l (deleteSessionBody ord sess ⟨sess, GoMap.empty, rm, b, [], []⟩).1.rm
      (deleteSessionBody ord sess ⟨sess, GoMap.empty, rm, b, [], []⟩).1.dp
    unfold dropSessions
    simp only
    split
    · exact h
    · exact ⟨e.urr.trans h.urr, e.ids.trans h.ids, e.ipam.trans h.ipam⟩

/-- **C45, negation in general.** In every state, losing a peer returns none of the URR slots of its sessions and none of their UE
addresses: the usage table, the set of its free slots and the address pool are what they were, whatever the sessions held. -/
theorem C45_keeps (n : Node) (addr : Addr) (ord : Orders) :
    (n.step (.peerLost addr ord)).1.dp.urr = n.dp.urr ∧ (n.step (.peerLost addr ord)).1.dp.urrIds = n.dp.urrIds ∧
    (n.step (.peerLost addr ord)).1.rm.map ResourceManager.ipam = n.rm.map ResourceManager.ipam := by
  show (n.deleteAssociation addr ord).1.dp.urr = _ ∧ (n.deleteAssociation addr ord).1.dp.urrIds = _ ∧
    (n.deleteAssociation addr ord).1.rm.map ResourceManager.ipam = _
  unfold Node.deleteAssociation
  cases n.assocs.get? addr with
  | none => exact ⟨rfl, rfl, rfl⟩
  | some a =>
    have h := dropSessions_keeps ord (ord.sessions.run a.sessions.entries) n.rm n.dp
    rcases hd : dropSessions ord (ord.sessions.run a.sessions.entries) n.rm n.dp with ⟨rm, dp, ok⟩
    rw [hd] at h
    simp only [hd]
    cases ok
    · exact ⟨h.urr, h.ids, h.ipam⟩
    · exact ⟨h.urr, h.ids, h.ipam⟩

/-- Non-vacuity of C45_keeps: the lost peer's session holds a URR slot and a UE address. -/
example : (Demo.nEnd.step (.peerLost 1 default)).2 = .silent ∧ Demo.s13.urrs.size = 1 ∧
    (∃ e ∈ Demo.s13.urrs.entries, Demo.nEnd.dp.urrIds.free e.2.gid = false) := by
  refine ⟨by decide +kernel, by decide +kernel, by decide +kernel⟩

end Eupf
