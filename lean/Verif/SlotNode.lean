import Verif.SlotSteps
/- Node steps keep the slot invariant. -/
namespace Eupf
open Act

/-- the sessions of a node, by owner -/
def Node.view (n : Node) : View := fun k => k.bind (fun x => n.session? x.1 x.2)

def View.del (view : View) (k : Option (Addr × U64)) : View := fun x => if x = k then none else view x

theorem SlotsX.mono {c : SlotCmp} {view view' : View} {dp : BpfObjects} (h : SlotsX c view dp)
    (hs : ∀ k s, view' k = some s → view k = some s) : SlotsX c view' dp := by
  refine ⟨h.far.mono ?_, h.qer.mono ?_, h.urr.mono ?_⟩
  all_goals
    rintro ⟨k, i⟩ x hx
    simp only [ownFar, ownQer, ownUrr] at *
    cases hv : view' k with
    | none => rw [hv] at hx; cases hx
    | some s => rw [hv] at hx; rw [hs k s hv]; exact hx

theorem upd_self {view : View} {k : Option (Addr × U64)} {s : Session} (h : view k = some s) : view.upd k s = view := by
  funext x; unfold View.upd; split
  · rename_i e; rw [e, h]
  · rfl

theorem slots_del_of_upd {c : SlotCmp} {view : View} {k : Option (Addr × U64)} {s : Session} {dp : BpfObjects}
    (h : SlotsX c (view.upd k s) dp) : SlotsX c (view.del k) dp :=
  h.mono (fun x s' hx => by
    unfold View.del at hx
    split at hx
    · cases hx
    · rename_i hne; simp [View.upd, hne, hx])

/-- An establishment starts with a session that owns nothing. -/
theorem slots_new {c : SlotCmp} {view : View} {k : Option (Addr × U64)} {l r : U64} {dp : BpfObjects} (h : SlotsX c view dp) :
    SlotsX c (view.upd k (Session.new l r)) dp := by
  refine ⟨h.far.mono ?_, h.qer.mono ?_, h.urr.mono ?_⟩
  · rintro ⟨o, i⟩ x hx
    by_cases ho : o = k
    · subst ho; rw [ownFar_upd] at hx; simp [Session.new] at hx
    · rw [ownFar_upd_ne ho] at hx; exact hx
  · rintro ⟨o, i⟩ x hx
    by_cases ho : o = k
    · subst ho; rw [ownQer_upd] at hx; simp [Session.new] at hx
    · rw [ownQer_upd_ne ho] at hx; exact hx
  · rintro ⟨o, i⟩ x hx
    by_cases ho : o = k
    · subst ho; rw [ownUrr_upd] at hx; simp [Session.new] at hx
    · rw [ownUrr_upd_ne ho] at hx; exact hx

/-- A successful establishment stores its session under the new SEID. -/
theorem slots_move {view view' : View} {s : Session} {dp : BpfObjects} (K : Addr × U64)
    (h : Slots (view.upd none s) dp) (hn : view' none = none)
    (hv : ∀ x, view' (some x) ≠ none → (x = K ∧ view' (some x) = some s) ∨ (x ≠ K ∧ view' (some x) = view (some x))) :
    Slots view' dp := by
  have key : ∀ k y, view' k = some y → (if k = some K then (view.upd none s) none else (view.upd none s) k) = some y ∧
      k ≠ none := by
    intro k y hy
    cases k with
    | none => rw [hn] at hy; cases hy
    | some x =>
      refine ⟨?_, by simp⟩
      rcases hv x (by rw [hy]; simp) with ⟨rfl, h2⟩ | ⟨h1, h2⟩
      · rw [hy] at h2; cases h2; simp [View.upd]
      · rw [hy] at h2; simp [View.upd, h1, h2]
  have hinj : ∀ k k' : Owner, k.1 ≠ none → k'.1 ≠ none →
      (if k.1 = some K then ((none, k.2) : Owner) else k) = (if k'.1 = some K then (none, k'.2) else k') → k = k' := by
    rintro ⟨k1, k2⟩ ⟨j1, j2⟩ h1 h2 h3
    simp only at h1 h2 h3
    split at h3 <;> split at h3
    · rename_i e1 e2; rw [e1, e2]; simpa using h3
    · exact absurd (Prod.mk.inj h3).1.symm h2
    · exact absurd (Prod.mk.inj h3).1 h1
    · exact h3
  refine ⟨h.far.rename (fun k : Owner => if k.1 = some K then (none, k.2) else k) ?_ ?_,
    h.qer.rename (fun k : Owner => if k.1 = some K then (none, k.2) else k) ?_ ?_,
    h.urr.rename (fun k : Owner => if k.1 = some K then (none, k.2) else k) ?_ ?_⟩
  case refine_1 | refine_3 | refine_5 =>
    intro k k' x y h1 h2 h3
    simp only [ownFar, ownQer, ownUrr] at h1 h2
    refine hinj k k' ?_ ?_ h3
    · intro e; rw [e, hn] at h1; cases h1
    · intro e; rw [e, hn] at h2; cases h2
  case refine_2 | refine_4 | refine_6 =>
    rintro ⟨k, i⟩ x h1
    simp only [ownFar, ownQer, ownUrr] at h1 ⊢
    cases hy : view' k with
    | none => rw [hy] at h1; cases h1
    | some y =>
      rw [hy] at h1
      have := (key k y hy).1
      split
      · rename_i e; rw [if_pos e] at this; simp only; rw [this]; exact h1
      · rename_i e; rw [if_neg e] at this; simp only; rw [this]; exact h1

section drops
variable {c : SlotCmp} {view : View} {k : Option (Addr × U64)}

/-- Dropping FARs one by one: never fails, and what is left is owned correctly. -/
theorem dropFars {m : U32 × SFar → Act HS Unit} (hm : ∀ e s, (dropFar e s).2 = .ok () → m e s = dropFar e s) :
    ∀ (l : List (U32 × SFar)) (x : Session) (s : HS), (l.map Prod.fst).Nodup →
    (∀ e ∈ l, x.fars.get? e.1 = some e.2) → SlotsX c (view.upd k x) s.dp →
    ∃ s' x', Act.each m l s = (s', .ok ()) ∧ SlotsX c (view.upd k x') s'.dp ∧ x'.qers = x.qers ∧ x'.urrs = x.urrs ∧
      s'.sess = s.sess
  | [], x, s, _, _, h => ⟨s, x, rfl, h, rfl, rfl, rfl⟩
  | e :: l, x, s, hn, hx, h => by
    simp only [List.map_cons, List.nodup_cons] at hn
    have he := hx e (by simp)
    obtain ⟨dp, h1, h2⟩ := removeFar_slots (s := { s with sess := x }) (i := e.1) h (by simp [he])
    have hg : (x.getFar e.1).gid = e.2.gid := by simp [Session.getFar, he]
    have hd : dropFar e s = ({ s with dp := dp }, .ok ()) := by
      unfold dropFar; rw [← hg, h1]
    obtain ⟨s', x', h3, h4, h5, h6, h7⟩ := dropFars hm l (x.removeFar e.1) { s with dp := dp } hn.2 (by
      intro e' he'
      have hne : e'.1 ≠ e.1 := by
        intro h; exact hn.1 (List.mem_map.2 ⟨e', he', h⟩)
      simp only [Session.removeFar, GoMap.get?_erase, if_neg hne]
      exact hx e' (by simp [he'])) h2
    refine ⟨s', x', ?_, h4, h5, h6, h7⟩
    show Act.bind (m e) (fun _ => Act.each m l) s = _
    unfold Act.bind
    rw [hm e s (by rw [hd]), hd]
    exact h3

theorem dropQers {m : U32 × SQer → Act HS Unit} (hm : ∀ e s, (dropQer e s).2 = .ok () → m e s = dropQer e s) :
    ∀ (l : List (U32 × SQer)) (x : Session) (s : HS), (l.map Prod.fst).Nodup →
    (∀ e ∈ l, x.qers.get? e.1 = some e.2) → SlotsX c (view.upd k x) s.dp →
    ∃ s' x', Act.each m l s = (s', .ok ()) ∧ SlotsX c (view.upd k x') s'.dp ∧ x'.fars = x.fars ∧ x'.urrs = x.urrs ∧
      s'.sess = s.sess
  | [], x, s, _, _, h => ⟨s, x, rfl, h, rfl, rfl, rfl⟩
  | e :: l, x, s, hn, hx, h => by
    simp only [List.map_cons, List.nodup_cons] at hn
    have he := hx e (by simp)
    obtain ⟨dp, h1, h2⟩ := removeQer_slots (s := { s with sess := x }) (i := e.1) h (by simp [he])
    have hg : (x.getQer e.1).gid = e.2.gid := by simp [Session.getQer, he]
    have hd : dropQer e s = ({ s with dp := dp }, .ok ()) := by
      unfold dropQer; rw [← hg, h1]
    obtain ⟨s', x', h3, h4, h5, h6, h7⟩ := dropQers hm l (x.removeQer e.1) { s with dp := dp } hn.2 (by
      intro e' he'
      have hne : e'.1 ≠ e.1 := by
        intro h; exact hn.1 (List.mem_map.2 ⟨e', he', h⟩)
      simp only [Session.removeQer, GoMap.get?_erase, if_neg hne]
      exact hx e' (by simp [he'])) h2
    refine ⟨s', x', ?_, h4, h5, h6, h7⟩
    show Act.bind (m e) (fun _ => Act.each m l) s = _
    unfold Act.bind
    rw [hm e s (by rw [hd]), hd]
    exact h3

theorem dropUrrs :
    ∀ (l : List (U32 × SUrr)) (x : Session) (s : HS), (l.map Prod.fst).Nodup →
    (∀ e ∈ l, x.urrs.get? e.1 = some e.2) → SlotsX c (view.upd k x) s.dp →
    ∃ s' x', Act.each dropUrr l s = (s', .ok ()) ∧ SlotsX c (view.upd k x') s'.dp ∧ s'.sess = s.sess
  | [], x, s, _, _, h => ⟨s, x, rfl, h, rfl⟩
  | e :: l, x, s, hn, hx, h => by
    simp only [List.map_cons, List.nodup_cons] at hn
    have he := hx e (by simp)
    obtain ⟨dp, h1, h2⟩ := removeUrr_slots (s := { s with sess := x }) (i := e.1) h (by simp [he])
    have hg : (x.getUrr e.1).gid = e.2.gid := by simp [Session.getUrr, he]
    rw [hg] at h1
    obtain ⟨s', x', h3, h4, h7⟩ := dropUrrs l (x.removeUrr e.1)
      { s with dp := dp, reports := s.reports ++ [mkReport e.1 e.2 (s.dp.urr.val e.2.gid)] } hn.2 (by
      intro e' he'
      have hne : e'.1 ≠ e.1 := by
        intro h; exact hn.1 (List.mem_map.2 ⟨e', he', h⟩)
      simp only [Session.removeUrr, GoMap.get?_erase, if_neg hne]
      exact hx e' (by simp [he'])) h2
    refine ⟨s', x', ?_, h4, h7⟩
    have hd : dropUrr e s =
        ({ s with dp := dp, reports := s.reports ++ [mkReport e.1 e.2 (s.dp.urr.val e.2.gid)] }, .ok ()) := by
      unfold dropUrr; simp only at h1; rw [h1]
    show Act.bind (dropUrr e) (fun _ => Act.each dropUrr l) s = _
    unfold Act.bind
    rw [hd]
    exact h3

end drops

theorem each_perm_nodup {V : Type} (sh : Shuffle (U32 × V)) (m : GoMap U32 V) :
    ((sh.run m.entries).map Prod.fst).Nodup := ((sh.perm m.entries).map Prod.fst).nodup_iff.2 m.nodup

theorem mem_run_get {V : Type} (sh : Shuffle (U32 × V)) (m : GoMap U32 V) (e : U32 × V) (h : e ∈ sh.run m.entries) :
    m.get? e.1 = some e.2 := (m.mem_entries_iff e.1 e.2).1 ((sh.perm _).mem_iff.1 h)

/-- A session deletion: fails only while removing PDRs, before any slot is touched. -/
theorem deleteBody_slots {c : SlotCmp} {view : View} {k : Option (Addr × U64)} {sess : Session} (hv : view k = some sess) (ord : Orders)
    {hs0 hs : HS} {res : Res Unit} (he : hs0.sess = sess) (h : SlotsX c view hs0.dp)
    (hb : deleteBody ord sess hs0 = (hs, res)) :
    (res = .ok () → SlotsX c (view.del k) hs.dp) ∧ (res ≠ .ok () → SlotsX c view hs.dp) := by
  have hi : HSlotsX c view k hs0 := by unfold HSlotsX; rw [he, upd_self hv]; exact h
  have hp : Pres (fun s => HSlotsX c view k s ∧ s.sess = sess)
      (Act.each (fun e => deletePdr ord e.2) (ord.pdrs.run sess.pdrs.entries)) := by
    apply Pres.each; intro e _
    apply deletePdr_pres
    · apply pres_of; rintro s ⟨h, h'⟩
      obtain ⟨h1, h2⟩ := deletePdrEntry_part e.2 s
      exact ⟨h.part h1 (by rw [h2]) (by rw [h2]) (by rw [h2]), by rw [h2]; exact h'⟩
    · apply pres_of; rintro s ⟨h, h'⟩; obtain ⟨c, e⟩ := releaseTeids_frame ord s; rw [e]; exact ⟨h, h'⟩
  have h1 := hp.apply (s := hs0) ⟨hi, he⟩
  unfold deleteBody at hb
  simp only [Act.bind_def] at hb
  rcases hm : Act.each (fun e => deletePdr ord e.2) (ord.pdrs.run sess.pdrs.entries) hs0 with ⟨s1, r1⟩
  rw [hm] at h1
  simp only [Act.bind, hm] at hb
  have h1s : SlotsX c view s1.dp := by
    have := h1.1; unfold HSlotsX at this; rw [h1.2, upd_self hv] at this; exact this
  cases r1 with
  | err => cases hb; exact ⟨(by intro h; cases h), fun _ => h1s⟩
  | panic => cases hb; exact ⟨(by intro h; cases h), fun _ => h1s⟩
  | ok _ =>
    simp only at hb
    obtain ⟨s2, x2, e2, i2, q2, u2, _⟩ := dropFars (m := dropFar) (fun _ _ _ => rfl) (ord.fars.run sess.fars.entries) sess s1
      (each_perm_nodup _ _) (fun e he => mem_run_get _ _ e he) (by rw [upd_self hv]; exact h1s) (k := k)
    rw [e2] at hb
    simp only at hb
    obtain ⟨s3, x3, e3, i3, f3, u3, _⟩ := dropQers (m := dropQer) (fun _ _ _ => rfl) (ord.qers.run sess.qers.entries) x2 s2
      (each_perm_nodup _ _) (fun e he => by rw [q2]; exact mem_run_get _ _ e he) i2
    rw [e3] at hb
    simp only at hb
    obtain ⟨s4, x4, e4, i4, _⟩ := dropUrrs (ord.urrs.run sess.urrs.entries) x3 s3
      (each_perm_nodup _ _) (fun e he => by rw [u3, u2]; exact mem_run_get _ _ e he) i3
    rw [e4] at hb
    cases hb
    exact ⟨fun _ => slots_del_of_upd i4, fun h => absurd rfl h⟩

theorem ignore_eq {m : Act HS Unit} {s : HS} (h : (m s).2 = .ok ()) : Act.ignore m s = m s := by
  unfold Act.ignore
  rcases hm : m s with ⟨s', r⟩
  rw [hm] at h
  cases h; rfl

/-- Dropping a session with its association. -/
theorem deleteSessionBody_slots {c : SlotCmp} {view : View} {k : Option (Addr × U64)} {sess : Session} (hv : view k = some sess)
    (ord : Orders) {hs0 : HS} (h : SlotsX c view hs0.dp) : SlotsX c (view.del k) (deleteSessionBody ord sess hs0).1.dp := by
  obtain ⟨s2, x2, e2, i2, q2, u2, _⟩ := dropFars (m := fun e => Act.ignore (dropFar e))
    (fun _ _ h => ignore_eq h) (ord.fars.run sess.fars.entries) sess hs0
    (each_perm_nodup _ _) (fun e he => mem_run_get _ _ e he) (by rw [upd_self hv]; exact h) (k := k)
  obtain ⟨s3, x3, e3, i3, f3, u3, _⟩ := dropQers (m := fun e => Act.ignore (dropQer e))
    (fun _ _ h => ignore_eq h) (ord.qers.run sess.qers.entries) x2 s2
    (each_perm_nodup _ _) (fun e he => by rw [q2]; exact mem_run_get _ _ e he) i2
  have hp : Pres (fun s : HS => SlotsX c (view.upd k x3) s.dp)
      (Act.each (fun e => Act.ignore (deletePdr ord e.2)) (ord.pdrs.run sess.pdrs.entries)) := by
    apply Pres.each; intro e _
    apply Act.Pres.ignore
    apply deletePdr_pres
    · apply pres_of; intro s h
      obtain ⟨h1, h2⟩ := deletePdrEntry_part e.2 s
      exact slots_pdr h h1.far h1.qer h1.urr h1.farIds h1.qerIds h1.urrIds
    · apply pres_of; intro s h; obtain ⟨c, e⟩ := releaseTeids_frame ord s; rw [e]; exact h
  have h4 := hp.apply (s := s3) i3
  unfold deleteSessionBody
  simp only [Act.bind_def, Act.bind, e2, e3]
  exact slots_del_of_upd h4

theorem dropSessions_slots {c : SlotCmp} (ord : Orders) (addr : Addr) : ∀ (l : List (U64 × Session)) (view : View) (rm : Option ResourceManager)
    (dp : BpfObjects), (l.map Prod.fst).Nodup → (∀ e ∈ l, view (some (addr, e.1)) = some e.2) → SlotsX c view dp →
    ∀ rm' dp', dropSessions ord l rm dp = (rm', dp', true) →
      SlotsX c (fun x => if (∃ e ∈ l, x = some (addr, e.1)) then none else view x) dp'
  | [], view, rm, dp, _, _, h, rm', dp', hd => by
    cases hd; exact h.mono (fun k s hk => by simpa using hk)
  | (seid, sess) :: l, view, rm, dp, hn, hv, h, rm', dp', hd => by
    simp only [List.map_cons, List.nodup_cons] at hn
    unfold dropSessions at hd
    have h1 := deleteSessionBody_slots (hv (seid, sess) (by simp)) ord
      (hs0 := ⟨sess, GoMap.empty, rm, dp, [], []⟩) h
    simp only at hd
    split at hd
    · cases hd
    · have := dropSessions_slots ord addr l (view.del (some (addr, seid))) _ _ hn.2 (by
        intro e he
        have hne : (some (addr, e.1) : Option (Addr × U64)) ≠ some (addr, seid) := by
          intro h2; simp only [Option.some.injEq, Prod.mk.injEq, true_and] at h2
          exact hn.1 (List.mem_map.2 ⟨e, he, h2⟩)
        simp only [View.del, if_neg hne]
        exact hv e (by simp [he])) h1 _ _ hd
      refine this.mono ?_
      intro x s hx
      simp only [View.del]
      split at hx
      · cases hx
      · rename_i hne
        have h2 : ¬ ∃ e ∈ l, x = some (addr, e.1) := by
          rintro ⟨e, he, rfl⟩; exact hne ⟨e, by simp [he], rfl⟩
        have h3 : x ≠ some (addr, seid) := by
          rintro rfl; exact hne ⟨(seid, sess), by simp, rfl⟩
        rw [if_neg h2, if_neg h3]; exact hx

theorem Slots.traffic {view : View} {dp dp' : BpfObjects} (h : Slots view dp) (t : TrafficEffect dp dp') :
    Slots view dp' := by
  refine ⟨?_, ?_, ?_⟩
  · rw [t.far, t.farIds]; exact h.far
  · refine ⟨by rw [t.qerIds, t.qerSize]; exact h.qer.size, h.qer.excl, ?_⟩
    intro k g v hk
    obtain ⟨h1, h2, h3⟩ := h.qer.ok k g v hk
    exact ⟨by rw [t.qerSize]; exact h1, by rw [t.qerIds]; exact h2, (t.qerVal g).trans h3⟩
  · refine ⟨by rw [t.urrIds, t.urrSize]; exact h.urr.size, h.urr.excl, ?_⟩
    intro k g v hk
    obtain ⟨h1, h2, h3⟩ := h.urr.ok k g v hk
    exact ⟨by rw [t.urrSize]; exact h1, by rw [t.urrIds]; exact h2, trivial⟩

/-- Every step with known references keeps the invariant. -/
theorem slots_step {n : Node} (e : Ev) (h : Slots n.view n.dp) (hr : e.refsKnown n) (hc : (n.step e).2 ≠ .crash) :
    Slots (n.step e).1.view (n.step e).1.dp := by
  have other : e.isNodeMsg = true → Slots (n.step e).1.view (n.step e).1.dp := by
    intro he
    rcases other_step n e he with h1 | ⟨b, hbn, h1⟩
    · rw [h1]; exact h
    · rw [h1]
      refine h.mono ?_
      intro k s hk
      cases k with
      | none => cases hk
      | some x =>
        simp only [Node.view, Node.session?, Option.bind_some, GoMap.get?_set] at hk ⊢
        split at hk
        · simp [Assoc.new] at hk
        · exact hk
  cases e with
  | assocSetup => exact other rfl
  | assocSetupResp => exact other rfl
  | assocUpdate => exact other rfl
  | heartbeatReq => exact other rfl
  | heartbeatResp => exact other rfl
  | setConfig => exact h
  | establish addr r =>
    simp only [Node.step] at *
    cases establish_cases n addr r with
    | refused c hcc he => rw [he]; exact h
    | ran remote a hs res hid hcp ha hbody hl hrem he =>
      rw [he] at hc ⊢
      have hi0 : HSlots n.view none (n.hs (Session.new (a.nextSessionID + 1) remote)) := by
        exact slots_new h
      have hi := (establishBody_slots (view := n.view) (k := none) n.ueip r (fun _ => ⟨id, id⟩)).apply hi0
      rw [hbody] at hi
      cases res with
      | panic => exact absurd rfl hc
      | err =>
        refine hi.mono ?_
        intro k s hk
        cases k with
        | none => cases hk
        | some x =>
          simp only [View.upd, reduceCtorEq, if_false]
          simp only [Node.view, Node.session?, Node.estResult, Option.bind_some, GoMap.get?_set] at hk ⊢
          split at hk
          · rename_i e; rw [e, ha]; exact hk
          · exact hk
      | ok u =>
        cases u
        refine slots_move (addr, a.nextSessionID + 1) hi rfl ?_
        intro x hx
        obtain ⟨x1, x2⟩ := x
        simp only [Node.view, Node.session?, Node.estResult, Option.bind_some, GoMap.get?_set]
        by_cases e : x1 = addr
        · subst e
          simp only [if_true, Option.bind_some, Assoc.bumped, ha]
          by_cases e2 : x2 = a.nextSessionID + 1
          · subst e2; exact Or.inl ⟨rfl, (GoMap.get?_set ..).trans (if_pos rfl)⟩
          · exact Or.inr ⟨fun h => e2 (Prod.mk.inj h).2, (GoMap.get?_set ..).trans (if_neg e2)⟩
        · exact Or.inr ⟨fun h => e (Prod.mk.inj h).1, by rw [if_neg e]⟩
  | modify addr r ord =>
    simp only [Node.step] at *
    cases modify_cases n addr r ord with
    | refused c x hcc hs he => rw [he]; exact h
    | ran a sess hs res ha hsess hbody hl hrem he =>
      have hv : n.view (some (addr, r.seid)) = some sess := by simp [Node.view, Node.session?, ha, hsess]
      have hk : RefsKnown r sess := hr sess (by simp [Node.session?, ha, hsess])
      have hk' : RefsKnown r (sess.setRemote r.cpFseid) := by
        unfold Session.setRemote; split
        · exact ⟨hk.1, hk.2, hk.3, hk.4, hk.5, hk.6, hk.7, hk.8, hk.9⟩
        · exact hk
      have hi := modifyBody_slots (view := n.view) (k := some (addr, r.seid)) n.ueip ord r
        (sess.setRemote r.cpFseid) hk' (n.hs (sess.setRemote r.cpFseid)) rfl (by
          refine slots_of (s := sess) (by rw [upd_self hv]; exact h) ?_ ?_ ?_ <;>
          · unfold Session.setRemote Node.hs; split <;> rfl) (fun _ _ _ _ h => h) (fun _ _ _ _ h => h) (fun _ _ h => h) (fun _ _ h => h)
      rw [hbody] at hi
      rw [he]
      refine SlotsX.mono hi ?_
      intro k s hk
      cases k with
      | none => cases hk
      | some x =>
        simp only [View.upd, Option.some.injEq]
        simp only [Node.view, Node.session?, Node.modResult, Option.bind_some, GoMap.get?_set] at hk ⊢
        split at hk
        · rename_i e
          obtain ⟨x1, x2⟩ := x
          simp only at e; subst e
          simp only [Option.bind_some, GoMap.get?_set, Prod.mk.injEq, true_and] at hk ⊢
          split at hk
          · rename_i e2; rw [if_pos e2]; exact hk
          · rename_i e2; rw [if_neg e2, ha]; exact hk
        · rename_i e
          have : x ≠ (addr, r.seid) := by rintro rfl; exact e rfl
          rw [if_neg this]; exact hk
  | delete addr r ord =>
    simp only [Node.step] at *
    cases delete_cases n addr r ord with
    | refused c hcc hs he => rw [he]; exact h
    | ran a sess hs res ha hsess hbody he =>
      have hv : n.view (some (addr, r.seid)) = some sess := by simp [Node.view, Node.session?, ha, hsess]
      have hd := deleteBody_slots hv ord (hs0 := n.hs sess) rfl h hbody
      rw [he]
      cases res with
      | err => exact hd.2 (by simp)
      | panic => exact hd.2 (by simp)
      | ok u =>
        cases u
        refine (hd.1 rfl).mono ?_
        intro k s hk
        cases k with
        | none => cases hk
        | some x =>
          obtain ⟨x1, x2⟩ := x
          simp only [View.del, Option.some.injEq]
          simp only [Node.view, Node.session?, Node.delResult, Option.bind_some, GoMap.get?_set] at hk ⊢
          split at hk
          · rename_i e; subst e
            simp only [Option.bind_some, GoMap.get?_erase, Prod.mk.injEq, true_and] at hk ⊢
            split at hk
            · cases hk
            · rename_i e2; rw [if_neg e2, ha]; exact hk
          · rename_i e
            have : (x1, x2) ≠ (addr, r.seid) := fun h => e (Prod.mk.inj h).1
            rw [if_neg this]; exact hk
  | peerLost addr ord =>
    simp only [Node.step, Node.deleteAssociation] at *
    cases ha : n.assocs.get? addr with
    | none => simp only [ha] at hc; exact absurd rfl hc
    | some a =>
      simp only [ha] at hc ⊢
      rcases hd : dropSessions ord (ord.sessions.run a.sessions.entries) n.rm n.dp with ⟨rm, dp, ok⟩
      rw [hd] at hc
      cases ok with
      | false => exact absurd rfl hc
      | true =>
        have := dropSessions_slots ord addr _ n.view n.rm n.dp
          (((ord.sessions.perm a.sessions.entries).map Prod.fst).nodup_iff.2 a.sessions.nodup) (by
            intro e he
            have := (a.sessions.mem_entries_iff e.1 e.2).1 ((ord.sessions.perm _).mem_iff.1 he)
            simp [Node.view, Node.session?, ha, this]) h rm dp hd
        refine this.mono ?_
        intro k s hk
        cases k with
        | none => cases hk
        | some x =>
          obtain ⟨x1, x2⟩ := x
          simp only [Node.view, Node.session?, Option.bind_some, GoMap.get?_erase] at hk ⊢
          split at hk
          · cases hk
          · rename_i e
            have : ¬ ∃ e ∈ ord.sessions.run a.sessions.entries, (some (x1, x2) : Option (Addr × U64)) = some (addr, e.1) := by
              rintro ⟨y, _, h2⟩
              simp only [Option.some.injEq, Prod.mk.injEq] at h2
              exact e h2.1
            rw [if_neg this]; exact hk

end Eupf
