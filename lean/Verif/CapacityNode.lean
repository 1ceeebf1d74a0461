import Verif.CapacityLemmas
/-
No request and no lost peer leaves a slot behind (C94): bodies and node steps. Models no code.
-/
namespace Eupf
open Act

theorem nodup_some {α β : Type} {f : α → β} {l : List α} (h : (l.map f).Nodup) : (l.map (fun x => some (f x))).Nodup := by
  unfold List.Nodup at *
  rw [List.pairwise_map] at *
  exact h.imp fun hne e => hne (Option.some.inj e)

/-! ### bodies -/

theorem triple_aside {α : Type} {K : RuleKind} {s0 : HS} {m : Act HS α} (h : Pres (Aside K s0) m) : Triple (Aside K s0) m (fun _ => Aside K s0) (Leaves K s0) :=
  Triple.conseq h (fun _ h => h) (fun _ _ h => h) (fun _ h => h.leaves)

theorem triple_make {β : Type} {K : RuleKind} {g : β → Act HS Unit} {key : β → Option U32} (hg : ∀ c s, Made K (key c) s (g c s).1 (g c s).2)
    {l : List β} (hn : (l.map key).Nodup) {s0 : HS} (hf : ∀ c ∈ l, ∀ i, key c = some i → K.slot s0.sess i = none) :
    Triple (Aside K s0) (Act.each g l) (fun _ => Leaves K s0) (Leaves K s0) := by
  intro s hs
  have := hs.leaves.trans (each_made hg l s hn fun c hc i hi => by rw [hs.slot]; exact hf c hc i hi)
  generalize hx : Act.each g l s = x at this
  rcases x with ⟨s', r⟩
  simp only [hx]
  cases r <;> exact this

theorem display_aside (K : RuleKind) (s0 : HS) (l : List PdrIE) : Pres (Aside K s0) (Act.each displayPdr l) := display_pres l

theorem triple_apply {α : Type} {P E : HS → Prop} {m : Act HS α} (h : Triple P m (fun _ => E) E) {s : HS} (hs : P s) : E (m s).1 := by
  have := h s hs
  generalize m s = x at this ⊢
  rcases x with ⟨s', r⟩
  cases r <;> exact this

theorem establish_leaves (ue : Bool) (r : EstReq) {s0 : HS} (hid : NewIds r.createFar r.createQer r.createUrr s0.sess) {K : RuleKind} (hK : K.Is) :
    Leaves K s0 (establishBody ue r s0).1 := by
  have pdrA : Pres (Leaves K s0) (Act.each (createPdr ue) r.createPdr) := Pres.each fun ie _ => apart_pres_leaves (fun s0 => apart_create ue ie s0) hK s0
  refine triple_apply (P := Aside K s0) ?_ (.refl K s0)
  unfold establishBody
  refine Triple.bind (triple_aside (display_aside K s0 _)) fun _ => ?_
  cases hK with
  | far =>
    refine Triple.bind (triple_make createFar_made (nodup_some hid.far) ?_) fun _ => ?_
    · intro c hc i hi
      cases hi
      simp only [RuleKind.far, hid.farNew c hc]; rfl
    · exact Pres.bind (Pres.each fun ie _ => pres_leaves (fun s => (createQer_only ie s).aside.1.leaves) s0) fun _ =>
        Pres.bind (Pres.each fun ie _ => pres_leaves (fun s => (createUrr_only ie s).aside.1.leaves) s0) fun _ => pdrA
  | qer =>
    refine Triple.bind (triple_aside (Pres.each fun ie _ => pres_aside (fun s => (createFar_only ie s).aside.1) s0)) fun _ => ?_
    refine Triple.bind (triple_make createQer_made hid.qer ?_) fun _ => ?_
    · intro c hc i hi
      simp only [RuleKind.qer, hid.qerNew c hc i hi]; rfl
    · exact Pres.bind (Pres.each fun ie _ => pres_leaves (fun s => (createUrr_only ie s).aside.2.leaves) s0) fun _ => pdrA
  | urr =>
    refine Triple.bind (triple_aside (Pres.each fun ie _ => pres_aside (fun s => (createFar_only ie s).aside.2) s0)) fun _ => ?_
    refine Triple.bind (triple_aside (Pres.each fun ie _ => pres_aside (fun s => (createQer_only ie s).aside.2) s0)) fun _ => ?_
    refine Triple.bind (triple_make (key := id) createUrr_made (by simpa using hid.urr) ?_) fun _ => pdrA
    intro c hc i hi
    have hi : c = some i := hi
    subst hi
    simp only [RuleKind.urr, hid.urrNew i hc]; rfl

theorem modify_leaves (ue : Bool) (ord : Orders) (r : ModReq) {s0 : HS} (hid : NewIds r.createFar r.createQer r.createUrr s0.sess) {K : RuleKind} (hK : K.Is) :
    Leaves K s0 (modifyBody ue ord r s0).1 := by
  have pdrA : Pres (Leaves K s0) (Act.each (createPdr ue) r.createPdr) := Pres.each fun ie _ => apart_pres_leaves (fun s0 => apart_create ue ie s0) hK s0
  have pdrB : Pres (Leaves K s0) (Act.each (updatePdr ue) r.updatePdr) := Pres.each fun ie _ => apart_pres_leaves (fun s0 => apart_update ue ie s0) hK s0
  have pdrC : Pres (Leaves K s0) (Act.each (removePdr ord) r.removePdr) := Pres.each fun ie _ => apart_pres_leaves (fun s0 => apart_remove ord ie s0) hK s0
  refine triple_apply (P := Aside K s0) ?_ (.refl K s0)
  unfold modifyBody
  refine Triple.bind (triple_aside (display_aside K s0 _)) fun _ => ?_
  refine Triple.bind (triple_aside (display_aside K s0 _)) fun _ => ?_
  cases hK with
  | far =>
    refine Triple.bind (triple_make createFar_made (nodup_some hid.far) ?_) fun _ => ?_
    · intro c hc i hi
      cases hi
      simp only [RuleKind.far, hid.farNew c hc]; rfl
    · exact Pres.bind (Pres.each fun ie _ => pres_leaves (fun s => updateFar_leaves ie s) s0) fun _ =>
        Pres.bind (Pres.each fun ie _ => pres_leaves (fun s => removeFar_leaves ie s) s0) fun _ =>
        Pres.bind (Pres.each fun ie _ => pres_leaves (fun s => (createQer_only ie s).aside.1.leaves) s0) fun _ =>
        Pres.bind (Pres.each fun ie _ => pres_leaves (fun s => (updateQer_only ie s).aside.1.leaves) s0) fun _ =>
        Pres.bind (Pres.each fun ie _ => pres_leaves (fun s => (removeQer_only ie s).aside.1.leaves) s0) fun _ =>
        Pres.bind (Pres.each fun ie _ => pres_leaves (fun s => (createUrr_only ie s).aside.1.leaves) s0) fun _ =>
        Pres.bind (Pres.each fun ie _ => pres_leaves (fun s => (updateUrr_only ie s).aside.1.leaves) s0) fun _ =>
        Pres.bind (Pres.each fun ie _ => pres_leaves (fun s => (removeUrr_only ie s).aside.1.leaves) s0) fun _ =>
        Pres.bind pdrA fun _ => Pres.bind pdrB fun _ => pdrC
  | qer =>
    refine Triple.bind (triple_aside (Pres.each fun ie _ => pres_aside (fun s => (createFar_only ie s).aside.1) s0)) fun _ => ?_
    refine Triple.bind (triple_aside (Pres.each fun ie _ => pres_aside (fun s => (updateFar_only ie s).aside.1) s0)) fun _ => ?_
    refine Triple.bind (triple_aside (Pres.each fun ie _ => pres_aside (fun s => (removeFar_only ie s).aside.1) s0)) fun _ => ?_
    refine Triple.bind (triple_make createQer_made hid.qer ?_) fun _ => ?_
    · intro c hc i hi
      simp only [RuleKind.qer, hid.qerNew c hc i hi]; rfl
    · exact Pres.bind (Pres.each fun ie _ => pres_leaves (fun s => updateQer_leaves ie s) s0) fun _ =>
        Pres.bind (Pres.each fun ie _ => pres_leaves (fun s => removeQer_leaves ie s) s0) fun _ =>
        Pres.bind (Pres.each fun ie _ => pres_leaves (fun s => (createUrr_only ie s).aside.2.leaves) s0) fun _ =>
        Pres.bind (Pres.each fun ie _ => pres_leaves (fun s => (updateUrr_only ie s).aside.2.leaves) s0) fun _ =>
        Pres.bind (Pres.each fun ie _ => pres_leaves (fun s => (removeUrr_only ie s).aside.2.leaves) s0) fun _ =>
        Pres.bind pdrA fun _ => Pres.bind pdrB fun _ => pdrC
  | urr =>
    refine Triple.bind (triple_aside (Pres.each fun ie _ => pres_aside (fun s => (createFar_only ie s).aside.2) s0)) fun _ => ?_
    refine Triple.bind (triple_aside (Pres.each fun ie _ => pres_aside (fun s => (updateFar_only ie s).aside.2) s0)) fun _ => ?_
    refine Triple.bind (triple_aside (Pres.each fun ie _ => pres_aside (fun s => (removeFar_only ie s).aside.2) s0)) fun _ => ?_
    refine Triple.bind (triple_aside (Pres.each fun ie _ => pres_aside (fun s => (createQer_only ie s).aside.2) s0)) fun _ => ?_
    refine Triple.bind (triple_aside (Pres.each fun ie _ => pres_aside (fun s => (updateQer_only ie s).aside.2) s0)) fun _ => ?_
    refine Triple.bind (triple_aside (Pres.each fun ie _ => pres_aside (fun s => (removeQer_only ie s).aside.2) s0)) fun _ => ?_
    refine Triple.bind (triple_make (key := id) createUrr_made (by simpa using hid.urr) ?_) fun _ => ?_
    · intro c hc i hi
      have hi : c = some i := hi
      subst hi
      simp only [RuleKind.urr, hid.urrNew i hc]; rfl
    · exact Pres.bind (Pres.each fun ie _ => pres_leaves (fun s => updateUrr_leaves ie s) s0) fun _ =>
        Pres.bind (Pres.each fun ie _ => pres_leaves (fun s => removeUrr_leaves ie s) s0) fun _ =>
        Pres.bind pdrA fun _ => Pres.bind pdrB fun _ => pdrC

/-! ### deletions -/

/-- slots `G` were in the table before and are not in use now; nothing else was taken -/
structure Gone (K : RuleKind) (G : U32 → Prop) (dp dp' : BpfObjects) : Prop where
  keeps : K.size dp' = K.size dp
  sized : (K.ids dp).maxSize = K.size dp → (K.ids dp').maxSize = K.size dp'
  busy : (K.ids dp).maxSize = K.size dp → ∀ x, K.busy dp' x → K.busy dp x ∧ ¬ G x

theorem Gone.none (K : RuleKind) (dp : BpfObjects) : Gone K (fun _ => False) dp dp := ⟨rfl, fun h => h, fun _ _ h => ⟨h, fun h => h⟩⟩
theorem Gone.trans {K : RuleKind} {G G' : U32 → Prop} {dp dp' dp'' : BpfObjects} (h : Gone K G dp dp') (h' : Gone K G' dp' dp'') :
    Gone K (fun x => G x ∨ G' x) dp dp'' :=
  ⟨h'.keeps.trans h.keeps, fun hs => h'.sized (h.sized hs), fun hs x hb =>
    have ⟨h1, h2⟩ := h'.busy (h.sized hs) x hb
    have ⟨h3, h4⟩ := h.busy hs x h1
    ⟨h3, fun h => h.elim h4 h2⟩⟩
theorem Gone.mono {K : RuleKind} {G G' : U32 → Prop} {dp dp' : BpfObjects} (h : Gone K G dp dp') (hg : ∀ x, G' x → G x) : Gone K G' dp dp' :=
  ⟨h.keeps, h.sized, fun hs x hb => have ⟨h1, h2⟩ := h.busy hs x hb; ⟨h1, fun h => h2 (hg x h)⟩⟩
theorem Aside.gone {K : RuleKind} {s s' : HS} (h : Aside K s s') : Gone K (fun _ => False) s.dp s'.dp :=
  ⟨h.size, fun hs => by rw [h.ids, h.size]; exact hs, fun _ x hb => ⟨by unfold RuleKind.busy at *; rw [h.ids] at hb; exact hb, fun h => h⟩⟩
theorem Freed.gone {K : RuleKind} {g : U32} {dp dp' : BpfObjects} (h : Freed K g dp dp') : Gone K (fun x => x = g) dp dp' :=
  ⟨h.keeps, h.sized, fun hs x hb => have ⟨h1, h2⟩ := h.busy hs x hb; ⟨h2, h1⟩⟩

theorem dropFar_gone (e) (s : HS) : Gone .far (fun x => x = e.2.gid) s.dp (dropFar e s).1.dp := by
  unfold dropFar
  have fr := deleteFar_freed s.dp e.2.gid
  rcases hd : s.dp.deleteFar e.2.gid with ⟨dp, b⟩
  rw [hd] at fr
  cases b <;> exact fr.gone
theorem dropQer_gone (e) (s : HS) : Gone .qer (fun x => x = e.2.gid) s.dp (dropQer e s).1.dp := by
  unfold dropQer
  have fr := deleteQer_freed s.dp e.2.gid
  rcases hd : s.dp.deleteQer e.2.gid with ⟨dp, b⟩
  rw [hd] at fr
  cases b <;> exact fr.gone
theorem dropUrr_gone (e) (s : HS) : Gone .urr (fun x => x = e.2.gid) s.dp (dropUrr e s).1.dp := by
  unfold dropUrr
  have fr := deleteUrr_freed s.dp e.2.gid
  rcases hd : s.dp.deleteUrr e.2.gid with ⟨dp, b⟩
  rw [hd] at fr
  cases b <;> exact fr.gone

theorem ignore_dp (m : Act HS Unit) (s : HS) : (Act.ignore m s).1 = (m s).1 := by
  unfold Act.ignore
  rcases m s with ⟨s', r⟩
  cases r <;> rfl

/-- a loop of removals; nothing is promised about the slots removed unless the loop got to its end -/
theorem each_free {β : Type} {K : RuleKind} {g : β → Act HS Unit} {G : β → U32 → Prop} (hg : ∀ c s, Gone K (G c) s.dp (g c s).1.dp) :
    ∀ (l : List β) (s : HS), Gone K (fun _ => False) s.dp (Act.each g l s).1.dp ∧
      ((Act.each g l s).2 = .ok () → Gone K (fun x => ∃ c ∈ l, G c x) s.dp (Act.each g l s).1.dp)
  | [], s => ⟨Gone.none K _, fun _ => (Gone.none K _).mono fun x h => by obtain ⟨c, hc, _⟩ := h; cases hc⟩
  | c :: l, s => by
    have h1 := hg c s
    show Gone K _ s.dp (Act.bind (g c) (fun _ => Act.each g l) s).1.dp ∧ ((Act.bind (g c) (fun _ => Act.each g l) s).2 = .ok () → Gone K _ s.dp (Act.bind (g c) (fun _ => Act.each g l) s).1.dp)
    unfold Act.bind
    rcases hx : g c s with ⟨s1, r⟩
    rw [hx] at h1
    cases r with
    | err => exact ⟨h1.mono fun _ h => h.elim, (by intro h; cases h)⟩
    | panic => exact ⟨h1.mono fun _ h => h.elim, (by intro h; cases h)⟩
    | ok u =>
      obtain ⟨i1, i2⟩ := each_free hg l s1
      refine ⟨(h1.trans i1).mono fun _ h => h.elim, fun hr => (h1.trans (i2 hr)).mono ?_⟩
      rintro x ⟨c', hc', hx'⟩
      rcases List.mem_cons.1 hc' with rfl | hc'
      · exact .inl hx'
      · exact .inr ⟨c', hc', hx'⟩

theorem slot_far {x : Session} {g : U32} (h : RuleKind.has .far x g) (o : Orders) : ∃ e ∈ o.fars.run x.fars.entries, g = e.2.gid := by
  obtain ⟨i, hi⟩ := h
  obtain ⟨f, hf, rfl⟩ := Option.map_eq_some_iff.1 hi
  exact ⟨(i, f), (o.fars.perm _).mem_iff.2 ((x.fars.mem_entries_iff i f).2 hf), rfl⟩
theorem slot_qer {x : Session} {g : U32} (h : RuleKind.has .qer x g) (o : Orders) : ∃ e ∈ o.qers.run x.qers.entries, g = e.2.gid := by
  obtain ⟨i, hi⟩ := h
  obtain ⟨f, hf, rfl⟩ := Option.map_eq_some_iff.1 hi
  exact ⟨(i, f), (o.qers.perm _).mem_iff.2 ((x.qers.mem_entries_iff i f).2 hf), rfl⟩
theorem slot_urr {x : Session} {g : U32} (h : RuleKind.has .urr x g) (o : Orders) : ∃ e ∈ o.urrs.run x.urrs.entries, g = e.2.gid := by
  obtain ⟨i, hi⟩ := h
  obtain ⟨f, hf, rfl⟩ := Option.map_eq_some_iff.1 hi
  exact ⟨(i, f), (o.urrs.perm _).mem_iff.2 ((x.urrs.mem_entries_iff i f).2 hf), rfl⟩

theorem gone_bind {K : RuleKind} {m m' : Act HS Unit} {s : HS} {G G' : U32 → Prop}
    (h : Gone K (fun _ => False) s.dp (m s).1.dp ∧ ((m s).2 = .ok () → Gone K G s.dp (m s).1.dp))
    (h' : ∀ s1, Gone K (fun _ => False) s1.dp (m' s1).1.dp ∧ ((m' s1).2 = .ok () → Gone K G' s1.dp (m' s1).1.dp)) :
    Gone K (fun _ => False) s.dp ((m >>= fun _ => m') s).1.dp ∧
      (((m >>= fun _ => m') s).2 = .ok () → Gone K (fun x => G x ∨ G' x) s.dp ((m >>= fun _ => m') s).1.dp) := by
  show Gone K _ s.dp (Act.bind m (fun _ => m') s).1.dp ∧ ((Act.bind m (fun _ => m') s).2 = .ok () → Gone K _ s.dp (Act.bind m (fun _ => m') s).1.dp)
  unfold Act.bind
  rcases hx : m s with ⟨s1, r⟩
  rw [hx] at h
  cases r with
  | err => exact ⟨h.1, (by intro h; cases h)⟩
  | panic => exact ⟨h.1, (by intro h; cases h)⟩
  | ok u =>
    obtain ⟨i1, i2⟩ := h' s1
    exact ⟨(h.1.trans i1).mono fun _ h => h.elim, fun hr => (h.2 rfl).trans (i2 hr)⟩

theorem gone_none {K : RuleKind} {β : Type} {g : β → Act HS Unit} (hg : ∀ c s, Aside K s (g c s).1) (l : List β) (s : HS) :
    Gone K (fun _ => False) s.dp (Act.each g l s).1.dp ∧ ((Act.each g l s).2 = .ok () → Gone K (fun _ => False) s.dp (Act.each g l s).1.dp) :=
  have h := (each_free (G := fun _ _ => False) (fun c s => (hg c s).gone) l s).1
  ⟨h, fun _ => h⟩

theorem deleteBody_free (ord : Orders) (x : Session) (s : HS) {K : RuleKind} (hK : K.Is) :
    Gone K (fun _ => False) s.dp (deleteBody ord x s).1.dp ∧ ((deleteBody ord x s).2 = .ok () → Gone K (K.has x) s.dp (deleteBody ord x s).1.dp) := by
  have hp := gone_none (K := K) (g := fun e => deletePdr ord e.2)
    (fun (e : U32 × SPdr) s => (apart_pres_aside (fun s0 => apart_delete ord e.2 s0) hK s).apply (.refl K s)) (ord.pdrs.run x.pdrs.entries)
  unfold deleteBody
  cases hK with
  | far =>
    obtain ⟨h1, h2⟩ := gone_bind (hp s) fun s => gone_bind (each_free (fun e s => dropFar_gone e s) (ord.fars.run x.fars.entries) s) fun s =>
      gone_bind (gone_none (fun e s => (dropQer_only e s).aside.1) (ord.qers.run x.qers.entries) s) fun s =>
        gone_none (fun e s => (dropUrr_only e s).aside.1) (ord.urrs.run x.urrs.entries) s
    exact ⟨h1, fun hr => (h2 hr).mono fun g hg => .inr (.inl (slot_far hg ord))⟩
  | qer =>
    obtain ⟨h1, h2⟩ := gone_bind (hp s) fun s => gone_bind (gone_none (fun e s => (dropFar_only e s).aside.1) (ord.fars.run x.fars.entries) s) fun s =>
      gone_bind (each_free (fun e s => dropQer_gone e s) (ord.qers.run x.qers.entries) s) fun s =>
        gone_none (fun e s => (dropUrr_only e s).aside.2) (ord.urrs.run x.urrs.entries) s
    exact ⟨h1, fun hr => (h2 hr).mono fun g hg => .inr (.inr (.inl (slot_qer hg ord)))⟩
  | urr =>
    obtain ⟨h1, h2⟩ := gone_bind (hp s) fun s => gone_bind (gone_none (fun e s => (dropFar_only e s).aside.2) (ord.fars.run x.fars.entries) s) fun s =>
      gone_bind (gone_none (fun e s => (dropQer_only e s).aside.2) (ord.qers.run x.qers.entries) s) fun s =>
        each_free (fun e s => dropUrr_gone e s) (ord.urrs.run x.urrs.entries) s
    exact ⟨h1, fun hr => (h2 hr).mono fun g hg => .inr (.inr (.inr (slot_urr hg ord)))⟩

theorem deleteSessionBody_free (ord : Orders) (x : Session) (s : HS) {K : RuleKind} (hK : K = .far ∨ K = .qer) :
    Gone K (fun _ => False) s.dp (deleteSessionBody ord x s).1.dp ∧
      ((deleteSessionBody ord x s).2 = .ok () → Gone K (K.has x) s.dp (deleteSessionBody ord x s).1.dp) := by
  have hI : K.Is := by rcases hK with rfl | rfl; exact .far; exact .qer
  have hp := gone_none (K := K) (g := fun e => Act.ignore (deletePdr ord e.2))
    (fun (e : U32 × SPdr) s => by rw [ignore_dp]; exact (apart_pres_aside (fun s0 => apart_delete ord e.2 s0) hI s).apply (.refl K s)) (ord.pdrs.run x.pdrs.entries)
  unfold deleteSessionBody
  rcases hK with rfl | rfl
  · obtain ⟨h1, h2⟩ := gone_bind (each_free (g := fun e => Act.ignore (dropFar e)) (fun e s => by rw [ignore_dp]; exact dropFar_gone e s) (ord.fars.run x.fars.entries) s) fun s =>
      gone_bind (gone_none (g := fun e => Act.ignore (dropQer e)) (fun e s => by rw [ignore_dp]; exact (dropQer_only e s).aside.1) (ord.qers.run x.qers.entries) s) hp
    exact ⟨h1, fun hr => (h2 hr).mono fun g hg => .inl (slot_far hg ord)⟩
  · obtain ⟨h1, h2⟩ := gone_bind (gone_none (g := fun e => Act.ignore (dropFar e)) (fun e s => by rw [ignore_dp]; exact (dropFar_only e s).aside.1) (ord.fars.run x.fars.entries) s) fun s =>
      gone_bind (each_free (g := fun e => Act.ignore (dropQer e)) (fun e s => by rw [ignore_dp]; exact dropQer_gone e s) (ord.qers.run x.qers.entries) s) hp
    exact ⟨h1, fun hr => (h2 hr).mono fun g hg => .inr (.inl (slot_qer hg ord))⟩

/-- the URR table is left alone when a peer is lost -/
theorem deleteSessionBody_urr (ord : Orders) (x : Session) (s : HS) : Gone .urr (fun _ => False) s.dp (deleteSessionBody ord x s).1.dp := by
  have h : Pres (Aside .urr s) (deleteSessionBody ord x) :=
    Pres.bind (Pres.each fun e _ => Act.Pres.ignore (pres_aside (fun s => (dropFar_only e s).aside.2) s)) fun _ =>
    Pres.bind (Pres.each fun e _ => Act.Pres.ignore (pres_aside (fun s => (dropQer_only e s).aside.2) s)) fun _ =>
    Pres.each fun e _ => Act.Pres.ignore (apart_pres_aside (fun s0 => apart_delete ord e.2 s0) .urr s)
  exact (h.apply (.refl _ s)).gone

theorem dropSessions_free (ord : Orders) {K : RuleKind} (P : Session → U32 → Prop)
    (hb : ∀ x s, (deleteSessionBody ord x s).2 = .ok () → Gone K (P x) s.dp (deleteSessionBody ord x s).1.dp)
    (ho : ∀ x s, (deleteSessionBody ord x s).2 ≠ .err) : ∀ (l : List (U64 × Session)) (rm : Option ResourceManager) (dp : BpfObjects) rm' dp',
    dropSessions ord l rm dp = (rm', dp', true) → Gone K (fun g => ∃ e ∈ l, P e.2 g) dp dp'
  | [], rm, dp, rm', dp', h => by cases h; exact (Gone.none K _).mono fun x h => by obtain ⟨c, hc, _⟩ := h; cases hc
  | (seid, x) :: l, rm, dp, rm', dp', h => by
    unfold dropSessions at h
    simp only at h
    have h1 := hb x ⟨x, GoMap.empty, rm, dp, [], []⟩
    have h2 := ho x ⟨x, GoMap.empty, rm, dp, [], []⟩
    rcases hd : deleteSessionBody ord x ⟨x, GoMap.empty, rm, dp, [], []⟩ with ⟨s1, r⟩
    rw [hd] at h h1 h2
    cases r with
    | panic => cases h
    | err => exact absurd rfl h2
    | ok u =>
      have := (h1 rfl).trans (dropSessions_free ord P hb ho l _ _ _ _ h)
      refine this.mono ?_
      rintro g ⟨e, he, hg⟩
      rcases List.mem_cons.1 he with rfl | he
      · exact .inl hg
      · exact .inr ⟨e, he, hg⟩

theorem ignore_noErr (m : Act HS Unit) (s : HS) : (Act.ignore m s).2 ≠ .err := by
  unfold Act.ignore
  rcases m s with ⟨s', r⟩
  cases r <;> simp
theorem each_noErr {β : Type} {g : β → Act HS Unit} (hg : ∀ c s, (g c s).2 ≠ .err) : ∀ (l : List β) (s : HS), (Act.each g l s).2 ≠ .err
  | [], s => by intro h; cases h
  | c :: l, s => by
    have h1 := hg c s
    show (Act.bind (g c) (fun _ => Act.each g l) s).2 ≠ .err
    unfold Act.bind
    rcases hx : g c s with ⟨s1, r⟩
    rw [hx] at h1
    cases r with
    | err => exact absurd rfl h1
    | panic => simp
    | ok u => exact each_noErr hg l s1
theorem bind_noErr {m m' : Act HS Unit} (h : ∀ s, (m s).2 ≠ .err) (h' : ∀ s, (m' s).2 ≠ .err) (s : HS) : ((m >>= fun _ => m') s).2 ≠ .err := by
  show (Act.bind m (fun _ => m') s).2 ≠ .err
  unfold Act.bind
  rcases hx : m s with ⟨s1, r⟩
  have h1 := h s
  rw [hx] at h1
  cases r with
  | err => exact absurd rfl h1
  | panic => simp
  | ok u => exact h' s1
theorem deleteSessionBody_noErr (ord : Orders) (x : Session) (s : HS) : (deleteSessionBody ord x s).2 ≠ .err := by
  unfold deleteSessionBody
  exact bind_noErr (fun s => each_noErr (fun e s => ignore_noErr _ s) _ s) (bind_noErr (fun s => each_noErr (fun e s => ignore_noErr _ s) _ s)
    (fun s => each_noErr (fun e s => ignore_noErr _ s) _ s)) s

/-! ### the node -/

/-- the allocator covers the table, and every slot in use belongs to a live session -/
structure SlotsHeld (K : RuleKind) (z : U32) (n : Node) : Prop where
  keeps : K.size n.dp = z
  sized : (K.ids n.dp).maxSize = K.size n.dp
  held : ∀ g, K.busy n.dp g → ∃ a s x, n.session? a s = some x ∧ K.has x g

theorem SlotsHeld.of_same {K : RuleKind} {z : U32} {n n' : Node} (h : SlotsHeld K z n) (hdp : n'.dp = n.dp)
    (hs : ∀ a s x, n.session? a s = some x → n'.session? a s = some x) : SlotsHeld K z n' :=
  ⟨by rw [hdp]; exact h.keeps, by rw [hdp]; exact h.sized, fun g hg => by
    rw [hdp] at hg
    obtain ⟨a, s, x, h1, h2⟩ := h.held g hg
    exact ⟨a, s, x, hs a s x h1, h2⟩⟩

theorem SlotsHeld.traffic {K : RuleKind} {z : U32} (hK : K.Is) {n : Node} {dp : BpfObjects} (h : SlotsHeld K z n) (t : TrafficEffect n.dp dp) : SlotsHeld K z { n with dp := dp } := by
  have hi : K.ids dp = K.ids n.dp := by cases hK; exact t.farIds; exact t.qerIds; exact t.urrIds
  have hs : K.size dp = K.size n.dp := by
    cases hK
    · exact congrArg ArrMap.size t.far
    · exact t.qerSize
    · exact t.urrSize
  exact ⟨hs.trans h.keeps, by rw [hi, hs]; exact h.sized, fun g hg => by
    have hg : K.busy n.dp g := by unfold RuleKind.busy at *; rw [hi] at hg; exact hg
    exact h.held g hg⟩

/-- the part of `Tidy` one table needs -/
structure TidyFor (K : RuleKind) (n : Node) (e : Ev) : Prop where
  est : ∀ a r, e = .establish a r → NewIds r.createFar r.createQer r.createUrr (Session.new 0 0) ∧ (n.step e).2.noFailure
  modif : ∀ a r o x, e = .modify a r o → n.session? a r.seid = some x → NewIds r.createFar r.createQer r.createUrr x
  urr : K.slot = RuleKind.urr.slot → LosesNoUrr n e

theorem NewIds.same {fars : List FarIE} {qers : List QerIE} {urrs : List (Option U32)} {x y : Session} (h : NewIds fars qers urrs x)
    (h1 : y.fars = x.fars) (h2 : y.qers = x.qers) (h3 : y.urrs = x.urrs) : NewIds fars qers urrs y :=
  ⟨h.far, fun c hc => by rw [h1]; exact h.farNew c hc, h.qer, fun c hc j hj => by rw [h2]; exact h.qerNew c hc j hj, h.urr, fun j hj => by rw [h3]; exact h.urrNew j hj⟩

theorem has_congr {K : RuleKind} (hK : K.Is) {x y : Session} (h1 : y.fars = x.fars) (h2 : y.qers = x.qers) (h3 : y.urrs = x.urrs) (g : U32) : K.has y g ↔ K.has x g := by
  cases hK <;> simp only [RuleKind.has, RuleKind.far, RuleKind.qer, RuleKind.urr, h1, h2, h3]

theorem slotsHeld_step {K : RuleKind} {z : U32} (hK : K.Is) {n : Node} {e : Ev} (h : SlotsHeld K z n) (ht : TidyFor K n e) (hc : (n.step e).2 ≠ .crash)
    (hfresh : ∀ a as, n.assocs.get? a = some as → n.session? a (as.nextSessionID + 1) = none) : SlotsHeld K z (n.step e).1 := by
  have other : e.isNodeMsg = true → SlotsHeld K z (n.step e).1 := by
    intro he
    rcases other_step n e he with h1 | ⟨b, hbn, h1⟩
    · rw [h1]; exact h
    · rw [h1]
      refine h.of_same rfl fun a s x hx => ?_
      simp only [Node.session?, GoMap.get?_set] at hx ⊢
      split
      · rename_i e; subst e; rw [hbn] at hx; cases hx
      · exact hx
  cases e with
  | assocSetup => exact other rfl
  | assocSetupResp => exact other rfl
  | assocUpdate => exact other rfl
  | heartbeatReq => exact other rfl
  | heartbeatResp => exact other rfl
  | setConfig => exact ⟨h.keeps, h.sized, h.held⟩
  | establish addr r =>
    obtain ⟨hid, hnf⟩ := ht.est addr r rfl
    simp only [Node.step] at *
    cases establish_cases n addr r with
    | refused c hcc he => rw [he]; exact h
    | ran remote a hs res _ hcp ha hbody hl hrem he =>
      rw [he] at hc hnf ⊢
      have hl := establish_leaves n.ueip r (s0 := n.hs (Session.new (a.nextSessionID + 1) remote)) (hid.same rfl rfl rfl) hK
      rw [hbody] at hl
      cases res with
      | panic => exact absurd rfl hc
      | err => exact absurd rfl (hnf _ rfl)
      | ok u =>
        cases u
        refine ⟨hl.keeps.trans h.keeps, hl.sized h.sized, fun g hg => ?_⟩
        rcases hl.leaves h.sized g hg with h1 | ⟨h1, _⟩
        · refine ⟨addr, a.nextSessionID + 1, hs.sess, ?_, h1⟩
          simp [Node.estResult, Node.session?, Assoc.bumped, GoMap.get?_set]
        · obtain ⟨b, s, x, hx, hh⟩ := h.held g h1
          refine ⟨b, s, x, ?_, hh⟩
          have hne : b = addr → s ≠ a.nextSessionID + 1 := by
            rintro rfl rfl
            rw [hfresh b a ha] at hx; cases hx
          simp only [Node.session?, Node.estResult, GoMap.get?_set] at hx ⊢
          split
          · rename_i e
            subst e
            rw [ha] at hx
            simp only [Option.bind_some, Assoc.bumped] at hx ⊢
            exact (GoMap.get?_set ..).trans ((if_neg (hne rfl)).trans hx)
          · exact hx
  | modify addr r ord =>
    simp only [Node.step] at *
    cases modify_cases n addr r ord with
    | refused c x hcc hs he => rw [he]; exact h
    | ran a sess hs res ha hsess hbody hl hrem he =>
      have hx : n.session? addr r.seid = some sess := by simp [Node.session?, ha, hsess]
      obtain ⟨e1, e2, e3, -⟩ := setRemote_rules sess r.cpFseid
      have hid : NewIds r.createFar r.createQer r.createUrr (sess.setRemote r.cpFseid) := (ht.modif addr r ord sess rfl hx).same e1 e2 e3
      have hl := modify_leaves n.ueip ord r (s0 := n.hs (sess.setRemote r.cpFseid)) hid hK
      rw [hbody] at hl
      rw [he]
      refine ⟨hl.keeps.trans h.keeps, hl.sized h.sized, fun g hg => ?_⟩
      rcases hl.leaves h.sized g hg with h1 | ⟨h1, h2⟩
      · refine ⟨addr, r.seid, hs.sess, ?_, h1⟩
        simp [Node.modResult, Node.session?, GoMap.get?_set]
      · obtain ⟨b, s, x, hxb, hh⟩ := h.held g h1
        refine ⟨b, s, x, ?_, hh⟩
        have hne : b = addr → s ≠ r.seid := by
          rintro rfl rfl
          rw [hx] at hxb
          cases hxb
          exact h2 ((has_congr hK e1 e2 e3 g).2 hh)
        simp only [Node.session?, Node.modResult, GoMap.get?_set] at hxb ⊢
        split
        · rename_i e
          subst e
          rw [ha] at hxb
          exact (GoMap.get?_set ..).trans ((if_neg (hne rfl)).trans hxb)
        · exact hxb
  | delete addr r ord =>
    simp only [Node.step] at *
    cases delete_cases n addr r ord with
    | refused c hcc hs he => rw [he]; exact h
    | ran a sess hs res ha hsess hbody he =>
      have hx : n.session? addr r.seid = some sess := by simp [Node.session?, ha, hsess]
      obtain ⟨g1, g2⟩ := deleteBody_free ord sess (n.hs sess) hK
      rw [hbody] at g1 g2
      rw [he]
      have keep : ∀ n' : Node, n'.dp = hs.dp → (∀ a s, n'.session? a s = n.session? a s) → SlotsHeld K z n' := fun n' hd hs' =>
        ⟨by rw [hd]; exact g1.keeps.trans h.keeps, by rw [hd]; exact g1.sized h.sized, fun g hg => by
          rw [hd] at hg
          obtain ⟨b, s, x, h1, h2⟩ := h.held g (g1.busy h.sized g hg).1
          exact ⟨b, s, x, by rw [hs']; exact h1, h2⟩⟩
      cases res with
      | err => exact keep _ rfl fun _ _ => rfl
      | panic => exact keep _ rfl fun _ _ => rfl
      | ok u =>
        cases u
        refine ⟨(g2 rfl).keeps.trans h.keeps, (g2 rfl).sized h.sized, fun g hg => ?_⟩
        obtain ⟨h1, h2⟩ := (g2 rfl).busy h.sized g hg
        obtain ⟨b, s, x, hxb, hh⟩ := h.held g h1
        refine ⟨b, s, x, ?_, hh⟩
        have hne : b = addr → s ≠ r.seid := by
          rintro rfl rfl
          rw [hx] at hxb
          cases hxb
          exact h2 hh
        simp only [Node.session?, Node.delResult, GoMap.get?_set] at hxb ⊢
        split
        · rename_i e
          subst e
          rw [ha] at hxb
          simp only [Option.bind_some, GoMap.get?_erase]
          rw [if_neg (hne rfl)]
          exact hxb
        · exact hxb
  | peerLost addr ord =>
    have hurr := fun hk => ht.urr hk
    simp only [Node.step, Node.deleteAssociation] at *
    cases ha : n.assocs.get? addr with
    | none => simp only [ha] at hc; exact absurd rfl hc
    | some a =>
      simp only [ha] at hc ⊢
      rcases hd : dropSessions ord (ord.sessions.run a.sessions.entries) n.rm n.dp with ⟨rm, dp, ok⟩
      rw [hd] at hc
      cases ok with
      | false => exact absurd rfl hc
      | true =>
        have key : ∃ P : Session → U32 → Prop, Gone K (fun g => ∃ e ∈ ord.sessions.run a.sessions.entries, P e.2 g) n.dp dp ∧
            ∀ s x g, n.session? addr s = some x → K.has x g → P x g := by
          cases hK with
          | far => exact ⟨RuleKind.has .far, dropSessions_free ord _ (fun x s hr => (deleteSessionBody_free ord x s (.inl rfl)).2 hr) (deleteSessionBody_noErr ord) _ _ _ _ _ hd, fun _ _ _ _ h => h⟩
          | qer => exact ⟨RuleKind.has .qer, dropSessions_free ord _ (fun x s hr => (deleteSessionBody_free ord x s (.inr rfl)).2 hr) (deleteSessionBody_noErr ord) _ _ _ _ _ hd, fun _ _ _ _ h => h⟩
          | urr =>
            refine ⟨fun _ _ => False, dropSessions_free ord _ (fun x s hr => deleteSessionBody_urr ord x s) (deleteSessionBody_noErr ord) _ _ _ _ _ hd, fun s x g hx hh => ?_⟩
            obtain ⟨i, hi⟩ := hh
            simp only [RuleKind.urr, hurr rfl addr ord s x rfl hx i] at hi
            cases hi
        obtain ⟨P, hgone, hP⟩ := key
        refine ⟨hgone.keeps.trans h.keeps, hgone.sized h.sized, fun g hg => ?_⟩
        obtain ⟨h1, h2⟩ := hgone.busy h.sized g hg
        obtain ⟨b, s, x, hxb, hh⟩ := h.held g h1
        have hne : b ≠ addr := by
          rintro rfl
          refine h2 ⟨(s, x), ?_, hP s x g hxb hh⟩
          simp only [Node.session?, ha, Option.bind_some] at hxb
          exact (ord.sessions.perm _).mem_iff.2 ((a.sessions.mem_entries_iff s x).2 hxb)
        refine ⟨b, s, x, ?_, hh⟩
        simp only [Node.session?, GoMap.get?_erase] at hxb ⊢
        rw [if_neg hne]
        exact hxb

theorem slotsHeld_init {K : RuleKind} (hK : K.Is) {cfg : NodeCfg} {rm : Option ResourceManager} {p f q u : U32} :
    SlotsHeld K (K.size (BpfObjects.load p f q u)) (Node.init cfg rm (BpfObjects.load p f q u)) := by
  cases hK <;> refine ⟨rfl, rfl, fun g ⟨h1, h2⟩ => ?_⟩ <;>
  · simp only [RuleKind.far, RuleKind.qer, RuleKind.urr, Node.init, BpfObjects.load, IdTracker.new] at h1 h2
    simp only [decide_eq_false_iff_not] at h2
    exact absurd h1 h2

theorem slotsHeld_hist {K : RuleKind} (hK : K.Is) {P : Node → Ev → Prop} (hP : ∀ n e, P n e → TidyFor K n e) {cfg : NodeCfg} {rm : Option ResourceManager}
    {p f q u : U32} {h : List (Ev × Outcome)} {n : Node} (H : HistP P (Node.init cfg rm (BpfObjects.load p f q u)) h n) (hb : attempts h < 2 ^ 64 - 2) : SlotsHeld K (K.size (BpfObjects.load p f q u)) n := by
  induction H with
  | init => exact slotsHeld_init hK
  | @step h' n' e H' hp hc ih =>
    have hb' : attempts h' < 2 ^ 64 - 2 := by have := attempts_cons (e, (n'.step e).2) h'; omega
    refine slotsHeld_step hK (ih hb') (hP n' e hp) hc fun a as ha => ?_
    cases hx : n'.session? a (as.nextSessionID + 1) with
    | none => rfl
    | some x => exact absurd rfl ((linv_hist H'.hist hb').fresh hb' (a := a) (s := as.nextSessionID + 1) (by rw [hx]; simp) as ha)
  | traffic _ t ih => exact (ih hb).traffic hK t

end Eupf
