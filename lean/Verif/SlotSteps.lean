import Verif.Slots
import Verif.Spec.KnownRefs
/- Handler bodies keep the slot invariant. -/
namespace Eupf
open Act

variable {c : SlotCmp} {view : View} {k : Option (Addr × U64)}

/-- rule maps of the session other than FARs are as in `s0` -/
def sameQU (s0 : Session) (s : HS) : Prop := s.sess.qers = s0.qers ∧ s.sess.urrs = s0.urrs
def sameU (s0 : Session) (s : HS) : Prop := s.sess.urrs = s0.urrs

/-! ### creates -/

theorem createFar_slots (s0 : Session) (P : U32 → Prop) (ie : FarIE) :
    Triple (fun s => HSlotsX c view k s ∧ sameQU s0 s ∧ ∀ i, P i → (s.sess.fars.get? i).isSome) (createFar ie)
      (fun _ s => HSlotsX c view k s ∧ sameQU s0 s ∧ ∀ i, P i ∨ i = ie.farId.getD 0 → (s.sess.fars.get? i).isSome)
      (HSlotsX c view k) := by
  rintro s ⟨h, hq, hp⟩
  unfold createFar
  cases composeFarInfo ie {} with
  | err => exact h
  | panic => exact h
  | ok f =>
    have hn := newFar_slots h (ie.farId.getD 0) f
    simp only
    rcases hd : s.dp.newFar f with ⟨dp, g⟩
    cases g with
    | none => exact hn.2 dp hd
    | some g =>
      refine ⟨hn.1 dp g hd, hq, ?_⟩
      intro i hi
      simp only [Session.newFar, GoMap.get?_set]
      split
      · rfl
      · rename_i hne
        rcases hi with hi | hi
        · exact hp i hi
        · exact absurd hi hne

theorem createQer_slots (s0 : Session) (P : U32 → Prop) (ie : QerIE) (hf : ∀ i, ie.qerId = some i → ¬ c.fix (k, i)) :
    Triple (fun s => HSlotsX c view k s ∧ sameU s0 s ∧ ∀ i, P i → (s.sess.qers.get? i).isSome) (createQer ie)
      (fun _ s => HSlotsX c view k s ∧ sameU s0 s ∧ ∀ i, P i ∨ some i = ie.qerId → (s.sess.qers.get? i).isSome)
      (HSlotsX c view k) := by
  rintro s ⟨h, hq, hp⟩
  unfold createQer
  cases hid : ie.qerId with
  | none => exact h
  | some id =>
    have hn := newQer_slots h id (hf id hid) (mergeQer {} ie)
    simp only
    rcases hd : s.dp.newQer (mergeQer {} ie) with ⟨dp, g⟩
    cases g with
    | none => exact hn.2 dp hd
    | some g =>
      refine ⟨hn.1 dp g hd, hq, ?_⟩
      intro i hi
      simp only [Session.newQer, GoMap.get?_set]
      split
      · rfl
      · rename_i hne
        rcases hi with hi | hi
        · exact hp i hi
        · cases hi; exact absurd rfl hne

theorem createUrr_slots (P : U32 → Prop) (ie : Option U32) (hf : ∀ i, ie = some i → ¬ c.ufix (k, i)) :
    Triple (fun s => HSlotsX c view k s ∧ ∀ i, P i → (s.sess.urrs.get? i).isSome) (createUrr ie)
      (fun _ s => HSlotsX c view k s ∧ ∀ i, P i ∨ some i = ie → (s.sess.urrs.get? i).isSome)
      (HSlotsX c view k) := by
  rintro s ⟨h, hp⟩
  unfold createUrr
  cases hid : ie with
  | none => exact h
  | some id =>
    have hn := newUrr_slots h id (hf id hid) {}
    simp only
    rcases hd : s.dp.newUrr {} with ⟨dp, g⟩
    cases g with
    | none => exact hn.2 dp hd
    | some g =>
      refine ⟨hn.1 dp g hd, ?_⟩
      intro i hi
      simp only [Session.newUrr, GoMap.get?_set]
      split
      · rfl
      · rename_i hne
        rcases hi with hi | hi
        · exact hp i hi
        · cases hi; exact absurd rfl hne

/-! ### updates -/

theorem updateFar_slots' (s0 : Session) (P : U32 → Prop) (ie : FarIE) (hk : ∀ i, ie.farId = some i → P i) :
    Triple (fun s => HSlotsX c view k s ∧ sameQU s0 s ∧ ∀ i, P i → (s.sess.fars.get? i).isSome) (updateFar ie)
      (fun _ s => HSlotsX c view k s ∧ sameQU s0 s ∧ ∀ i, P i → (s.sess.fars.get? i).isSome)
      (HSlotsX c view k) := by
  rintro s ⟨h, hq, hp⟩
  unfold updateFar
  cases hid : ie.farId with
  | none => exact h
  | some id =>
    simp only
    cases composeFarInfo ie (s.sess.getFar id).info with
    | err => exact h
    | panic => exact h
    | ok f =>
      obtain ⟨dp, hu, hn⟩ := updateFar_slots h (hp id (hk id hid)) f
      simp only [hu]
      refine ⟨hn, hq, ?_⟩
      intro i hi
      simp only [Session.updateFar, GoMap.get?_set]
      split
      · rfl
      · exact hp i hi

theorem updateQer_slots' (s0 : Session) (P : U32 → Prop) (ie : QerIE) (hk : ∀ i, ie.qerId = some i → P i) (hf : ∀ i, ie.qerId = some i → ¬ c.fix (k, i)) :
    Triple (fun s => HSlotsX c view k s ∧ sameU s0 s ∧ ∀ i, P i → (s.sess.qers.get? i).isSome) (updateQer ie)
      (fun _ s => HSlotsX c view k s ∧ sameU s0 s ∧ ∀ i, P i → (s.sess.qers.get? i).isSome)
      (HSlotsX c view k) := by
  rintro s ⟨h, hq, hp⟩
  unfold updateQer
  cases hid : ie.qerId with
  | none => exact h
  | some id =>
    simp only
    obtain ⟨dp, hu, hn⟩ := updateQer_slots h (hf id hid) (hp id (hk id hid)) (mergeQer (s.sess.getQer id).info ie)
    simp only [hu]
    refine ⟨hn, hq, ?_⟩
    intro i hi
    simp only [Session.updateQer, GoMap.get?_set]
    split
    · rfl
    · exact hp i hi

theorem updateUrr_slots' (P : U32 → Prop) (ie : Option U32) (hk : ∀ i, ie = some i → P i) (hf : ∀ i, ie = some i → ¬ c.ufix (k, i)) :
    Triple (fun s => HSlotsX c view k s ∧ ∀ i, P i → (s.sess.urrs.get? i).isSome) (updateUrr ie)
      (fun _ s => HSlotsX c view k s ∧ ∀ i, P i → (s.sess.urrs.get? i).isSome)
      (HSlotsX c view k) := by
  rintro s ⟨h, hp⟩
  unfold updateUrr
  cases hid : ie with
  | none => exact h
  | some id =>
    simp only
    obtain ⟨dp, hu, hn⟩ := updateUrr_slots h (hf id hid) (hp id (hk id hid)) (s.sess.getUrr id).info
    simp only [hu]
    refine ⟨hn, ?_⟩
    intro i hi
    simp only [Session.updateUrr, GoMap.get?_set]
    split
    · rfl
    · exact hp i hi

/-! ### removes -/

theorem removeFar_slots' (s0 : Session) (id : Option U32) (rest : List U32) (hnd : id.getD 0 ∉ rest) :
    Triple (fun s => HSlotsX c view k s ∧ sameQU s0 s ∧ ∀ i ∈ id.getD 0 :: rest, (s.sess.fars.get? i).isSome) (removeFar id)
      (fun _ s => HSlotsX c view k s ∧ sameQU s0 s ∧ ∀ i ∈ rest, (s.sess.fars.get? i).isSome)
      (HSlotsX c view k) := by
  rintro s ⟨h, hq, hp⟩
  unfold removeFar
  simp only
  obtain ⟨dp, hu, hn⟩ := removeFar_slots h (hp (id.getD 0) (by simp))
  simp only [hu]
  refine ⟨hn, hq, ?_⟩
  intro i hi
  have hne : i ≠ id.getD 0 := by rintro rfl; exact hnd hi
  simp only [Session.removeFar, GoMap.get?_erase, if_neg hne]
  exact hp i (by simp [hi])

theorem removeQer_slots' (s0 : Session) (id : Option U32) (rest : List (Option U32)) (hnd : id ∉ rest) :
    Triple (fun s => HSlotsX c view k s ∧ sameU s0 s ∧ ∀ i, some i ∈ id :: rest → (s.sess.qers.get? i).isSome) (removeQer id)
      (fun _ s => HSlotsX c view k s ∧ sameU s0 s ∧ ∀ i, some i ∈ rest → (s.sess.qers.get? i).isSome)
      (HSlotsX c view k) := by
  rintro s ⟨h, hq, hp⟩
  unfold removeQer
  cases id with
  | none => exact h
  | some id =>
    simp only
    obtain ⟨dp, hu, hn⟩ := removeQer_slots h (hp id (by simp))
    simp only [hu]
    refine ⟨hn, hq, ?_⟩
    intro i hi
    have hne : i ≠ id := by rintro rfl; exact hnd hi
    simp only [Session.removeQer, GoMap.get?_erase, if_neg hne]
    exact hp i (by simp [hi])

theorem removeUrr_slots' (id : Option U32) (rest : List (Option U32)) (hnd : id ∉ rest) :
    Triple (fun s => HSlotsX c view k s ∧ ∀ i, some i ∈ id :: rest → (s.sess.urrs.get? i).isSome) (removeUrr id)
      (fun _ s => HSlotsX c view k s ∧ ∀ i, some i ∈ rest → (s.sess.urrs.get? i).isSome)
      (HSlotsX c view k) := by
  rintro s ⟨h, hp⟩
  unfold removeUrr
  cases id with
  | none => exact h
  | some id =>
    simp only
    obtain ⟨dp, hu, hn⟩ := removeUrr_slots h (hp id (by simp))
    simp only [hu]
    refine ⟨hn, ?_⟩
    intro i hi
    have hne : i ≠ id := by rintro rfl; exact hnd hi
    simp only [Session.removeUrr, GoMap.get?_erase, if_neg hne]
    exact hp i (by simp [hi])

/-! ### PDR steps -/

/-- The parts of the tables PDR steps leave alone. -/
structure SamePart (dp' dp : BpfObjects) : Prop where
  far : dp'.far = dp.far
  qer : dp'.qer = dp.qer
  urr : dp'.urr = dp.urr
  farIds : dp'.farIds = dp.farIds
  qerIds : dp'.qerIds = dp.qerIds
  urrIds : dp'.urrIds = dp.urrIds

theorem SamePart.rfl' (dp : BpfObjects) : SamePart dp dp := ⟨rfl, rfl, rfl, rfl, rfl, rfl⟩

theorem map_pdr_part {K V : Type} {o : Option (HMap K V)} {dp dp' : BpfObjects}
    {f : HMap K V → BpfObjects} (h : o.map f = some dp') (hf : ∀ h, SamePart (f h) dp) : SamePart dp' dp := by
  cases o with
  | none => cases h
  | some x => cases h; exact hf x

theorem applyPdr_part (p : SPdr) (s : HS) : SamePart (applyPdr p s).1.dp s.dp ∧ (applyPdr p s).1.sess = s.sess := by
  unfold applyPdr
  simp only
  split
  · rename_i dp hd
    refine ⟨?_, rfl⟩
    split at hd
    · exact map_pdr_part hd (fun _ => ⟨rfl, rfl, rfl, rfl, rfl, rfl⟩)
    · exact map_pdr_part hd (fun _ => ⟨rfl, rfl, rfl, rfl, rfl, rfl⟩)
    · exact map_pdr_part hd (fun _ => ⟨rfl, rfl, rfl, rfl, rfl, rfl⟩)
  · exact ⟨SamePart.rfl' _, rfl⟩

theorem deletePdrEntry_part (p : SPdr) (s : HS) :
    SamePart (deletePdrEntry p s).1.dp s.dp ∧ (deletePdrEntry p s).1.sess = s.sess := by
  unfold deletePdrEntry
  split
  · split
    · rename_i dp hd
      exact ⟨map_pdr_part hd (fun _ => ⟨rfl, rfl, rfl, rfl, rfl, rfl⟩), rfl⟩
    · exact ⟨SamePart.rfl' _, rfl⟩
  · split
    · rename_i dp hd
      exact ⟨map_pdr_part hd (fun _ => ⟨rfl, rfl, rfl, rfl, rfl, rfl⟩), rfl⟩
    · exact ⟨SamePart.rfl' _, rfl⟩
  · split
    · exact ⟨SamePart.rfl' _, rfl⟩
    · split
      · rename_i dp hd
        exact ⟨map_pdr_part hd (fun _ => ⟨rfl, rfl, rfl, rfl, rfl, rfl⟩), rfl⟩
      · exact ⟨SamePart.rfl' _, rfl⟩

theorem HSlotsX.part {s s' : HS} (h : HSlotsX c view k s) (hd : SamePart s'.dp s.dp) (e1 : s'.sess.fars = s.sess.fars)
    (e2 : s'.sess.qers = s.sess.qers) (e3 : s'.sess.urrs = s.sess.urrs) : HSlotsX c view k s' :=
  slots_pdr (slots_of h e1 e2 e3) hd.far hd.qer hd.urr hd.farIds hd.qerIds hd.urrIds

theorem extractPdr_slots (ue : Bool) (ie : PdrIE) (p : SPdr) : Pres (HSlotsX c view k) (extractPdr ue ie p) := by
  apply pres_of; intro s h; obtain ⟨c, rm, e⟩ := extractPdr_frame ue ie p s; rw [e]; exact h
theorem applyPdr_slots (p : SPdr) : Pres (HSlotsX c view k) (applyPdr p) := by
  apply pres_of; intro s h
  obtain ⟨h1, h2⟩ := applyPdr_part p s
  exact h.part h1 (by rw [h2]) (by rw [h2]) (by rw [h2])
theorem createPdr_slots (ue : Bool) (ie : PdrIE) : Pres (HSlotsX c view k) (createPdr ue ie) := by
  unfold createPdr
  cases ie.pdrId with
  | none => exact Pres.fail
  | some id =>
    exact Pres.bind (extractPdr_slots _ _ _) fun _ => Pres.bind (Pres.modify fun _ h => slots_of h rfl rfl rfl) fun _ =>
      Pres.bind (applyPdr_slots _) fun _ => Pres.modify fun _ h => h
theorem updatePdr_slots (ue : Bool) (ie : PdrIE) : Pres (HSlotsX c view k) (updatePdr ue ie) := by
  unfold updatePdr
  cases ie.pdrId with
  | none => exact Pres.fail
  | some id =>
    exact Pres.bind Pres.get fun _ => Pres.bind (extractPdr_slots _ _ _) fun _ =>
      Pres.bind (Pres.modify fun _ h => slots_of h rfl rfl rfl) fun _ => applyPdr_slots _
theorem deletePdr_slots (ord : Orders) (p : SPdr) : Pres (HSlotsX c view k) (deletePdr ord p) := by
  apply deletePdr_pres
  · apply pres_of; intro s h
    obtain ⟨h1, h2⟩ := deletePdrEntry_part p s
    exact h.part h1 (by rw [h2]) (by rw [h2]) (by rw [h2])
  · apply pres_of; intro s h; obtain ⟨c, e⟩ := releaseTeids_frame ord s; rw [e]; exact h
theorem removePdr_slots (ord : Orders) (id : Option U16) : Pres (HSlotsX c view k) (removePdr ord id) := by
  refine Pres.bind Pres.get fun s => ?_
  simp only []
  split
  · exact Pres.pure
  · exact Pres.bind (Pres.modify fun _ h => slots_of h rfl rfl rfl) fun _ => deletePdr_slots _ _

/-! ### bodies -/

theorem establishBody_slots (ue : Bool) (r : EstReq) (hfx : ∀ o, ¬ c.fix o ∧ ¬ c.ufix o) : Pres (HSlotsX c view k) (establishBody ue r) := by
  have hf : ∀ ie, Pres (HSlotsX c view k) (createFar ie) := fun ie => fun s hs =>
    ((createFar_slots s.sess (fun _ => False) ie).conseq (fun s h => h) (fun _ _ h => h.1) (fun _ h => h)) s
      ⟨hs, ⟨rfl, rfl⟩, fun _ h => h.elim⟩
  have hq : ∀ ie, Pres (HSlotsX c view k) (createQer ie) := fun ie => fun s hs =>
    ((createQer_slots s.sess (fun _ => False) ie (fun _ _ => (hfx _).1)).conseq (fun s h => h) (fun _ _ h => h.1) (fun _ h => h)) s
      ⟨hs, rfl, fun _ h => h.elim⟩
  have hu : ∀ ie, Pres (HSlotsX c view k) (createUrr ie) := fun ie => fun s hs =>
    ((createUrr_slots (fun _ => False) ie (fun _ _ => (hfx _).2)).conseq (fun s h => h) (fun _ _ h => h.1) (fun _ h => h)) s
      ⟨hs, fun _ h => h.elim⟩
  exact establishBody_pres (fun ie _ => hf ie) (fun ie _ => hq ie) (fun ie _ => hu ie) (fun ie _ => createPdr_slots _ _)

theorem modifyBody_slots (ue : Bool) (ord : Orders) (r : ModReq) (s0 : Session) (hk : RefsKnown r s0) (hs0 : HS)
    (he : hs0.sess = s0) (h : HSlotsX c view k hs0)
    (hfc : ∀ ie ∈ r.createQer, ∀ i, ie.qerId = some i → ¬ c.fix (k, i)) (hfu : ∀ ie ∈ r.updateQer, ∀ i, ie.qerId = some i → ¬ c.fix (k, i))
    (huc : ∀ i, some i ∈ r.createUrr → ¬ c.ufix (k, i)) (huu : ∀ i, some i ∈ r.updateUrr → ¬ c.ufix (k, i)) : HSlotsX c view k (modifyBody ue ord r hs0).1 := by
  -- one triple per loop
  have t1 : ∀ (l : List FarIE) (P : U32 → Prop),
      Triple (fun s => HSlotsX c view k s ∧ sameQU s0 s ∧ ∀ i, P i → (s.sess.fars.get? i).isSome) (Act.each createFar l)
        (fun _ s => HSlotsX c view k s ∧ sameQU s0 s ∧ ∀ i, P i ∨ (∃ c ∈ l, c.farId.getD 0 = i) → (s.sess.fars.get? i).isSome)
        (HSlotsX c view k) := by
    intro l
    induction l with
    | nil => intro P s hs; exact ⟨hs.1, hs.2.1, fun i hi => hs.2.2 i (by simpa using hi)⟩
    | cons c l ih =>
      intro P
      refine Triple.bind (m := createFar c) (f := fun _ => Act.each createFar l) (createFar_slots s0 P c) fun _ => ?_
      refine (ih (fun i => P i ∨ i = c.farId.getD 0)).conseq (fun s h => h) (fun _ s h => ⟨h.1, h.2.1, fun i hi => h.2.2 i ?_⟩) (fun _ h => h)
      rcases hi with hi | ⟨c', hc', e⟩
      · exact Or.inl (Or.inl hi)
      · rcases List.mem_cons.1 hc' with rfl | hc'
        · exact Or.inl (Or.inr e.symm)
        · exact Or.inr ⟨c', hc', e⟩
  have t4 : ∀ (l : List QerIE) (P : U32 → Prop), (∀ ie ∈ l, ∀ i, ie.qerId = some i → ¬ c.fix (k, i)) →
      Triple (fun s => HSlotsX c view k s ∧ sameU s0 s ∧ ∀ i, P i → (s.sess.qers.get? i).isSome) (Act.each createQer l)
        (fun _ s => HSlotsX c view k s ∧ sameU s0 s ∧ ∀ i, P i ∨ (∃ c ∈ l, c.qerId = some i) → (s.sess.qers.get? i).isSome)
        (HSlotsX c view k) := by
    intro l
    induction l with
    | nil => intro P _ s hs; exact ⟨hs.1, hs.2.1, fun i hi => hs.2.2 i (by simpa using hi)⟩
    | cons c l ih =>
      intro P hfl
      refine Triple.bind (m := createQer c) (f := fun _ => Act.each createQer l) (createQer_slots s0 P c (hfl c (by simp))) fun _ => ?_
      refine (ih (fun i => P i ∨ some i = c.qerId) (fun ie hi => hfl ie (by simp [hi]))).conseq (fun s h => h) (fun _ s h => ⟨h.1, h.2.1, fun i hi => h.2.2 i ?_⟩) (fun _ h => h)
      rcases hi with hi | ⟨c', hc', e⟩
      · exact Or.inl (Or.inl hi)
      · rcases List.mem_cons.1 hc' with rfl | hc'
        · exact Or.inl (Or.inr e.symm)
        · exact Or.inr ⟨c', hc', e⟩
  have t7 : ∀ (l : List (Option U32)) (P : U32 → Prop), (∀ i, some i ∈ l → ¬ c.ufix (k, i)) →
      Triple (fun s => HSlotsX c view k s ∧ ∀ i, P i → (s.sess.urrs.get? i).isSome) (Act.each createUrr l)
        (fun _ s => HSlotsX c view k s ∧ ∀ i, P i ∨ some i ∈ l → (s.sess.urrs.get? i).isSome)
        (HSlotsX c view k) := by
    intro l
    induction l with
    | nil => intro P _ s hs; exact ⟨hs.1, fun i hi => hs.2 i (by simpa using hi)⟩
    | cons c l ih =>
      intro P hfl
      refine Triple.bind (m := createUrr c) (f := fun _ => Act.each createUrr l) (createUrr_slots P c (fun i hi => hfl i (by simp [hi]))) fun _ => ?_
      refine (ih (fun i => P i ∨ some i = c) (fun i hi => hfl i (by simp [hi]))).conseq (fun s h => h) (fun _ s h => ⟨h.1, fun i hi => h.2 i ?_⟩) (fun _ h => h)
      rcases hi with hi | hi
      · exact Or.inl (Or.inl hi)
      · rcases List.mem_cons.1 hi with hi | hi
        · exact Or.inl (Or.inr hi)
        · exact Or.inr hi
  have t3 : ∀ l : List (Option U32), (l.map (·.getD 0)).Nodup →
      Triple (fun s => HSlotsX c view k s ∧ sameQU s0 s ∧ ∀ i ∈ l.map (·.getD 0), (s.sess.fars.get? i).isSome)
        (Act.each removeFar l) (fun _ s => HSlotsX c view k s ∧ sameQU s0 s) (HSlotsX c view k) := by
    intro l
    induction l with
    | nil => intro _ s hs; exact ⟨hs.1, hs.2.1⟩
    | cons c l ih =>
      intro hn
      simp only [List.map_cons, List.nodup_cons] at hn
      exact Triple.bind (m := removeFar c) (f := fun _ => Act.each removeFar l)
        (removeFar_slots' s0 c (l.map (·.getD 0)) hn.1) fun _ => ih hn.2
  have t6 : ∀ l : List (Option U32), l.Nodup →
      Triple (fun s => HSlotsX c view k s ∧ sameU s0 s ∧ ∀ i, some i ∈ l → (s.sess.qers.get? i).isSome)
        (Act.each removeQer l) (fun _ s => HSlotsX c view k s ∧ sameU s0 s) (HSlotsX c view k) := by
    intro l
    induction l with
    | nil => intro _ s hs; exact ⟨hs.1, hs.2.1⟩
    | cons c l ih =>
      intro hn
      simp only [List.nodup_cons] at hn
      exact Triple.bind (m := removeQer c) (f := fun _ => Act.each removeQer l)
        (removeQer_slots' s0 c l hn.1) fun _ => ih hn.2
  have t9 : ∀ l : List (Option U32), l.Nodup →
      Triple (fun s => HSlotsX c view k s ∧ ∀ i, some i ∈ l → (s.sess.urrs.get? i).isSome)
        (Act.each removeUrr l) (fun _ s => HSlotsX c view k s) (HSlotsX c view k) := by
    intro l
    induction l with
    | nil => intro _ s hs; exact hs.1
    | cons c l ih =>
      intro hn
      simp only [List.nodup_cons] at hn
      exact Triple.bind (m := removeUrr c) (f := fun _ => Act.each removeUrr l)
        (removeUrr_slots' c l hn.1) fun _ => ih hn.2
  have t2 : ∀ (P : U32 → Prop) (l : List FarIE), (∀ ie ∈ l, ∀ i, ie.farId = some i → P i) →
      Triple (fun s => HSlotsX c view k s ∧ sameQU s0 s ∧ ∀ i, P i → (s.sess.fars.get? i).isSome) (Act.each updateFar l)
        (fun _ s => HSlotsX c view k s ∧ sameQU s0 s ∧ ∀ i, P i → (s.sess.fars.get? i).isSome) (HSlotsX c view k) := by
    intro P l
    induction l with
    | nil => intro _ s hs; exact hs
    | cons c l ih =>
      intro hp
      exact Triple.bind (m := updateFar c) (f := fun _ => Act.each updateFar l)
        (updateFar_slots' s0 P c (hp c (by simp))) fun _ => ih (fun ie hi => hp ie (by simp [hi]))
  have t5 : ∀ (P : U32 → Prop) (l : List QerIE), (∀ ie ∈ l, ∀ i, ie.qerId = some i → P i) → (∀ ie ∈ l, ∀ i, ie.qerId = some i → ¬ c.fix (k, i)) →
      Triple (fun s => HSlotsX c view k s ∧ sameU s0 s ∧ ∀ i, P i → (s.sess.qers.get? i).isSome) (Act.each updateQer l)
        (fun _ s => HSlotsX c view k s ∧ sameU s0 s ∧ ∀ i, P i → (s.sess.qers.get? i).isSome) (HSlotsX c view k) := by
    intro P l
    induction l with
    | nil => intro _ _ s hs; exact hs
    | cons c l ih =>
      intro hp hfl
      exact Triple.bind (m := updateQer c) (f := fun _ => Act.each updateQer l)
        (updateQer_slots' s0 P c (hp c (by simp)) (hfl c (by simp))) fun _ => ih (fun ie hi => hp ie (by simp [hi])) (fun ie hi => hfl ie (by simp [hi]))
  have t8 : ∀ (P : U32 → Prop) (l : List (Option U32)), (∀ i, some i ∈ l → P i) → (∀ i, some i ∈ l → ¬ c.ufix (k, i)) →
      Triple (fun s => HSlotsX c view k s ∧ ∀ i, P i → (s.sess.urrs.get? i).isSome) (Act.each updateUrr l)
        (fun _ s => HSlotsX c view k s ∧ ∀ i, P i → (s.sess.urrs.get? i).isSome) (HSlotsX c view k) := by
    intro P l
    induction l with
    | nil => intro _ _ s hs; exact hs
    | cons c l ih =>
      intro hp hfl
      exact Triple.bind (m := updateUrr c) (f := fun _ => Act.each updateUrr l)
        (updateUrr_slots' P c (fun i hi => hp i (by simp [hi])) (fun i hi => hfl i (by simp [hi]))) fun _ => ih (fun i hi => hp i (by simp [hi])) (fun i hi => hfl i (by simp [hi]))
  have main : Triple (fun s => s = hs0) (modifyBody ue ord r) (fun _ s => HSlotsX c view k s) (HSlotsX c view k) := by
    unfold modifyBody
    have dp : ∀ l : List PdrIE, Triple (fun s => s = hs0) (Act.each displayPdr l) (fun _ s => s = hs0) (HSlotsX c view k) := by
      intro l s hs
      have := display_same l s
      rcases hm : Act.each displayPdr l s with ⟨s', res⟩
      rw [hm] at this
      have this : s' = s := this
      subst this
      cases res with
      | ok _ => exact hs
      | err => rw [hs]; exact h
      | panic => rw [hs]; exact h
    refine Triple.bind (dp _) fun _ => Triple.bind (dp _) fun _ => ?_
    refine Triple.bind ((t1 r.createFar (fun i => (s0.fars.get? i).isSome)).conseq ?_ (fun _ _ h => h) (fun _ h => h)) fun _ => ?_
    · rintro s rfl; exact ⟨h, ⟨by rw [he], by rw [he]⟩, fun i hi => by rw [he]; exact hi⟩
    refine Triple.bind (t2 _ r.updateFar (fun ie hi i e => hk.updFar ie hi i e)) fun _ => ?_
    refine Triple.bind ((t3 r.removeFar hk.remFarOnce).conseq
      (fun s hs => ⟨hs.1, hs.2.1, fun i hi => hs.2.2 i ?_⟩) (fun _ _ h => h) (fun _ h => h)) fun _ => ?_
    · obtain ⟨id, h1, rfl⟩ := List.mem_map.1 hi; exact hk.remFar id h1
    refine Triple.bind ((t4 r.createQer (fun i => (s0.qers.get? i).isSome) hfc).conseq
      (fun s hs => ⟨hs.1, hs.2.2, fun i hi => by rw [hs.2.1]; exact hi⟩) (fun _ _ h => h) (fun _ h => h)) fun _ => ?_
    refine Triple.bind (t5 _ r.updateQer (fun ie hi i e => hk.updQer ie hi i e) hfu) fun _ => ?_
    refine Triple.bind ((t6 r.removeQer hk.remQerOnce).conseq
      (fun s hs => ⟨hs.1, hs.2.1, fun i hi => hs.2.2 i (hk.remQer i hi)⟩) (fun _ _ h => h) (fun _ h => h)) fun _ => ?_
    refine Triple.bind ((t7 r.createUrr (fun i => (s0.urrs.get? i).isSome) huc).conseq
      (fun s hs => ⟨hs.1, fun i hi => by have h2 : s.sess.urrs = s0.urrs := hs.2; rw [h2]; exact hi⟩) (fun _ _ h => h) (fun _ h => h)) fun _ => ?_
    refine Triple.bind (t8 _ r.updateUrr (fun i hi => hk.updUrr i hi) huu) fun _ => ?_
    refine Triple.bind ((t9 r.removeUrr hk.remUrrOnce).conseq
      (fun s hs => ⟨hs.1, fun i hi => hs.2 i (hk.remUrr i hi)⟩) (fun _ _ h => h) (fun _ h => h)) fun _ => ?_
    refine Triple.bind (Pres.each fun ie _ => createPdr_slots ue ie) fun _ => ?_
    refine Triple.bind (Pres.each fun ie _ => updatePdr_slots ue ie) fun _ => ?_
    exact Pres.each fun ie _ => removePdr_slots ord ie
  have := main hs0 rfl
  rcases hm : modifyBody ue ord r hs0 with ⟨s', res⟩
  rw [hm] at this
  cases res <;> exact this

end Eupf
