import Verif.NodeInv
import Verif.Spec.Keys
import Verif.SlotSteps
/-
Invariant of all histories: table and allocator sizes stay as loaded, every recorded slot exists, URR sequence
numbers are 0.
-/
namespace Eupf
open Act

/-- Sizes of the tables and allocators. -/
structure Sized (f q u : U32) (dp : BpfObjects) : Prop where
  far : dp.far.size = f
  farIds : dp.farIds.maxSize = f
  qer : dp.qer.size = q
  qerIds : dp.qerIds.maxSize = q
  urr : dp.urr.size = u
  urrIds : dp.urrIds.maxSize = u

/-- Recorded slots are in range; URR sequence numbers have not advanced. -/
structure InRange (f q u : U32) (s : Session) : Prop where
  far : ∀ i x, s.fars.get? i = some x → x.gid.toNat < f.toNat
  qer : ∀ i x, s.qers.get? i = some x → x.gid.toNat < q.toNat
  urr : ∀ i x, s.urrs.get? i = some x → x.gid.toNat < u.toNat ∧ x.seqn = 0

theorem arr_update_size {V : Type} {a a' : ArrMap V} {i : U32} {v : V} (h : a.update i v = some a') :
    a'.size = a.size ∧ i.toNat < a.size.toNat ∧ ∀ j, a'.val j = if j = i then v else a.val j := by
  unfold ArrMap.update at h
  split at h
  · cases h; exact ⟨rfl, by assumption, fun _ => rfl⟩
  · cases h

section
variable {f q u : U32}

theorem Sized.part {dp dp' : BpfObjects} (h : Sized f q u dp) (p : SamePart dp' dp) : Sized f q u dp' :=
  ⟨by rw [p.far]; exact h.far, by rw [p.farIds]; exact h.farIds, by rw [p.qer]; exact h.qer,
   by rw [p.qerIds]; exact h.qerIds, by rw [p.urr]; exact h.urr, by rw [p.urrIds]; exact h.urrIds⟩

theorem newFar_sized {dp : BpfObjects} (h : Sized f q u dp) (x : FarInfo) :
    Sized f q u (dp.newFar x).1 ∧ ∀ g, (dp.newFar x).2 = some g → g.toNat < f.toNat := by
  unfold BpfObjects.newFar
  simp only []
  split
  · exact ⟨⟨h.far, by simpa using h.farIds, h.qer, h.qerIds, h.urr, h.urrIds⟩, by simp⟩
  · split
    · rename_i a hu
      obtain ⟨h1, h2, _⟩ := arr_update_size hu
      refine ⟨⟨by rw [← h.far]; exact h1, by simpa using h.farIds, h.qer, h.qerIds, h.urr, h.urrIds⟩, ?_⟩
      intro g hg; cases hg; rw [← h.far]; exact h2
    · exact ⟨⟨h.far, by simpa using h.farIds, h.qer, h.qerIds, h.urr, h.urrIds⟩, by simp⟩

theorem newQer_sized {dp : BpfObjects} (h : Sized f q u dp) (x : QerInfo) :
    Sized f q u (dp.newQer x).1 ∧ ∀ g, (dp.newQer x).2 = some g → g.toNat < q.toNat := by
  unfold BpfObjects.newQer
  simp only []
  split
  · exact ⟨⟨h.far, h.farIds, h.qer, by simpa using h.qerIds, h.urr, h.urrIds⟩, by simp⟩
  · split
    · rename_i a hu
      obtain ⟨h1, h2, _⟩ := arr_update_size hu
      refine ⟨⟨h.far, h.farIds, by rw [← h.qer]; exact h1, by simpa using h.qerIds, h.urr, h.urrIds⟩, ?_⟩
      intro g hg; cases hg; rw [← h.qer]; exact h2
    · exact ⟨⟨h.far, h.farIds, h.qer, by simpa using h.qerIds, h.urr, h.urrIds⟩, by simp⟩

theorem newUrr_sized {dp : BpfObjects} (h : Sized f q u dp) (x : UrrInfo) :
    Sized f q u (dp.newUrr x).1 ∧ ∀ g, (dp.newUrr x).2 = some g → g.toNat < u.toNat := by
  unfold BpfObjects.newUrr
  simp only []
  split
  · exact ⟨⟨h.far, h.farIds, h.qer, h.qerIds, h.urr, by simpa using h.urrIds⟩, by simp⟩
  · split
    · rename_i a hu
      obtain ⟨h1, h2, _⟩ := arr_update_size hu
      refine ⟨⟨h.far, h.farIds, h.qer, h.qerIds, by rw [← h.urr]; exact h1, by simpa using h.urrIds⟩, ?_⟩
      intro g hg; cases hg; rw [← h.urr]; exact h2
    · exact ⟨⟨h.far, h.farIds, h.qer, h.qerIds, h.urr, by simpa using h.urrIds⟩, by simp⟩

theorem updateFar_sized {dp dp' : BpfObjects} (h : Sized f q u dp) {g : U32} {x : FarInfo}
    (hu : dp.updateFar g x = some dp') : Sized f q u dp' := by
  unfold BpfObjects.updateFar at hu
  obtain ⟨a, ha, rfl⟩ := Option.map_eq_some_iff.1 hu
  exact ⟨by rw [← h.far]; exact (arr_update_size ha).1, h.farIds, h.qer, h.qerIds, h.urr, h.urrIds⟩
theorem updateQer_sized {dp dp' : BpfObjects} (h : Sized f q u dp) {g : U32} {x : QerInfo}
    (hu : dp.updateQer g x = some dp') : Sized f q u dp' := by
  unfold BpfObjects.updateQer at hu
  obtain ⟨a, ha, rfl⟩ := Option.map_eq_some_iff.1 hu
  exact ⟨h.far, h.farIds, by rw [← h.qer]; exact (arr_update_size ha).1, h.qerIds, h.urr, h.urrIds⟩
theorem updateUrr_sized {dp dp' : BpfObjects} (h : Sized f q u dp) {g : U32} {x : UrrInfo}
    (hu : dp.updateUrr g x = some dp') : Sized f q u dp' := by
  unfold BpfObjects.updateUrr at hu
  obtain ⟨a, ha, rfl⟩ := Option.map_eq_some_iff.1 hu
  exact ⟨h.far, h.farIds, h.qer, h.qerIds, by rw [← h.urr]; exact (arr_update_size ha).1, h.urrIds⟩

theorem deleteFar_sized {dp : BpfObjects} (h : Sized f q u dp) (g : U32) : Sized f q u (dp.deleteFar g).1 := by
  unfold BpfObjects.deleteFar
  simp only []
  split
  · rename_i a hu
    exact ⟨by rw [← h.far]; exact (arr_update_size hu).1, by simpa using h.farIds, h.qer, h.qerIds, h.urr, h.urrIds⟩
  · exact ⟨h.far, by simpa using h.farIds, h.qer, h.qerIds, h.urr, h.urrIds⟩
theorem deleteQer_sized {dp : BpfObjects} (h : Sized f q u dp) (g : U32) : Sized f q u (dp.deleteQer g).1 := by
  unfold BpfObjects.deleteQer
  simp only []
  split
  · rename_i a hu
    exact ⟨h.far, h.farIds, by rw [← h.qer]; exact (arr_update_size hu).1, by simpa using h.qerIds, h.urr, h.urrIds⟩
  · exact ⟨h.far, h.farIds, h.qer, by simpa using h.qerIds, h.urr, h.urrIds⟩
theorem deleteUrr_sized {dp : BpfObjects} (h : Sized f q u dp) (g : U32) : Sized f q u (dp.deleteUrr g).1 := by
  unfold BpfObjects.deleteUrr
  simp only []
  split
  · exact h
  · split
    · rename_i a hu
      exact ⟨h.far, h.farIds, h.qer, h.qerIds, by rw [← h.urr]; exact (arr_update_size hu).1, by simpa using h.urrIds⟩
    · exact ⟨h.far, h.farIds, h.qer, h.qerIds, h.urr, by simpa using h.urrIds⟩

/-! ### rule steps -/

abbrev RI (f q u : U32) : HS → Prop := HI (InRange f q u) (fun _ dp => Sized f q u dp)

theorem getFar_range {s : Session} (h : InRange f q u s) (hf : 0 < f.toNat) (i : U32) : (s.getFar i).gid.toNat < f.toNat := by
  unfold Session.getFar
  cases hx : s.fars.get? i with
  | none => simpa using hf
  | some x => exact h.far i x hx
theorem getQer_range {s : Session} (h : InRange f q u s) (hf : 0 < q.toNat) (i : U32) : (s.getQer i).gid.toNat < q.toNat := by
  unfold Session.getQer
  cases hx : s.qers.get? i with
  | none => simpa using hf
  | some x => exact h.qer i x hx
theorem getUrr_range {s : Session} (h : InRange f q u s) (hf : 0 < u.toNat) (i : U32) :
    (s.getUrr i).gid.toNat < u.toNat ∧ (s.getUrr i).seqn = 0 := by
  unfold Session.getUrr
  cases hx : s.urrs.get? i with
  | none => simpa using hf
  | some x => exact h.urr i x hx

theorem InRange.setFar {s : Session} (h : InRange f q u s) {i : U32} {x : SFar} (hx : x.gid.toNat < f.toNat) :
    InRange f q u { s with fars := s.fars.set i x } := by
  refine ⟨?_, h.qer, h.urr⟩
  intro j y hy
  simp only [GoMap.get?_set] at hy
  split at hy
  · cases hy; exact hx
  · exact h.far j y hy
theorem InRange.setQer {s : Session} (h : InRange f q u s) {i : U32} {x : SQer} (hx : x.gid.toNat < q.toNat) :
    InRange f q u { s with qers := s.qers.set i x } := by
  refine ⟨h.far, ?_, h.urr⟩
  intro j y hy
  simp only [GoMap.get?_set] at hy
  split at hy
  · cases hy; exact hx
  · exact h.qer j y hy
theorem InRange.setUrr {s : Session} (h : InRange f q u s) {i : U32} {x : SUrr} (hx : x.gid.toNat < u.toNat ∧ x.seqn = 0) :
    InRange f q u { s with urrs := s.urrs.set i x } := by
  refine ⟨h.far, h.qer, ?_⟩
  intro j y hy
  simp only [GoMap.get?_set] at hy
  split at hy
  · cases hy; exact hx
  · exact h.urr j y hy
theorem get?_erase_some {K V : Type} [DecidableEq K] {m : GoMap K V} {i j : K} {x : V} (h : (m.erase i).get? j = some x) :
    m.get? j = some x := by
  simp only [GoMap.get?_erase] at h
  split at h
  · cases h
  · exact h

theorem createFar_ri (ie : FarIE) : Pres (RI f q u) (createFar ie) := by
  apply pres_of; rintro s ⟨h1, h2⟩
  unfold createFar
  split
  · rename_i x hx
    have := newFar_sized h2 x
    rcases hn : s.dp.newFar x with ⟨dp, g⟩
    rw [hn] at this
    cases g with
    | none => exact ⟨h1, this.1⟩
    | some g => exact ⟨h1.setFar (this.2 g rfl), this.1⟩
  · exact ⟨h1, h2⟩
  · exact ⟨h1, h2⟩
theorem createQer_ri (ie : QerIE) : Pres (RI f q u) (createQer ie) := by
  apply pres_of; rintro s ⟨h1, h2⟩
  unfold createQer
  split
  · exact ⟨h1, h2⟩
  · rename_i i hi
    have := newQer_sized h2 (mergeQer {} ie)
    simp only []
    rcases hn : s.dp.newQer (mergeQer {} ie) with ⟨dp, g⟩
    rw [hn] at this
    cases g with
    | none => exact ⟨h1, this.1⟩
    | some g => exact ⟨h1.setQer (this.2 g rfl), this.1⟩
theorem createUrr_ri (ie : Option U32) : Pres (RI f q u) (createUrr ie) := by
  apply pres_of; rintro s ⟨h1, h2⟩
  unfold createUrr
  split
  · exact ⟨h1, h2⟩
  · have := newUrr_sized h2 {}
    rcases hn : s.dp.newUrr {} with ⟨dp, g⟩
    rw [hn] at this
    cases g with
    | none => exact ⟨h1, this.1⟩
    | some g => exact ⟨h1.setUrr ⟨this.2 g rfl, rfl⟩, this.1⟩
theorem updateFar_ri (hf : 0 < f.toNat) (ie : FarIE) : Pres (RI f q u) (updateFar ie) := by
  apply pres_of; rintro s ⟨h1, h2⟩
  unfold updateFar
  split
  · exact ⟨h1, h2⟩
  · split
    · simp only []
      split
      · rename_i hu
        exact ⟨h1.setFar (getFar_range h1 hf _), updateFar_sized h2 hu⟩
      · exact ⟨h1.setFar (getFar_range h1 hf _), h2⟩
    · exact ⟨h1, h2⟩
    · exact ⟨h1, h2⟩
theorem updateQer_ri (hf : 0 < q.toNat) (ie : QerIE) : Pres (RI f q u) (updateQer ie) := by
  apply pres_of; rintro s ⟨h1, h2⟩
  unfold updateQer
  split
  · exact ⟨h1, h2⟩
  · simp only []
    split
    · rename_i hu
      exact ⟨h1.setQer (getQer_range h1 hf _), updateQer_sized h2 hu⟩
    · exact ⟨h1.setQer (getQer_range h1 hf _), h2⟩
theorem updateUrr_ri (hf : 0 < u.toNat) (ie : Option U32) : Pres (RI f q u) (updateUrr ie) := by
  apply pres_of; rintro s ⟨h1, h2⟩
  unfold updateUrr
  split
  · exact ⟨h1, h2⟩
  · simp only []
    split
    · rename_i hu
      exact ⟨h1.setUrr (getUrr_range h1 hf _), updateUrr_sized h2 hu⟩
    · exact ⟨h1.setUrr (getUrr_range h1 hf _), h2⟩
theorem removeFar_ri (id : Option U32) : Pres (RI f q u) (removeFar id) := by
  apply pres_of; rintro s ⟨h1, h2⟩
  unfold removeFar
  simp only []
  have := deleteFar_sized h2 (s.sess.getFar (id.getD 0)).gid
  have h3 : InRange f q u (s.sess.removeFar (id.getD 0)) := ⟨fun i x hx => h1.far i x (get?_erase_some hx), h1.qer, h1.urr⟩
  rcases hn : s.dp.deleteFar (s.sess.getFar (id.getD 0)).gid with ⟨dp, b⟩
  rw [hn] at this
  cases b <;> exact ⟨h3, this⟩
theorem removeQer_ri (id : Option U32) : Pres (RI f q u) (removeQer id) := by
  apply pres_of; rintro s ⟨h1, h2⟩
  unfold removeQer
  split
  · exact ⟨h1, h2⟩
  · rename_i i
    simp only []
    have := deleteQer_sized h2 (s.sess.getQer i).gid
    have h3 : InRange f q u (s.sess.removeQer i) := ⟨h1.far, fun i x hx => h1.qer i x (get?_erase_some hx), h1.urr⟩
    rcases hn : s.dp.deleteQer (s.sess.getQer i).gid with ⟨dp, b⟩
    rw [hn] at this
    cases b <;> exact ⟨h3, this⟩
theorem removeUrr_ri (id : Option U32) : Pres (RI f q u) (removeUrr id) := by
  apply pres_of; rintro s ⟨h1, h2⟩
  unfold removeUrr
  split
  · exact ⟨h1, h2⟩
  · rename_i i
    simp only []
    have := deleteUrr_sized h2 (s.sess.getUrr i).gid
    have h3 : InRange f q u (s.sess.removeUrr i) := ⟨h1.far, h1.qer, fun i x hx => h1.urr i x (get?_erase_some hx)⟩
    rcases hn : s.dp.deleteUrr (s.sess.getUrr i).gid with ⟨dp, b⟩
    rw [hn] at this
    cases b <;> exact ⟨h3, this⟩

theorem extractPdr_ri (ue ie p) : Pres (RI f q u) (extractPdr ue ie p) := by
  apply pres_of; intro s h; obtain ⟨c, rm, e⟩ := extractPdr_frame ue ie p s; rw [e]; exact h
theorem applyPdr_ri (p) : Pres (RI f q u) (applyPdr p) := by
  apply pres_of; intro s h
  obtain ⟨h1, h2⟩ := applyPdr_part p s
  exact ⟨by rw [h2]; exact h.1, h.2.part h1⟩
theorem deletePdr_ri (ord p) : Pres (RI f q u) (deletePdr ord p) := by
  apply deletePdr_pres
  · apply pres_of; intro s h
    obtain ⟨h1, h2⟩ := deletePdrEntry_part p s
    exact ⟨by rw [h2]; exact h.1, h.2.part h1⟩
  · apply pres_of; intro s h; obtain ⟨c, e⟩ := releaseTeids_frame ord s; rw [e]; exact h
theorem setPdrs_ri {s : Session} (h : InRange f q u s) (m : GoMap U32 SPdr) : InRange f q u { s with pdrs := m } :=
  ⟨h.far, h.qer, h.urr⟩
theorem createPdr_ri (ue ie) : Pres (RI f q u) (createPdr ue ie) := by
  unfold createPdr
  cases ie.pdrId with
  | none => exact Pres.fail
  | some id =>
    exact Pres.bind (extractPdr_ri _ _ _) fun _ => Pres.bind (Pres.modify fun _ h => ⟨setPdrs_ri h.1 _, h.2⟩) fun _ =>
      Pres.bind (applyPdr_ri _) fun _ => Pres.modify fun _ h => h
theorem updatePdr_ri (ue ie) : Pres (RI f q u) (updatePdr ue ie) := by
  unfold updatePdr
  cases ie.pdrId with
  | none => exact Pres.fail
  | some id =>
    exact Pres.bind Pres.get fun _ => Pres.bind (extractPdr_ri _ _ _) fun _ =>
      Pres.bind (Pres.modify fun _ h => ⟨setPdrs_ri h.1 _, h.2⟩) fun _ => applyPdr_ri _
theorem removePdr_ri (ord id) : Pres (RI f q u) (removePdr ord id) := by
  refine Pres.bind Pres.get fun s => ?_
  simp only []
  split
  · exact Pres.pure
  · exact Pres.bind (Pres.modify fun _ h => ⟨setPdrs_ri h.1 _, h.2⟩) fun _ => deletePdr_ri _ _
theorem dropFar_ri (e) : Pres (RI f q u) (dropFar e) := by
  apply pres_of; rintro s ⟨h1, h2⟩
  unfold dropFar
  have := deleteFar_sized h2 e.2.gid
  rcases hn : s.dp.deleteFar e.2.gid with ⟨dp, b⟩
  rw [hn] at this
  cases b <;> exact ⟨h1, this⟩
theorem dropQer_ri (e) : Pres (RI f q u) (dropQer e) := by
  apply pres_of; rintro s ⟨h1, h2⟩
  unfold dropQer
  have := deleteQer_sized h2 e.2.gid
  rcases hn : s.dp.deleteQer e.2.gid with ⟨dp, b⟩
  rw [hn] at this
  cases b <;> exact ⟨h1, this⟩
theorem dropUrr_ri (e) : Pres (RI f q u) (dropUrr e) := by
  apply pres_of; rintro s ⟨h1, h2⟩
  unfold dropUrr
  have := deleteUrr_sized h2 e.2.gid
  rcases hn : s.dp.deleteUrr e.2.gid with ⟨dp, b⟩
  rw [hn] at this
  cases b <;> exact ⟨h1, this⟩

theorem ranges_keep (hf : 0 < f.toNat) (hq : 0 < q.toNat) (hu : 0 < u.toNat) :
    BodiesKeep (fun _ => True) (InRange f q u) (fun _ dp => Sized f q u dp) where
  new _ _ := ⟨by simp [Session.new], by simp [Session.new], by simp [Session.new]⟩
  remote s x h := by
    unfold Session.setRemote
    split
    · exact ⟨h.far, h.qer, h.urr⟩
    · exact h
  est _ r _ ue := (establishBody_pres (fun _ _ => createFar_ri _) (fun _ _ => createQer_ri _) (fun _ _ => createUrr_ri _)
    (fun _ _ => createPdr_ri _ _)).keeps
  mod _ r o _ ue := (modifyBody_pres (fun _ _ => createFar_ri _) (fun _ _ => updateFar_ri hf _) (fun _ _ => removeFar_ri _)
    (fun _ _ => createQer_ri _) (fun _ _ => updateQer_ri hq _) (fun _ _ => removeQer_ri _)
    (fun _ _ => createUrr_ri _) (fun _ _ => updateUrr_ri hu _) (fun _ _ => removeUrr_ri _)
    (fun _ _ => createPdr_ri _ _) (fun _ _ => updatePdr_ri _ _) (fun _ _ => removePdr_ri _ _)).keeps
  del o sess _ := (deleteBody_pres (fun _ _ => deletePdr_ri _ _) (fun _ _ => dropFar_ri _) (fun _ _ => dropQer_ri _)
    (fun _ _ => dropUrr_ri _)).keeps
  dels o sess _ := (deleteSessionBody_pres (fun _ _ => deletePdr_ri _ _) (fun _ _ => dropFar_ri _) (fun _ _ => dropQer_ri _)).keeps
  rel _ _ _ _ h := h
  traffic _ _ _ h t := ⟨by rw [t.far]; exact h.far, by rw [t.farIds]; exact h.farIds, by rw [t.qerSize]; exact h.qer,
    by rw [t.qerIds]; exact h.qerIds, by rw [t.urrSize]; exact h.urr, by rw [t.urrIds]; exact h.urrIds⟩

theorem sized_load (p f q u : U32) : Sized f q u (BpfObjects.load p f q u) := ⟨rfl, rfl, rfl, rfl, rfl, rfl⟩

theorem ranges_hist {cfg : NodeCfg} {rm : Option ResourceManager} {p : U32} (hf : 0 < f.toNat) (hq : 0 < q.toNat)
    (hu : 0 < u.toNat) {h : List (Ev × Outcome)} {n : Node}
    (H : Hist (Node.init cfg rm (BpfObjects.load p f q u)) h n) :
    (∀ a s x, n.session? a s = some x → InRange f q u x) ∧ Sized f q u n.dp :=
  ni_hist (ranges_keep hf hq hu) (sized_load p f q u) H (fun _ _ => trivial)
end

end Eupf
