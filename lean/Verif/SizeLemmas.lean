import Verif.CapacityLemmas
import Verif.Props.Chosen
/-
The sizes of the tables do not change, and hash tables are never over-full. Models no code.
-/
namespace Eupf
open Act

/-- the sizes of the rule tables and of their allocators -/
structure SameSizes (b b' : BpfObjects) : Prop where
  far : b'.far.size = b.far.size
  farIds : b'.farIds.maxSize = b.farIds.maxSize
  qer : b'.qer.size = b.qer.size
  qerIds : b'.qerIds.maxSize = b.qerIds.maxSize
  urr : b'.urr.size = b.urr.size
  urrIds : b'.urrIds.maxSize = b.urrIds.maxSize

theorem SameSizes.refl (b : BpfObjects) : SameSizes b b := ⟨rfl, rfl, rfl, rfl, rfl, rfl⟩
theorem SameSizes.trans {a b c : BpfObjects} (h : SameSizes a b) (h' : SameSizes b c) : SameSizes a c :=
  ⟨h'.1.trans h.1, h'.2.trans h.2, h'.3.trans h.3, h'.4.trans h.4, h'.5.trans h.5, h'.6.trans h.6⟩

theorem update_size {V : Type} {a a' : ArrMap V} {i : U32} {v : V} (h : a.update i v = some a') : a'.size = a.size := by
  unfold ArrMap.update at h; split at h <;> cases h; rfl

theorem newFar_sizes (b : BpfObjects) (f) : SameSizes b (b.newFar f).1 := by
  unfold BpfObjects.newFar
  cases h : b.farIds.getNext.2 with
  | none => simp only [h]; exact ⟨rfl, IdTracker.getNext_maxSize _, rfl, rfl, rfl, rfl⟩
  | some g =>
    cases hu : b.far.update g f with
    | none => simp only [h, hu]; exact ⟨rfl, IdTracker.getNext_maxSize _, rfl, rfl, rfl, rfl⟩
    | some a => simp only [h, hu]; exact ⟨update_size hu, IdTracker.getNext_maxSize _, rfl, rfl, rfl, rfl⟩
theorem newQer_sizes (b : BpfObjects) (f) : SameSizes b (b.newQer f).1 := by
  unfold BpfObjects.newQer
  cases h : b.qerIds.getNext.2 with
  | none => simp only [h]; exact ⟨rfl, rfl, rfl, IdTracker.getNext_maxSize _, rfl, rfl⟩
  | some g =>
    cases hu : b.qer.update g f with
    | none => simp only [h, hu]; exact ⟨rfl, rfl, rfl, IdTracker.getNext_maxSize _, rfl, rfl⟩
    | some a => simp only [h, hu]; exact ⟨rfl, rfl, update_size hu, IdTracker.getNext_maxSize _, rfl, rfl⟩
theorem newUrr_sizes (b : BpfObjects) (f) : SameSizes b (b.newUrr f).1 := by
  unfold BpfObjects.newUrr
  cases h : b.urrIds.getNext.2 with
  | none => simp only [h]; exact ⟨rfl, rfl, rfl, rfl, rfl, IdTracker.getNext_maxSize _⟩
  | some g =>
    cases hu : b.urr.update g f with
    | none => simp only [h, hu]; exact ⟨rfl, rfl, rfl, rfl, rfl, IdTracker.getNext_maxSize _⟩
    | some a => simp only [h, hu]; exact ⟨rfl, rfl, rfl, rfl, update_size hu, IdTracker.getNext_maxSize _⟩
theorem deleteFar_sizes (b : BpfObjects) (g) : SameSizes b (b.deleteFar g).1 := by
  unfold BpfObjects.deleteFar
  cases hu : b.far.update g {} with
  | none => simp only [hu]; exact ⟨rfl, IdTracker.release_maxSize .., rfl, rfl, rfl, rfl⟩
  | some a => simp only [hu]; exact ⟨update_size hu, IdTracker.release_maxSize .., rfl, rfl, rfl, rfl⟩
theorem deleteQer_sizes (b : BpfObjects) (g) : SameSizes b (b.deleteQer g).1 := by
  unfold BpfObjects.deleteQer
  cases hu : b.qer.update g {} with
  | none => simp only [hu]; exact ⟨rfl, rfl, rfl, IdTracker.release_maxSize .., rfl, rfl⟩
  | some a => simp only [hu]; exact ⟨rfl, rfl, update_size hu, IdTracker.release_maxSize .., rfl, rfl⟩
theorem deleteUrr_sizes (b : BpfObjects) (g) : SameSizes b (b.deleteUrr g).1 := by
  unfold BpfObjects.deleteUrr
  cases hl : b.urr.lookup g with
  | none => exact .refl b
  | some v =>
    cases hu : b.urr.update g {} with
    | none => simp only [hu]; exact ⟨rfl, rfl, rfl, rfl, rfl, IdTracker.release_maxSize ..⟩
    | some a => simp only [hu]; exact ⟨rfl, rfl, rfl, rfl, update_size hu, IdTracker.release_maxSize ..⟩

theorem updFar_sizes {b b' : BpfObjects} {g f} (h : b.updateFar g f = some b') : SameSizes b b' := by
  obtain ⟨a, ha, rfl⟩ := Option.map_eq_some_iff.1 h; exact ⟨update_size ha, rfl, rfl, rfl, rfl, rfl⟩
theorem updQer_sizes {b b' : BpfObjects} {g f} (h : b.updateQer g f = some b') : SameSizes b b' := by
  obtain ⟨a, ha, rfl⟩ := Option.map_eq_some_iff.1 h; exact ⟨rfl, rfl, update_size ha, rfl, rfl, rfl⟩
theorem updUrr_sizes {b b' : BpfObjects} {g f} (h : b.updateUrr g f = some b') : SameSizes b b' := by
  obtain ⟨a, ha, rfl⟩ := Option.map_eq_some_iff.1 h; exact ⟨rfl, rfl, rfl, rfl, update_size ha, rfl⟩

/-! ### over the steps of a body -/

theorem createFar_sizes (ie) (s : HS) : SameSizes s.dp (createFar ie s).1.dp := by
  unfold createFar; split
  · rename_i y _
    have fr := newFar_sizes s.dp y
    rcases hd : s.dp.newFar y with ⟨dp, g⟩
    rw [hd] at fr
    cases g <;> exact fr
  · exact .refl _
  · exact .refl _
theorem createQer_sizes (ie) (s : HS) : SameSizes s.dp (createQer ie s).1.dp := by
  unfold createQer; split
  · exact .refl _
  · have fr := newQer_sizes s.dp (mergeQer {} ie)
    simp only []
    rcases hd : s.dp.newQer (mergeQer {} ie) with ⟨dp, g⟩
    rw [hd] at fr
    cases g <;> exact fr
theorem createUrr_sizes (ie) (s : HS) : SameSizes s.dp (createUrr ie s).1.dp := by
  unfold createUrr; split
  · exact .refl _
  · have fr := newUrr_sizes s.dp {}
    rcases hd : s.dp.newUrr {} with ⟨dp, g⟩
    rw [hd] at fr
    cases g <;> exact fr
theorem updateFar_sizes (ie) (s : HS) : SameSizes s.dp (updateFar ie s).1.dp := by
  unfold updateFar; split
  · exact .refl _
  · split
    · simp only []; split
      · rename_i h; exact updFar_sizes h
      · exact .refl _
    · exact .refl _
    · exact .refl _
theorem updateQer_sizes (ie) (s : HS) : SameSizes s.dp (updateQer ie s).1.dp := by
  unfold updateQer; split
  · exact .refl _
  · simp only []; split
    · rename_i h; exact updQer_sizes h
    · exact .refl _
theorem updateUrr_sizes (ie) (s : HS) : SameSizes s.dp (updateUrr ie s).1.dp := by
  unfold updateUrr; split
  · exact .refl _
  · simp only []; split
    · rename_i h; exact updUrr_sizes h
    · exact .refl _
theorem removeFar_sizes (id) (s : HS) : SameSizes s.dp (removeFar id s).1.dp := by
  unfold removeFar; simp only []
  have fr := deleteFar_sizes s.dp (s.sess.getFar (id.getD 0)).gid
  rcases hd : s.dp.deleteFar (s.sess.getFar (id.getD 0)).gid with ⟨dp, b⟩
  rw [hd] at fr
  cases b <;> exact fr
theorem removeQer_sizes (id) (s : HS) : SameSizes s.dp (removeQer id s).1.dp := by
  unfold removeQer; split
  · exact .refl _
  · rename_i j
    simp only []
    have fr := deleteQer_sizes s.dp (s.sess.getQer j).gid
    rcases hd : s.dp.deleteQer (s.sess.getQer j).gid with ⟨dp, b⟩
    rw [hd] at fr
    cases b <;> exact fr
theorem removeUrr_sizes (id) (s : HS) : SameSizes s.dp (removeUrr id s).1.dp := by
  unfold removeUrr; split
  · exact .refl _
  · rename_i j
    simp only []
    have fr := deleteUrr_sizes s.dp (s.sess.getUrr j).gid
    rcases hd : s.dp.deleteUrr (s.sess.getUrr j).gid with ⟨dp, b⟩
    rw [hd] at fr
    cases b <;> exact fr
theorem dropFar_sizes (e) (s : HS) : SameSizes s.dp (dropFar e s).1.dp := by
  unfold dropFar
  have fr := deleteFar_sizes s.dp e.2.gid
  rcases hd : s.dp.deleteFar e.2.gid with ⟨dp, b⟩
  rw [hd] at fr
  cases b <;> exact fr
theorem dropQer_sizes (e) (s : HS) : SameSizes s.dp (dropQer e s).1.dp := by
  unfold dropQer
  have fr := deleteQer_sizes s.dp e.2.gid
  rcases hd : s.dp.deleteQer e.2.gid with ⟨dp, b⟩
  rw [hd] at fr
  cases b <;> exact fr
theorem dropUrr_sizes (e) (s : HS) : SameSizes s.dp (dropUrr e s).1.dp := by
  unfold dropUrr
  have fr := deleteUrr_sizes s.dp e.2.gid
  rcases hd : s.dp.deleteUrr e.2.gid with ⟨dp, b⟩
  rw [hd] at fr
  cases b <;> exact fr

/-! ### hash tables -/

theorem GoMap.size_erase_le {K V : Type} [DecidableEq K] (m : GoMap K V) (k : K) : (m.erase k).size ≤ m.size := List.length_filter_le _ _
theorem GoMap.size_set_le {K V : Type} [DecidableEq K] (m : GoMap K V) (k : K) (v : V) : (m.set k v).size ≤ m.size + 1 :=
  Nat.succ_le_succ (m.size_erase_le k)
theorem GoMap.size_set_known {K V : Type} [DecidableEq K] (m : GoMap K V) {k : K} (v : V) (h : (m.get? k).isSome) : (m.set k v).size ≤ m.size := by
  obtain ⟨w, hw⟩ := Option.isSome_iff_exists.1 h
  have hm := (m.mem_entries_iff k w).2 hw
  have : (m.erase k).size < m.size := by
    unfold GoMap.size GoMap.erase
    simp only
    refine List.length_filter_lt_length_iff_exists.2 ⟨(k, w), hm, by simp⟩
  exact this

/-- the hash table has its capacity and is not over-full -/
def HMap.within {K V : Type} (p : Nat) (h : HMap K V) : Prop := h.cap = p ∧ h.m.size ≤ p
theorem HMap.within_put {K V : Type} [DecidableEq K] {p : Nat} {h h' : HMap K V} {k : K} {v : V} (hw : h.within p) (e : h.put k v = some h') : h'.within p := by
  unfold HMap.put at e
  split at e
  · rename_i hc
    cases e
    refine ⟨hw.1, ?_⟩
    show (h.m.set k v).size ≤ p
    rcases hc with hc | hc
    · exact Nat.le_trans (h.m.size_set_known v hc) hw.2
    · have := h.m.size_set_le k v
      have h1 := hw.1
      omega
  · cases e
theorem HMap.within_delete {K V : Type} [DecidableEq K] {p : Nat} {h h' : HMap K V} {k : K} (hw : h.within p) (e : h.delete k = some h') : h'.within p := by
  unfold HMap.delete at e
  split at e
  · cases e; exact ⟨hw.1, Nat.le_trans (h.m.size_erase_le k) hw.2⟩
  · cases e
/-- with a free place every key can be put -/
theorem HMap.put_room {K V : Type} [DecidableEq K] {h : HMap K V} (k : K) (v : V) (hr : h.m.size < h.cap) :
    ∃ h', h.put k v = some h' ∧ h'.cap = h.cap ∧ h'.m.size ≤ h.m.size + 1 :=
  ⟨_, if_pos (.inr hr), rfl, h.m.size_set_le k v⟩

/-! ### over histories -/

/-- the tables have the configured sizes -/
structure Sizes (p f q u : U32) (dp : BpfObjects) : Prop where
  far : dp.far.size = f
  farIds : dp.farIds.maxSize = f
  qer : dp.qer.size = q
  qerIds : dp.qerIds.maxSize = q
  urr : dp.urr.size = u
  urrIds : dp.urrIds.maxSize = u
  ul : dp.pdrUl.within p.toNat
  dl4 : dp.pdrDl4.within p.toNat
  dl6 : dp.pdrDl6.within p.toNat

section
variable {p f q u : U32}
theorem Sizes.of_rule {s s' : HS} (h : SameSizes s.dp s'.dp) (fr : RuleFrame s s') (hs : Sizes p f q u s.dp) : Sizes p f q u s'.dp :=
  ⟨h.1.trans hs.1, h.2.trans hs.2, h.3.trans hs.3, h.4.trans hs.4, h.5.trans hs.5, h.6.trans hs.6, by rw [fr.ul]; exact hs.ul, by rw [fr.dl4]; exact hs.dl4, by rw [fr.dl6]; exact hs.dl6⟩

theorem Sizes.apply (r : SPdr) : Pres (fun s : HS => Sizes p f q u s.dp) (applyPdr r) := pres_of fun s hs => by
  unfold applyPdr
  simp only []
  split
  · rename_i dp hd
    show Sizes p f q u dp
    cases h4 : r.ipv4 with
    | some ip =>
      simp only [h4] at hd
      obtain ⟨h, hp, rfl⟩ := Option.map_eq_some_iff.1 hd
      exact ⟨hs.1, hs.2, hs.3, hs.4, hs.5, hs.6, hs.ul, HMap.within_put hs.dl4 hp, hs.dl6⟩
    | none =>
      cases h6 : r.ipv6 with
      | some ip =>
        simp only [h4, h6] at hd
        obtain ⟨h, hp, rfl⟩ := Option.map_eq_some_iff.1 hd
        exact ⟨hs.1, hs.2, hs.3, hs.4, hs.5, hs.6, hs.ul, hs.dl4, HMap.within_put hs.dl6 hp⟩
      | none =>
        simp only [h4, h6] at hd
        obtain ⟨h, hp, rfl⟩ := Option.map_eq_some_iff.1 hd
        exact ⟨hs.1, hs.2, hs.3, hs.4, hs.5, hs.6, HMap.within_put hs.ul hp, hs.dl4, hs.dl6⟩
  · exact hs

theorem Sizes.deleteEntry (r : SPdr) : Pres (fun s : HS => Sizes p f q u s.dp) (deletePdrEntry r) := pres_of fun s hs => by
  unfold deletePdrEntry
  split
  · split
    · rename_i hd
      obtain ⟨h, hp, rfl⟩ := Option.map_eq_some_iff.1 hd
      exact ⟨hs.1, hs.2, hs.3, hs.4, hs.5, hs.6, hs.ul, HMap.within_delete hs.dl4 hp, hs.dl6⟩
    · exact hs
  · split
    · rename_i hd
      obtain ⟨h, hp, rfl⟩ := Option.map_eq_some_iff.1 hd
      exact ⟨hs.1, hs.2, hs.3, hs.4, hs.5, hs.6, hs.ul, hs.dl4, HMap.within_delete hs.dl6 hp⟩
    · exact hs
  · split
    · exact hs
    · split
      · rename_i hd
        obtain ⟨h, hp, rfl⟩ := Option.map_eq_some_iff.1 hd
        exact ⟨hs.1, hs.2, hs.3, hs.4, hs.5, hs.6, HMap.within_delete hs.ul hp, hs.dl4, hs.dl6⟩
      · exact hs

theorem sizes_keep : BodiesKeep (fun _ => True) (fun _ => True) (fun _ dp => Sizes p f q u dp) := by
  have ru : ∀ {m : Act HS Unit}, (∀ s, SameSizes s.dp (m s).1.dp) → (∀ s, RuleFrame s (m s).1) → Pres (fun s : HS => Sizes p f q u s.dp) m :=
    fun h fr => pres_of fun s hs => hs.of_rule (h s) (fr s)
  have ex : ∀ ue ie r, Pres (fun s : HS => Sizes p f q u s.dp) (extractPdr ue ie r) := fun ue ie r => pres_of fun s h => by
    obtain ⟨_, _, e⟩ := extractPdr_frame ue ie r s; rw [e]; exact h
  have cr : ∀ ue ie, Pres (fun s : HS => Sizes p f q u s.dp) (createPdr ue ie) := by
    intro ue ie
    unfold createPdr
    cases ie.pdrId with
    | none => exact Pres.fail
    | some id => exact Pres.bind (ex _ _ _) fun _ => Pres.bind (Pres.modify fun _ h => h) fun _ => Pres.bind (Sizes.apply _) fun _ => Pres.modify fun _ h => h
  have up : ∀ ue ie, Pres (fun s : HS => Sizes p f q u s.dp) (updatePdr ue ie) := by
    intro ue ie
    unfold updatePdr
    cases ie.pdrId with
    | none => exact Pres.fail
    | some id => exact Pres.bind Pres.get fun _ => Pres.bind (ex _ _ _) fun _ => Pres.bind (Pres.modify fun _ h => h) fun _ => Sizes.apply _
  have del : ∀ ord r, Pres (fun s : HS => Sizes p f q u s.dp) (deletePdr ord r) := by
    intro ord r
    refine deletePdr_pres (Sizes.deleteEntry _) (pres_of fun s h => ?_)
    unfold releaseTeids
    split <;> exact h
  have rem : ∀ ord id, Pres (fun s : HS => Sizes p f q u s.dp) (removePdr ord id) := by
    intro ord id
    refine Pres.bind Pres.get fun s => ?_
    simp only []
    split
    · exact Pres.pure
    · exact Pres.bind (Pres.modify fun _ h => h) fun _ => del _ _
  have ks : ∀ {α : Type} {m : Act HS α}, Pres (fun s : HS => Sizes p f q u s.dp) m → Keeps (fun _ => True) (fun _ dp => Sizes p f q u dp) m :=
    fun h s _ hs => ⟨trivial, h.apply hs.2⟩
  exact
  { new := fun _ _ => trivial
    remote := fun _ _ _ => trivial
    est := fun _ _ _ _ => ks (establishBody_pres (fun _ _ => ru (createFar_sizes _) (createFar_rf _)) (fun _ _ => ru (createQer_sizes _) (createQer_rf _))
      (fun _ _ => ru (createUrr_sizes _) (createUrr_rf _)) (fun _ _ => cr _ _))
    mod := fun _ _ _ _ _ => ks (modifyBody_pres (fun _ _ => ru (createFar_sizes _) (createFar_rf _)) (fun _ _ => ru (updateFar_sizes _) (updateFar_rf _))
      (fun _ _ => ru (removeFar_sizes _) (removeFar_rf _)) (fun _ _ => ru (createQer_sizes _) (createQer_rf _)) (fun _ _ => ru (updateQer_sizes _) (updateQer_rf _))
      (fun _ _ => ru (removeQer_sizes _) (removeQer_rf _)) (fun _ _ => ru (createUrr_sizes _) (createUrr_rf _)) (fun _ _ => ru (updateUrr_sizes _) (updateUrr_rf _))
      (fun _ _ => ru (removeUrr_sizes _) (removeUrr_rf _)) (fun _ _ => cr _ _) (fun _ _ => up _ _) (fun _ _ => rem _ _))
    del := fun _ _ _ => ks (deleteBody_pres (fun _ _ => del _ _) (fun _ _ => ru (dropFar_sizes _) (dropFar_rf _)) (fun _ _ => ru (dropQer_sizes _) (dropQer_rf _))
      (fun _ _ => ru (dropUrr_sizes _) (dropUrr_rf _)))
    dels := fun _ _ _ => ks (deleteSessionBody_pres (fun _ _ => del _ _) (fun _ _ => ru (dropFar_sizes _) (dropFar_rf _)) (fun _ _ => ru (dropQer_sizes _) (dropQer_rf _)))
    rel := fun _ _ _ _ h => h
    traffic := fun _ _ _ hs t => ⟨by rw [t.far]; exact hs.1, by rw [t.farIds]; exact hs.2, by rw [t.qerSize]; exact hs.3, by rw [t.qerIds]; exact hs.4,
      by rw [t.urrSize]; exact hs.5, by rw [t.urrIds]; exact hs.6, by rw [t.pdrUl]; exact hs.ul, by rw [t.pdrDl4]; exact hs.dl4, by rw [t.pdrDl6]; exact hs.dl6⟩ }

theorem sizes_hist {cfg : NodeCfg} {rm : Option ResourceManager} {h : List (Ev × Outcome)} {n : Node}
    (H : Hist (Node.init cfg rm (BpfObjects.load p f q u)) h n) : Sizes p f q u n.dp :=
  (ni_hist sizes_keep ⟨rfl, rfl, rfl, rfl, rfl, rfl, ⟨rfl, Nat.zero_le _⟩, ⟨rfl, Nat.zero_le _⟩, ⟨rfl, Nat.zero_le _⟩⟩ H (fun _ _ => trivial)).2
end
end Eupf
