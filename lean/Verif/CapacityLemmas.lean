import Verif.Spec.Capacity
import Verif.KeyGuard
/-
Which table slots are in use, and by whom: no step leaves a slot behind (C94). Models no code.
-/
namespace Eupf
open Act

/-- one of the three slot tables -/
structure RuleKind where
  ids : BpfObjects → IdTracker
  size : BpfObjects → U32
  slot : Session → U32 → Option U32

def RuleKind.far : RuleKind := ⟨(·.farIds), (·.far.size), fun s i => (s.fars.get? i).map (·.gid)⟩
def RuleKind.qer : RuleKind := ⟨(·.qerIds), (·.qer.size), fun s i => (s.qers.get? i).map (·.gid)⟩
def RuleKind.urr : RuleKind := ⟨(·.urrIds), (·.urr.size), fun s i => (s.urrs.get? i).map (·.gid)⟩

/-- the slot is in use -/
def RuleKind.busy (K : RuleKind) (dp : BpfObjects) (g : U32) : Prop := g.toNat < (K.ids dp).maxSize.toNat ∧ (K.ids dp).free g = false
/-- the session has the slot -/
def RuleKind.has (K : RuleKind) (s : Session) (g : U32) : Prop := ∃ i, K.slot s i = some g

/-- after the step a slot in use is the session's, or was in use before and not the session's -/
structure Leaves (K : RuleKind) (s s' : HS) : Prop where
  keeps : K.size s'.dp = K.size s.dp
  sized : (K.ids s.dp).maxSize = K.size s.dp → (K.ids s'.dp).maxSize = K.size s'.dp
  leaves : (K.ids s.dp).maxSize = K.size s.dp → ∀ g, K.busy s'.dp g → K.has s'.sess g ∨ (K.busy s.dp g ∧ ¬ K.has s.sess g)

theorem Leaves.refl (K : RuleKind) (s : HS) : Leaves K s s := ⟨rfl, fun h => h, fun _ g h => by
  by_cases hh : K.has s.sess g
  · exact .inl hh
  · exact .inr ⟨h, hh⟩⟩
theorem Leaves.trans {K : RuleKind} {s s' s'' : HS} (h : Leaves K s s') (h' : Leaves K s' s'') : Leaves K s s'' :=
  ⟨h'.keeps.trans h.keeps, fun hs => h'.sized (h.sized hs), fun hs g hb => by
  rcases h'.leaves (h.sized hs) g hb with h1 | ⟨h1, h2⟩
  · exact .inl h1
  · rcases h.leaves hs g h1 with h3 | h3
    · exact absurd h3 h2
    · exact .inr h3⟩

/-- the step has nothing to do with the table -/
structure Aside (K : RuleKind) (s s' : HS) : Prop where
  ids : K.ids s'.dp = K.ids s.dp
  size : K.size s'.dp = K.size s.dp
  slot : K.slot s'.sess = K.slot s.sess
theorem Aside.refl (K : RuleKind) (s : HS) : Aside K s s := ⟨rfl, rfl, rfl⟩
theorem Aside.trans {K : RuleKind} {s s' s'' : HS} (h : Aside K s s') (h' : Aside K s' s'') : Aside K s s'' :=
  ⟨h'.ids.trans h.ids, h'.size.trans h.size, h'.slot.trans h.slot⟩
theorem Aside.leaves {K : RuleKind} {s s' : HS} (h : Aside K s s') : Leaves K s s' := by
  refine ⟨h.size, fun hs => by rw [h.ids, h.size]; exact hs, fun _ g hb => ?_⟩
  have hb' : K.busy s.dp g := by unfold RuleKind.busy at *; rw [h.ids] at hb; exact hb
  by_cases hh : K.has s.sess g
  · obtain ⟨i, hi⟩ := hh
    exact .inl ⟨i, by rw [h.slot]; exact hi⟩
  · exact .inr ⟨hb', hh⟩

theorem pres_leaves {α : Type} {K : RuleKind} {m : Act HS α} (h : ∀ s, Leaves K s (m s).1) (s0 : HS) : Pres (Leaves K s0) m :=
  pres_of fun s hs => hs.trans (h s)
theorem pres_aside {α : Type} {K : RuleKind} {m : Act HS α} (h : ∀ s, Aside K s (m s).1) (s0 : HS) : Pres (Aside K s0) m :=
  pres_of fun s hs => hs.trans (h s)

/-! ### what the FAR, QER and URR steps touch -/

def onlyFar (s s' : HS) : Prop := ∃ a i fs, s' = { s with dp := { s.dp with far := a, farIds := i }, sess := { s.sess with fars := fs } }
def onlyQer (s s' : HS) : Prop := ∃ a i fs, s' = { s with dp := { s.dp with qer := a, qerIds := i }, sess := { s.sess with qers := fs } }
def onlyUrr (s s' : HS) : Prop := ∃ a i fs rs, s' = { s with dp := { s.dp with urr := a, urrIds := i }, sess := { s.sess with urrs := fs }, reports := rs }

theorem onlyFar.aside {s s' : HS} (h : onlyFar s s') : Aside .qer s s' ∧ Aside .urr s s' := by obtain ⟨a, i, fs, rfl⟩ := h; exact ⟨⟨rfl, rfl, rfl⟩, ⟨rfl, rfl, rfl⟩⟩
theorem onlyQer.aside {s s' : HS} (h : onlyQer s s') : Aside .far s s' ∧ Aside .urr s s' := by obtain ⟨a, i, fs, rfl⟩ := h; exact ⟨⟨rfl, rfl, rfl⟩, ⟨rfl, rfl, rfl⟩⟩
theorem onlyUrr.aside {s s' : HS} (h : onlyUrr s s') : Aside .far s s' ∧ Aside .qer s s' := by obtain ⟨a, i, fs, rs, rfl⟩ := h; exact ⟨⟨rfl, rfl, rfl⟩, ⟨rfl, rfl, rfl⟩⟩

theorem createFar_only (ie : FarIE) (s : HS) : onlyFar s (createFar ie s).1 := by
  unfold createFar; split
  · rename_i y _
    have fr := newFar_frame s.dp y
    rcases hd : s.dp.newFar y with ⟨dp, g⟩
    rw [hd] at fr
    obtain ⟨_, _, rfl⟩ := fr
    cases g <;> exact ⟨_, _, _, rfl⟩
  · exact ⟨_, _, _, rfl⟩
  · exact ⟨_, _, _, rfl⟩
theorem updateFar_only (ie : FarIE) (s : HS) : onlyFar s (updateFar ie s).1 := by
  unfold updateFar; split
  · exact ⟨_, _, _, rfl⟩
  · split
    · simp only []; split
      · rename_i hu; obtain ⟨_, _, rfl⟩ := Option.map_eq_some_iff.1 hu; exact ⟨_, _, _, rfl⟩
      · exact ⟨_, _, _, rfl⟩
    · exact ⟨_, _, _, rfl⟩
    · exact ⟨_, _, _, rfl⟩
theorem removeFar_only (id) (s : HS) : onlyFar s (removeFar id s).1 := by
  unfold removeFar; simp only []
  have fr := deleteFar_frame s.dp (s.sess.getFar (id.getD 0)).gid
  rcases hd : s.dp.deleteFar (s.sess.getFar (id.getD 0)).gid with ⟨dp, b⟩
  rw [hd] at fr
  obtain ⟨_, _, rfl⟩ := fr
  cases b <;> exact ⟨_, _, _, rfl⟩
theorem dropFar_only (e) (s : HS) : onlyFar s (dropFar e s).1 := by
  unfold dropFar
  have fr := deleteFar_frame s.dp e.2.gid
  rcases hd : s.dp.deleteFar e.2.gid with ⟨dp, b⟩
  rw [hd] at fr
  obtain ⟨_, _, rfl⟩ := fr
  cases b <;> exact ⟨_, _, _, rfl⟩
theorem createQer_only (ie : QerIE) (s : HS) : onlyQer s (createQer ie s).1 := by
  unfold createQer; split
  · exact ⟨_, _, _, rfl⟩
  · have fr := newQer_frame s.dp (mergeQer {} ie)
    simp only []
    rcases hd : s.dp.newQer (mergeQer {} ie) with ⟨dp, g⟩
    rw [hd] at fr
    obtain ⟨_, _, rfl⟩ := fr
    cases g <;> exact ⟨_, _, _, rfl⟩
theorem updateQer_only (ie : QerIE) (s : HS) : onlyQer s (updateQer ie s).1 := by
  unfold updateQer; split
  · exact ⟨_, _, _, rfl⟩
  · simp only []; split
    · rename_i hu; obtain ⟨_, _, rfl⟩ := Option.map_eq_some_iff.1 hu; exact ⟨_, _, _, rfl⟩
    · exact ⟨_, _, _, rfl⟩
theorem removeQer_only (id) (s : HS) : onlyQer s (removeQer id s).1 := by
  unfold removeQer; split
  · exact ⟨_, _, _, rfl⟩
  · rename_i id
    simp only []
    have fr := deleteQer_frame s.dp (s.sess.getQer id).gid
    rcases hd : s.dp.deleteQer (s.sess.getQer id).gid with ⟨dp, b⟩
    rw [hd] at fr
    obtain ⟨_, _, rfl⟩ := fr
    cases b <;> exact ⟨_, _, _, rfl⟩
theorem dropQer_only (e) (s : HS) : onlyQer s (dropQer e s).1 := by
  unfold dropQer
  have fr := deleteQer_frame s.dp e.2.gid
  rcases hd : s.dp.deleteQer e.2.gid with ⟨dp, b⟩
  rw [hd] at fr
  obtain ⟨_, _, rfl⟩ := fr
  cases b <;> exact ⟨_, _, _, rfl⟩
theorem createUrr_only (ie : Option U32) (s : HS) : onlyUrr s (createUrr ie s).1 := by
  unfold createUrr; split
  · exact ⟨_, _, _, _, rfl⟩
  · have fr := newUrr_frame s.dp {}
    rcases hd : s.dp.newUrr {} with ⟨dp, g⟩
    rw [hd] at fr
    obtain ⟨_, _, rfl⟩ := fr
    cases g <;> exact ⟨_, _, _, _, rfl⟩
theorem updateUrr_only (ie : Option U32) (s : HS) : onlyUrr s (updateUrr ie s).1 := by
  unfold updateUrr; split
  · exact ⟨_, _, _, _, rfl⟩
  · simp only []; split
    · rename_i hu; obtain ⟨_, _, rfl⟩ := Option.map_eq_some_iff.1 hu; exact ⟨_, _, _, _, rfl⟩
    · exact ⟨_, _, _, _, rfl⟩
theorem removeUrr_only (id) (s : HS) : onlyUrr s (removeUrr id s).1 := by
  unfold removeUrr; split
  · exact ⟨_, _, _, _, rfl⟩
  · rename_i id
    simp only []
    have fr := deleteUrr_frame s.dp (s.sess.getUrr id).gid
    rcases hd : s.dp.deleteUrr (s.sess.getUrr id).gid with ⟨dp, b⟩
    rw [hd] at fr
    obtain ⟨_, _, rfl⟩ := fr
    cases b <;> exact ⟨_, _, _, _, rfl⟩
theorem dropUrr_only (e) (s : HS) : onlyUrr s (dropUrr e s).1 := by
  unfold dropUrr
  have fr := deleteUrr_frame s.dp e.2.gid
  rcases hd : s.dp.deleteUrr e.2.gid with ⟨dp, b⟩
  rw [hd] at fr
  obtain ⟨_, _, rfl⟩ := fr
  cases b <;> exact ⟨_, _, _, _, rfl⟩

/-! ### PDR steps -/

/-- PDR steps leave the slot tables and the session's FARs, QERs and URRs alone -/
structure Apart (s s' : HS) : Prop extends SamePart s'.dp s.dp where
  fars : s'.sess.fars = s.sess.fars
  qers : s'.sess.qers = s.sess.qers
  urrs : s'.sess.urrs = s.sess.urrs

theorem Apart.refl (s : HS) : Apart s s := ⟨SamePart.rfl' _, rfl, rfl, rfl⟩
theorem Apart.trans {s s' s'' : HS} (h : Apart s s') (h' : Apart s' s'') : Apart s s'' :=
  ⟨⟨h'.far.trans h.far, h'.qer.trans h.qer, h'.urr.trans h.urr, h'.farIds.trans h.farIds, h'.qerIds.trans h.qerIds, h'.urrIds.trans h.urrIds⟩,
   h'.fars.trans h.fars, h'.qers.trans h.qers, h'.urrs.trans h.urrs⟩
theorem Apart.aside {s s' : HS} (h : Apart s s') : Aside .far s s' ∧ Aside .qer s s' ∧ Aside .urr s s' :=
  ⟨⟨h.farIds, congrArg ArrMap.size h.far, by unfold RuleKind.far; simp only [h.fars]⟩,
   ⟨h.qerIds, congrArg ArrMap.size h.qer, by unfold RuleKind.qer; simp only [h.qers]⟩,
   ⟨h.urrIds, congrArg ArrMap.size h.urr, by unfold RuleKind.urr; simp only [h.urrs]⟩⟩

theorem apart_extract (ue : Bool) (ie : PdrIE) (p : SPdr) (s0 : HS) : Pres (Apart s0) (extractPdr ue ie p) := by
  apply pres_of; intro s h; obtain ⟨c, rm, e⟩ := extractPdr_frame ue ie p s; rw [e]; exact h.trans ⟨SamePart.rfl' _, rfl, rfl, rfl⟩
theorem apart_apply (p : SPdr) (s0 : HS) : Pres (Apart s0) (applyPdr p) := by
  apply pres_of; intro s h
  obtain ⟨h1, h2⟩ := applyPdr_part p s
  exact h.trans ⟨h1, by rw [h2], by rw [h2], by rw [h2]⟩
theorem apart_modify (s0 : HS) {f : HS → HS} (hf : ∀ s, Apart s (f s)) : Pres (Apart s0) (Act.modify f) := Pres.modify fun s h => h.trans (hf s)
theorem apart_create (ue : Bool) (ie : PdrIE) (s0 : HS) : Pres (Apart s0) (createPdr ue ie) := by
  unfold createPdr
  cases ie.pdrId with
  | none => exact Pres.fail
  | some id =>
    exact Pres.bind (apart_extract _ _ _ _) fun _ => Pres.bind (apart_modify s0 fun _ => ⟨SamePart.rfl' _, rfl, rfl, rfl⟩) fun _ =>
      Pres.bind (apart_apply _ _) fun _ => apart_modify s0 fun _ => ⟨SamePart.rfl' _, rfl, rfl, rfl⟩
theorem apart_update (ue : Bool) (ie : PdrIE) (s0 : HS) : Pres (Apart s0) (updatePdr ue ie) := by
  unfold updatePdr
  cases ie.pdrId with
  | none => exact Pres.fail
  | some id =>
    exact Pres.bind Pres.get fun _ => Pres.bind (apart_extract _ _ _ _) fun _ =>
      Pres.bind (apart_modify s0 fun _ => ⟨SamePart.rfl' _, rfl, rfl, rfl⟩) fun _ => apart_apply _ _
theorem apart_delete (ord : Orders) (p : SPdr) (s0 : HS) : Pres (Apart s0) (deletePdr ord p) := by
  apply deletePdr_pres
  · apply pres_of; intro s h
    obtain ⟨h1, h2⟩ := deletePdrEntry_part p s
    exact h.trans ⟨h1, by rw [h2], by rw [h2], by rw [h2]⟩
  · apply pres_of; intro s h; obtain ⟨c, e⟩ := releaseTeids_frame ord s; rw [e]; exact h.trans ⟨SamePart.rfl' _, rfl, rfl, rfl⟩
theorem apart_remove (ord : Orders) (id : Option U16) (s0 : HS) : Pres (Apart s0) (removePdr ord id) := by
  refine Pres.bind Pres.get fun s => ?_
  simp only []
  split
  · exact Pres.pure
  · exact Pres.bind (apart_modify s0 fun _ => ⟨SamePart.rfl' _, rfl, rfl, rfl⟩) fun _ => apart_delete _ _ _

theorem apart_of {α : Type} {m : Act HS α} (h : ∀ s0, Pres (Apart s0) m) (s : HS) : Apart s (m s).1 := (h s).apply (.refl s)

/-- the three tables, as a case distinction -/
inductive RuleKind.Is : RuleKind → Prop
  | far : Is .far
  | qer : Is .qer
  | urr : Is .urr

theorem apart_pres_aside {α : Type} {m : Act HS α} (h : ∀ s0, Pres (Apart s0) m) {K : RuleKind} (hK : K.Is) (s0 : HS) : Pres (Aside K s0) m :=
  pres_aside (fun s => by cases hK; exact (apart_of h s).aside.1; exact (apart_of h s).aside.2.1; exact (apart_of h s).aside.2.2) s0
theorem apart_pres_leaves {α : Type} {m : Act HS α} (h : ∀ s0, Pres (Apart s0) m) {K : RuleKind} (hK : K.Is) (s0 : HS) : Pres (Leaves K s0) m :=
  pres_leaves (fun s => by cases hK; exact (apart_of h s).aside.1.leaves; exact (apart_of h s).aside.2.1.leaves; exact (apart_of h s).aside.2.2.leaves) s0

/-! ### steps on their own table -/

/-- the table after a slot is handed out -/
theorem busy_take {K : RuleKind} {dp dp' : BpfObjects} {g : U32} (hi : K.ids dp' = (K.ids dp).getNext.1) (hg : (K.ids dp).getNext.2 = some g) (x : U32) :
    K.busy dp' x → x = g ∨ K.busy dp x := by
  rintro ⟨h1, h2⟩
  rw [hi] at h1 h2
  rw [(IdTracker.getNext_some hg).2.2] at h2
  by_cases e : x = g
  · exact .inl e
  · exact .inr ⟨by simpa using h1, by simpa [e] using h2⟩
theorem busy_none {K : RuleKind} {dp dp' : BpfObjects} (hi : K.ids dp' = (K.ids dp).getNext.1) (hg : (K.ids dp).getNext.2 = none) : K.ids dp' = K.ids dp :=
  hi.trans (IdTracker.getNext_none hg).1
theorem busy_drop {K : RuleKind} {dp dp' : BpfObjects} {g : U32} (hi : K.ids dp' = (K.ids dp).release g) (x : U32) :
    K.busy dp' x → x ≠ g ∧ K.busy dp x := by
  rintro ⟨h1, h2⟩
  rw [hi] at h1 h2
  rw [IdTracker.release_maxSize] at h1
  by_cases hg : g.toNat < (K.ids dp).maxSize.toNat
  · rw [IdTracker.release_free hg] at h2
    simp only [Bool.or_eq_false_iff, decide_eq_false_iff_not] at h2
    exact ⟨h2.2, h1, h2.1⟩
  · have e : (K.ids dp).release g = K.ids dp := by
      unfold IdTracker.release
      rw [if_pos (by simp [BitVec.le_def]; omega)]
    rw [e] at h2
    exact ⟨by rintro rfl; exact hg h1, h1, h2⟩

/-- outcome of asking a table for a slot -/
inductive Took (K : RuleKind) (dp dp' : BpfObjects) : Option U32 → Prop
  | got (g : U32) (hi : K.ids dp' = (K.ids dp).getNext.1) (hs : K.size dp' = K.size dp) (hg : (K.ids dp).getNext.2 = some g) : Took K dp dp' (some g)
  | full (hi : K.ids dp' = K.ids dp) (hs : K.size dp' = K.size dp) (hg : (K.ids dp).getNext.2 = none) : Took K dp dp' none
  | outside (hs : K.size dp' = K.size dp) (hm : (K.ids dp').maxSize = (K.ids dp).maxSize) (h : (K.ids dp).maxSize ≠ K.size dp) : Took K dp dp' none

theorem newFar_took (b : BpfObjects) (f : FarInfo) : Took .far b (b.newFar f).1 (b.newFar f).2 := by
  cases h : b.farIds.getNext.2 with
  | none =>
    simp only [BpfObjects.newFar, h]
    exact .full (IdTracker.getNext_none h).1 rfl h
  | some g =>
    cases hu : b.far.update g f with
    | some a =>
      simp only [BpfObjects.newFar, h, hu]
      refine .got g rfl ?_ h
      unfold ArrMap.update at hu; split at hu <;> cases hu; rfl
    | none =>
      simp only [BpfObjects.newFar, h, hu]
      refine .outside rfl (IdTracker.getNext_maxSize _) fun hs => ?_
      have := (IdTracker.getNext_some h).2.1
      have hs : b.farIds.maxSize = b.far.size := hs
      unfold ArrMap.update at hu
      rw [if_pos (by rw [← hs]; exact this)] at hu
      cases hu
theorem newQer_took (b : BpfObjects) (f : QerInfo) : Took .qer b (b.newQer f).1 (b.newQer f).2 := by
  cases h : b.qerIds.getNext.2 with
  | none =>
    simp only [BpfObjects.newQer, h]
    exact .full (IdTracker.getNext_none h).1 rfl h
  | some g =>
    cases hu : b.qer.update g f with
    | some a =>
      simp only [BpfObjects.newQer, h, hu]
      refine .got g rfl ?_ h
      unfold ArrMap.update at hu; split at hu <;> cases hu; rfl
    | none =>
      simp only [BpfObjects.newQer, h, hu]
      refine .outside rfl (IdTracker.getNext_maxSize _) fun hs => ?_
      have := (IdTracker.getNext_some h).2.1
      have hs : b.qerIds.maxSize = b.qer.size := hs
      unfold ArrMap.update at hu
      rw [if_pos (by rw [← hs]; exact this)] at hu
      cases hu
theorem newUrr_took (b : BpfObjects) (f : UrrInfo) : Took .urr b (b.newUrr f).1 (b.newUrr f).2 := by
  cases h : b.urrIds.getNext.2 with
  | none =>
    simp only [BpfObjects.newUrr, h]
    exact .full (IdTracker.getNext_none h).1 rfl h
  | some g =>
    cases hu : b.urr.update g f with
    | some a =>
      simp only [BpfObjects.newUrr, h, hu]
      refine .got g rfl ?_ h
      unfold ArrMap.update at hu; split at hu <;> cases hu; rfl
    | none =>
      simp only [BpfObjects.newUrr, h, hu]
      refine .outside rfl (IdTracker.getNext_maxSize _) fun hs => ?_
      have := (IdTracker.getNext_some h).2.1
      have hs : b.urrIds.maxSize = b.urr.size := hs
      unfold ArrMap.update at hu
      rw [if_pos (by rw [← hs]; exact this)] at hu
      cases hu

/-- what a creation does to its own table -/
inductive Made (K : RuleKind) (key : Option U32) (s s' : HS) (res : Res Unit) : Prop
  | made (i g : U32) (hk : key = some i) (hr : res = .ok ()) (ht : Took K s.dp s'.dp (some g)) (hs : ∀ j, K.slot s'.sess j = if j = i then some g else K.slot s.sess j)
  | failed (i : U32) (hk : key = some i) (hr : res = .err) (ht : Took K s.dp s'.dp none) (hs : s'.sess = s.sess)
  | same (hr : res ≠ .ok ()) (hs : s' = s)

theorem createFar_made (ie : FarIE) (s : HS) : Made .far (some (ie.farId.getD 0)) s (createFar ie s).1 (createFar ie s).2 := by
  unfold createFar
  cases composeFarInfo ie {} with
  | err => exact .same (by simp) rfl
  | panic => exact .same (by simp) rfl
  | ok f =>
    have ht := newFar_took s.dp f
    simp only []
    rcases hd : s.dp.newFar f with ⟨dp, g⟩
    rw [hd] at ht
    cases g with
    | none => exact .failed _ rfl rfl ht rfl
    | some g =>
      refine .made _ g rfl rfl ht fun j => ?_
      simp only [RuleKind.far, Session.newFar, GoMap.get?_set]
      split <;> rfl
theorem createQer_made (ie : QerIE) (s : HS) : Made .qer ie.qerId s (createQer ie s).1 (createQer ie s).2 := by
  unfold createQer
  cases ie.qerId with
  | none => exact .same (by simp) rfl
  | some id =>
    have ht := newQer_took s.dp (mergeQer {} ie)
    simp only []
    rcases hd : s.dp.newQer (mergeQer {} ie) with ⟨dp, g⟩
    rw [hd] at ht
    cases g with
    | none => exact .failed _ rfl rfl ht rfl
    | some g =>
      refine .made id g rfl rfl ht fun j => ?_
      simp only [RuleKind.qer, Session.newQer, GoMap.get?_set]
      by_cases hj : j = id <;> simp [hj]
theorem createUrr_made (ie : Option U32) (s : HS) : Made .urr ie s (createUrr ie s).1 (createUrr ie s).2 := by
  unfold createUrr
  cases ie with
  | none => exact .same (by simp) rfl
  | some id =>
    have ht := newUrr_took s.dp {}
    simp only []
    rcases hd : s.dp.newUrr {} with ⟨dp, g⟩
    rw [hd] at ht
    cases g with
    | none => exact .failed _ rfl rfl ht rfl
    | some g =>
      refine .made id g rfl rfl ht fun j => ?_
      simp only [RuleKind.urr, Session.newUrr, GoMap.get?_set]
      by_cases hj : j = id <;> simp [hj]

theorem Made.leaves {K : RuleKind} {key : Option U32} {s s' : HS} {res : Res Unit} (h : Made K key s s' res)
    (hf : ∀ i, key = some i → K.slot s.sess i = none) : Leaves K s s' := by
  cases h with
  | same hr hs => subst hs; exact .refl K _
  | failed i hk hr ht hs =>
    cases ht with
    | full hi hz _ => exact Aside.leaves ⟨hi, hz, by rw [hs]⟩
    | outside hz _ h => exact ⟨hz, fun e => absurd e h, fun e => absurd e h⟩
  | made i g hk hr ht hs =>
    cases ht with
    | got _ hi hz hg =>
      refine ⟨hz, fun e => by rw [hi, hz, IdTracker.getNext_maxSize]; exact e, fun _ x hb => ?_⟩
      rcases busy_take hi hg x hb with rfl | hb
      · exact .inl ⟨i, by rw [hs, if_pos rfl]⟩
      · by_cases hh : K.has s.sess x
        · obtain ⟨j, hj⟩ := hh
          refine .inl ⟨j, ?_⟩
          rw [hs]
          split
          · rename_i e; subst e; rw [hf j hk] at hj; cases hj
          · exact hj
        · exact .inr ⟨hb, hh⟩

/-- a loop of creations under new ids -/
theorem each_made {β : Type} {K : RuleKind} {g : β → Act HS Unit} {key : β → Option U32}
    (hg : ∀ c s, Made K (key c) s (g c s).1 (g c s).2) : ∀ (l : List β) (s : HS), (l.map key).Nodup →
    (∀ c ∈ l, ∀ i, key c = some i → K.slot s.sess i = none) → Leaves K s (Act.each g l s).1
  | [], s, _, _ => .refl K s
  | c :: l, s, hn, hf => by
    simp only [List.map_cons, List.nodup_cons] at hn
    have hm := hg c s
    have hl := hm.leaves (hf c (by simp))
    show Leaves K s (Act.bind (g c) (fun _ => Act.each g l) s).1
    unfold Act.bind
    rcases hx : g c s with ⟨s1, r⟩
    rw [hx] at hm hl
    cases r with
    | err => exact hl
    | panic => exact hl
    | ok u =>
      refine hl.trans (each_made hg l s1 hn.2 fun c' hc' i hi => ?_)
      cases hm with
      | made i0 g0 hk hr ht hs =>
        rw [hs, if_neg]
        · exact hf c' (by simp [hc']) i hi
        · rintro rfl; exact hn.1 (List.mem_map.2 ⟨c', hc', by rw [hi, hk]⟩)
      | failed _ _ hr => cases hr
      | same hr => exact absurd rfl hr

/-- rewriting a rule -/
theorem updateFar_leaves (ie : FarIE) (s : HS) : Leaves .far s (updateFar ie s).1 := by
  have key : ∀ id f (a : ArrMap FarInfo), a.size = s.dp.far.size → Leaves .far s { s with dp := { s.dp with far := a }, sess := s.sess.updateFar id f } := by
    intro id f a ha
    refine ⟨ha, fun h => ?_, fun _ g hb => ?_⟩
    · show s.dp.farIds.maxSize = a.size
      rw [ha]; exact h
    · have hb : RuleKind.busy .far s.dp g := hb
      by_cases hh : RuleKind.has .far s.sess g
      · obtain ⟨j, hj⟩ := hh
        refine .inl ⟨j, ?_⟩
        simp only [RuleKind.far, Session.updateFar, GoMap.get?_set] at hj ⊢
        split
        · rename_i e
          subst e
          cases hx : s.sess.fars.get? j with
          | none => rw [hx] at hj; cases hj
          | some x => rw [hx] at hj; simp only [Session.getFar, hx, Option.getD_some]; exact hj
        · exact hj
      · exact .inr ⟨hb, hh⟩
  unfold updateFar; split
  · exact .refl _ s
  · rename_i id _
    split
    · rename_i f _
      simp only []
      cases hu : s.dp.updateFar (s.sess.getFar id).gid f with
      | none => exact key id f s.dp.far rfl
      | some dp =>
        obtain ⟨a, ha, rfl⟩ := Option.map_eq_some_iff.1 hu
        refine key id f a ?_
        unfold ArrMap.update at ha; split at ha <;> cases ha; rfl
    · exact .refl _ s
    · exact .refl _ s
theorem updateQer_leaves (ie : QerIE) (s : HS) : Leaves .qer s (updateQer ie s).1 := by
  have key : ∀ id f (a : ArrMap QerInfo), a.size = s.dp.qer.size → Leaves .qer s { s with dp := { s.dp with qer := a }, sess := s.sess.updateQer id f } := by
    intro id f a ha
    refine ⟨ha, fun h => ?_, fun _ g hb => ?_⟩
    · show s.dp.qerIds.maxSize = a.size
      rw [ha]; exact h
    · have hb : RuleKind.busy .qer s.dp g := hb
      by_cases hh : RuleKind.has .qer s.sess g
      · obtain ⟨j, hj⟩ := hh
        refine .inl ⟨j, ?_⟩
        simp only [RuleKind.qer, Session.updateQer, GoMap.get?_set] at hj ⊢
        split
        · rename_i e
          subst e
          cases hx : s.sess.qers.get? j with
          | none => rw [hx] at hj; cases hj
          | some x => rw [hx] at hj; simp only [Session.getQer, hx, Option.getD_some]; exact hj
        · exact hj
      · exact .inr ⟨hb, hh⟩
  unfold updateQer; split
  · exact .refl _ s
  · rename_i id _
    simp only []
    cases hu : s.dp.updateQer (s.sess.getQer id).gid (mergeQer (s.sess.getQer id).info ie) with
    | none => exact key id _ s.dp.qer rfl
    | some dp =>
      obtain ⟨a, ha, rfl⟩ := Option.map_eq_some_iff.1 hu
      refine key id _ a ?_
      unfold ArrMap.update at ha; split at ha <;> cases ha; rfl
theorem updateUrr_leaves (ie : Option U32) (s : HS) : Leaves .urr s (updateUrr ie s).1 := by
  have key : ∀ id f (a : ArrMap UrrInfo), a.size = s.dp.urr.size → Leaves .urr s { s with dp := { s.dp with urr := a }, sess := s.sess.updateUrr id f } := by
    intro id f a ha
    refine ⟨ha, fun h => ?_, fun _ g hb => ?_⟩
    · show s.dp.urrIds.maxSize = a.size
      rw [ha]; exact h
    · have hb : RuleKind.busy .urr s.dp g := hb
      by_cases hh : RuleKind.has .urr s.sess g
      · obtain ⟨j, hj⟩ := hh
        refine .inl ⟨j, ?_⟩
        simp only [RuleKind.urr, Session.updateUrr, GoMap.get?_set] at hj ⊢
        split
        · rename_i e
          subst e
          cases hx : s.sess.urrs.get? j with
          | none => rw [hx] at hj; cases hj
          | some x => rw [hx] at hj; simp only [Session.getUrr, hx, Option.getD_some]; exact hj
        · exact hj
      · exact .inr ⟨hb, hh⟩
  unfold updateUrr; split
  · exact .refl _ s
  · rename_i id
    simp only []
    cases hu : s.dp.updateUrr (s.sess.getUrr id).gid (s.sess.getUrr id).info with
    | none => exact key id _ s.dp.urr rfl
    | some dp =>
      obtain ⟨a, ha, rfl⟩ := Option.map_eq_some_iff.1 hu
      refine key id _ a ?_
      unfold ArrMap.update at ha; split at ha <;> cases ha; rfl

/-- what a removal does to its own table -/
structure Freed (K : RuleKind) (g : U32) (dp dp' : BpfObjects) : Prop where
  keeps : K.size dp' = K.size dp
  sized : (K.ids dp).maxSize = K.size dp → (K.ids dp').maxSize = K.size dp'
  busy : (K.ids dp).maxSize = K.size dp → ∀ x, K.busy dp' x → x ≠ g ∧ K.busy dp x

theorem deleteFar_freed (b : BpfObjects) (g : U32) : Freed .far g b (b.deleteFar g).1 := by
  cases hu : b.far.update g {} with
  | none =>
    simp only [BpfObjects.deleteFar, hu]
    exact ⟨rfl, fun h => (IdTracker.release_maxSize ..).trans h, fun _ x => busy_drop (K := .far) rfl x⟩
  | some a =>
    simp only [BpfObjects.deleteFar, hu]
    have ha : a.size = b.far.size := by unfold ArrMap.update at hu; split at hu <;> cases hu; rfl
    exact ⟨ha, fun h => (IdTracker.release_maxSize ..).trans (h.trans ha.symm), fun _ x => busy_drop (K := .far) rfl x⟩
theorem deleteQer_freed (b : BpfObjects) (g : U32) : Freed .qer g b (b.deleteQer g).1 := by
  cases hu : b.qer.update g {} with
  | none =>
    simp only [BpfObjects.deleteQer, hu]
    exact ⟨rfl, fun h => (IdTracker.release_maxSize ..).trans h, fun _ x => busy_drop (K := .qer) rfl x⟩
  | some a =>
    simp only [BpfObjects.deleteQer, hu]
    have ha : a.size = b.qer.size := by unfold ArrMap.update at hu; split at hu <;> cases hu; rfl
    exact ⟨ha, fun h => (IdTracker.release_maxSize ..).trans (h.trans ha.symm), fun _ x => busy_drop (K := .qer) rfl x⟩
theorem deleteUrr_freed (b : BpfObjects) (g : U32) : Freed .urr g b (b.deleteUrr g).1 := by
  cases hl : b.urr.lookup g with
  | none =>
    simp only [BpfObjects.deleteUrr, hl]
    refine ⟨rfl, fun h => h, fun hs x hb => ⟨?_, hb⟩⟩
    rintro rfl
    have hs : b.urrIds.maxSize = b.urr.size := hs
    have hb : x.toNat < b.urrIds.maxSize.toNat := hb.1
    unfold ArrMap.lookup at hl
    rw [if_pos (by rw [← hs]; exact hb)] at hl
    cases hl
  | some v =>
    cases hu : b.urr.update g {} with
    | none =>
      simp only [BpfObjects.deleteUrr, hl, hu]
      exact ⟨rfl, fun h => (IdTracker.release_maxSize ..).trans h, fun _ x => busy_drop (K := .urr) rfl x⟩
    | some a =>
      simp only [BpfObjects.deleteUrr, hl, hu]
      have ha : a.size = b.urr.size := by unfold ArrMap.update at hu; split at hu <;> cases hu; rfl
      exact ⟨ha, fun h => (IdTracker.release_maxSize ..).trans (h.trans ha.symm), fun _ x => busy_drop (K := .urr) rfl x⟩

/-- a rule is removed from the session and its slot freed -/
theorem freed_leaves {K : RuleKind} {g i : U32} {s s' : HS} (h : Freed K g s.dp s'.dp) (hg : ∀ g', K.slot s.sess i = some g' → g' = g)
    (hs : ∀ j, K.slot s'.sess j = if j = i then none else K.slot s.sess j) : Leaves K s s' := by
  refine ⟨h.keeps, h.sized, fun hz x hb => ?_⟩
  obtain ⟨h1, h2⟩ := h.busy hz x hb
  by_cases hh : K.has s.sess x
  · obtain ⟨j, hj⟩ := hh
    refine .inl ⟨j, ?_⟩
    rw [hs, if_neg]
    · exact hj
    · rintro rfl; exact h1 (hg x hj)
  · exact .inr ⟨h2, hh⟩

theorem removeFar_leaves (id : Option U32) (s : HS) : Leaves .far s (removeFar id s).1 := by
  unfold removeFar; simp only []
  have fr := deleteFar_freed s.dp (s.sess.getFar (id.getD 0)).gid
  rcases hd : s.dp.deleteFar (s.sess.getFar (id.getD 0)).gid with ⟨dp, b⟩
  rw [hd] at fr
  have hg : ∀ g', RuleKind.slot .far s.sess (id.getD 0) = some g' → g' = (s.sess.getFar (id.getD 0)).gid := by
    intro g' h
    simp only [RuleKind.far] at h
    cases hx : s.sess.fars.get? (id.getD 0) with
    | none => rw [hx] at h; cases h
    | some x => rw [hx] at h; cases h; unfold Session.getFar; rw [hx]; rfl
  have hs : ∀ j, RuleKind.slot .far (s.sess.removeFar (id.getD 0)) j = if j = id.getD 0 then none else RuleKind.slot .far s.sess j := by
    intro j
    simp only [RuleKind.far, Session.removeFar, GoMap.get?_erase]
    split <;> rfl
  cases b <;> exact freed_leaves (g := (s.sess.getFar (id.getD 0)).gid) fr hg hs
theorem removeQer_leaves (id : Option U32) (s : HS) : Leaves .qer s (removeQer id s).1 := by
  unfold removeQer; split
  · exact .refl _ s
  rename_i id
  simp only []
  have fr := deleteQer_freed s.dp (s.sess.getQer id).gid
  rcases hd : s.dp.deleteQer (s.sess.getQer id).gid with ⟨dp, b⟩
  rw [hd] at fr
  have hg : ∀ g', RuleKind.slot .qer s.sess id = some g' → g' = (s.sess.getQer id).gid := by
    intro g' h
    simp only [RuleKind.qer] at h
    cases hx : s.sess.qers.get? id with
    | none => rw [hx] at h; cases h
    | some x => rw [hx] at h; cases h; simp [Session.getQer, hx]
  have hs : ∀ j, RuleKind.slot .qer (s.sess.removeQer id) j = if j = id then none else RuleKind.slot .qer s.sess j := by
    intro j
    simp only [RuleKind.qer, Session.removeQer, GoMap.get?_erase]
    split <;> rfl
  cases b <;> exact freed_leaves (g := (s.sess.getQer id).gid) fr hg hs
theorem removeUrr_leaves (id : Option U32) (s : HS) : Leaves .urr s (removeUrr id s).1 := by
  unfold removeUrr; split
  · exact .refl _ s
  rename_i id
  simp only []
  have fr := deleteUrr_freed s.dp (s.sess.getUrr id).gid
  rcases hd : s.dp.deleteUrr (s.sess.getUrr id).gid with ⟨dp, b⟩
  rw [hd] at fr
  have hg : ∀ g', RuleKind.slot .urr s.sess id = some g' → g' = (s.sess.getUrr id).gid := by
    intro g' h
    simp only [RuleKind.urr] at h
    cases hx : s.sess.urrs.get? id with
    | none => rw [hx] at h; cases h
    | some x => rw [hx] at h; cases h; simp [Session.getUrr, hx]
  have hs : ∀ j, RuleKind.slot .urr (s.sess.removeUrr id) j = if j = id then none else RuleKind.slot .urr s.sess j := by
    intro j
    simp only [RuleKind.urr, Session.removeUrr, GoMap.get?_erase]
    split <;> rfl
  cases b <;> exact freed_leaves (g := (s.sess.getUrr id).gid) fr hg hs

end Eupf
