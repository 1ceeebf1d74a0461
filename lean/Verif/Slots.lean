import Verif.NodeLemmas
/-
Ownership of forwarding plane slots: an abstract invariant of (array map, allocator, owners) and the steps that
keep it.
-/
namespace Eupf

/-- Every owner `k` holds one slot; slots are exclusive, in range, not free, and contain the owner's value. -/
structure SlotOk {K V : Type} (sim : K → V → V → Prop) (arr : ArrMap V) (ids : IdTracker) (own : K → Option (U32 × V)) :
    Prop where
  size : ids.maxSize = arr.size
  excl : ∀ k k' g v v', own k = some (g, v) → own k' = some (g, v') → k = k'
  ok : ∀ k g v, own k = some (g, v) → g.toNat < arr.size.toNat ∧ ids.free g = false ∧ sim k (arr.val g) v

namespace SlotOk
variable {K V : Type} [DecidableEq K] {sim : K → V → V → Prop} {arr : ArrMap V} {ids : IdTracker}
  {own : K → Option (U32 × V)}

omit [DecidableEq K] in
theorem mono (h : SlotOk sim arr ids own) {own' : K → Option (U32 × V)}
    (hs : ∀ k x, own' k = some x → own k = some x) : SlotOk sim arr ids own' :=
  ⟨h.size, fun k k' g v v' h1 h2 => h.excl k k' g v v' (hs _ _ h1) (hs _ _ h2),
   fun k g v h1 => h.ok k g v (hs _ _ h1)⟩

omit [DecidableEq K] in
/-- Move or rename owners along an injection. -/
theorem rename {K' : Type} (h : SlotOk sim arr ids own) {own' : K' → Option (U32 × V)} (f : K' → K)
    (hf : ∀ k k' x y, own' k = some x → own' k' = some y → f k = f k' → k = k')
    (hs : ∀ k x, own' k = some x → own (f k) = some x) : SlotOk (fun k => sim (f k)) arr ids own' :=
  ⟨h.size, fun _ _ g v v' h1 h2 => hf _ _ _ _ h1 h2 (h.excl _ _ g v v' (hs _ _ h1) (hs _ _ h2)),
   fun _ g v h1 => h.ok _ g v (hs _ _ h1)⟩

omit [DecidableEq K] in
theorem takeOnly (h : SlotOk sim arr ids own) : SlotOk sim arr ids.getNext.1 own := by
  refine ⟨by simpa using h.size, h.excl, fun k g v h1 => ?_⟩
  obtain ⟨h2, h3, h4⟩ := h.ok k g v h1
  refine ⟨h2, ?_, h4⟩
  cases hn : ids.getNext.2 with
  | none => rw [(IdTracker.getNext_none hn).1]; exact h3
  | some m => rw [(IdTracker.getNext_some hn).2.2, h3]; rfl

/-- A new owner gets a fresh slot with its value. -/
theorem alloc (h : SlotOk sim arr ids own) {g : U32} (hn : ids.getNext.2 = some g) {v : V} {arr' : ArrMap V}
    (hu : arr.update g v = some arr') (k0 : K) (hsim : sim k0 v v) {own' : K → Option (U32 × V)}
    (h0 : own' k0 = some (g, v)) (hs : ∀ k, k ≠ k0 → ∀ x, own' k = some x → own k = some x) :
    SlotOk sim arr' ids.getNext.1 own' := by
  obtain ⟨hfree, hlt, hf⟩ := IdTracker.getNext_some hn
  have hneq : ∀ k v, own k ≠ some (g, v) := by
    intro k v h1; rw [(h.ok k g v h1).2.1] at hfree; cases hfree
  unfold ArrMap.update at hu
  split at hu
  · cases hu
    refine ⟨by simpa using h.size, ?_, ?_⟩
    · intro k k' g' v1 v2 h1 h2
      by_cases hk : k = k0 <;> by_cases hk' : k' = k0
      · rw [hk, hk']
      · subst hk; rw [h0] at h1; cases h1; exact absurd (hs k' hk' _ h2) (hneq _ _)
      · subst hk'; rw [h0] at h2; cases h2; exact absurd (hs k hk _ h1) (hneq _ _)
      · exact h.excl k k' g' v1 v2 (hs k hk _ h1) (hs k' hk' _ h2)
    · intro k g' v1 h1
      simp only
      by_cases hk : k = k0
      · subst hk; rw [h0] at h1; cases h1
        refine ⟨by assumption, ?_, by simpa using hsim⟩
        rw [hf]; simp
      · have h2 := hs k hk _ h1
        obtain ⟨h3, h4, h5⟩ := h.ok k g' v1 h2
        have : g' ≠ g := by rintro rfl; exact hneq _ _ h2
        refine ⟨h3, ?_, by simpa [this] using h5⟩
        rw [hf, h4]; rfl
  · cases hu

/-- An owner's slot is rewritten. -/
theorem write (h : SlotOk sim arr ids own) {k0 : K} {g : U32} {v0 v : V} (hk0 : own k0 = some (g, v0))
    {arr' : ArrMap V} (hu : arr.update g v = some arr') (hsim : sim k0 v v) {own' : K → Option (U32 × V)}
    (h0 : own' k0 = some (g, v)) (hs : ∀ k, k ≠ k0 → ∀ x, own' k = some x → own k = some x) :
    SlotOk sim arr' ids own' := by
  unfold ArrMap.update at hu
  split at hu
  · cases hu
    refine ⟨h.size, ?_, ?_⟩
    · intro k k' g' v1 v2 h1 h2
      by_cases hk : k = k0 <;> by_cases hk' : k' = k0
      · rw [hk, hk']
      · subst hk; rw [h0] at h1; cases h1; exact h.excl _ _ _ _ _ hk0 (hs k' hk' _ h2)
      · subst hk'; rw [h0] at h2; cases h2; exact h.excl _ _ _ _ _ (hs k hk _ h1) hk0
      · exact h.excl k k' g' v1 v2 (hs k hk _ h1) (hs k' hk' _ h2)
    · intro k g' v1 h1
      simp only
      by_cases hk : k = k0
      · subst hk; rw [h0] at h1; cases h1
        exact ⟨by assumption, (h.ok _ _ _ hk0).2.1, by simpa using hsim⟩
      · have h2 := hs k hk _ h1
        obtain ⟨h3, h4, h5⟩ := h.ok k g' v1 h2
        have : g' ≠ g := by rintro rfl; exact hk (h.excl _ _ _ _ _ h2 hk0)
        exact ⟨h3, h4, by simpa [this] using h5⟩
  · cases hu

omit [DecidableEq K] in
/-- A slot is released and overwritten whose owner, if any, disappears. -/
theorem drop (h : SlotOk sim arr ids own) {g : U32} {v : V} {arr' : ArrMap V}
    (hu : arr.update g v = some arr') {own' : K → Option (U32 × V)}
    (hs : ∀ k x, own' k = some x → own k = some x ∧ x.1 ≠ g) : SlotOk sim arr' (ids.release g) own' := by
  unfold ArrMap.update at hu
  split at hu
  · rename_i hlt
    cases hu
    refine ⟨by simpa using h.size, fun k k' g v v' h1 h2 => h.excl k k' g v v' (hs _ _ h1).1 (hs _ _ h2).1, ?_⟩
    intro k g' v1 h1
    obtain ⟨h2, hne⟩ := hs _ _ h1
    obtain ⟨h3, h4, h5⟩ := h.ok k g' v1 h2
    have hne : g' ≠ g := hne
    refine ⟨h3, ?_, by simpa [hne] using h5⟩
    rw [IdTracker.release_free (by rw [h.size]; exact hlt), h4]
    simp [hne]
  · cases hu

omit [DecidableEq K] in
theorem update_some (h : SlotOk sim arr ids own) {k0 : K} {g : U32} {v0 : V} (hk0 : own k0 = some (g, v0)) (v : V) :
    ∃ arr', arr.update g v = some arr' := by
  unfold ArrMap.update
  rw [if_pos (h.ok _ _ _ hk0).1]; exact ⟨_, rfl⟩

end SlotOk

/-! ### the three tables -/

/-- Sessions by owner; `none` is the session of an establishment in progress. -/
abbrev View := Option (Addr × U64) → Option Session

/-- Owner of a rule: session and rule id. -/
abbrev Owner := Option (Addr × U64) × U32

def ownFar (view : View) : Owner → Option (U32 × FarInfo) := fun k =>
  ((view k.1).bind (fun s => s.fars.get? k.2)).map (fun f => (f.gid, f.info))
def ownQer (view : View) : Owner → Option (U32 × QerInfo) := fun k =>
  ((view k.1).bind (fun s => s.qers.get? k.2)).map (fun f => (f.gid, f.info))
def ownUrr (view : View) : Owner → Option (U32 × UrrInfo) := fun k =>
  ((view k.1).bind (fun s => s.urrs.get? k.2)).map (fun f => (f.gid, f.info))

/-- equal up to the rate limiter's timers -/
def QerInfo.same (a b : QerInfo) : Prop :=
  { a with startUL := 0, startDL := 0 } = { b with startUL := 0, startDL := 0 }

/-- How the slots of QERs and URRs are compared with what their owners have. -/
structure SlotCmp where
  qer : Owner → QerInfo → QerInfo → Prop
  urr : Owner → UrrInfo → UrrInfo → Prop
  /-- owners of QERs that are not to be written -/
  fix : Owner → Prop
  /-- owners of URRs that are not to be written -/
  ufix : Owner → Prop
  qrefl : ∀ o v, ¬ fix o → qer o v v
  urefl : ∀ o v, ¬ ufix o → urr o v v

/-- QERs up to the timers, URRs not at all: traffic changes these. -/
def SlotCmp.std : SlotCmp := ⟨fun _ => QerInfo.same, fun _ _ _ => True, fun _ => False, fun _ => False, fun _ _ _ => rfl, fun _ _ _ => trivial⟩

structure SlotsX (c : SlotCmp) (view : View) (dp : BpfObjects) : Prop where
  far : SlotOk (fun _ => (· = ·)) dp.far dp.farIds (ownFar view)
  qer : SlotOk c.qer dp.qer dp.qerIds (ownQer view)
  urr : SlotOk c.urr dp.urr dp.urrIds (ownUrr view)

abbrev Slots (view : View) (dp : BpfObjects) : Prop := SlotsX .std view dp

/-- the view with the session of owner `k` replaced -/
def View.upd (view : View) (k : Option (Addr × U64)) (s : Session) : View := fun x => if x = k then some s else view x

/-- invariant of a handler body working on the session of owner `k` -/
def HSlotsX (c : SlotCmp) (view : View) (k : Option (Addr × U64)) (s : HS) : Prop := SlotsX c (view.upd k s.sess) s.dp
abbrev HSlots (view : View) (k : Option (Addr × U64)) (s : HS) : Prop := HSlotsX .std view k s

theorem ownFar_upd_ne {view : View} {k : Option (Addr × U64)} {s : Session} {o : Owner} (h : o.1 ≠ k) :
    ownFar (view.upd k s) o = ownFar view o := by simp [ownFar, View.upd, h]
theorem ownFar_upd {view : View} {k : Option (Addr × U64)} {s : Session} {i : U32} :
    ownFar (view.upd k s) (k, i) = (s.fars.get? i).map (fun f => (f.gid, f.info)) := by simp [ownFar, View.upd]
theorem ownQer_upd_ne {view : View} {k : Option (Addr × U64)} {s : Session} {o : Owner} (h : o.1 ≠ k) :
    ownQer (view.upd k s) o = ownQer view o := by simp [ownQer, View.upd, h]
theorem ownQer_upd {view : View} {k : Option (Addr × U64)} {s : Session} {i : U32} :
    ownQer (view.upd k s) (k, i) = (s.qers.get? i).map (fun f => (f.gid, f.info)) := by simp [ownQer, View.upd]
theorem ownUrr_upd_ne {view : View} {k : Option (Addr × U64)} {s : Session} {o : Owner} (h : o.1 ≠ k) :
    ownUrr (view.upd k s) o = ownUrr view o := by simp [ownUrr, View.upd, h]
theorem ownUrr_upd {view : View} {k : Option (Addr × U64)} {s : Session} {i : U32} :
    ownUrr (view.upd k s) (k, i) = (s.urrs.get? i).map (fun f => (f.gid, f.info)) := by simp [ownUrr, View.upd]

theorem ownFar_congr {view : View} {k : Option (Addr × U64)} {s s' : Session} (h : s'.fars = s.fars) :
    ownFar (view.upd k s') = ownFar (view.upd k s) := by
  funext ⟨o, i⟩
  by_cases ho : o = k
  · subst ho; rw [ownFar_upd, ownFar_upd, h]
  · rw [ownFar_upd_ne ho, ownFar_upd_ne ho]
theorem ownQer_congr {view : View} {k : Option (Addr × U64)} {s s' : Session} (h : s'.qers = s.qers) :
    ownQer (view.upd k s') = ownQer (view.upd k s) := by
  funext ⟨o, i⟩
  by_cases ho : o = k
  · subst ho; rw [ownQer_upd, ownQer_upd, h]
  · rw [ownQer_upd_ne ho, ownQer_upd_ne ho]
theorem ownUrr_congr {view : View} {k : Option (Addr × U64)} {s s' : Session} (h : s'.urrs = s.urrs) :
    ownUrr (view.upd k s') = ownUrr (view.upd k s) := by
  funext ⟨o, i⟩
  by_cases ho : o = k
  · subst ho; rw [ownUrr_upd, ownUrr_upd, h]
  · rw [ownUrr_upd_ne ho, ownUrr_upd_ne ho]

/-! ### steps -/
section
variable {c : SlotCmp} {view : View} {k : Option (Addr × U64)}

theorem far_of {s s' : Session} {arr : ArrMap FarInfo} {ids : IdTracker}
    (h : SlotOk (fun _ => (· = ·)) arr ids (ownFar (view.upd k s))) (e : s'.fars = s.fars) :
    SlotOk (fun _ => (· = ·)) arr ids (ownFar (view.upd k s')) := by rw [ownFar_congr e]; exact h
theorem qer_of {s s' : Session} {arr : ArrMap QerInfo} {ids : IdTracker}
    (h : SlotOk c.qer arr ids (ownQer (view.upd k s))) (e : s'.qers = s.qers) :
    SlotOk c.qer arr ids (ownQer (view.upd k s')) := by rw [ownQer_congr e]; exact h
theorem urr_of {s s' : Session} {arr : ArrMap UrrInfo} {ids : IdTracker}
    (h : SlotOk c.urr arr ids (ownUrr (view.upd k s))) (e : s'.urrs = s.urrs) :
    SlotOk c.urr arr ids (ownUrr (view.upd k s')) := by rw [ownUrr_congr e]; exact h
theorem slots_of {s s' : Session} {dp : BpfObjects} (h : SlotsX c (view.upd k s) dp) (e1 : s'.fars = s.fars)
    (e2 : s'.qers = s.qers) (e3 : s'.urrs = s.urrs) : SlotsX c (view.upd k s') dp :=
  ⟨far_of h.far e1, qer_of h.qer e2, urr_of h.urr e3⟩

/-- how owners change when entry `i` of the FAR map of session `k` is set -/
theorem ownFar_set {s : Session} {i g : U32} {f : FarInfo} (o : Owner) :
    ownFar (view.upd k { s with fars := s.fars.set i ⟨f, g⟩ }) o =
      if o = (k, i) then some (g, f) else ownFar (view.upd k s) o := by
  obtain ⟨o, j⟩ := o
  by_cases ho : o = k
  · subst ho; rw [ownFar_upd, ownFar_upd]; simp only [GoMap.get?_set]
    by_cases hj : j = i <;> simp [hj]
  · have : (o, j) ≠ (k, i) := fun h => ho (Prod.mk.inj h).1
    rw [ownFar_upd_ne ho, ownFar_upd_ne ho, if_neg this]
theorem ownFar_erase {s : Session} {i : U32} (o : Owner) :
    ownFar (view.upd k { s with fars := s.fars.erase i }) o =
      if o = (k, i) then none else ownFar (view.upd k s) o := by
  obtain ⟨o, j⟩ := o
  by_cases ho : o = k
  · subst ho; rw [ownFar_upd, ownFar_upd]; simp only [GoMap.get?_erase]
    by_cases hj : j = i <;> simp [hj]
  · have : (o, j) ≠ (k, i) := fun h => ho (Prod.mk.inj h).1
    rw [ownFar_upd_ne ho, ownFar_upd_ne ho, if_neg this]
theorem ownQer_set {s : Session} {i g : U32} {f : QerInfo} (o : Owner) :
    ownQer (view.upd k { s with qers := s.qers.set i ⟨f, g⟩ }) o =
      if o = (k, i) then some (g, f) else ownQer (view.upd k s) o := by
  obtain ⟨o, j⟩ := o
  by_cases ho : o = k
  · subst ho; rw [ownQer_upd, ownQer_upd]; simp only [GoMap.get?_set]
    by_cases hj : j = i <;> simp [hj]
  · have : (o, j) ≠ (k, i) := fun h => ho (Prod.mk.inj h).1
    rw [ownQer_upd_ne ho, ownQer_upd_ne ho, if_neg this]
theorem ownQer_erase {s : Session} {i : U32} (o : Owner) :
    ownQer (view.upd k { s with qers := s.qers.erase i }) o =
      if o = (k, i) then none else ownQer (view.upd k s) o := by
  obtain ⟨o, j⟩ := o
  by_cases ho : o = k
  · subst ho; rw [ownQer_upd, ownQer_upd]; simp only [GoMap.get?_erase]
    by_cases hj : j = i <;> simp [hj]
  · have : (o, j) ≠ (k, i) := fun h => ho (Prod.mk.inj h).1
    rw [ownQer_upd_ne ho, ownQer_upd_ne ho, if_neg this]
theorem ownUrr_set {s : Session} {i : U32} {u : SUrr} (o : Owner) :
    ownUrr (view.upd k { s with urrs := s.urrs.set i u }) o =
      if o = (k, i) then some (u.gid, u.info) else ownUrr (view.upd k s) o := by
  obtain ⟨o, j⟩ := o
  by_cases ho : o = k
  · subst ho; rw [ownUrr_upd, ownUrr_upd]; simp only [GoMap.get?_set]
    by_cases hj : j = i <;> simp [hj]
  · have : (o, j) ≠ (k, i) := fun h => ho (Prod.mk.inj h).1
    rw [ownUrr_upd_ne ho, ownUrr_upd_ne ho, if_neg this]
theorem ownUrr_erase {s : Session} {i : U32} (o : Owner) :
    ownUrr (view.upd k { s with urrs := s.urrs.erase i }) o =
      if o = (k, i) then none else ownUrr (view.upd k s) o := by
  obtain ⟨o, j⟩ := o
  by_cases ho : o = k
  · subst ho; rw [ownUrr_upd, ownUrr_upd]; simp only [GoMap.get?_erase]
    by_cases hj : j = i <;> simp [hj]
  · have : (o, j) ≠ (k, i) := fun h => ho (Prod.mk.inj h).1
    rw [ownUrr_upd_ne ho, ownUrr_upd_ne ho, if_neg this]

/-- outcomes of creating a FAR slot -/
theorem newFar_slots {s : HS} (h : HSlotsX c view k s) (i : U32) (f : FarInfo) :
    (∀ dp g, s.dp.newFar f = (dp, some g) → SlotsX c (view.upd k (s.sess.newFar i g f)) dp) ∧
    (∀ dp, s.dp.newFar f = (dp, none) → SlotsX c (view.upd k s.sess) dp) := by
  unfold BpfObjects.newFar
  constructor
  · intro dp g hn
    simp only at hn
    cases hg : s.dp.farIds.getNext.2 with
    | none => rw [hg] at hn; cases hn
    | some g' =>
      rw [hg] at hn
      simp only at hn
      cases hu : s.dp.far.update g' f with
      | none => rw [hu] at hn; cases hn
      | some arr =>
        rw [hu] at hn; cases hn
        refine ⟨?_, ?_, ?_⟩
        · refine h.far.alloc hg hu (k, i) rfl (by simp only [Session.newFar]; rw [ownFar_set, if_pos rfl]) ?_
          intro o ho x hx; simp only [Session.newFar] at hx; rw [ownFar_set, if_neg ho] at hx; exact hx
        · exact qer_of h.qer rfl
        · exact urr_of h.urr rfl
  · intro dp hn
    simp only at hn
    cases hg : s.dp.farIds.getNext.2 with
    | none => rw [hg] at hn; cases hn; exact ⟨h.far.takeOnly, h.qer, h.urr⟩
    | some g' =>
      rw [hg] at hn
      simp only at hn
      cases hu : s.dp.far.update g' f with
      | none => rw [hu] at hn; cases hn; exact ⟨h.far.takeOnly, h.qer, h.urr⟩
      | some arr => rw [hu] at hn; cases hn

theorem newQer_slots {s : HS} (h : HSlotsX c view k s) (i : U32) (hf : ¬ c.fix (k, i)) (f : QerInfo) :
    (∀ dp g, s.dp.newQer f = (dp, some g) → SlotsX c (view.upd k (s.sess.newQer i g f)) dp) ∧
    (∀ dp, s.dp.newQer f = (dp, none) → SlotsX c (view.upd k s.sess) dp) := by
  unfold BpfObjects.newQer
  constructor
  · intro dp g hn
    simp only at hn
    cases hg : s.dp.qerIds.getNext.2 with
    | none => rw [hg] at hn; cases hn
    | some g' =>
      rw [hg] at hn
      simp only at hn
      cases hu : s.dp.qer.update g' f with
      | none => rw [hu] at hn; cases hn
      | some arr =>
        rw [hu] at hn; cases hn
        refine ⟨?_, ?_, ?_⟩
        · exact far_of h.far rfl
        · refine h.qer.alloc hg hu (k, i) (c.qrefl _ _ hf) (by simp only [Session.newQer]; rw [ownQer_set, if_pos rfl]) ?_
          intro o ho x hx; simp only [Session.newQer] at hx; rw [ownQer_set, if_neg ho] at hx; exact hx
        · exact urr_of h.urr rfl
  · intro dp hn
    simp only at hn
    cases hg : s.dp.qerIds.getNext.2 with
    | none => rw [hg] at hn; cases hn; exact ⟨h.far, h.qer.takeOnly, h.urr⟩
    | some g' =>
      rw [hg] at hn
      simp only at hn
      cases hu : s.dp.qer.update g' f with
      | none => rw [hu] at hn; cases hn; exact ⟨h.far, h.qer.takeOnly, h.urr⟩
      | some arr => rw [hu] at hn; cases hn

theorem newUrr_slots {s : HS} (h : HSlotsX c view k s) (i : U32) (hf : ¬ c.ufix (k, i)) (f : UrrInfo) :
    (∀ dp g, s.dp.newUrr f = (dp, some g) → SlotsX c (view.upd k (s.sess.newUrr i g f)) dp) ∧
    (∀ dp, s.dp.newUrr f = (dp, none) → SlotsX c (view.upd k s.sess) dp) := by
  unfold BpfObjects.newUrr
  constructor
  · intro dp g hn
    simp only at hn
    cases hg : s.dp.urrIds.getNext.2 with
    | none => rw [hg] at hn; cases hn
    | some g' =>
      rw [hg] at hn
      simp only at hn
      cases hu : s.dp.urr.update g' f with
      | none => rw [hu] at hn; cases hn
      | some arr =>
        rw [hu] at hn; cases hn
        refine ⟨?_, ?_, ?_⟩
        · exact far_of h.far rfl
        · exact qer_of h.qer rfl
        · refine h.urr.alloc hg hu (k, i) (c.urefl _ _ hf) (by simp only [Session.newUrr]; rw [ownUrr_set, if_pos rfl]) ?_
          intro o ho x hx; simp only [Session.newUrr] at hx; rw [ownUrr_set, if_neg ho] at hx; exact hx
  · intro dp hn
    simp only at hn
    cases hg : s.dp.urrIds.getNext.2 with
    | none => rw [hg] at hn; cases hn; exact ⟨h.far, h.qer, h.urr.takeOnly⟩
    | some g' =>
      rw [hg] at hn
      simp only at hn
      cases hu : s.dp.urr.update g' f with
      | none => rw [hu] at hn; cases hn; exact ⟨h.far, h.qer, h.urr.takeOnly⟩
      | some arr => rw [hu] at hn; cases hn


/-- Rewriting the slot of a FAR the session has. -/
theorem updateFar_slots {s : HS} (h : HSlotsX c view k s) {i : U32} (hi : (s.sess.fars.get? i).isSome) (f : FarInfo) :
    ∃ dp, s.dp.updateFar (s.sess.getFar i).gid f = some dp ∧ SlotsX c (view.upd k (s.sess.updateFar i f)) dp := by
  obtain ⟨x, hx⟩ := Option.isSome_iff_exists.1 hi
  have hown : ownFar (view.upd k s.sess) (k, i) = some (x.gid, x.info) := by rw [ownFar_upd, hx]; rfl
  have hg : s.sess.getFar i = x := by simp [Session.getFar, hx]
  obtain ⟨arr, hu⟩ := h.far.update_some hown f
  refine ⟨{ s.dp with far := arr }, by simp [BpfObjects.updateFar, hg, hu], ?_, qer_of h.qer rfl, urr_of h.urr rfl⟩
  simp only [Session.updateFar, hg]
  refine h.far.write hown hu rfl (by rw [ownFar_set, if_pos rfl]) ?_
  intro o ho y hy; rw [ownFar_set, if_neg ho] at hy; exact hy

theorem updateQer_slots {s : HS} (h : HSlotsX c view k s) {i : U32} (hf : ¬ c.fix (k, i)) (hi : (s.sess.qers.get? i).isSome) (f : QerInfo) :
    ∃ dp, s.dp.updateQer (s.sess.getQer i).gid f = some dp ∧ SlotsX c (view.upd k (s.sess.updateQer i f)) dp := by
  obtain ⟨x, hx⟩ := Option.isSome_iff_exists.1 hi
  have hown : ownQer (view.upd k s.sess) (k, i) = some (x.gid, x.info) := by rw [ownQer_upd, hx]; rfl
  have hg : s.sess.getQer i = x := by simp [Session.getQer, hx]
  obtain ⟨arr, hu⟩ := h.qer.update_some hown f
  refine ⟨{ s.dp with qer := arr }, by simp [BpfObjects.updateQer, hg, hu], far_of h.far rfl, ?_, urr_of h.urr rfl⟩
  simp only [Session.updateQer, hg]
  refine h.qer.write hown hu (c.qrefl _ _ hf) (by rw [ownQer_set, if_pos rfl]) ?_
  intro o ho y hy; rw [ownQer_set, if_neg ho] at hy; exact hy

theorem updateUrr_slots {s : HS} (h : HSlotsX c view k s) {i : U32} (hf : ¬ c.ufix (k, i)) (hi : (s.sess.urrs.get? i).isSome) (f : UrrInfo) :
    ∃ dp, s.dp.updateUrr (s.sess.getUrr i).gid f = some dp ∧ SlotsX c (view.upd k (s.sess.updateUrr i f)) dp := by
  obtain ⟨x, hx⟩ := Option.isSome_iff_exists.1 hi
  have hown : ownUrr (view.upd k s.sess) (k, i) = some (x.gid, x.info) := by rw [ownUrr_upd, hx]; rfl
  have hg : s.sess.getUrr i = x := by simp [Session.getUrr, hx]
  obtain ⟨arr, hu⟩ := h.urr.update_some hown f
  refine ⟨{ s.dp with urr := arr }, by simp [BpfObjects.updateUrr, hg, hu], far_of h.far rfl, qer_of h.qer rfl, ?_⟩
  simp only [Session.updateUrr, hg]
  refine h.urr.write hown hu (c.urefl _ _ hf) (by rw [ownUrr_set, if_pos rfl]) ?_
  intro o ho y hy; rw [ownUrr_set, if_neg ho] at hy; exact hy

/-- Removing a FAR the session has. -/
theorem removeFar_slots {s : HS} (h : HSlotsX c view k s) {i : U32} (hi : (s.sess.fars.get? i).isSome) :
    ∃ dp, s.dp.deleteFar (s.sess.getFar i).gid = (dp, true) ∧ SlotsX c (view.upd k (s.sess.removeFar i)) dp := by
  obtain ⟨x, hx⟩ := Option.isSome_iff_exists.1 hi
  have hown : ownFar (view.upd k s.sess) (k, i) = some (x.gid, x.info) := by rw [ownFar_upd, hx]; rfl
  have hg : s.sess.getFar i = x := by simp [Session.getFar, hx]
  obtain ⟨arr, hu⟩ := h.far.update_some hown {}
  refine ⟨{ s.dp with far := arr, farIds := s.dp.farIds.release x.gid }, by simp only [BpfObjects.deleteFar, hg, hu],
    ?_, qer_of h.qer rfl, urr_of h.urr rfl⟩
  refine h.far.drop hu ?_
  intro o y hy
  simp only [Session.removeFar] at hy
  rw [ownFar_erase] at hy
  split at hy
  · cases hy
  · rename_i hne
    refine ⟨hy, fun e => hne ?_⟩
    obtain ⟨g, v⟩ := y
    simp only at e; subst e
    exact h.far.excl _ _ _ _ _ hy hown

theorem removeQer_slots {s : HS} (h : HSlotsX c view k s) {i : U32} (hi : (s.sess.qers.get? i).isSome) :
    ∃ dp, s.dp.deleteQer (s.sess.getQer i).gid = (dp, true) ∧ SlotsX c (view.upd k (s.sess.removeQer i)) dp := by
  obtain ⟨x, hx⟩ := Option.isSome_iff_exists.1 hi
  have hown : ownQer (view.upd k s.sess) (k, i) = some (x.gid, x.info) := by rw [ownQer_upd, hx]; rfl
  have hg : s.sess.getQer i = x := by simp [Session.getQer, hx]
  obtain ⟨arr, hu⟩ := h.qer.update_some hown {}
  refine ⟨{ s.dp with qer := arr, qerIds := s.dp.qerIds.release x.gid }, by simp only [BpfObjects.deleteQer, hg, hu],
    far_of h.far rfl, ?_, urr_of h.urr rfl⟩
  refine h.qer.drop hu ?_
  intro o y hy
  simp only [Session.removeQer] at hy
  rw [ownQer_erase] at hy
  split at hy
  · cases hy
  · rename_i hne
    refine ⟨hy, fun e => hne ?_⟩
    obtain ⟨g, v⟩ := y
    simp only at e; subst e
    exact h.qer.excl _ _ _ _ _ hy hown

theorem removeUrr_slots {s : HS} (h : HSlotsX c view k s) {i : U32} (hi : (s.sess.urrs.get? i).isSome) :
    ∃ dp, s.dp.deleteUrr (s.sess.getUrr i).gid = (dp, some (s.dp.urr.val (s.sess.getUrr i).gid)) ∧
      SlotsX c (view.upd k (s.sess.removeUrr i)) dp := by
  obtain ⟨x, hx⟩ := Option.isSome_iff_exists.1 hi
  have hown : ownUrr (view.upd k s.sess) (k, i) = some (x.gid, x.info) := by rw [ownUrr_upd, hx]; rfl
  have hg : s.sess.getUrr i = x := by simp [Session.getUrr, hx]
  obtain ⟨arr, hu⟩ := h.urr.update_some hown {}
  have hl : s.dp.urr.lookup x.gid = some (s.dp.urr.val x.gid) := by
    simp [ArrMap.lookup, (h.urr.ok _ _ _ hown).1]
  refine ⟨{ s.dp with urr := arr, urrIds := s.dp.urrIds.release x.gid },
    by simp only [BpfObjects.deleteUrr, hg, hl, hu], far_of h.far rfl, qer_of h.qer rfl, ?_⟩
  refine h.urr.drop hu ?_
  intro o y hy
  simp only [Session.removeUrr] at hy
  rw [ownUrr_erase] at hy
  split at hy
  · cases hy
  · rename_i hne
    refine ⟨hy, fun e => hne ?_⟩
    obtain ⟨g, v⟩ := y
    simp only at e; subst e
    exact h.urr.excl _ _ _ _ _ hy hown

/-- The tables a PDR step may touch do not matter for slots. -/
theorem slots_pdr {s : Session} {dp dp' : BpfObjects} (h : SlotsX c (view.upd k s) dp) (e1 : dp'.far = dp.far)
    (e2 : dp'.qer = dp.qer) (e3 : dp'.urr = dp.urr) (e4 : dp'.farIds = dp.farIds) (e5 : dp'.qerIds = dp.qerIds)
    (e6 : dp'.urrIds = dp.urrIds) : SlotsX c (view.upd k s) dp' :=
  ⟨by rw [e1, e4]; exact h.far, by rw [e2, e5]; exact h.qer, by rw [e3, e6]; exact h.urr⟩

end
end Eupf
