import Verif.IdTracker
/-
C07: the slot allocator hands out every slot at most once until it is released, fails exactly when
everything is handed out, and ignores the release of ids outside the table.
-/
namespace Eupf.IdTracker

/-! ### Specification: computed from the client's observations only -/

/-- Ids currently held by clients after the observed history (newest last). -/
def held : List Obs → List U32 → List U32
  | [], acc => acc
  | .alloc (some i) :: os, acc => held os (i :: acc)
  | .alloc none :: os, acc => held os acc
  | .release i :: os, acc => held os (acc.filter (· ≠ i))

/-- What the allocator must do on the next allocation when `out` is held: return the least id below
`size` that is not held, or fail if there is none. -/
def GoodAlloc (size : U32) (out : List U32) : Option U32 → Prop
  | some i => i.toNat < size.toNat ∧ i ∉ out ∧ ∀ j : U32, j.toNat < i.toNat → j ∈ out
  | none => ∀ j : U32, j.toNat < size.toNat → j ∈ out

/-! ### proofs -/

theorem free_iff_held (t : IdTracker) (acc : List U32) (ops : List Op)
    (h : ∀ i, t.free i = true ↔ i.toNat < t.maxSize.toNat ∧ i ∉ acc) :
    (t.run ops).1.maxSize = t.maxSize ∧
    ∀ i, (t.run ops).1.free i = true ↔
      i.toNat < t.maxSize.toNat ∧ i ∉ held (t.run ops).2 acc := by
  induction ops generalizing t acc with
  | nil => exact ⟨rfl, h⟩
  | cons o os ih =>
    cases o with
    | alloc =>
      simp only [run, step]
      cases hn : t.getNext.2 with
      | none =>
        have := getNext_none hn
        rw [this.1]
        exact ih t acc h
      | some n =>
        have hs := getNext_some hn
        have := ih t.getNext.1 (n :: acc) (by
          intro i
          rw [hs.2.2 i]
          simp only [Bool.and_eq_true, decide_eq_true_eq, getNext_maxSize, h i, List.mem_cons,
            not_or]
          constructor
          · rintro ⟨⟨a, b⟩, c⟩; exact ⟨a, c, b⟩
          · rintro ⟨a, c, b⟩; exact ⟨⟨a, b⟩, c⟩)
        simpa [held] using this
    | release id =>
      simp only [run, step]
      have := ih (t.release id) (acc.filter (· ≠ id)) (by
        intro i
        by_cases hid : id.toNat < t.maxSize.toNat
        · rw [release_free hid]
          simp only [Bool.or_eq_true, decide_eq_true_eq, release_maxSize, h i, List.mem_filter, not_and]
          constructor
          · rintro (⟨a, b⟩ | rfl)
            · exact ⟨a, fun c => absurd c b⟩
            · exact ⟨hid, by simp⟩
          · rintro ⟨a, b⟩
            by_cases hi : i = id
            · exact Or.inr hi
            · exact Or.inl ⟨a, fun c => by simpa [hi] using b c⟩
        · rw [release_free_of_ge (by omega)]
          simp only [h i, List.mem_filter, not_and]
          constructor
          · rintro ⟨a, b⟩; exact ⟨a, fun c => absurd c b⟩
          · rintro ⟨a, b⟩
            refine ⟨a, fun c => ?_⟩
            have hne : i ≠ id := by rintro rfl; exact hid a
            simpa [hne] using b c)
      simpa [held] using this

/-- **C07.** After any sequence of calls on a fresh allocator of any size, the next allocation returns
the least id of the table that no client holds, and fails iff all ids are held. -/
theorem C07_alloc (size : U32) (ops : List Op) :
    let r := (new size).run ops
    GoodAlloc size (held r.2 []) r.1.getNext.2 := by
  intro r
  have h := free_iff_held (new size) [] ops (by intro i; simp [new])
  cases hn : r.1.getNext.2 with
  | none =>
    intro j hj
    have := (getNext_none hn).2 j (by rw [h.1]; exact hj)
    have h2 := h.2 j
    rw [this] at h2
    simp only [Bool.false_eq_true, false_iff, not_and, Decidable.not_not] at h2
    exact h2 hj
  | some i =>
    unfold getNext at hn
    cases hl : r.1.least with
    | none => rw [hl] at hn; simp at hn
    | some m =>
      rw [hl] at hn
      simp only [Option.some.injEq] at hn
      subst hn
      obtain ⟨h1, h2, h3⟩ := least_eq_some hl
      have h4 := (h.2 m).1 h1
      refine ⟨h4.1, h4.2, ?_⟩
      intro j hj
      have h5 := h3 j hj
      have h6 := h.2 j
      rw [h5] at h6
      simp only [Bool.false_eq_true, false_iff, not_and, Decidable.not_not] at h6
      exact h6 (by have : (new size).maxSize.toNat = size.toNat := rfl; omega)

/-- **C07.** No id is ever held twice: the ids held after any history are pairwise different, and all
of them are below the size. -/
theorem C07_held_nodup (size : U32) (ops : List Op) :
    (held ((new size).run ops).2 []).Nodup ∧
      ∀ i ∈ held ((new size).run ops).2 [], i.toNat < size.toNat := by
  suffices ∀ (ops : List Op) (t : IdTracker) (acc : List U32), t.maxSize = size →
      (∀ i, t.free i = true ↔ i.toNat < t.maxSize.toNat ∧ i ∉ acc) → acc.Nodup →
      (∀ i ∈ acc, i.toNat < size.toNat) →
      (held (t.run ops).2 acc).Nodup ∧ ∀ i ∈ held (t.run ops).2 acc, i.toNat < size.toNat by
    exact this ops (new size) [] rfl (by intro i; simp [new]) (by simp) (by simp)
  intro ops
  induction ops with
  | nil => intro t acc _ _ h1 h2; exact ⟨h1, h2⟩
  | cons o os ih =>
    intro t acc hm hf hnd hlt
    have key := free_iff_held t acc [o] hf
    cases o with
    | alloc =>
      simp only [run, step] at *
      cases hn : t.getNext.2 with
      | none =>
        rw [hn] at key
        exact ih _ acc (by simpa using hm) (by rw [key.1]; exact key.2) hnd hlt
      | some n =>
        rw [hn] at key
        have hs := getNext_some hn
        have hnot := (hf n).1 hs.1
        refine ih _ (n :: acc) (by simpa using hm) (by rw [key.1]; exact key.2) ?_ ?_
        · exact List.nodup_cons.2 ⟨hnot.2, hnd⟩
        · intro i hi
          rcases List.mem_cons.1 hi with rfl | hi
          · rw [← hm]; exact hnot.1
          · exact hlt i hi
    | release id =>
      simp only [run, step] at *
      refine ih _ (acc.filter (· ≠ id)) (by simpa using hm) (by rw [key.1]; exact key.2) ?_ ?_
      · exact List.filter_sublist.nodup hnd
      · intro i hi; exact hlt i (List.mem_filter.1 hi).1

/-- Releasing an id outside the table changes nothing. -/
theorem C07_release_out_of_range (size : U32) (ops : List Op) (id : U32) (h : size.toNat ≤ id.toNat) :
    ((new size).run ops).1.release id = ((new size).run ops).1 := by
  apply release_free_of_ge
  rw [(free_iff_held (new size) [] ops (by intro i; simp [new])).1]
  exact h

/-! Non-vacuity: a size-3 allocator after alloc, alloc, release 0, alloc, alloc, alloc. -/
example : ((new 3).run [.alloc, .alloc, .release 0, .alloc, .alloc]).1.getNext.2 = none ∧
    held ((new 3).run [.alloc, .alloc, .release 0, .alloc, .alloc]).2 [] = [2, 0, 1] := by
  decide
example : ((new 3).run [.alloc, .alloc, .release 0]).1.getNext.2 = some 0 := by decide
example : (3 : U32).toNat ≤ (7 : U32).toNat := by decide

end Eupf.IdTracker
