import Verif.Base
/-
The slot allocator of the forwarding plane: cmd/ebpf/objects.go 303-336.
-/
namespace Eupf

/-- cmd/ebpf/objects.go 303-306 `IdTracker`: a roaring bitmap of free ids and the table size.
Simplification: the bitmap is its membership function. -/
structure IdTracker where
  free : U32 → Bool
  maxSize : U32

namespace IdTracker

/-- cmd/ebpf/objects.go 308-316 `NewIdTracker`: an empty bitmap with [0,size) flipped. -/
def new (size : U32) : IdTracker := ⟨fun i => decide (i.toNat < size.toNat), size⟩

/-- First element of the bitmap iterator (ascending order): the least free id.
Bits at or above `maxSize` are never set (`new`, `release`), so the search stops there. -/
def least (t : IdTracker) : Option U32 :=
  ((List.range t.maxSize.toNat).find? (fun i => t.free (BitVec.ofNat 32 i))).map (BitVec.ofNat 32)

/-- cmd/ebpf/objects.go 318-328 `GetNext` -/
def getNext (t : IdTracker) : IdTracker × Option U32 :=
  match t.least with
  | some n => ({ t with free := fun i => t.free i && decide (i ≠ n) }, some n)
  | none => (t, none)

/-- cmd/ebpf/objects.go 330-336 `Release` -/
def release (t : IdTracker) (id : U32) : IdTracker :=
  if t.maxSize ≤ id then t
  else { t with free := fun i => t.free i || decide (i = id) }

/-- Calls a client can make. -/
inductive Op
  | alloc
  | release (id : U32)

/-- What a client observes: for `alloc` the id or the error. -/
inductive Obs
  | alloc (r : Option U32)
  | release (id : U32)

def step (t : IdTracker) : Op → IdTracker × Obs
  | .alloc => (t.getNext.1, .alloc t.getNext.2)
  | .release id => (t.release id, .release id)

/-- Run a call sequence, returning the observations oldest first. -/
def run (t : IdTracker) : List Op → IdTracker × List Obs
  | [] => (t, [])
  | o :: os =>
    let r := t.step o
    let r' := run r.1 os
    (r'.1, r.2 :: r'.2)

/-! ### lemmas -/

theorem least_eq_some {t : IdTracker} {n : U32} (h : t.least = some n) :
    t.free n = true ∧ n.toNat < t.maxSize.toNat ∧ ∀ j : U32, j.toNat < n.toNat → t.free j = false := by
  unfold least at h
  cases hf : (List.range t.maxSize.toNat).find? (fun i => t.free (BitVec.ofNat 32 i)) with
  | none => rw [hf] at h; simp at h
  | some i =>
    rw [hf] at h
    simp only [Option.map_some, Option.some.injEq] at h
    have h1 := List.find?_some hf
    have h2 := List.mem_of_find?_eq_some hf
    have hi : i < t.maxSize.toNat := by simpa using h2
    have hlt := t.maxSize.isLt
    have hn : n.toNat = i := by rw [← h, BitVec.toNat_ofNat]; omega
    refine ⟨by rw [← h]; simpa using h1, by omega, ?_⟩
    intro j hj
    rw [List.find?_range_eq_some] at hf
    have := hf.2.2 j.toNat (by omega)
    simpa using this

theorem least_eq_none {t : IdTracker} (h : t.least = none) :
    ∀ j : U32, j.toNat < t.maxSize.toNat → t.free j = false := by
  intro j hj
  unfold least at h
  simp only [Option.map_eq_none_iff, List.find?_eq_none, List.mem_range] at h
  have := h j.toNat hj
  simpa using this

/-- no bit at or above the size -/
def WF (t : IdTracker) : Prop := ∀ i, t.free i = true → i.toNat < t.maxSize.toNat

theorem wf_new (n : U32) : (new n).WF := by
  intro i h; simpa [new] using h

theorem wf_getNext {t : IdTracker} (h : t.WF) : t.getNext.1.WF := by
  unfold getNext
  split
  · intro i hi; simp at hi; exact h i hi.1
  · exact h

theorem wf_release {t : IdTracker} (h : t.WF) (id : U32) : (t.release id).WF := by
  unfold release
  split
  · exact h
  · rename_i hlt
    intro i hi
    simp at hi
    rcases hi with hi | rfl
    · exact h i hi
    · have : ¬ t.maxSize.toNat ≤ i.toNat := by simpa [BitVec.le_def] using hlt
      show i.toNat < t.maxSize.toNat
      omega

@[simp] theorem getNext_maxSize (t : IdTracker) : t.getNext.1.maxSize = t.maxSize := by
  unfold getNext; split <;> rfl
@[simp] theorem release_maxSize (t : IdTracker) (i : U32) : (t.release i).maxSize = t.maxSize := by
  unfold release; split <;> rfl

theorem getNext_some {t : IdTracker} {n : U32} (h : t.getNext.2 = some n) :
    t.free n = true ∧ n.toNat < t.maxSize.toNat ∧
    (∀ i, t.getNext.1.free i = (t.free i && decide (i ≠ n))) := by
  unfold getNext at *
  cases hl : t.least with
  | none => rw [hl] at h; simp at h
  | some m =>
    rw [hl] at h
    simp only [Option.some.injEq] at h
    subst h
    have := least_eq_some hl
    exact ⟨this.1, this.2.1, fun i => rfl⟩

theorem getNext_none {t : IdTracker} (h : t.getNext.2 = none) :
    t.getNext.1 = t ∧ ∀ j : U32, j.toNat < t.maxSize.toNat → t.free j = false := by
  unfold getNext at *
  cases hl : t.least with
  | none => exact ⟨rfl, least_eq_none hl⟩
  | some m => rw [hl] at h; simp at h

theorem release_free {t : IdTracker} {id : U32} (h : id.toNat < t.maxSize.toNat) (i : U32) :
    (t.release id).free i = (t.free i || decide (i = id)) := by
  unfold release
  have : ¬ t.maxSize ≤ id := by simp [BitVec.le_def]; exact h
  simp [this]

theorem release_free_of_ge {t : IdTracker} {id : U32} (h : t.maxSize.toNat ≤ id.toNat) :
    t.release id = t := by
  unfold release
  have : t.maxSize ≤ id := by simp [BitVec.le_def]; exact h
  simp [this]

end IdTracker
end Eupf
