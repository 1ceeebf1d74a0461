/-
Basic vocabulary of the model: machine integers, Go maps, the error/panic monad of a Go
function body that mutates shared state.
No definition here models a particular repository function; they model the Go language.
-/
namespace Eupf

abbrev U8 := BitVec 8
abbrev U16 := BitVec 16
abbrev U32 := BitVec 32
abbrev U64 := BitVec 64
/-- An IPv4 address in network order value (10.0.0.1 = 0x0a000001). -/
abbrev Ip4 := BitVec 32
abbrev Ip6 := BitVec 128

/-- Go `map[K]V` (reference semantics is handled by the enclosing state). The entry order of the list
is *not* observable: every `for range` loop of the model takes an explicit permutation. -/
structure GoMap (K V : Type) where
  entries : List (K × V)
  nodup : (entries.map Prod.fst).Nodup

namespace GoMap
variable {K V : Type} [DecidableEq K]

/-- `map[K]V{}` -/
def empty : GoMap K V := ⟨[], by simp⟩

instance : Inhabited (GoMap K V) := ⟨empty⟩
instance [DecidableEq V] : DecidableEq (GoMap K V) := fun a b =>
  if h : a.entries = b.entries then .isTrue (by cases a; cases b; simp_all)
  else .isFalse (fun e => h (by rw [e]))

def lookup (k : K) : List (K × V) → Option V
  | [] => none
  | (k', v) :: l => if k' = k then some v else lookup k l

/-- `v, ok := m[k]` -/
def get? (m : GoMap K V) (k : K) : Option V := lookup k m.entries

/-- `delete(m, k)` -/
def erase (m : GoMap K V) (k : K) : GoMap K V :=
  ⟨m.entries.filter (fun e => e.1 ≠ k),
   (List.filter_sublist.map Prod.fst).nodup m.nodup⟩

/-- `m[k] = v` -/
def set (m : GoMap K V) (k : K) (v : V) : GoMap K V :=
  ⟨(k, v) :: (m.erase k).entries, by
    simp only [List.map_cons, List.nodup_cons]
    refine ⟨?_, (m.erase k).nodup⟩
    simp [erase]⟩

/-- `len(m)` -/
def size (m : GoMap K V) : Nat := m.entries.length
def keys (m : GoMap K V) : List K := m.entries.map Prod.fst
def values (m : GoMap K V) : List V := m.entries.map Prod.snd

theorem lookup_filter_ne (l : List (K × V)) (k k' : K) :
    lookup k (l.filter (fun e => e.1 ≠ k')) = if k = k' then none else lookup k l := by
  induction l with
  | nil => simp [lookup]
  | cons e l ih =>
    obtain ⟨a, v⟩ := e
    by_cases h : a = k' <;> by_cases h2 : k = k' <;> simp_all [lookup]
    intro h3; exact absurd h3.symm h2

@[simp] theorem get?_empty (k : K) : (empty : GoMap K V).get? k = none := rfl

@[simp] theorem get?_erase (m : GoMap K V) (k k' : K) :
    (m.erase k').get? k = if k = k' then none else m.get? k := by
  simp only [get?, erase]; exact lookup_filter_ne _ _ _

@[simp] theorem get?_set (m : GoMap K V) (k k' : K) (v : V) :
    (m.set k' v).get? k = if k = k' then some v else m.get? k := by
  simp only [get?, set, lookup, erase]
  rw [lookup_filter_ne]
  by_cases h : k = k' <;> simp [h, eq_comm]

theorem lookup_eq_some_mem {l : List (K × V)} {k : K} {v : V} (h : lookup k l = some v) :
    (k, v) ∈ l := by
  induction l with
  | nil => simp [lookup] at h
  | cons e l ih =>
    obtain ⟨a, w⟩ := e
    simp only [lookup] at h
    split at h
    · simp_all
    · exact List.mem_cons_of_mem _ (ih h)

theorem lookup_of_mem {l : List (K × V)} (hn : (l.map Prod.fst).Nodup) {k : K} {v : V}
    (h : (k, v) ∈ l) : lookup k l = some v := by
  induction l with
  | nil => simp at h
  | cons e l ih =>
    obtain ⟨a, w⟩ := e
    simp only [List.map_cons, List.nodup_cons] at hn
    simp only [lookup]
    rcases List.mem_cons.1 h with h | h
    · cases h; simp
    · have : a ≠ k := by
        rintro rfl
        exact hn.1 (List.mem_map.2 ⟨_, h, rfl⟩)
      simp [this, ih hn.2 h]

theorem mem_entries_iff (m : GoMap K V) (k : K) (v : V) :
    (k, v) ∈ m.entries ↔ m.get? k = some v :=
  ⟨lookup_of_mem m.nodup, lookup_eq_some_mem⟩

theorem mem_keys_iff (m : GoMap K V) (k : K) : k ∈ m.keys ↔ (m.get? k).isSome := by
  constructor
  · intro h
    obtain ⟨⟨a, v⟩, h1, rfl⟩ := List.mem_map.1 h
    rw [(m.mem_entries_iff a v).1 h1]; rfl
  · intro h
    obtain ⟨v, hv⟩ := Option.isSome_iff_exists.1 h
    exact List.mem_map.2 ⟨_, (m.mem_entries_iff k v).2 hv, rfl⟩

omit [DecidableEq K] in
theorem keys_nodup (m : GoMap K V) : m.keys.Nodup := m.nodup

end GoMap

theorem inj_of_nodup_map {α β : Type} {f : α → β} {l : List α} (h : (l.map f).Nodup) {a b : α}
    (ha : a ∈ l) (hb : b ∈ l) (hab : f a = f b) : a = b := by
  induction l with
  | nil => simp at ha
  | cons x xs ih =>
    simp only [List.map_cons, List.nodup_cons] at h
    rcases List.mem_cons.1 ha with ea | ha' <;> rcases List.mem_cons.1 hb with eb | hb'
    · rw [ea, eb]
    · subst ea; exact absurd (List.mem_map.2 ⟨b, hb', hab.symm⟩) h.1
    · subst eb; exact absurd (List.mem_map.2 ⟨a, ha', hab⟩) h.1
    · exact ih h.2 ha' hb'

/-- Result of a Go function body: normal return, `return err`, or a run-time panic. -/
inductive Res (α : Type) where
  | ok (a : α)
  | err
  | panic
deriving DecidableEq, Repr

/-- A Go function body acting on shared mutable state. Mutations made before an error return or a
panic persist (there is no rollback in Go). -/
def Act (S α : Type) := S → S × Res α

namespace Act
variable {S α β : Type}

def pure (a : α) : Act S α := fun s => (s, .ok a)
def bind (m : Act S α) (f : α → Act S β) : Act S β := fun s =>
  match m s with
  | (s', .ok a) => f a s'
  | (s', .err) => (s', .err)
  | (s', .panic) => (s', .panic)

instance : Monad (Act S) where
  pure := pure
  bind := bind

/-- `return err` -/
def fail : Act S α := fun s => (s, .err)
/-- nil dereference, index out of range, ... -/
def panic : Act S α := fun s => (s, .panic)
def get : Act S S := fun s => (s, .ok s)
def modify (f : S → S) : Act S Unit := fun s => (f s, .ok ())
/-- `if v, err := ...; err != nil { return err }` -/
def ofOption : Option α → Act S α
  | some a => pure a
  | none => fail

/-- `for _, x := range xs { body }` where the body may return an error. -/
def each (f : α → Act S Unit) : List α → Act S Unit
  | [] => pure ()
  | x :: xs => bind (f x) (fun _ => each f xs)

@[simp] theorem pure_apply (a : α) (s : S) : (Pure.pure a : Act S α) s = (s, .ok a) := rfl
@[simp] theorem pure'_apply (a : α) (s : S) : (Act.pure a : Act S α) s = (s, .ok a) := rfl
@[simp] theorem fail_apply (s : S) : (fail : Act S α) s = (s, .err) := rfl
@[simp] theorem panic_apply (s : S) : (panic : Act S α) s = (s, .panic) := rfl
@[simp] theorem get_apply (s : S) : (get : Act S S) s = (s, .ok s) := rfl
@[simp] theorem modify_apply (f : S → S) (s : S) : modify f s = (f s, .ok ()) := rfl
theorem bind_def (m : Act S α) (f : α → Act S β) : (m >>= f) = bind m f := rfl

/-- Hoare triple with separate normal and exceptional postconditions. -/
def Triple (P : S → Prop) (m : Act S α) (Q : α → S → Prop) (E : S → Prop) : Prop :=
  ∀ s, P s → match m s with
    | (s', .ok a) => Q a s'
    | (s', .err) => E s'
    | (s', .panic) => E s'

theorem Triple.bind {P : S → Prop} {m : Act S α} {f : α → Act S β} {Q R E}
    (h1 : Triple P m Q E) (h2 : ∀ a, Triple (Q a) (f a) R E) :
    Triple P (m >>= f) R E := by
  intro s hs
  have := h1 s hs
  show match Act.bind m f s with | (s', .ok a) => R a s' | (s', .err) => E s' | (s', .panic) => E s'
  unfold Act.bind
  rcases hm : m s with ⟨s', r⟩
  rw [hm] at this
  cases r with
  | ok a => exact h2 a s' this
  | err => exact this
  | panic => exact this

theorem Triple.pure {P : S → Prop} {a : α} {Q : α → S → Prop} {E} (h : ∀ s, P s → Q a s) :
    Triple P (Pure.pure a : Act S α) Q E := fun s hs => h s hs

theorem Triple.conseq {P P' : S → Prop} {m : Act S α} {Q Q' : α → S → Prop} {E E' : S → Prop}
    (h : Triple P m Q E) (hP : ∀ s, P' s → P s) (hQ : ∀ a s, Q a s → Q' a s)
    (hE : ∀ s, E s → E' s) : Triple P' m Q' E' := by
  intro s hs
  have := h s (hP s hs)
  rcases hm : m s with ⟨s', r⟩
  rw [hm] at this
  cases r with
  | ok a => exact hQ _ _ this
  | err => exact hE _ this
  | panic => exact hE _ this

/-- Loop rule with an invariant indexed by the remaining list. -/
theorem Triple.each {f : α → Act S Unit} {I : List α → S → Prop} {E : S → Prop} :
    ∀ (l : List α), (∀ x xs, Triple (I (x :: xs)) (f x) (fun _ => I xs) E) →
      Triple (I l) (Act.each f l) (fun _ => I []) E
  | [], _ => fun _ hs => hs
  | x :: xs, h => Triple.bind (m := f x) (f := fun _ => Act.each f xs) (h x xs)
      (fun _ => Triple.each xs h)

/-- `m` preserves `I` whatever its outcome. -/
def Pres (I : S → Prop) (m : Act S α) : Prop := Triple I m (fun _ => I) I

theorem Pres.apply {I : S → Prop} {m : Act S α} (h : Pres I m) {s : S} (hs : I s) : I (m s).1 := by
  have := h s hs
  rcases hm : m s with ⟨s', r⟩
  rw [hm] at this
  cases r <;> exact this

theorem pres_iff {I : S → Prop} {m : Act S α} : Pres I m ↔ ∀ s, I s → I (m s).1 := by
  constructor
  · intro h s hs; exact h.apply hs
  · intro h s hs
    have := h s hs
    rcases hm : m s with ⟨s', r⟩
    rw [hm] at this
    cases r <;> exact this

theorem Pres.bind {I : S → Prop} {m : Act S α} {f : α → Act S β}
    (h1 : Pres I m) (h2 : ∀ a, Pres I (f a)) : Pres I (m >>= f) := Triple.bind h1 h2
theorem Pres.pure {I : S → Prop} {a : α} : Pres I (Pure.pure a : Act S α) := fun _ hs => hs
theorem Pres.fail {I : S → Prop} : Pres I (fail : Act S α) := fun _ hs => hs
theorem Pres.panic {I : S → Prop} : Pres I (panic : Act S α) := fun _ hs => hs
theorem Pres.get {I : S → Prop} : Pres I (get : Act S S) := fun _ hs => hs
theorem Pres.ofOption {I : S → Prop} {o : Option α} : Pres I (ofOption o : Act S α) := by
  cases o <;> exact fun _ hs => hs
theorem Pres.modify {I : S → Prop} {f : S → S} (h : ∀ s, I s → I (f s)) :
    Pres I (modify f) := fun s hs => h s hs
theorem Pres.each {I : S → Prop} {f : α → Act S Unit} {l : List α} (h : ∀ x ∈ l, Pres I (f x)) :
    Pres I (Act.each f l) := by
  induction l with
  | nil => exact fun _ hs => hs
  | cons x xs ih =>
    exact Triple.bind (m := f x) (f := fun _ => Act.each f xs) (h x (by simp))
      (fun _ => ih (fun y hy => h y (by simp [hy])))

end Act

end Eupf
