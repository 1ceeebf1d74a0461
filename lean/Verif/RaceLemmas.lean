import Verif.Races
/-
Lock discipline of a program, and what it gives in every interleaving; the programs of the handlers follow it.
-/
namespace Eupf

/-- the mutex that protects a map (the pools); `none` for the maps of the control plane -/
def guardOf : Loc → Option Mutex
  | .busyIPs => some .ipam
  | .busyTEIDs => some .fteidm
  | .teidsOf _ => some .fteidm
  | _ => none

/-- A program that holds the mutex `h` and is in the middle of a write of `w` goes on properly: a protected map is accessed under its mutex
only, a write ends right after it began, mutexes are not nested and are released. -/
def okProg : Option Mutex → Option Loc → List Op → Prop
  | h, w, [] => h = none ∧ w = none
  | h, w, .rd x :: p => w = none ∧ (guardOf x = none ∨ guardOf x = h) ∧ okProg h none p
  | h, w, .wb x :: p => w = none ∧ (guardOf x = none ∨ guardOf x = h) ∧ okProg h (some x) p
  | h, w, .we x :: p => w = some x ∧ okProg h none p
  | h, w, .lock k :: p => w = none ∧ h = none ∧ okProg (some k) none p
  | h, w, .unlock k :: p => w = none ∧ h = some k ∧ okProg none none p

theorem okProg.append {q : List Op} (hq : okProg none none q) : ∀ {h : Option Mutex} {w : Option Loc} {p : List Op}, okProg h w p →
    okProg h w (p ++ q)
  | h, w, [], hp => by
    obtain ⟨rfl, rfl⟩ := hp
    exact hq
  | h, w, .rd x :: p, hp => ⟨hp.1, hp.2.1, okProg.append hq hp.2.2⟩
  | h, w, .wb x :: p, hp => ⟨hp.1, hp.2.1, okProg.append hq hp.2.2⟩
  | h, w, .we x :: p, hp => ⟨hp.1, okProg.append hq hp.2⟩
  | h, w, .lock k :: p, hp => ⟨hp.1, hp.2.1, okProg.append hq hp.2.2⟩
  | h, w, .unlock k :: p, hp => ⟨hp.1, hp.2.1, okProg.append hq hp.2.2⟩

theorem at_self {α β : Type} [DecidableEq α] (f : α → β) (a : α) (b : β) : upd f a b a = b := by simp [upd]

theorem at_ne {α β : Type} [DecidableEq α] (f : α → β) {a x : α} (b : β) (h : x ≠ a) : upd f a b x = f x := by simp [upd, h]

/-- What is true in every interleaving of proper programs. -/
structure RInv (prog0 : Nat → List Op) (m : Mach) (held : Nat → Option Mutex) (w : Nat → Option Loc) : Prop where
  ok : ∀ i, okProg (held i) (w i) (m.prog i)
  own : ∀ i k, m.owner k = some i ↔ held i = some k
  flag : ∀ x, m.writing x = true ↔ ∃ i, w i = some x
  uniq : ∀ i j x, w i = some x → w j = some x → i = j
  gd : ∀ i x, w i = some x → guardOf x = none ∨ guardOf x = held i
  sub : ∀ i op, op ∈ m.prog i → op ∈ prog0 i
  wrote : ∀ i x, w i = some x → Op.wb x ∈ prog0 i

theorem rinv_start {prog : Nat → List Op} (h : ∀ i, okProg none none (prog i)) :
    RInv prog (Mach.start prog) (fun _ => none) (fun _ => none) where
  ok := h
  own := by intro i k; simp [Mach.start]
  flag := by intro x; simp [Mach.start]
  uniq := by intro i j x h; cases h
  gd := by intro i x h; cases h
  sub := by intro i op h; exact h
  wrote := by intro i x h; cases h

theorem RInv.subUpd {prog0 : Nat → List Op} {m : Mach} {held w} (I : RInv prog0 m held w) {i : Nat} {op : Op} {p : List Op}
    (hp : m.prog i = op :: p) : ∀ j o, o ∈ upd m.prog i p j → o ∈ prog0 j := by
  intro j o ho
  by_cases hj : j = i
  · subst hj
    rw [at_self] at ho
    exact I.sub j o (by rw [hp]; exact List.mem_cons_of_mem _ ho)
  · rw [at_ne _ _ hj] at ho
    exact I.sub j o ho

theorem RInv.step {prog0 : Nat → List Op} {m m' : Mach} {held w} (I : RInv prog0 m held w) {i : Nat} (hs : m.step i = .next m') :
    ∃ held' w', RInv prog0 m' held' w' := by
  have oki := I.ok i
  unfold Mach.step at hs
  cases hp : m.prog i with
  | nil => rw [hp] at hs; cases hs
  | cons op p =>
    rw [hp] at hs oki
    have hsub := I.subUpd hp
    cases op with
    | rd x =>
      obtain ⟨hw, hg, okp⟩ := oki
      simp only at hs
      split at hs
      · cases hs
      · cases hs
        refine ⟨held, w, ?_, I.own, I.flag, I.uniq, I.gd, hsub, I.wrote⟩
        intro j
        by_cases hj : j = i
        · subst hj; simp only [at_self, hw]; exact okp
        · simp only [at_ne _ _ hj]; exact I.ok j
    | wb x =>
      obtain ⟨hw, hg, okp⟩ := oki
      simp only at hs
      split at hs
      · cases hs
      · rename_i hnw
        cases hs
        have hno : ∀ j, w j ≠ some x := fun j hj => hnw ((I.flag x).2 ⟨j, hj⟩)
        refine ⟨held, upd w i (some x), ?_, I.own, ?_, ?_, ?_, hsub, ?_⟩
        · intro j
          by_cases hj : j = i
          · subst hj; simp only [at_self]; exact okp
          · simp only [at_ne _ _ hj]; exact I.ok j
        · intro y
          by_cases hy : y = x
          · subst hy
            simp only [at_self, true_iff]
            exact ⟨i, at_self _ _ _⟩
          · simp only [at_ne _ _ hy]
            rw [I.flag y]
            constructor
            · rintro ⟨j, hj⟩
              have : j ≠ i := by rintro rfl; rw [hw] at hj; cases hj
              exact ⟨j, by rw [at_ne _ _ this]; exact hj⟩
            · rintro ⟨j, hj⟩
              by_cases hji : j = i
              · subst hji; rw [at_self] at hj; cases hj; exact absurd rfl hy
              · rw [at_ne _ _ hji] at hj; exact ⟨j, hj⟩
        · intro j k y hj hk
          by_cases hji : j = i <;> by_cases hki : k = i
          · rw [hji, hki]
          · subst hji
            rw [at_self] at hj; cases hj
            rw [at_ne _ _ hki] at hk
            exact absurd hk (hno k)
          · subst hki
            rw [at_self] at hk; cases hk
            rw [at_ne _ _ hji] at hj
            exact absurd hj (hno j)
          · rw [at_ne _ _ hji] at hj
            rw [at_ne _ _ hki] at hk
            exact I.uniq j k y hj hk
        · intro j y hj
          by_cases hji : j = i
          · subst hji; rw [at_self] at hj; cases hj; exact hg
          · rw [at_ne _ _ hji] at hj; exact I.gd j y hj
        · intro j y hj
          by_cases hji : j = i
          · subst hji; rw [at_self] at hj; cases hj
            exact I.sub j _ (by rw [hp]; exact List.mem_cons_self)
          · rw [at_ne _ _ hji] at hj; exact I.wrote j y hj
    | we x =>
      obtain ⟨hw, okp⟩ := oki
      simp only at hs
      split at hs
      · cases hs
        refine ⟨held, upd w i none, ?_, I.own, ?_, ?_, ?_, hsub, ?_⟩
        · intro j
          by_cases hj : j = i
          · subst hj; simp only [at_self]; exact okp
          · simp only [at_ne _ _ hj]; exact I.ok j
        · intro y
          by_cases hy : y = x
          · subst hy
            simp only [at_self]
            constructor
            · intro h; cases h
            · rintro ⟨j, hj⟩
              by_cases hji : j = i
              · subst hji; rw [at_self] at hj; cases hj
              · rw [at_ne _ _ hji] at hj
                exact absurd (I.uniq j i _ hj hw) hji
          · simp only [at_ne _ _ hy]
            rw [I.flag y]
            constructor
            · rintro ⟨j, hj⟩
              have : j ≠ i := by rintro rfl; rw [hw] at hj; cases hj; exact hy rfl
              exact ⟨j, by rw [at_ne _ _ this]; exact hj⟩
            · rintro ⟨j, hj⟩
              by_cases hji : j = i
              · subst hji; rw [at_self] at hj; cases hj
              · rw [at_ne _ _ hji] at hj; exact ⟨j, hj⟩
        · intro j k y hj hk
          by_cases hji : j = i
          · subst hji; rw [at_self] at hj; cases hj
          · by_cases hki : k = i
            · subst hki; rw [at_self] at hk; cases hk
            · rw [at_ne _ _ hji] at hj
              rw [at_ne _ _ hki] at hk
              exact I.uniq j k y hj hk
        · intro j y hj
          by_cases hji : j = i
          · subst hji; rw [at_self] at hj; cases hj
          · rw [at_ne _ _ hji] at hj; exact I.gd j y hj
        · intro j y hj
          by_cases hji : j = i
          · subst hji; rw [at_self] at hj; cases hj
          · rw [at_ne _ _ hji] at hj; exact I.wrote j y hj
      · cases hs
    | lock k =>
      obtain ⟨hw, hh, okp⟩ := oki
      simp only at hs
      split at hs
      · rename_i hfree
        cases hs
        have hno : ∀ j, held j ≠ some k := fun j hj => by
          have := (I.own j k).2 hj
          rw [hfree] at this; cases this
        refine ⟨upd held i (some k), w, ?_, ?_, I.flag, I.uniq, ?_, hsub, I.wrote⟩
        · intro j
          by_cases hj : j = i
          · subst hj; simp only [at_self, hw]; exact okp
          · simp only [at_ne _ _ hj]; exact I.ok j
        · intro j k'
          by_cases hk : k' = k
          · subst hk
            simp only [at_self]
            by_cases hj : j = i
            · subst hj; simp only [at_self]
            · simp only [at_ne _ _ hj]
              constructor
              · intro h; exact absurd (Option.some.inj h).symm hj
              · intro h; exact absurd h (hno j)
          · simp only [at_ne _ _ hk]
            by_cases hj : j = i
            · subst hj
              simp only [at_self]
              constructor
              · intro h
                have := (I.own j k').1 h
                rw [hh] at this; cases this
              · intro h; exact absurd (Option.some.inj h).symm hk
            · simp only [at_ne _ _ hj]; exact I.own j k'
        · intro j y hj
          have : j ≠ i := by rintro rfl; rw [hw] at hj; cases hj
          rw [at_ne _ _ this]
          exact I.gd j y hj
      · cases hs
    | unlock k =>
      obtain ⟨hw, hh, okp⟩ := oki
      simp only at hs
      split at hs
      · cases hs
      · cases hs
        refine ⟨upd held i none, w, ?_, ?_, I.flag, I.uniq, ?_, hsub, I.wrote⟩
        · intro j
          by_cases hj : j = i
          · subst hj; simp only [at_self, hw]; exact okp
          · simp only [at_ne _ _ hj]; exact I.ok j
        · intro j k'
          by_cases hk : k' = k
          · subst hk
            simp only [at_self]
            by_cases hj : j = i
            · subst hj; simp only [at_self]; constructor <;> intro h <;> cases h
            · simp only [at_ne _ _ hj]
              constructor
              · intro h; cases h
              · intro h
                have h1 := (I.own j k').2 h
                have h2 := (I.own i k').2 hh
                rw [h1] at h2
                exact absurd (Option.some.inj h2) hj
          · simp only [at_ne _ _ hk]
            by_cases hj : j = i
            · subst hj
              simp only [at_self]
              constructor
              · intro h
                have := (I.own j k').1 h
                rw [hh] at this
                exact absurd (Option.some.inj this).symm hk
              · intro h; cases h
            · simp only [at_ne _ _ hj]; exact I.own j k'
        · intro j y hj
          have : j ≠ i := by rintro rfl; rw [hw] at hj; cases hj
          rw [at_ne _ _ this]
          exact I.gd j y hj

theorem rinv_runs {prog : Nat → List Op} (h : ∀ i, okProg none none (prog i)) {m : Mach} (hr : (Mach.start prog).Runs m) :
    ∃ held w, RInv prog m held w := by
  induction hr with
  | init => exact ⟨_, _, rinv_start h⟩
  | step i _ hs ih =>
    obtain ⟨held, w, I⟩ := ih
    exact I.step hs

/-- An access that ends the process is the access of an unprotected map that another goroutine is writing. -/
theorem RInv.fatal {prog0 : Nat → List Op} {m : Mach} {held w} (I : RInv prog0 m held w) {i : Nat} {f : Fatal}
    (hs : m.step i = .fatal f) :
    ∃ x j, f = .map x ∧ guardOf x = none ∧ j ≠ i ∧ Op.wb x ∈ prog0 j ∧ (Op.rd x ∈ prog0 i ∨ Op.wb x ∈ prog0 i) := by
  have oki := I.ok i
  unfold Mach.step at hs
  have key : ∀ x, w i = none → (guardOf x = none ∨ guardOf x = held i) → m.writing x = true →
      ∃ j, guardOf x = none ∧ j ≠ i ∧ Op.wb x ∈ prog0 j := by
    intro x hw hg hwr
    obtain ⟨j, hj⟩ := (I.flag x).1 hwr
    have hne : j ≠ i := by rintro rfl; rw [hw] at hj; cases hj
    refine ⟨j, ?_, hne, I.wrote j x hj⟩
    cases hgx : guardOf x with
    | none => rfl
    | some k =>
      rw [hgx] at hg
      have h1 := I.gd j x hj
      rw [hgx] at h1
      cases hg with
      | inl h => cases h
      | inr h =>
        cases h1 with
        | inl h' => cases h'
        | inr h' =>
          have a1 := (I.own i k).2 h.symm
          have a2 := (I.own j k).2 h'.symm
          rw [a1] at a2
          exact absurd (Option.some.inj a2).symm hne
  cases hp : m.prog i with
  | nil => rw [hp] at hs; cases hs
  | cons op p =>
    rw [hp] at hs oki
    have hmem : op ∈ prog0 i := I.sub i op (by rw [hp]; exact List.mem_cons_self)
    cases op with
    | rd x =>
      obtain ⟨hw, hg, okp⟩ := oki
      simp only at hs
      split at hs
      · rename_i hwr
        cases hs
        obtain ⟨j, g, hne, hj⟩ := key x hw hg hwr
        exact ⟨x, j, rfl, g, hne, hj, .inl hmem⟩
      · cases hs
    | wb x =>
      obtain ⟨hw, hg, okp⟩ := oki
      simp only at hs
      split at hs
      · rename_i hwr
        cases hs
        obtain ⟨j, g, hne, hj⟩ := key x hw hg hwr
        exact ⟨x, j, rfl, g, hne, hj, .inr hmem⟩
      · cases hs
    | we x =>
      obtain ⟨hw, okp⟩ := oki
      simp only at hs
      split at hs
      · cases hs
      · rename_i hnw
        exact absurd ((I.flag x).2 ⟨i, hw⟩) hnw
    | lock k =>
      simp only at hs
      split at hs <;> cases hs
    | unlock k =>
      obtain ⟨hw, hh, okp⟩ := oki
      simp only at hs
      split at hs
      · rename_i hfree
        have := (I.own i k).2 hh
        rw [hfree] at this; cases this
      · cases hs

/-- A goroutine that waits for a mutex waits for one that can go on. -/
theorem RInv.progress {prog0 : Nat → List Op} {m : Mach} {held w} (I : RInv prog0 m held w) {i : Nat} (hne : m.prog i ≠ []) :
    ∃ j, m.step j ≠ .stuck := by
  by_cases hs : m.step i = .stuck
  · unfold Mach.step at hs
    cases hp : m.prog i with
    | nil => exact absurd hp hne
    | cons op p =>
      rw [hp] at hs
      cases op with
      | rd x => simp only at hs; split at hs <;> cases hs
      | wb x => simp only at hs; split at hs <;> cases hs
      | we x => simp only at hs; split at hs <;> cases hs
      | unlock k => simp only at hs; split at hs <;> cases hs
      | lock k =>
        simp only at hs
        split at hs
        · cases hs
        · rename_i hown
          cases ho : m.owner k with
          | none => exact absurd ho hown
          | some j =>
            refine ⟨j, ?_⟩
            have hh := (I.own j k).1 ho
            have okj := I.ok j
            rw [hh] at okj
            unfold Mach.step
            cases hpj : m.prog j with
            | nil => rw [hpj] at okj; exact absurd okj.1 (by simp)
            | cons op' p' =>
              rw [hpj] at okj
              cases op' with
              | rd x => simp only; split <;> intro h <;> cases h
              | wb x => simp only; split <;> intro h <;> cases h
              | we x => simp only; split <;> intro h <;> cases h
              | unlock k' => simp only; split <;> intro h <;> cases h
              | lock k' => exact absurd okj.2.1 (by simp)
  · exact ⟨i, hs⟩

/-! ### running one goroutine alone -/

/-- the state when goroutine `i` holds `h` and is writing `w`, and nobody else holds or writes anything -/
structure Alone (m : Mach) (i : Nat) (h : Option Mutex) (w : Option Loc) : Prop where
  own : ∀ k, m.owner k = if h = some k then some i else none
  flag : ∀ x, m.writing x = decide (w = some x)

/-- A proper program alone runs up to any of its actions; the others have not moved. -/
theorem run_alone {m0 : Mach} {i : Nat} {op : Op} {q : List Op} : ∀ {p : List Op} {m : Mach} {h : Option Mutex} {w : Option Loc},
    m0.Runs m → Alone m i h w → okProg h w (p ++ op :: q) → m.prog i = p ++ op :: q →
    ∃ m' h' w', m0.Runs m' ∧ Alone m' i h' w' ∧ okProg h' w' (op :: q) ∧ m'.prog = upd m.prog i (op :: q)
  | [], m, h, w, hr, al, ok, hp => by
    refine ⟨m, h, w, hr, al, ok, ?_⟩
    funext j
    by_cases hj : j = i
    · subst hj; rw [at_self, hp]; rfl
    · rw [at_ne _ _ hj]
  | o :: p, m, h, w, hr, al, ok, hp => by
    have glue : ∀ {f : Nat → List Op}, f = upd (upd m.prog i (p ++ op :: q)) i (op :: q) → f = upd m.prog i (op :: q) := by
      intro f hf
      rw [hf]
      funext j
      by_cases hj : j = i
      · subst hj; simp only [at_self]
      · simp only [at_ne _ _ hj]
    rw [List.cons_append] at ok hp
    cases o with
    | rd x =>
      obtain ⟨hw, hg, okp⟩ := ok
      subst hw
      have hs : m.step i = .next { m with prog := upd m.prog i (p ++ op :: q) } := by
        unfold Mach.step
        rw [hp]
        simp [al.flag x]
      obtain ⟨m', h', w', hr', al', ok', hp'⟩ := run_alone (hr.step i hs) (h := h) (w := none) ⟨al.own, al.flag⟩ okp (at_self _ _ _)
      exact ⟨m', h', w', hr', al', ok', glue hp'⟩
    | wb x =>
      obtain ⟨hw, hg, okp⟩ := ok
      subst hw
      have hs : m.step i = .next { m with prog := upd m.prog i (p ++ op :: q), writing := upd m.writing x true } := by
        unfold Mach.step
        rw [hp]
        simp [al.flag x]
      obtain ⟨m', h', w', hr', al', ok', hp'⟩ := run_alone (hr.step i hs) (h := h) (w := some x) ⟨al.own, fun y => by
        show upd m.writing x true y = _
        by_cases hy : y = x
        · subst hy; simp [at_self]
        · rw [at_ne _ _ hy, al.flag y]
          have : x ≠ y := fun e => hy e.symm
          simp [this]⟩ okp (at_self _ _ _)
      exact ⟨m', h', w', hr', al', ok', glue hp'⟩
    | we x =>
      obtain ⟨hw, okp⟩ := ok
      subst hw
      have hs : m.step i = .next { m with prog := upd m.prog i (p ++ op :: q), writing := upd m.writing x false } := by
        unfold Mach.step
        rw [hp]
        simp [al.flag x]
      obtain ⟨m', h', w', hr', al', ok', hp'⟩ := run_alone (hr.step i hs) (h := h) (w := none) ⟨al.own, fun y => by
        show upd m.writing x false y = _
        by_cases hy : y = x
        · subst hy; simp [at_self]
        · rw [at_ne _ _ hy, al.flag y]
          have : x ≠ y := fun e => hy e.symm
          simp [this]⟩ okp (at_self _ _ _)
      exact ⟨m', h', w', hr', al', ok', glue hp'⟩
    | lock k =>
      obtain ⟨hw, hh, okp⟩ := ok
      subst hw; subst hh
      have hs : m.step i = .next { m with prog := upd m.prog i (p ++ op :: q), owner := upd m.owner k (some i) } := by
        unfold Mach.step
        rw [hp]
        simp [al.own k]
      obtain ⟨m', h', w', hr', al', ok', hp'⟩ := run_alone (hr.step i hs) (h := some k) (w := none) ⟨fun y => by
        show upd m.owner k (some i) y = _
        by_cases hy : y = k
        · subst hy; simp [at_self]
        · rw [at_ne _ _ hy, al.own y]
          have : k ≠ y := fun e => hy e.symm
          simp [this], al.flag⟩ okp (at_self _ _ _)
      exact ⟨m', h', w', hr', al', ok', glue hp'⟩
    | unlock k =>
      obtain ⟨hw, hh, okp⟩ := ok
      subst hw; subst hh
      have hs : m.step i = .next { m with prog := upd m.prog i (p ++ op :: q), owner := upd m.owner k none } := by
        unfold Mach.step
        rw [hp]
        simp [al.own k]
      obtain ⟨m', h', w', hr', al', ok', hp'⟩ := run_alone (hr.step i hs) (h := none) (w := none) ⟨fun y => by
        show upd m.owner k none y = _
        by_cases hy : y = k
        · subst hy; simp [at_self]
        · rw [at_ne _ _ hy, al.own y]
          have : k ≠ y := fun e => hy e.symm
          simp [this], al.flag⟩ okp (at_self _ _ _)
      exact ⟨m', h', w', hr', al', ok', glue hp'⟩

/-! ### reads only -/

theorem okProg_reads {p : List Op} (h : ∀ o ∈ p, ∃ x, o = .rd x ∧ guardOf x = none) : okProg none none p := by
  induction p with
  | nil => exact ⟨rfl, rfl⟩
  | cons o p ih =>
    obtain ⟨x, rfl, hg⟩ := h o List.mem_cons_self
    exact ⟨rfl, .inl hg, ih fun o ho => h o (List.mem_cons_of_mem _ ho)⟩

/-! ### the programs of the handlers -/

theorem ok_nil : okProg none none [] := ⟨rfl, rfl⟩

theorem ok_rdOf {x : Loc} {n : Nat} (hg : guardOf x = none) : okProg none none (rdOf x n) := by
  unfold rdOf
  split
  · exact ok_nil
  · exact ⟨rfl, .inl hg, rfl, rfl⟩

theorem ok_wrOf {x : Loc} (hg : guardOf x = none) : okProg none none (wrOf x) := ⟨rfl, .inl hg, rfl, rfl, rfl⟩

theorem ok_delOf {x : Loc} {n : Nat} (hg : guardOf x = none) : okProg none none (delOf x n) := by
  unfold delOf
  split
  · exact ok_nil
  · exact ok_wrOf hg

/-- accesses under the mutex `k` -/
def okIn (k : Mutex) (p : List Op) : Prop := ∀ q, okProg (some k) none q → okProg (some k) none (p ++ q)

theorem okIn_nil {k : Mutex} : okIn k [] := fun _ h => h

theorem okIn.append {k : Mutex} {p q : List Op} (hp : okIn k p) (hq : okIn k q) : okIn k (p ++ q) := by
  intro r hr
  rw [List.append_assoc]
  exact hp _ (hq _ hr)

theorem okIn_rdOf {k : Mutex} {x : Loc} {n : Nat} (hg : guardOf x = none ∨ guardOf x = some k) : okIn k (rdOf x n) := by
  intro q hq
  unfold rdOf
  split
  · exact hq
  · exact ⟨rfl, hg, hq⟩

theorem okIn_wrOf {k : Mutex} {x : Loc} (hg : guardOf x = none ∨ guardOf x = some k) : okIn k (wrOf x) := by
  intro q hq
  exact ⟨rfl, hg, rfl, hq⟩

theorem okIn_delOf {k : Mutex} {x : Loc} {n : Nat} (hg : guardOf x = none ∨ guardOf x = some k) : okIn k (delOf x n) := by
  unfold delOf
  split
  · exact okIn_nil
  · exact okIn_wrOf hg

theorem okIn_replicate {k : Mutex} {x : Loc} (hg : guardOf x = none ∨ guardOf x = some k) : ∀ n : Nat, okIn k (List.replicate n (.rd x))
  | 0 => okIn_nil
  | n + 1 => fun q hq => by
    rw [List.replicate_succ, List.cons_append]
    exact ⟨rfl, hg, okIn_replicate hg n q hq⟩

theorem ok_crit {k : Mutex} {p : List Op} (h : okIn k p) : okProg none none ([.lock k] ++ p ++ [.unlock k]) := by
  rw [List.append_assoc]
  exact ⟨rfl, rfl, h _ ⟨rfl, rfl, rfl, rfl⟩⟩

theorem IPAM.ok_allocate (m : IPAM) : okProg none none m.allocateOps := by
  refine ok_crit ?_
  split
  · exact okIn_nil
  · exact okIn_wrOf (.inr rfl)

theorem IPAM.ok_release (m : IPAM) (s : U64) : okProg none none (m.releaseOps s) := by
  unfold IPAM.releaseOps
  rw [List.append_assoc [Op.lock .ipam]]
  refine ok_crit (okIn.append (okIn_rdOf (.inr rfl)) ?_)
  split
  · exact okIn_delOf (.inr rfl)
  · exact okIn_nil

theorem FTEIDM.ok_allocate (m : FTEIDM) (s : U64) : okProg none none (m.allocateOps s) := by
  refine ok_crit ?_
  split
  · exact okIn_nil
  · refine okIn.append (okIn_rdOf (.inr rfl)) ?_
    split
    · exact okIn_wrOf (.inr rfl)
    · exact okIn.append (okIn_rdOf (.inr rfl)) (okIn_wrOf (.inr rfl))

theorem FTEIDM.ok_release (m : FTEIDM) (s : U64) : okProg none none (m.releaseOps s) := by
  unfold FTEIDM.releaseOps
  rw [List.append_assoc [Op.lock .fteidm]]
  refine ok_crit (okIn.append (okIn_rdOf (.inr rfl)) ?_)
  split
  · exact okIn.append (okIn_replicate (.inr rfl) _) (okIn_delOf (.inr rfl))
  · exact okIn_nil

/-- an action whose accesses are proper from every state -/
def Tr.Ok {S : Type} (t : Tr S) : Prop := ∀ s, okProg none none (t.ops s)

theorem Tr.Ok.seq {S : Type} {a b : Tr S} (ha : a.Ok) (hb : b.Ok) : (a.seq b).Ok := by
  intro s
  refine okProg.append ?_ (ha s)
  split
  · exact hb _
  · exact ok_nil

theorem Tr.Ok.each {S α : Type} {f : α → Tr S} (h : ∀ x, (f x).Ok) : ∀ l, (Tr.each f l).Ok
  | [] => fun _ => ok_nil
  | x :: xs => (h x).seq (Tr.Ok.each h xs)

theorem Tr.Ok.quiet {S : Type} (m : Act S Unit) : (Tr.quiet m).Ok := fun _ => ok_nil

theorem Tr.Ok.range {S α : Type} {x : Loc} {f : α → Tr S} (hg : guardOf x = none) (h : ∀ e, (f e).Ok) (l : List α) :
    (Tr.range x f l).Ok := by
  have h1 : ∀ e, ((⟨Act.pure (), fun _ => [.rd x]⟩ : Tr S).seq (f e)).Ok := by
    intro e
    refine Tr.Ok.seq ?_ (h e)
    intro s
    exact ⟨rfl, .inl hg, rfl, rfl⟩
  refine Tr.Ok.seq (Tr.Ok.each h1 l) ?_
  intro s
  show okProg none none (if l = [] then [] else [.rd x])
  split
  · exact ok_nil
  · exact ⟨rfl, .inl hg, rfl, rfl⟩

section
variable (a : Addr) (sid : U64)

theorem ok_trCreateFar (ie : FarIE) : (trCreateFar a sid ie).Ok := by
  intro s; unfold trCreateFar; simp only
  split
  · exact ok_wrOf rfl
  · exact ok_nil

theorem ok_trUpdateFar (ie : FarIE) : (trUpdateFar a sid ie).Ok := by
  intro s; unfold trUpdateFar; simp only
  split
  · exact ok_nil
  · refine okProg.append ?_ (ok_rdOf rfl)
    split
    · exact okProg.append (ok_wrOf rfl) (ok_rdOf rfl)
    · exact ok_nil

theorem ok_trRemoveFar (id : Option U32) : (trRemoveFar a sid id).Ok := fun _ => okProg.append (ok_delOf rfl) (ok_rdOf rfl)

theorem ok_trCreateQer (ie : QerIE) : (trCreateQer a sid ie).Ok := by
  intro s; unfold trCreateQer; simp only
  split
  · exact ok_wrOf rfl
  · exact ok_nil

theorem ok_trUpdateQer (ie : QerIE) : (trUpdateQer a sid ie).Ok := by
  intro s; unfold trUpdateQer; simp only
  split
  · exact ok_nil
  · exact okProg.append (ok_wrOf rfl) (okProg.append (ok_rdOf rfl) (ok_rdOf rfl))

theorem ok_trRemoveQer (id : Option U32) : (trRemoveQer a sid id).Ok := by
  intro s; unfold trRemoveQer; simp only
  split
  · exact ok_nil
  · exact okProg.append (ok_delOf rfl) (ok_rdOf rfl)

theorem ok_trCreateUrr (id : Option U32) : (trCreateUrr a sid id).Ok := by
  intro s; unfold trCreateUrr; simp only
  split
  · exact ok_wrOf rfl
  · exact ok_nil

theorem ok_trUpdateUrr (id : Option U32) : (trUpdateUrr a sid id).Ok := by
  intro s; unfold trUpdateUrr; simp only
  split
  · exact ok_nil
  · exact okProg.append (ok_wrOf rfl) (okProg.append (ok_rdOf rfl) (ok_rdOf rfl))

theorem ok_trRemoveUrr (id : Option U32) : (trRemoveUrr a sid id).Ok := by
  intro s; unfold trRemoveUrr; simp only
  split
  · exact ok_nil
  · exact okProg.append (ok_delOf rfl) (ok_rdOf rfl)

theorem ok_pdrRefsOps (s : Session) (ie : PdrIE) : okProg none none (pdrRefsOps a sid s ie) := by
  unfold pdrRefsOps
  refine okProg.append ?_ (okProg.append ?_ ?_)
  · split
    · exact okProg.append (ok_rdOf rfl) (ok_rdOf rfl)
    · exact ok_rdOf rfl
    · exact ok_nil
  · split
    · exact ok_rdOf rfl
    · exact ok_nil
  · split
    · exact ok_rdOf rfl
    · exact ok_nil

theorem ok_extractPdrOps (u : Bool) (ie : PdrIE) (p : SPdr) (s : HS) : okProg none none (extractPdrOps a sid u ie p s) := by
  unfold extractPdrOps
  refine okProg.append ?_ (ok_pdrRefsOps a sid s.sess ie)
  split
  · exact ok_nil
  · split
    · exact ok_nil
    · split
      · exact ok_nil
      · unfold pdrFteidOps
        split
        · split
          · exact ok_nil
          · split
            · exact ok_nil
            · exact FTEIDM.ok_allocate _ _
        · exact ok_nil
      · split
        · unfold pdrUeIpOps
          split
          · split
            · exact ok_nil
            · exact IPAM.ok_allocate _
          · exact ok_nil
        · exact ok_nil

theorem ok_trCreatePdr (u : Bool) (ie : PdrIE) : (trCreatePdr a sid u ie).Ok := by
  intro s; unfold trCreatePdr; simp only
  split
  · exact ok_nil
  · refine okProg.append ?_ (ok_extractPdrOps ..)
    split
    · exact ok_wrOf rfl
    · exact ok_nil

theorem ok_trUpdatePdr (u : Bool) (ie : PdrIE) : (trUpdatePdr a sid u ie).Ok := by
  intro s; unfold trUpdatePdr; simp only
  split
  · exact ok_nil
  · refine okProg.append ?_ (okProg.append (ok_extractPdrOps ..) (ok_rdOf rfl))
    split
    · exact ok_wrOf rfl
    · exact ok_nil

theorem ok_deletePdrOps (p : SPdr) (s : HS) : okProg none none (deletePdrOps p s) := by
  unfold deletePdrOps
  split
  · split
    · split
      · exact ok_nil
      · exact FTEIDM.ok_release _ _
    · exact ok_nil
  · exact ok_nil

theorem ok_trRemovePdr (ord : Orders) (id : Option U16) : (trRemovePdr a sid ord id).Ok := by
  intro s; unfold trRemovePdr; simp only
  refine okProg.append ?_ (ok_rdOf rfl)
  split
  · exact ok_nil
  · exact okProg.append (ok_deletePdrOps ..) (okProg.append (ok_delOf rfl) (ok_rdOf rfl))

theorem ok_trEstablish (u : Bool) (r : EstReq) : (trEstablish a sid u r).Ok :=
  (Tr.Ok.each (fun _ => Tr.Ok.quiet _) _).seq <|
  (Tr.Ok.each (ok_trCreateFar a sid) _).seq <|
  (Tr.Ok.each (ok_trCreateQer a sid) _).seq <|
  (Tr.Ok.each (ok_trCreateUrr a sid) _).seq <|
  Tr.Ok.each (ok_trCreatePdr a sid u) _

theorem ok_trModify (u : Bool) (ord : Orders) (r : ModReq) : (trModify a sid u ord r).Ok :=
  (Tr.Ok.each (fun _ => Tr.Ok.quiet _) _).seq <|
  (Tr.Ok.each (fun _ => Tr.Ok.quiet _) _).seq <|
  (Tr.Ok.each (ok_trCreateFar a sid) _).seq <|
  (Tr.Ok.each (ok_trUpdateFar a sid) _).seq <|
  (Tr.Ok.each (ok_trRemoveFar a sid) _).seq <|
  (Tr.Ok.each (ok_trCreateQer a sid) _).seq <|
  (Tr.Ok.each (ok_trUpdateQer a sid) _).seq <|
  (Tr.Ok.each (ok_trRemoveQer a sid) _).seq <|
  (Tr.Ok.each (ok_trCreateUrr a sid) _).seq <|
  (Tr.Ok.each (ok_trUpdateUrr a sid) _).seq <|
  (Tr.Ok.each (ok_trRemoveUrr a sid) _).seq <|
  (Tr.Ok.each (ok_trCreatePdr a sid u) _).seq <|
  (Tr.Ok.each (ok_trUpdatePdr a sid u) _).seq <|
  Tr.Ok.each (ok_trRemovePdr a sid ord) _

theorem ok_trDelete (ord : Orders) (sess : Session) : (trDelete a sid ord sess).Ok :=
  (Tr.Ok.range rfl (fun _ => fun _ => ok_deletePdrOps _ _) _).seq <|
  (Tr.Ok.range rfl (fun _ => Tr.Ok.quiet _) _).seq <|
  (Tr.Ok.range rfl (fun _ => Tr.Ok.quiet _) _).seq <|
  Tr.Ok.range rfl (fun _ => Tr.Ok.quiet _) _

theorem ok_trDropSession (ord : Orders) (sess : Session) : (trDropSession a sid ord sess).Ok :=
  (Tr.Ok.range rfl (fun _ => Tr.Ok.quiet _) _).seq <|
  (Tr.Ok.range rfl (fun _ => Tr.Ok.quiet _) _).seq <|
  Tr.Ok.range rfl (fun _ => fun _ => ok_deletePdrOps _ _) _

end

theorem ok_addAssocOps (n : Node) (a : Addr) : okProg none none (n.addAssocOps a) := by
  unfold Node.addAssocOps
  rw [List.append_assoc [Op.lock .assoc]]
  refine ok_crit (okIn.append (okIn_rdOf (.inl rfl)) ?_)
  split
  · exact okIn_wrOf (.inl rfl)
  · exact okIn_nil

theorem ok_dropSessionsOps (a : Addr) (ord : Orders) : ∀ (l : List (U64 × Session)) (rm : Option ResourceManager) (dp : BpfObjects),
    okProg none none (dropSessionsOps a ord l rm dp)
  | [], _, _ => ok_nil
  | (sid, sess) :: l, rm, dp => by
    unfold dropSessionsOps
    refine okProg.append ?_ (okProg.append (ok_trDropSession a sid ord sess _) ⟨rfl, .inl rfl, rfl, rfl⟩)
    split
    · exact ok_nil
    · exact ok_dropSessionsOps a ord l _ _

/-- The main loop follows the discipline, whatever it handles. -/
theorem ok_ops (n : Node) (e : Ev) : okProg none none (n.ops e) := by
  cases e with
  | assocSetup a s i t =>
    unfold Node.ops; simp only
    split
    · exact ok_addAssocOps ..
    · exact ok_nil
  | assocSetupResp a i c f =>
    unfold Node.ops; simp only
    split
    · split
      · exact ok_addAssocOps ..
      · exact ok_nil
    · exact ok_nil
  | assocUpdate a s i =>
    unfold Node.ops; simp only
    split
    · exact ok_crit (okIn_rdOf (.inl rfl))
    · exact ok_nil
  | heartbeatReq a s t => exact ok_nil
  | heartbeatResp a s t =>
    unfold Node.ops; simp only
    split
    · exact ok_rdOf rfl
    · exact ok_nil
  | establish a r =>
    unfold Node.ops Node.establishOps
    simp only
    split
    · exact ok_nil
    · refine okProg.append ?_ (ok_rdOf rfl)
      split
      · exact ok_nil
      · refine okProg.append ?_ (ok_trEstablish ..)
        split
        · exact okProg.append (ok_wrOf rfl) (ok_wrOf rfl)
        · exact ok_nil
  | modify a r o =>
    unfold Node.ops Node.modifyOps
    simp only
    refine okProg.append ?_ (ok_rdOf rfl)
    split
    · exact ok_nil
    · refine okProg.append ?_ (ok_rdOf rfl)
      split
      · exact ok_nil
      · refine okProg.append ?_ (okProg.append (ok_trModify ..) ?_)
        · split
          · exact ok_wrOf rfl
          · exact ok_nil
        · split
          · exact okProg.append (ok_wrOf rfl) (ok_wrOf rfl)
          · exact ok_nil
  | delete a r o =>
    unfold Node.ops Node.deleteOps
    simp only
    refine okProg.append ?_ (ok_rdOf rfl)
    split
    · exact ok_nil
    · refine okProg.append ?_ (ok_rdOf rfl)
      split
      · exact ok_nil
      · refine okProg.append ?_ (ok_trDelete ..)
        split
        · refine okProg.append ?_ (ok_delOf rfl)
          unfold releaseOps
          split
          · exact ok_nil
          · exact okProg.append (FTEIDM.ok_release _ _) (IPAM.ok_release _ _)
        · exact ok_nil
  | peerLost a o =>
    unfold Node.ops Node.peerLostOps
    simp only
    refine okProg.append ?_ (ok_rdOf rfl)
    split
    · exact ok_nil
    · refine okProg.append ?_ (ok_dropSessionsOps ..)
      split
      · exact okProg.append (ok_delOf rfl) (ok_rdOf rfl)
      · exact ok_nil
  | setConfig u => exact ok_nil

theorem ok_opsRun : ∀ (es : List Ev) (n : Node), okProg none none (n.opsRun es)
  | [], _ => ok_nil
  | e :: es, n => by
    unfold Node.opsRun
    refine okProg.append ?_ (ok_ops n e)
    split
    · exact ok_nil
    · exact ok_opsRun es _

/-! ### the listed accesses run along the modelled bodies -/

theorem Tr.each_act {S α : Type} (f : α → Tr S) : ∀ l, (Tr.each f l).act = Act.each (fun x => (f x).act) l
  | [] => rfl
  | x :: xs => by
    show (fun s => Act.bind (f x).act (fun _ => (Tr.each f xs).act) s) = Act.bind (f x).act (fun _ => Act.each (fun x => (f x).act) xs)
    rw [Tr.each_act f xs]

theorem Tr.seq_act {S : Type} (a b : Tr S) : (a.seq b).act = (do a.act; b.act) := rfl

theorem Tr.range_act {S α : Type} (x : Loc) (f : α → Tr S) (l : List α) :
    (Tr.range x f l).act = Act.each (fun e => (f e).act) l := by
  have h1 : (Tr.range x f l).act = fun s => Act.bind (Act.each (fun e => (f e).act) l) (fun _ => Act.pure ()) s := by
    show (fun s => Act.bind (Tr.each _ l).act _ s) = _
    rw [Tr.each_act]
    rfl
  rw [h1]
  funext s
  unfold Act.bind
  rcases Act.each (fun e => (f e).act) l s with ⟨s', r⟩
  cases r <;> rfl

theorem trEstablish_act (a : Addr) (sid : U64) (u : Bool) (r : EstReq) : (trEstablish a sid u r).act = establishBody u r := by
  unfold trEstablish establishBody
  simp only [Tr.seq_act, Tr.each_act]
  rfl

theorem trModify_act (a : Addr) (sid : U64) (u : Bool) (ord : Orders) (r : ModReq) :
    (trModify a sid u ord r).act = modifyBody u ord r := by
  unfold trModify modifyBody
  simp only [Tr.seq_act, Tr.each_act]
  rfl

theorem trDelete_act (a : Addr) (sid : U64) (ord : Orders) (sess : Session) : (trDelete a sid ord sess).act = deleteBody ord sess := by
  unfold trDelete deleteBody
  simp only [Tr.seq_act, Tr.range_act]
  rfl

theorem trDropSession_act (a : Addr) (sid : U64) (ord : Orders) (sess : Session) :
    (trDropSession a sid ord sess).act = deleteSessionBody ord sess := by
  unfold trDropSession deleteSessionBody
  simp only [Tr.seq_act, Tr.range_act]
  rfl

end Eupf
