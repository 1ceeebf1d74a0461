import Verif.SdfLemmas
/-
Lemmas about the SDF parser: addresses. Models no code.
-/
namespace Eupf
namespace Sdf

/-! ### IPv4 -/

theorem octet_iff {s : List Char} {o : U8} : parseOctet s = some o ↔ OctetText s o := by
  unfold parseOctet
  constructor
  · intro h
    split at h
    · rename_i hc
      simp only [Bool.and_eq_true, Bool.not_eq_true', Bool.and_eq_false_iff, decide_eq_true_eq, decide_eq_false_iff_not, beq_eq_false_iff_ne] at hc
      cases h
      refine ⟨dec_iff.2 ⟨hc.1.1, ?_⟩, ?_⟩
      · have := hc.2; simp; omega
      · intro hl
        rcases hc.1.2 with h | h
        · exact absurd hl h
        · exact h
    · cases h
  · rintro ⟨h1, h2⟩
    obtain ⟨hn, hv⟩ := dec_iff.1 h1
    have := o.isLt
    rw [if_pos]
    · rw [hv]; simp
    · simp only [Bool.and_eq_true, Bool.not_eq_true', Bool.and_eq_false_iff, decide_eq_true_eq, decide_eq_false_iff_not, beq_eq_false_iff_ne]
      refine ⟨⟨hn, ?_⟩, by omega⟩
      by_cases hl : s.length > 1
      · exact .inr (h2 hl)
      · exact .inl hl

theorem octet_digits {s : List Char} {o : U8} (h : OctetText s o) : (∀ c ∈ s, isDigit c = true) ∧ s ≠ [] := by
  obtain ⟨hn, -⟩ := dec_iff.1 h.num
  refine ⟨isNum_digits hn, ?_⟩
  rintro rfl; cases hn

theorem v4_iff {s : List Char} {o : List U8} : parseIPv4 s = some o ↔ V4Text s o := by
  unfold parseIPv4 V4Text
  constructor
  · intro h
    split at h
    · rename_i a b c d e
      obtain ⟨rfl, -, -⟩ := splitC_eq_iff.1 e
      simp only [Option.bind_eq_bind] at h
      obtain ⟨x1, h1, h⟩ := Option.bind_eq_some_iff.1 h
      obtain ⟨x2, h2, h⟩ := Option.bind_eq_some_iff.1 h
      obtain ⟨x3, h3, h⟩ := Option.bind_eq_some_iff.1 h
      obtain ⟨x4, h4, h⟩ := Option.bind_eq_some_iff.1 h
      cases h
      exact ⟨_, rfl, rfl, .cons (octet_iff.1 h1) (.cons (octet_iff.1 h2) (.cons (octet_iff.1 h3) (.cons (octet_iff.1 h4) .nil)))⟩
    · cases h
  · rintro ⟨ts, rfl, hl, hf⟩
    obtain _ | ⟨h1, _ | ⟨h2, _ | ⟨h3, _ | ⟨h4, _ | _⟩⟩⟩⟩ := hf <;> simp at hl
    rw [splitC_joined (by simp) (by
      intro w hw
      simp only [List.mem_cons, List.not_mem_nil, or_false] at hw
      rcases hw with rfl | rfl | rfl | rfl
      · exact digit_not (by decide) (octet_digits h1).1
      · exact digit_not (by decide) (octet_digits h2).1
      · exact digit_not (by decide) (octet_digits h3).1
      · exact digit_not (by decide) (octet_digits h4).1)]
    simp only [octet_iff.2 h1, octet_iff.2 h2, octet_iff.2 h3, octet_iff.2 h4]
    rfl

/-! ### IPv6 -/

theorem group_hex {s : List Char} {g : Nat} (h : GroupText s g) : (∀ c ∈ s, isHex c = true) ∧ s ≠ [] := by
  obtain ⟨h1, h2, -⟩ := hexNum_iff.1 h.num
  exact ⟨List.all_eq_true.1 h2, h1⟩

theorem takeWhile_hex {t r : List Char} (ht : ∀ c ∈ t, isHex c = true) (hr : ∀ c, r.head? = some c → isHex c = false) :
    (t ++ r).takeWhile isHex = t ∧ (t ++ r).dropWhile isHex = r := by
  induction t with
  | nil =>
    cases r with
    | nil => simp
    | cons c r => simp [hr c rfl]
  | cons x t ih =>
    have := ih (fun c hc => ht c (List.mem_cons_of_mem _ hc))
    simp only [List.cons_append, List.takeWhile_cons, List.dropWhile_cons, ht x (by simp), if_true]
    exact ⟨by rw [this.1], this.2⟩

theorem hex_group {s : List Char} (h : ¬ ((s.takeWhile isHex).length = 0 ∨ (s.takeWhile isHex).length > 4)) :
    GroupText (s.takeWhile isHex) (hexVals (s.takeWhile isHex)) := by
  refine ⟨hexNum_iff.2 ⟨?_, ?_, rfl⟩, by omega⟩
  · intro e; rw [e] at h; simp at h
  · rw [List.all_eq_true]; intro c hc
    exact List.all_eq_true.1 (List.all_takeWhile (p := isHex) (l := s)) c hc

theorem joined_head {t : List Char} {g : Nat} (h : GroupText t g) (ts : List (List Char)) : ∃ c r, joined ':' (t :: ts) = c :: r ∧ c ≠ ':' := by
  obtain ⟨h1, h2⟩ := group_hex h
  cases t with
  | nil => exact absurd rfl h2
  | cons c t =>
    have hc : c ≠ ':' := by rintro rfl; have := h1 ':' (by simp); revert this; decide
    rw [joined_push]
    exact ⟨c, _, rfl, hc⟩

/-- one group is read -/
theorem v6Loop_group {n : Nat} {t r : List Char} {gs : List Nat} {e : Option Nat} {g : Nat} (h : GroupText t g) (hr : ∀ c, r.head? = some c → isHex c = false) :
    v6Loop (n + 1) (t ++ r) gs e = match (generalizing := false) r with
      | [] => some (gs ++ [g], e, [])
      | c :: r' =>
        if c ≠ ':' then none
        else match (generalizing := false) r' with
          | [] => none
          | c2 :: r2 =>
            if c2 = ':' then
              if e.isSome then none
              else if r2.isEmpty then some (gs ++ [g], some (gs ++ [g]).length, [])
              else v6Loop n r2 (gs ++ [g]) (some (gs ++ [g]).length)
            else v6Loop n (c2 :: r2) (gs ++ [g]) e := by
  obtain ⟨h1, h2, h3⟩ := hexNum_iff.1 h.num
  obtain ⟨e1, e2⟩ := takeWhile_hex (List.all_eq_true.1 h2) hr
  conv_lhs => unfold v6Loop
  simp only [e1, e2, h3]
  have : t.length ≠ 0 := by simpa using h1
  have := h.len
  rw [if_neg (by omega)]
  cases r with
  | nil => rfl
  | cons c r =>
    cases r with
    | nil => rfl
    | cons c2 r2 =>
      simp only []

theorem colon_not_hex : isHex ':' = false := by decide

/-- groups behind an ellipsis -/
theorem v6_after {k : Nat} : ∀ (n : Nat) (s : List Char) (gs r : List Nat), gs.length + n = 8 →
    ((v6Loop n s gs (some k)).bind v6Finish = some r ↔ ∃ ts gr, List.Forall₂ GroupText ts gr ∧ ts ≠ [] ∧ gs.length + gr.length ≤ 7 ∧ s = joined ':' ts ∧
      r = (gs ++ gr).take k ++ List.replicate (8 - (gs ++ gr).length) 0 ++ (gs ++ gr).drop k)
  | 0, s, gs, r, hl => by
    have : v6Finish (gs, some k, s) = none := by
      unfold v6Finish
      simp only [Option.isSome_some, if_true]
      split
      · rfl
      · rw [if_neg (by omega)]
    simp only [v6Loop, Option.bind_some, this]
    constructor
    · intro h; cases h
    · rintro ⟨ts, gr, hf, hne, hle, -⟩
      have := hf.length_eq
      have : ts.length ≠ 0 := by simpa using hne
      omega
  | n + 1, s, gs, r, hl => by
    constructor
    · intro h
      by_cases hh : (s.takeWhile isHex).length = 0 ∨ (s.takeWhile isHex).length > 4
      · unfold v6Loop at h; simp only [if_pos hh] at h; cases h
      have hg := hex_group hh
      have hs : s = s.takeWhile isHex ++ s.dropWhile isHex := (List.takeWhile_append_dropWhile).symm
      have hr : ∀ c, (s.dropWhile isHex).head? = some c → isHex c = false := by
        intro c hc
        cases hd : s.dropWhile isHex with
        | nil => rw [hd] at hc; cases hc
        | cons x xs => rw [hd] at hc; cases hc; exact Bool.eq_false_iff.2 (fun hx => by
            have := List.head_dropWhile_not isHex (l := s) (by rw [hd]; simp)
            simp [hd] at this; rw [this] at hx; cases hx)
      generalize s.takeWhile isHex = t at hg hs
      generalize s.dropWhile isHex = d at hs hr
      generalize hexVals t = g at hg
      subst hs
      rw [v6Loop_group hg hr] at h
      cases d with
      | nil =>
        simp only [Option.bind_some, v6Finish, List.isEmpty_nil, Bool.not_true] at h
        rw [if_neg (by simp)] at h
        split at h
        · rename_i hlt
          simp only [List.length_append, List.length_singleton] at hlt
          cases h
          exact ⟨[t], [g], .cons hg .nil, by simp, by simp; omega, by simp, by simp⟩
        · simp at h
      | cons c d' =>
        simp only [] at h
        split at h
        · cases h
        · rename_i hc
          have hc : c = ':' := Classical.not_not.1 hc
          cases d' with
          | nil => cases h
          | cons c2 r2 =>
            simp only [] at h
            split at h
            · simp at h
            · rename_i hc2
              obtain ⟨ts, gr, hf, hne, hle, hs', hr'⟩ := (v6_after n _ _ _ (by simp; omega)).1 h
              refine ⟨t :: ts, g :: gr, .cons hg hf, by simp, by simp at hle ⊢; omega, ?_, by simpa using hr'⟩
              cases ts with
              | nil => exact absurd rfl hne
              | cons b ts => rw [joined_cons_cons, ← hs', hc]
    · rintro ⟨ts, gr, hf, hne, hle, rfl, rfl⟩
      cases hf with
      | nil => exact absurd rfl hne
      | @cons t g ts gr hg hf =>
        cases hf with
        | nil =>
          rw [joined_single]
          have := v6Loop_group (n := n) (r := []) (gs := gs) (e := some k) hg (by simp)
          rw [List.append_nil] at this
          rw [this]
          simp only [Option.bind_some, v6Finish, List.isEmpty_nil, Bool.not_true]
          rw [if_neg (by simp), if_pos (by simp at hle ⊢; omega)]
        | @cons t2 g2 ts gr hg2 hf =>
          obtain ⟨c, r, hj, hc⟩ := joined_head hg2 ts
          rw [joined_cons_cons, v6Loop_group hg (by simp [colon_not_hex]), hj]
          simp only [ne_eq, not_true_eq_false, if_false, if_neg hc]
          refine (v6_after n _ _ _ (by simp; omega)).2 ⟨t2 :: ts, g2 :: gr, .cons hg2 hf, by simp, by simp at hle ⊢; omega, hj.symm, by simp⟩

/-- groups before an ellipsis -/
theorem v6_before : ∀ (n : Nat) (s : List Char) (gs r : List Nat), gs.length + n = 8 →
    ((v6Loop n s gs none).bind v6Finish = some r ↔ (∃ ts gr, List.Forall₂ GroupText ts gr ∧ gs.length + gr.length = 8 ∧ s = joined ':' ts ∧ r = gs ++ gr) ∨
      ∃ ls rs gl gr, List.Forall₂ GroupText ls gl ∧ ls ≠ [] ∧ List.Forall₂ GroupText rs gr ∧ gs.length + gl.length + gr.length ≤ 7 ∧
        s = joined ':' ls ++ [':', ':'] ++ joined ':' rs ∧ r = gs ++ gl ++ List.replicate (8 - (gs.length + gl.length + gr.length)) 0 ++ gr)
  | 0, s, gs, r, hl => by
    simp only [v6Loop, Option.bind_some, v6Finish]
    constructor
    · intro h
      split at h
      · cases h
      · rename_i hs
        rw [if_neg (by omega)] at h
        simp at h
        refine .inl ⟨[], [], .nil, by simpa using hl, by simpa using hs, by simpa using h.symm⟩
    · rintro (⟨ts, gr, hf, hle, rfl, rfl⟩ | ⟨ls, rs, gl, gr, hf, hne, _, hle, -⟩)
      · have : gr = [] := List.eq_nil_of_length_eq_zero (by omega)
        subst this
        cases hf
        rw [if_neg (by simp), if_neg (by omega)]
        simp
      · have := hf.length_eq
        have : ls.length ≠ 0 := by simpa using hne
        omega
  | n + 1, s, gs, r, hl => by
    constructor
    · intro h
      by_cases hh : (s.takeWhile isHex).length = 0 ∨ (s.takeWhile isHex).length > 4
      · unfold v6Loop at h; simp only [if_pos hh] at h; cases h
      have hg := hex_group hh
      have hs : s = s.takeWhile isHex ++ s.dropWhile isHex := (List.takeWhile_append_dropWhile).symm
      have hr : ∀ c, (s.dropWhile isHex).head? = some c → isHex c = false := by
        intro c hc
        cases hd : s.dropWhile isHex with
        | nil => rw [hd] at hc; cases hc
        | cons x xs => rw [hd] at hc; cases hc; exact Bool.eq_false_iff.2 (fun hx => by
            have := List.head_dropWhile_not isHex (l := s) (by rw [hd]; simp)
            simp [hd] at this; rw [this] at hx; cases hx)
      generalize s.takeWhile isHex = t at hg hs
      generalize s.dropWhile isHex = d at hs hr
      generalize hexVals t = g at hg
      subst hs
      rw [v6Loop_group hg hr] at h
      cases d with
      | nil =>
        simp only [Option.bind_some, v6Finish, List.isEmpty_nil, Bool.not_true] at h
        rw [if_neg (by simp)] at h
        split at h
        · cases h
        · rename_i hlt
          simp only [List.length_append, List.length_singleton] at hlt
          simp at h
          exact .inl ⟨[t], [g], .cons hg .nil, by simp; omega, by simp, by simpa using h.symm⟩
      | cons c d' =>
        simp only [] at h
        split at h
        · cases h
        · rename_i hc
          have hc : c = ':' := Classical.not_not.1 hc
          cases d' with
          | nil => cases h
          | cons c2 r2 =>
            simp only [] at h
            split at h
            · rename_i hc2
              right
              rw [if_neg (by simp)] at h
              split at h
              · rename_i he
                have he : r2 = [] := by simpa using he
                subst he
                simp only [Option.bind_some, v6Finish, List.isEmpty_nil, Bool.not_true] at h
                rw [if_neg (by simp)] at h
                split at h
                · rename_i hlt
                  cases h
                  refine ⟨[t], [], [g], [], .cons hg .nil, by simp, .nil, by simp at hlt ⊢; omega, by simp [hc, hc2], ?_⟩
                  rw [List.take_length, List.drop_length]; simp
                · simp at h
              · obtain ⟨ts, gr, hf, hne, hle, hs', hr'⟩ := (v6_after n _ _ _ (by simp; omega)).1 h
                refine ⟨[t], ts, [g], gr, .cons hg .nil, by simp, hf, by simp at hle ⊢; omega, by simp [hc, hc2, hs'], ?_⟩
                rw [hr', List.take_left, List.drop_left, List.length_append, List.length_append]
            · rename_i hc2
              rcases (v6_before n _ _ _ (by simp; omega)).1 h with ⟨ts, gr, hf, hle, hs', hr'⟩ | ⟨ls, rs, gl, gr, hf, hne, hf', hle, hs', hr'⟩
              · refine .inl ⟨t :: ts, g :: gr, .cons hg hf, by simp at hle ⊢; omega, ?_, by simpa using hr'⟩
                cases ts with
                | nil => simp at hs'
                | cons b ts => rw [joined_cons_cons, ← hs', hc]
              · refine .inr ⟨t :: ls, rs, g :: gl, gr, .cons hg hf, by simp, hf', by simp at hle ⊢; omega, ?_, ?_⟩
                · cases ls with
                  | nil => exact absurd rfl hne
                  | cons b ls => rw [joined_cons_cons, hc]; simp [hs']
                · simp only [List.length_append, List.length_singleton, List.length_cons] at hr' ⊢
                  rw [hr', show gs.length + (gl.length + 1) + gr.length = gs.length + 1 + gl.length + gr.length by omega]
                  simp
    · rintro (⟨ts, gr, hf, hle, rfl, rfl⟩ | ⟨ls, rs, gl, gr, hf, hne, hf', hle, rfl, rfl⟩)
      · cases hf with
        | nil => simp at hle; omega
        | @cons t g ts gr hg hf =>
          cases hf with
          | nil =>
            rw [joined_single]
            have := v6Loop_group (n := n) (r := []) (gs := gs) (e := none) hg (by simp)
            rw [List.append_nil] at this
            rw [this]
            simp only [Option.bind_some, v6Finish, List.isEmpty_nil, Bool.not_true]
            rw [if_neg (by simp), if_neg (by simp at hle ⊢; omega)]
            simp
          | @cons t2 g2 ts gr hg2 hf =>
            obtain ⟨c, r, hj, hc⟩ := joined_head hg2 ts
            rw [joined_cons_cons, v6Loop_group hg (by simp [colon_not_hex]), hj]
            simp only [ne_eq, not_true_eq_false, if_false, if_neg hc]
            refine (v6_before n _ _ _ (by simp; omega)).2 (.inl ⟨t2 :: ts, g2 :: gr, .cons hg2 hf, by simp at hle ⊢; omega, hj.symm, by simp⟩)
      · cases hf with
        | nil => exact absurd rfl hne
        | @cons t g ls gl hg hf =>
          cases hf with
          | nil =>
            simp only [joined_single, List.append_assoc]
            rw [v6Loop_group hg (by simp [colon_not_hex])]
            simp only [List.cons_append, List.nil_append, ne_eq, not_true_eq_false, if_false, if_true, Option.isSome_none]
            cases hf' with
            | nil =>
              simp only [joined_nil, List.isEmpty_nil, if_true, Bool.false_eq_true, if_false, Option.bind_some, v6Finish, Bool.not_true]
              rw [if_pos (by simp at hle ⊢; omega)]
              rw [List.take_length, List.drop_length]; simp
            | @cons t2 g2 rs gr hg2 hf' =>
              obtain ⟨c, r, hj, hc⟩ := joined_head hg2 rs
              rw [if_neg (by simp), if_neg (by rw [hj]; simp)]
              refine (v6_after n _ _ _ (by simp; omega)).2 ⟨t2 :: rs, g2 :: gr, .cons hg2 hf', by simp, by simp at hle ⊢; omega, rfl, ?_⟩
              rw [List.take_left, List.drop_left, List.length_append, List.length_append]
              simp
          | @cons t2 g2 ls gl hg2 hf =>
            obtain ⟨c, r, hj, hc⟩ := joined_head hg2 ls
            rw [joined_cons_cons]
            simp only [List.append_assoc, List.cons_append]
            rw [v6Loop_group hg (by simp [colon_not_hex]), hj]
            simp only [ne_eq, not_true_eq_false, if_false, if_neg hc, List.cons_append]
            refine (v6_before n _ _ _ (by simp; omega)).2 (.inr ⟨t2 :: ls, rs, g2 :: gl, gr, .cons hg2 hf, by simp, hf', by simp at hle ⊢; omega, by rw [hj]; simp, ?_⟩)
            have e : (gs ++ [g]).length + (g2 :: gl).length + gr.length = gs.length + (g :: g2 :: gl).length + gr.length := by simp; omega
            rw [e]
            simp

theorem v6_iff {s : List Char} {gs : List Nat} : parseIPv6 s = some gs ↔ V6Text s gs := by
  have before : (∀ r, s ≠ ':' :: ':' :: r) → ((v6Loop 8 s [] none).bind v6Finish = some gs ↔ V6Text s gs) := by
    intro hs
    rw [v6_before 8 s [] gs rfl]
    constructor
    · rintro (⟨ts, gr, hf, hle, rfl, rfl⟩ | ⟨ls, rs, gl, gr, hf, hne, hf', hle, rfl, rfl⟩)
      · simp at hle ⊢; exact .full hf hle
      · simp only [List.length_nil, Nat.zero_add, List.nil_append] at hle ⊢; exact .gap hf hf' hle
    · intro h
      cases h with
      | full hf hl => exact .inl ⟨_, _, hf, by simpa using hl, rfl, by simp⟩
      | gap hf hf' hl =>
        refine .inr ⟨_, _, _, _, hf, ?_, hf', by simpa using hl, rfl, by simp⟩
        rintro rfl
        exact hs _ (by simp; rfl)
  unfold parseIPv6
  split
  · rename_i r
    constructor
    · intro h
      split at h
      · rename_i he
        have he : r = [] := by simpa using he
        subst he
        cases h
        exact V6Text.gap (ls := []) (rs := []) (gl := []) (gr := []) .nil .nil (by simp)
      · obtain ⟨ts, gr, hf, hne, hle, hs', hr'⟩ := (v6_after 8 _ _ _ rfl).1 h
        have := V6Text.gap (ls := []) (gl := []) .nil hf (by simpa using hle)
        simpa [hs', hr'] using this
    · intro h
      generalize hs : (':' :: ':' :: r : List Char) = s0 at h
      cases h with
      | @full ts gs hf hl =>
        cases hf with
        | nil => simp at hl
        | cons hg hf =>
          obtain ⟨c, r', hj, hc⟩ := joined_head hg _
          rw [hj] at hs
          cases hs; exact absurd rfl hc
      | @gap ls rs gl gr hf hf' hl =>
        cases hf with
        | cons hg hf =>
          obtain ⟨c, r', hj, hc⟩ := joined_head hg _
          rw [hj] at hs
          simp only [List.cons_append] at hs
          exact absurd (List.cons.inj hs).1.symm hc
        | nil =>
          simp at hs
          subst hs
          cases hf' with
          | nil => simp
          | @cons t2 g2 rs gr hg2 hf' =>
            obtain ⟨c, r, hj, hc⟩ := joined_head hg2 rs
            rw [if_neg (by rw [hj]; simp)]
            refine (v6_after 8 _ _ _ rfl).2 ⟨t2 :: rs, g2 :: gr, .cons hg2 hf', by simp, by simpa using hl, rfl, by simp⟩
  · rename_i hs
    exact before hs

end Sdf
end Eupf
