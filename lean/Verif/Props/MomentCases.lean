import Verif.Props.Moments
import Verif.Props.ExactCases
import Verif.Props.OwnRulesCases
/-
Concrete cases for C106: packets in the middle of a request.
-/
namespace Eupf

theorem Prog.rest {l : List Piece} {s : HS} : ∀ {l' : List Piece} {t : HS}, Prog l s l' t (.ok ()) → Prog l s [] (Act.all l' t).1 (Act.all l' t).2
  | [], _, h => h
  | m :: l', t, h => by
    rcases hm : m t with ⟨t', r⟩
    by_cases hr : r = .ok ()
    · subst hr
      rw [Act.all_cons_ok _ hm]
      exact Prog.rest (.piece h hm)
    · rw [Act.all_cons_fail _ hm hr]
      exact .failed h hm hr

theorem Prog.upto {l : List Piece} {s : HS} : ∀ (l1 : List Piece) {l2 : List Piece} {t t' : HS}, Prog l s (l1 ++ l2) t (.ok ()) →
    Act.all l1 t = (t', .ok ()) → Prog l s l2 t' (.ok ())
  | [], _, _, _, h, e => by cases e; exact h
  | m :: l1, l2, t, t', h, e => by
    rcases hm : m t with ⟨t1, r⟩
    by_cases hr : r = .ok ()
    · subst hr
      rw [Act.all_cons_ok _ hm] at e
      exact Prog.upto l1 (.piece h hm) e
    · rw [Act.all_cons_fail _ hm hr] at e
      cases e
      exact absurd rfl hr

/-- The event with packets after its `k`th piece. -/
def Node.mid (n : Node) (e : Ev) (k : Nat) (f : BpfObjects → BpfObjects) : Option (Node × Outcome) :=
  match n.job e with
  | none => none
  | some (s, l) =>
    let t := Act.all (l.take k) s
    match t.2 with
    | .ok () =>
      let t' := Act.all (l.drop k) { t.1 with dp := f t.1.dp }
      some (n.conclude e t'.1 t'.2)
    | _ => none

theorem Node.mid_runs {n : Node} {e : Ev} {k : Nat} {f : BpfObjects → BpfObjects} (hf : ∀ b, TrafficEffect b (f b)) {x : Node × Outcome}
    (h : n.mid e k f = some x) : n.Runs e x.1 x.2 := by
  unfold Node.mid at h
  cases hj : n.job e with
  | none => rw [hj] at h; cases h
  | some y =>
    obtain ⟨s, l⟩ := y
    rw [hj] at h
    simp only at h
    rcases ht : Act.all (l.take k) s with ⟨t, r⟩
    rw [ht] at h
    simp only at h
    cases r with
    | err => cases h
    | panic => cases h
    | ok u =>
      simp only [Option.some.injEq] at h
      subst h
      exact .pieces hj (Prog.rest (.packets (Prog.upto (l.take k) (by rw [List.take_append_drop]; exact .start) ht) (hf _)))

/-- a packet of 100 octets towards the network is counted in slot `g` -/
def Demo.count (g : U32) (b : BpfObjects) : BpfObjects :=
  { b with urr := { b.urr with val := fun i => if i = g then { b.urr.val i with ul := (b.urr.val i).ul + 100 } else b.urr.val i } }

theorem Demo.count_traffic (g : U32) (b : BpfObjects) : TrafficEffect b (Demo.count g b) := ⟨rfl, rfl, rfl, rfl, rfl, fun _ => rfl, rfl, rfl, rfl, rfl⟩

/-- A session is deleted; after its PDRs have been removed, and before its FAR is, the volume of a last packet (in flight) is counted: it is
reported. The rest of the answer is as it would have been. -/
theorem Demo.mid_out : (Demo.nMod98.mid (.delete 2 ⟨2, 9⟩ default) 2 (Demo.count 0)).map (·.2) =
    some (.reply { type := .deletion, seid := 200, seq := 9, cause := 1, reports := [⟨1, 1, 100, 100, 0⟩] }) := by decide +kernel

theorem Demo.upto106 : ∃ h, HistP Clean Demo.n0 h Demo.nMod98 ∧ attempts h = 2 := by
  obtain ⟨h, s2, hb⟩ := Demo.two99
  have s3 := HistP.snoc s2 (clean_establish (orderly_establish (a := 1) (r := Demo.svc) (by decide) (by decide +kernel) (by decide +kernel) (by decide +kernel))
    (by decide) (by decide) (by decide) Demo.svc_own) Demo.svc_step
  have s4 := HistP.snoc s3 (clean_establish (orderly_establish (a := 2) (r := Demo.est 200) (by decide) (by decide +kernel) (by decide +kernel) (by decide +kernel))
    (by decide) (by decide) (by decide) Demo.est_own) Demo.est98_step
  have s5 := HistP.snoc s4 Demo.mod98_clean Demo.mod98_step
  refine ⟨_, s5, ?_⟩
  show attempts h + 1 + 1 = 2
  rw [hb]

/-- A clean history with packets in the middle of its last request. -/
theorem Demo.hist106 : ∃ h n, HistI Clean Demo.n0 ((.delete 2 ⟨2, 9⟩ default,
    .reply { type := .deletion, seid := 200, seq := 9, cause := 1, reports := [⟨1, 1, 100, 100, 0⟩] }) :: h) n ∧ attempts h = 2 := by
  obtain ⟨h, H, b⟩ := Demo.upto106
  have hm := Demo.mid_out
  have hc := clean_other (by simp) (by simp) Demo.del98_orderly
  generalize Demo.nMod98 = n at H hm hc
  obtain ⟨x, hx, ho⟩ := Option.map_eq_some_iff.1 hm
  have r := Node.mid_runs (Demo.count_traffic 0) hx
  rw [ho] at r
  exact ⟨h, x.1, .step _ (C106_as_a_whole H) hc r (by simp), b⟩

/-- C106 on it: the tables say what the sessions say, and the same requests processed as a whole lead there. -/
example : ∃ h n, HistI Clean Demo.n0 h n ∧ Exact n ∧ ∃ h', HistP Clean Demo.n0 h' n ∧ plainly h' = plainly h := by
  obtain ⟨h, n, H, b⟩ := Demo.hist106
  obtain ⟨h', H', e⟩ := C106_interleaved H
  refine ⟨_, n, H, ?_, h', H', e⟩
  · refine C98_exact_partial (fz := 4) (qz := 4) (uz := 4) (by decide) (by decide) (by decide) (H'.mono fun _ _ c => c.orderly) ?_
    rw [← attempts_plainly h', e, attempts_plainly]
    show attempts h < _
    rw [b]; decide

end Eupf
