import Verif.Props.WriteOrder
import Verif.Props.MomentCases
/-
C109: concrete cases.
-/
namespace Eupf

/-- The tables after the first `k` pieces of the event, if these succeed. -/
def Node.after (n : Node) (e : Ev) (k : Nat) : Option BpfObjects :=
  match n.job e with
  | none => none
  | some (s, l) =>
    let t := Act.all (l.take k) s
    match t.2 with
    | .ok () => some t.1.dp
    | _ => none

theorem Node.after_moment {n : Node} {e : Ev} {k : Nat} {b : BpfObjects} (h : n.after e k = some b) : n.moment e b := by
  unfold Node.after at h
  unfold Node.moment
  cases hj : n.job e with
  | none => rw [hj] at h; cases h
  | some y =>
    obtain ⟨s, l⟩ := y
    rw [hj] at h
    simp only at h
    rcases ht : Act.all (l.take k) s with ⟨t, r⟩
    rw [ht] at h
    simp only at h
    cases r with
    | err => cases h
    | panic => cases h
    | ok u =>
      simp only [Option.some.injEq] at h
      exact ⟨l.drop k, t, .ok (), Prog.upto (l.take k) (by rw [List.take_append_drop]; exact .start) ht, h⟩

theorem Demo.gap_mid : ((Demo.nSvc2.after (.modify 1 Demo.mod98 default) 4).map fun b => (runPacket DemoDp.env ⟨DemoDp.down, b, {}, {}⟩).2) = some (.ok .drop) := by
  decide +kernel
theorem Demo.gap_before : (runPacket DemoDp.env ⟨DemoDp.down, Demo.nSvc2.dp, {}, {}⟩).2 = .ok (.redirect 7) := by decide +kernel
theorem Demo.gap_after : (runPacket DemoDp.env ⟨DemoDp.down, (Demo.nSvc2.step (.modify 1 Demo.mod98 default)).1.dp, {}, {}⟩).2 = .ok (.redirect 7) := by decide +kernel

theorem Demo.svc2_hist : ∃ h, HistP Clean Demo.n0 h Demo.nSvc2 ∧ attempts h = 2 := by
  obtain ⟨h, s2, hb⟩ := Demo.two99
  have s3 := HistP.snoc s2 (clean_establish (orderly_establish (a := 1) (r := Demo.svc) (by decide) (by decide +kernel) (by decide +kernel) (by decide +kernel))
    (by decide) (by decide) (by decide) Demo.svc_own) Demo.svc_step
  have s4 := HistP.snoc s3 (clean_establish (orderly_establish (a := 2) (r := Demo.est 200) (by decide) (by decide +kernel) (by decide +kernel) (by decide +kernel))
    (by decide) (by decide) (by decide) Demo.est_own) Demo.est98_step
  refine ⟨_, s4, ?_⟩
  show attempts h + 1 + 1 = 2
  rw [hb]

/-- **C109: modifications are not seamless.** After a clean history a clean modification arrives that gives a PDR the new FAR 3 instead of FAR 2,
and removes FAR 2. A packet for this PDR is forwarded before and after the modification, but dropped at a moment in the middle of it: FARs are
removed before PDRs are updated (pfcp_session_handlers.go 297-305 and 429-446). -/
theorem C109_gap : ∃ h n r b, HistP Clean Demo.n0 h n ∧ Clean n (.modify 1 r default) ∧ n.moment (.modify 1 r default) b ∧
    (runPacket DemoDp.env ⟨DemoDp.down, n.dp, {}, {}⟩).2 = .ok (.redirect 7) ∧
    (runPacket DemoDp.env ⟨DemoDp.down, b, {}, {}⟩).2 = .ok .drop ∧
    (runPacket DemoDp.env ⟨DemoDp.down, (n.step (.modify 1 r default)).1.dp, {}, {}⟩).2 = .ok (.redirect 7) := by
  obtain ⟨h, H, -⟩ := Demo.svc2_hist
  have hc := Demo.mod98_clean
  have h1 := Demo.gap_mid
  have h2 := Demo.gap_before
  have h3 := Demo.gap_after
  generalize Demo.nSvc2 = n at H hc h1 h2 h3
  generalize DemoDp.down = f at h1 h2 h3 ⊢
  generalize DemoDp.env = e at h1 h2 h3 ⊢
  obtain ⟨b, hb, hd⟩ := Option.map_eq_some_iff.1 h1
  exact ⟨h, n, Demo.mod98, b, H, hc, Node.after_moment hb, h2, hd, h3⟩

/-- In the middle of the modification FARs have changed and PDRs have not. -/
theorem Demo.mid109 : ((Demo.nSvc2.after (.modify 1 Demo.mod98 default) 4).map fun b =>
    (decide (b.far.val 1 = Demo.nSvc2.dp.far.val 1), (b.entry? (.ul 0x301)).isSome)) = some (false, false) ∧
    ((Demo.nSvc2.step (.modify 1 Demo.mod98 default)).1.dp.entry? (.ul 0x301)).isSome = true := by decide +kernel
/-- In the middle of the deletion PDRs have changed and FARs have not. -/
theorem Demo.mid109d : ((Demo.nSvc2.after (.delete 2 ⟨2, 9⟩ default) 2).map fun b =>
    (decide (b.far.val 2 = (Demo.nSvc2.step (.delete 2 ⟨2, 9⟩ default)).1.dp.far.val 2), (b.entry? (.ul 1)).isSome)) = some (false, false) ∧
    (Demo.nSvc2.dp.entry? (.ul 1)).isSome = true := by decide +kernel
/-- In the middle of the establishment FARs have changed and PDRs have not. -/
theorem Demo.mid109e : ((Demo.nSvc.after (.establish 2 (Demo.est 200)) 5).map fun b =>
    (decide (b.far.val 2 = Demo.nSvc.dp.far.val 2), (b.entry? (.ul 1)).isSome)) = some (false, false) ∧
    ((Demo.nSvc.step (.establish 2 (Demo.est 200))).1.dp.entry? (.ul 1)).isSome = true := by decide +kernel

/-- C109_modify, C109_shorter_modification: a moment at which the tables are neither those before nor those after. -/
example (n : Node) (hn : n = Demo.nSvc2) : ∃ b, n.moment (.modify 1 Demo.mod98 default) b ∧ b.far ≠ n.dp.far ∧ ¬ SamePdrs (n.step (.modify 1 Demo.mod98 default)).1.dp b ∧
    (SamePdrs n.dp b ∨ SameRules (n.step (.modify 1 Demo.mod98 default)).1.dp b) ∧
    ∃ r', r'.Cut Demo.mod98 ∧ TrafficEffect (n.step (.modify 1 r' default)).1.dp b := by
  obtain ⟨h1, h2⟩ := Demo.mid109
  rw [← hn] at h1 h2
  clear hn
  obtain ⟨b, hb, hd⟩ := Option.map_eq_some_iff.1 h1
  have hm := Node.after_moment hb
  simp only [Prod.mk.injEq, decide_eq_false_iff_not] at hd
  refine ⟨b, hm, fun hx => hd.1 (by rw [hx]), fun hx => ?_, C109_modify hm, C109_shorter_modification hm⟩
  have : b.entry? (.ul 0x301) = (n.step (.modify 1 Demo.mod98 default)).1.dp.entry? (.ul 0x301) := by
    simp only [BpfObjects.entry?, hx.ul]
  rw [← this, hd.2] at h2
  cases h2

/-- C109_delete: the same. -/
example (n : Node) (hn : n = Demo.nSvc2) : ∃ b, n.moment (.delete 2 ⟨2, 9⟩ default) b ∧ b.far ≠ (n.step (.delete 2 ⟨2, 9⟩ default)).1.dp.far ∧ ¬ SamePdrs n.dp b ∧
    (SameRules n.dp b ∨ SamePdrs (n.step (.delete 2 ⟨2, 9⟩ default)).1.dp b) := by
  obtain ⟨h1, h2⟩ := Demo.mid109d
  rw [← hn] at h1 h2
  clear hn
  obtain ⟨b, hb, hd⟩ := Option.map_eq_some_iff.1 h1
  have hm := Node.after_moment hb
  simp only [Prod.mk.injEq, decide_eq_false_iff_not] at hd
  refine ⟨b, hm, fun hx => hd.1 (by rw [hx]), fun hx => ?_, C109_delete hm⟩
  have : b.entry? (.ul 1) = n.dp.entry? (.ul 1) := by simp only [BpfObjects.entry?, hx.ul]
  rw [← this, hd.2] at h2
  cases h2

/-- C109_establish, C109_shorter_establishment: the same. -/
example (n : Node) (hn : n = Demo.nSvc) : ∃ b, n.moment (.establish 2 (Demo.est 200)) b ∧ b.far ≠ n.dp.far ∧ ¬ SamePdrs (n.step (.establish 2 (Demo.est 200))).1.dp b ∧
    (SamePdrs n.dp b ∨ SameRules (n.step (.establish 2 (Demo.est 200))).1.dp b) ∧
    ∃ r', r'.Cut (Demo.est 200) ∧ TrafficEffect (n.step (.establish 2 r')).1.dp b := by
  obtain ⟨h1, h2⟩ := Demo.mid109e
  rw [← hn] at h1 h2
  clear hn
  obtain ⟨b, hb, hd⟩ := Option.map_eq_some_iff.1 h1
  have hm := Node.after_moment hb
  simp only [Prod.mk.injEq, decide_eq_false_iff_not] at hd
  refine ⟨b, hm, fun hx => hd.1 (by rw [hx]), fun hx => ?_, C109_establish hm, C109_shorter_establishment hm⟩
  have : b.entry? (.ul 1) = (n.step (.establish 2 (Demo.est 200))).1.dp.entry? (.ul 1) := by simp only [BpfObjects.entry?, hx.ul]
  rw [← this, hd.2] at h2
  cases h2

end Eupf
