import Verif.Spec.Heartbeats
import Verif.Spec.Ledger
namespace Eupf

theorem Sys.Exec.append {s0 s1 s2 : Sys} {t1 t2 : List Lab} (h1 : Sys.Exec s0 t1 s1) (h2 : Sys.Exec s1 t2 s2) :
    Sys.Exec s0 (t2 ++ t1) s2 := by
  induction h2 with
  | nil => exact h1
  | step _ hs ih => exact .step ih hs

theorem Sys.Exec.one {s s' : Sys} {l : Lab} (h : Sys.Step s l s') : Sys.Exec s [l] s' := .step .nil h

/-- messages never remove an association, and only a setup creates one -/
theorem plain_assocs (n : Node) (e : Ev) (hp : e.plain) (a : Addr) :
    ((n.assocs.get? a).isSome → ((n.step e).1.assocs.get? a).isSome) ∧
    (e.setupAddr ≠ some a → (n.assocs.get? a).isNone → ((n.step e).1.assocs.get? a).isNone) := by
  have set_old : ∀ b (x y : Assoc), n.assocs.get? b = some x →
      ((n.assocs.get? a).isSome → ((n.assocs.set b y).get? a).isSome) ∧
      ((n.assocs.get? a).isNone → ((n.assocs.set b y).get? a).isNone) := by
    intro b x y hb
    simp only [GoMap.get?_set]
    constructor
    · intro h; split <;> simp_all
    · intro h; split
      · subst_vars; simp_all
      · exact h
  have add : ∀ b, ((n.assocs.get? a).isSome → ((n.addAssoc b).assocs.get? a).isSome) ∧
      (b ≠ a → (n.assocs.get? a).isNone → ((n.addAssoc b).assocs.get? a).isNone) := by
    intro b
    unfold Node.addAssoc
    split
    · exact ⟨id, fun _ => id⟩
    · simp only [GoMap.get?_set]
      constructor
      · intro h; split <;> simp_all
      · intro h1 h2; rw [if_neg (by first | exact h1 | exact fun h => h1 h.symm)]; exact h2
  have keep : ∀ n' : Node, n'.assocs = n.assocs → ((n.assocs.get? a).isSome → (n'.assocs.get? a).isSome) ∧
      ((n.assocs.get? a).isNone → (n'.assocs.get? a).isNone) := by
    intro n' h; rw [h]; exact ⟨id, id⟩
  cases e with
  | peerLost => exact hp.elim
  | setConfig => exact hp.elim
  | heartbeatResp => exact hp.elim
  | heartbeatReq b s t =>
    have : (n.step (.heartbeatReq b s t)).1.assocs = n.assocs := by
      simp only [Node.step, Node.heartbeatReq]; split <;> rfl
    exact ⟨(keep _ this).1, fun _ => (keep _ this).2⟩
  | assocUpdate b s i =>
    have : (n.step (.assocUpdate b s i)).1.assocs = n.assocs := by
      simp only [Node.step, Node.assocUpdate]; repeat' split
      all_goals rfl
    exact ⟨(keep _ this).1, fun _ => (keep _ this).2⟩
  | assocSetup b s i t =>
    simp only [Ev.setupAddr, ne_eq, Option.some.injEq]
    simp only [Node.step, Node.assocSetup]
    repeat' split
    all_goals first | exact add b | exact ⟨id, fun _ => id⟩
  | assocSetupResp b i c f =>
    simp only [Ev.setupAddr, ne_eq, Option.some.injEq]
    simp only [Node.step, Node.assocSetupResp]
    repeat' split
    all_goals first | exact add b | exact ⟨id, fun _ => id⟩
  | establish b r =>
    show ((n.assocs.get? a).isSome → ((n.establish b r).1.assocs.get? a).isSome) ∧
      (_ → (n.assocs.get? a).isNone → ((n.establish b r).1.assocs.get? a).isNone)
    rcases establish_assocs n b r with h | ⟨x, ss, hx, h, _⟩
    · exact ⟨(keep _ h).1, fun _ => (keep _ h).2⟩
    · rw [h]; exact ⟨(set_old b x _ hx).1, fun _ => (set_old b x _ hx).2⟩
  | modify b r o =>
    show ((n.assocs.get? a).isSome → ((n.modify b r o).1.assocs.get? a).isSome) ∧
      (_ → (n.assocs.get? a).isNone → ((n.modify b r o).1.assocs.get? a).isNone)
    cases modify_cases n b r o with
    | refused c x _ _ h => rw [h]; exact ⟨id, fun _ => id⟩
    | ran x sess hs res hx _ _ _ _ h =>
      rw [h]
      cases res <;> exact ⟨(set_old b x _ hx).1, fun _ => (set_old b x _ hx).2⟩
  | delete b r o =>
    show ((n.assocs.get? a).isSome → ((n.delete b r o).1.assocs.get? a).isSome) ∧
      (_ → (n.assocs.get? a).isNone → ((n.delete b r o).1.assocs.get? a).isNone)
    cases delete_cases n b r o with
    | refused c _ _ h => rw [h]; exact ⟨id, fun _ => id⟩
    | ran x sess hs res hx _ _ h =>
      rw [h]
      cases res with
      | ok _ => exact ⟨(set_old b x _ hx).1, fun _ => (set_old b x _ hx).2⟩
      | err => exact ⟨id, fun _ => id⟩
      | panic => exact ⟨id, fun _ => id⟩

/-- losing a peer removes at most that peer's association -/
theorem peerLost_assocs (n : Node) (a b : Addr) (o : Orders) (hc : (n.step (.peerLost a o)).2 ≠ .crash) :
    (n.step (.peerLost a o)).1.assocs = n.assocs.erase a := by
  simp only [Node.step, Node.deleteAssociation] at hc ⊢
  split
  · rename_i h; simp [h] at hc
  · rename_i x h
    rw [h] at hc
    simp only at hc ⊢
    split
    · rfl
    · rename_i h2; rw [h2] at hc; simp at hc

/-- a scheduler runs only for an existing association, and the main loop sends only to one -/
structure Sys.Sane (s : Sys) : Prop where
  sched : ∀ a, (s.sched.get? a).isSome → (s.node.assocs.get? a).isSome
  main : ∀ a q, s.main = some (a, q) → (s.node.assocs.get? a).isSome

theorem startSched_get {c : HbCfg} {n n' : Node} {m : GoMap Addr Sched} {o : Option Addr} {a : Addr} :
    (startSched c n n' m o).get? a = m.get? a ∨
    (o = some a ∧ n.assocs.get? a = none ∧ (n'.assocs.get? a).isSome ∧ (startSched c n n' m o).get? a = some (.ready 1 0)) := by
  unfold startSched
  split
  · exact Or.inl rfl
  · rename_i b
    split
    · rename_i h
      simp only [Bool.and_eq_true, Option.isNone_iff_eq_none] at h
      by_cases hb : b = a
      · subst hb
        exact Or.inr ⟨rfl, h.1.1, h.1.2, by simp⟩
      · left; rw [GoMap.get?_set]; rw [if_neg (by first | exact hb | exact fun h => hb h.symm)]
    · exact Or.inl rfl

theorem Sys.Sane.step {s s' : Sys} {l : Lab} (h : s.Sane) (hs : Sys.Step s l s') : s'.Sane := by
  have upd : ∀ (a : Addr) (st st' : Sched) (n : Node), n = s.node → s.sched.get? a = some st → ∀ b,
      ((s.sched.set a st').get? b).isSome → (n.assocs.get? b).isSome := by
    intro a st st' n hn ha b hb
    subst hn
    rw [GoMap.get?_set] at hb
    split at hb
    · subst_vars; exact h.sched _ (by rw [ha]; rfl)
    · exact h.sched b hb
  cases hs with
  | @msg e hm hp hc =>
    refine ⟨fun a ha => ?_, fun a q hq => ?_⟩
    · rcases startSched_get (c := s.cfg) (n := s.node) (n' := (s.node.step e).1) (m := s.sched) (o := e.setupAddr) (a := a) with g | ⟨_, _, g, _⟩
      · simp only at ha
        rw [g] at ha
        exact (plain_assocs s.node e hp a).1 (h.sched a ha)
      · exact g
    · simp only [hm] at hq; exact absurd hq (by simp)
  | hbIgnored hm _ => exact h
  | hbResp hm ha => exact ⟨h.sched, fun a q hq => by simp only [Option.some.injEq, Prod.mk.injEq] at hq; rw [← hq.1]; exact ha⟩
  | sent ha => exact ⟨upd _ _ _ _ rfl ha, h.main⟩
  | expired ha _ => exact ⟨upd _ _ _ _ rfl ha, h.main⟩
  | gaveUp ha _ => exact ⟨upd _ _ _ _ rfl ha, h.main⟩
  | answered hm ha => exact ⟨upd _ _ _ _ rfl ha, fun a q hq => by simp at hq⟩
  | due ha => exact ⟨upd _ _ _ _ rfl ha, h.main⟩
  | @dropped a ord hm ha hc =>
    refine ⟨fun b hb => ?_, fun b q hq => ?_⟩
    · simp only at hb ⊢
      rw [peerLost_assocs _ _ a _ hc]
      rw [GoMap.get?_erase] at hb ⊢
      split
      · rename_i hx; rw [if_pos hx] at hb; simp at hb
      · rename_i hx; rw [if_neg hx] at hb; exact h.sched b hb
    · simp only [hm] at hq; exact absurd hq (by simp)
  | config => exact ⟨h.sched, h.main⟩
  | traffic _ => exact ⟨h.sched, h.main⟩

theorem Sys.Sane.exec {s s' : Sys} {tr : List Lab} (h : s.Sane) (hx : Sys.Exec s tr s') : s'.Sane := by
  induction hx with
  | nil => exact h
  | step _ hs ih => exact ih.step hs

theorem sane_init (n : Node) (c : HbCfg) : (Sys.init n c).Sane :=
  ⟨fun a h => by simp [Sys.init] at h, fun a q h => by simp [Sys.init] at h⟩

/-- What the schedulers do is a history of the node: everything proved of histories holds in the concurrent system. -/
theorem Sys.Exec.hist {n : Node} {c : HbCfg} {tr : List Lab} {s : Sys} (hx : Sys.Exec (Sys.init n c) tr s) :
    ∃ h, Hist n h s.node := by
  induction hx with
  | nil => exact ⟨[], .init⟩
  | step _ hs ih =>
    obtain ⟨h, ih⟩ := ih
    cases hs with
    | msg hm hp hc => exact ⟨_, ih.step _ hc⟩
    | dropped hm ha hc => exact ⟨_, ih.step _ hc⟩
    | traffic ht => exact ⟨h, ih.traffic ht⟩
    | @config c u => exact ⟨_, ih.step (.setConfig u) (by simp [Node.step])⟩
    | _ => exact ⟨h, ih⟩

end Eupf
