import Verif.SlotNode
import Verif.Demo
/-
C08, C09: slots of the forwarding plane are owned exclusively and agree with the session records.
-/
namespace Eupf

theorem slots_reach {cfg : NodeCfg} {rm : Option ResourceManager} {p f q u : U32} {n : Node}
    (H : GoodReach (Node.init cfg rm (BpfObjects.load p f q u)) n) : Slots n.view n.dp := by
  induction H with
  | init =>
    refine ⟨⟨rfl, ?_, ?_⟩, ⟨rfl, ?_, ?_⟩, ⟨rfl, ?_, ?_⟩⟩
    all_goals
      rintro ⟨k, i⟩
      intros
      simp_all [ownFar, ownQer, ownUrr, Node.view, Node.init, Node.session?]
  | step e _ hr hc ih => exact slots_step e ih hr hc
  | traffic _ t ih => exact ih.traffic t

/-- **C08.** In every history in which modifications only update or remove rules that exist: two FARs (QERs,
URRs) of live sessions that use the same slot are the same rule of the same session, and a slot in use is not in
the free pool of the allocator. -/
theorem C08_exclusive_partial {cfg : NodeCfg} {rm : Option ResourceManager} {p f q u : U32} {n : Node}
    (H : GoodReach (Node.init cfg rm (BpfObjects.load p f q u)) n) {a b : Addr} {s t : U64} {x y : Session}
    (hx : n.session? a s = some x) (hy : n.session? b t = some y) (i j : U32) :
    (∀ fi fj, x.fars.get? i = some fi → y.fars.get? j = some fj → fi.gid = fj.gid → a = b ∧ s = t ∧ i = j) ∧
    (∀ qi qj, x.qers.get? i = some qi → y.qers.get? j = some qj → qi.gid = qj.gid → a = b ∧ s = t ∧ i = j) ∧
    (∀ ui uj, x.urrs.get? i = some ui → y.urrs.get? j = some uj → ui.gid = uj.gid → a = b ∧ s = t ∧ i = j) ∧
    (∀ fi, x.fars.get? i = some fi → n.dp.farIds.free fi.gid = false) ∧
    (∀ qi, x.qers.get? i = some qi → n.dp.qerIds.free qi.gid = false) ∧
    (∀ ui, x.urrs.get? i = some ui → n.dp.urrIds.free ui.gid = false) := by
  have h := slots_reach H
  have hvx : n.view (some (a, s)) = some x := hx
  have hvy : n.view (some (b, t)) = some y := hy
  have inj : ((some (a, s), i) : Owner) = (some (b, t), j) → a = b ∧ s = t ∧ i = j := by
    intro e; cases e; exact ⟨rfl, rfl, rfl⟩
  refine ⟨?_, ?_, ?_, ?_, ?_, ?_⟩
  · intro fi fj h1 h2 h3
    apply inj
    apply h.far.excl (some (a, s), i) (some (b, t), j) fi.gid fi.info fj.info
    · simp [ownFar, hvx, h1]
    · simp [ownFar, hvy, h2, h3]
  · intro fi fj h1 h2 h3
    apply inj
    apply h.qer.excl (some (a, s), i) (some (b, t), j) fi.gid fi.info fj.info
    · simp [ownQer, hvx, h1]
    · simp [ownQer, hvy, h2, h3]
  · intro fi fj h1 h2 h3
    apply inj
    apply h.urr.excl (some (a, s), i) (some (b, t), j) fi.gid fi.info fj.info
    · simp [ownUrr, hvx, h1]
    · simp [ownUrr, hvy, h2, h3]
  · intro fi h1; exact (h.far.ok (some (a, s), i) fi.gid fi.info (by simp [ownFar, hvx, h1])).2.1
  · intro fi h1; exact (h.qer.ok (some (a, s), i) fi.gid fi.info (by simp [ownQer, hvx, h1])).2.1
  · intro fi h1; exact (h.urr.ok (some (a, s), i) fi.gid fi.info (by simp [ownUrr, hvx, h1])).2.1

/-- **C09.** In the same histories the forwarding plane's slot of every FAR of every live session contains
exactly the recorded parameters; the slot of every QER the recorded gate status, QFI and bit rates. -/
theorem C09_agrees_partial {cfg : NodeCfg} {rm : Option ResourceManager} {p f q u : U32} {n : Node}
    (H : GoodReach (Node.init cfg rm (BpfObjects.load p f q u)) n) {a : Addr} {s : U64} {x : Session}
    (hx : n.session? a s = some x) (i : U32) :
    (∀ fi, x.fars.get? i = some fi → n.dp.far.lookup fi.gid = some fi.info) ∧
    (∀ qi, x.qers.get? i = some qi → ∃ k, n.dp.qer.lookup qi.gid = some k ∧ k.gateUL = qi.info.gateUL ∧
      k.gateDL = qi.info.gateDL ∧ k.qfi = qi.info.qfi ∧ k.mbrUL = qi.info.mbrUL ∧ k.mbrDL = qi.info.mbrDL) := by
  have h := slots_reach H
  have hvx : n.view (some (a, s)) = some x := hx
  constructor
  · intro fi h1
    obtain ⟨h2, _, h4⟩ := h.far.ok (some (a, s), i) fi.gid fi.info (by simp [ownFar, hvx, h1])
    simp [ArrMap.lookup, h2, h4]
  · intro qi h1
    obtain ⟨h2, _, h4⟩ := h.qer.ok (some (a, s), i) qi.gid qi.info (by simp [ownQer, hvx, h1])
    refine ⟨n.dp.qer.val qi.gid, by simp [ArrMap.lookup, h2], ?_⟩
    have h5 := QerInfo.mk.inj h4
    simp only at h5
    exact ⟨h5.1, h5.2.1, h5.2.2.1, h5.2.2.2.1, h5.2.2.2.2.1⟩

/-! ### concrete cases -/

theorem goodReach_run {n0 : Node} : ∀ (es : List Ev) {n : Node}, GoodReach n0 n → (.crash ∉ (n.run es).2) →
    (∀ e ∈ es, match e with | .modify .. => False | _ => True) → GoodReach n0 (n.run es).1
  | [], n, H, _, _ => H
  | e :: es, n, H, hc, hm => by
    unfold Node.run at hc ⊢
    rcases hs : n.step e with ⟨n', o⟩
    rw [hs] at hc
    have ho : o ≠ .crash := by rintro rfl; exact hc (by simp)
    have hk : e.refsKnown n := by
      have := hm e (by simp)
      cases e <;> first | trivial | exact this.elim
    have hstep : GoodReach n0 n' := by
      have := GoodReach.step e H hk (by rw [hs]; exact ho)
      rwa [hs] at this
    cases o with
    | crash => exact absurd rfl ho
    | reply r =>
      simp only [List.mem_cons, not_or] at hc
      exact goodReach_run es hstep hc.2 (fun e' he' => hm e' (by simp [he']))
    | silent =>
      simp only [List.mem_cons, not_or] at hc
      exact goodReach_run es hstep hc.2 (fun e' he' => hm e' (by simp [he']))

/-- two sessions of peer 1, then session 3 changes its FAR (a known one) -/
def Demo.known : ModReq :=
  { seid := 3, seq := 6, updateFar := [{ kind := .update, farId := some 1, applyAction := some [4] }] }

theorem Demo.known_ok : GoodReach Demo.n0 (Demo.nEnd.step (.modify 1 Demo.known default)).1 := by
  refine GoodReach.step _ (goodReach_run Demo.evs .init (by decide +kernel) ?_) ?_ (by decide +kernel)
  · intro e he
    simp only [Demo.evs, List.mem_cons, List.not_mem_nil, or_false] at he
    rcases he with rfl | rfl | rfl | rfl | rfl | rfl <;> trivial
  · intro sess hs
    have h1 : (Demo.nEnd.session? 1 3).map (fun s => (s.fars.get? 1).isSome) = some true := by decide +kernel
    have h2 : (sess.fars.get? 1).isSome = true := by
      have : Demo.nEnd.session? 1 3 = some sess := hs
      rw [this] at h1; simpa using h1
    refine ⟨?_, ?_, ?_, ?_, ?_, ?_, ?_, ?_, ?_⟩ <;> simp only [Demo.known, List.not_mem_nil, false_imp_iff, implies_true,
      List.mem_singleton]
    intro ie hie i hi
    subst hie
    cases hi
    exact Or.inl h2
    all_goals simp

/-- Non-vacuity of C08 and C09: after the modification session (1,3) has FAR 1 with action 4 in its slot and
session (2,2) another slot. -/
example : ∃ n x y, GoodReach Demo.n0 n ∧ n.session? 1 3 = some x ∧ n.session? 2 2 = some y ∧
    ((x.fars.get? 1).map (·.info.action)) = some 4 ∧ (x.fars.get? 1).map (·.gid) ≠ (y.fars.get? 1).map (·.gid) := by
  refine ⟨_, ((Demo.nEnd.step (.modify 1 Demo.known default)).1.session? 1 3).get (by decide +kernel),
    ((Demo.nEnd.step (.modify 1 Demo.known default)).1.session? 2 2).get (by decide +kernel), Demo.known_ok, ?_, ?_, ?_⟩
  · simp
  · simp
  · decide +kernel

/-- Session 2 and 3 of peer 1; session 3 removes a FAR id it never had; then a third session is created. -/
def Demo.evsShare : List Ev :=
  [.assocSetup 1 1 (some (some ())) (some (some ())), .establish 1 (Demo.est 100), .establish 1 (Demo.est 101),
   .modify 1 { seid := 3, seq := 7, removeFar := [some 99] } default, .establish 1 (Demo.est 102)]

/-- **C08, negation without the hypothesis.** After a Remove FAR with an unknown id in one session, FARs of two
other live sessions share a forwarding plane slot. -/
theorem C08_shared_slot : ∃ h n, Hist Demo.n0 h n ∧ ∃ x y fx fy, n.session? 1 2 = some x ∧ n.session? 1 4 = some y ∧
    x.fars.get? 1 = some fx ∧ y.fars.get? 1 = some fy ∧ fx.gid = fy.gid := by
  let n := (Demo.n0.run Demo.evsShare).1
  refine ⟨Demo.n0.observed Demo.evsShare, n, hist_run_init _ (by decide +kernel), (n.session? 1 2).get (by decide +kernel),
    (n.session? 1 4).get (by decide +kernel), (((n.session? 1 2).get (by decide +kernel)).fars.get? 1).get (by decide +kernel),
    (((n.session? 1 4).get (by decide +kernel)).fars.get? 1).get (by decide +kernel), by simp, by simp, by simp, by simp,
    by decide +kernel⟩

/-- two sessions; the second updates a FAR id it never had -/
def Demo.evsClobber : List Ev :=
  [.assocSetup 1 1 (some (some ())) (some (some ())), .establish 1 (Demo.est 100), .establish 1 (Demo.est 101),
   .modify 1 { seid := 3, seq := 7, updateFar := [{ kind := .update, farId := some 99, applyAction := some [1] }] } default]

/-- **C09, negation without the hypothesis.** After an Update FAR with an unknown id in one session (which is
accepted), the forwarding plane drops the traffic of another session whose record still says "forward". -/
theorem C09_clobbered : ∃ h n, Hist Demo.n0 h n ∧ ∃ x fx slot, n.session? 1 2 = some x ∧ x.fars.get? 1 = some fx ∧
    n.dp.far.lookup fx.gid = some slot ∧ fx.info.action = 2 ∧ slot.action = 1 := by
  let n := (Demo.n0.run Demo.evsClobber).1
  refine ⟨Demo.n0.observed Demo.evsClobber, n, hist_run_init _ (by decide +kernel), (n.session? 1 2).get (by decide +kernel),
    (((n.session? 1 2).get (by decide +kernel)).fars.get? 1).get (by decide +kernel), { action := 1 }, by simp, by simp,
    by decide +kernel, by decide +kernel, rfl⟩

end Eupf
