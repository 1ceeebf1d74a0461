import Verif.Props.Timers
import Verif.Props.AtomicModifyCases
/-
Cases for C116.
-/
namespace Eupf

/-- The service of `Demo.svc` with 100 kbit/s uplink: a frame of 82 octets takes 6.56 ms. -/
def Demo.svcSlow : EstReq := { Demo.svc with createQer := [{ qerId := some 1, qfi := some 9, mbrUL := some 100, mbrDL := some 2000 }] }
def Demo.nSlow : Node := (Demo.nSvc0.step (.establish 1 Demo.svcSlow)).1
theorem Demo.slow_step : Demo.nSvc0.step (.establish 1 Demo.svcSlow) = (Demo.nSlow, .reply Demo.svcResp) := by
  have : (Demo.nSvc0.step (.establish 1 Demo.svcSlow)).2 = .reply Demo.svcResp := by decide +kernel
  exact Prod.ext (by simp only [Demo.nSlow]) this
theorem Demo.slow_own : ∀ ie ∈ Demo.svcSlow.createPdr, (∃ i, ie.farId = some i ∧ ∃ c ∈ Demo.svcSlow.createFar, c.farId.getD 0 = i) ∧
    ∃ i, ie.qerId = some i ∧ ∃ c ∈ Demo.svcSlow.createQer, c.qerId = some i := by
  intro ie hie
  simp only [Demo.svcSlow, Demo.svc, List.mem_cons, List.not_mem_nil, or_false] at hie
  rcases hie with rfl | rfl
  · exact ⟨⟨1, rfl, Demo.svcSlow.createFar[0], by simp [Demo.svcSlow, Demo.svc], rfl⟩, 1, rfl, Demo.svcSlow.createQer[0], by simp [Demo.svcSlow], rfl⟩
  · exact ⟨⟨2, rfl, Demo.svcSlow.createFar[1], by simp [Demo.svcSlow, Demo.svc], rfl⟩, 1, rfl, Demo.svcSlow.createQer[0], by simp [Demo.svcSlow], rfl⟩
theorem Demo.histSlow : ∃ h, HistP Clean Demo.n0 ((.establish 1 Demo.svcSlow, .reply Demo.svcResp) :: h) Demo.nSlow ∧
    attempts ((.establish 1 Demo.svcSlow, .reply Demo.svcResp) :: h) = 1 := by
  obtain ⟨h, s2, hb⟩ := Demo.two99
  have s3 := HistP.snoc s2 (clean_establish (orderly_establish (a := 1) (r := Demo.svcSlow) (by decide) (by decide +kernel) (by decide +kernel) (by decide +kernel))
    (by decide) (by decide) (by decide) Demo.slow_own) Demo.slow_step
  refine ⟨h, s3, ?_⟩
  show attempts h + 1 = 1
  rw [hb]
theorem Demo.slow_said (h : List (Ev × Outcome)) : said ((.establish 1 Demo.svcSlow, .reply Demo.svcResp) :: h) 1 2 = some (ASession.established Demo.svcSlow []) := by
  simp [said, Demo.svcResp]

/-- one frame at 10 ms of uptime -/
def Demo.pass (n : Node) : Node := { n with dp := (runPacket (DemoDp.at 10000000) ⟨DemoDp.up, n.dp, {}, {}⟩).1.dp }
def Demo.nSlow1 : Node := Demo.pass Demo.nSlow
/-- the MBR again, as it is -/
def Demo.again : ModReq := { seid := 2, seq := 8, updateQer := [{ qerId := some 1, mbrUL := some 100 }] }
def Demo.againResp : Resp := { type := .modification, seid := 100, seq := 8, cause := 1 }
def Demo.nSlow2 : Node := (Demo.nSlow1.step (.modify 1 Demo.again default)).1
def Demo.nSlow3 : Node := Demo.pass Demo.nSlow2

theorem Demo.again_step : Demo.nSlow1.step (.modify 1 Demo.again default) = (Demo.nSlow2, .reply Demo.againResp) := by
  have : (Demo.nSlow1.step (.modify 1 Demo.again default)).2 = .reply Demo.againResp := by decide +kernel
  exact Prod.ext (by simp only [Demo.nSlow2]) this

theorem Demo.slow_qers : (Demo.nSlow1.session? 1 2).map (fun x => x.qers.entries.map (fun q => (q.1, q.2.gid))) = some [(1, 0)] := by decide +kernel

theorem Demo.again_clean : Clean Demo.nSlow1 (.modify 1 Demo.again default) := by
  have h1 : (Demo.nSlow1.step (.modify 1 Demo.again default)).2.no73 = true := by decide +kernel
  have h2 : ((Demo.nSlow1.step (.modify 1 Demo.again default)).1.keyList.all fun x => (Demo.nSlow1.keyList.any fun y => y.1 == x.1) ||
    Demo.nSlow1.keyList.all fun y => y.2 != x.2) = true := by decide +kernel
  have h3 : ((Demo.nSlow1.step (.modify 1 Demo.again default)).1.keyList.all fun x => (Demo.nSlow1.step (.modify 1 Demo.again default)).1.keyList.all fun y =>
      (x.1 == y.1 || x.2 != y.2) && !(x.1.1 == y.1.1 && x.1.2.1 == y.1.2.1 && x.2.clash y.2)) = true := by decide +kernel
  have hall := Demo.slow_qers
  have hse : Demo.again.seid = 2 := rfl
  generalize Demo.nSlow1 = n at h1 h2 h3 hall ⊢
  refine clean_updates (by constructor <;> rfl) ?_ h1 h2 h3
  intro x hx
  rw [hse] at hx
  rw [hx] at hall
  simp only [Option.map_some, Option.some.injEq] at hall
  have q1 : (x.qers.get? 1).isSome := by
    have h : ((1 : U32), (0 : U32)) ∈ List.map (fun q : U32 × SQer => (q.1, q.2.gid)) x.qers.entries := by rw [hall]; simp
    obtain ⟨⟨j, q⟩, hq, he⟩ := List.mem_map.1 h
    simp only [Prod.mk.injEq] at he
    obtain ⟨rfl, -⟩ := he
    rw [(GoMap.mem_entries_iff _ _ _).1 hq]; rfl
  refine ⟨?_, ?_, ?_⟩
  · intro ie hie; simp [Demo.again] at hie
  · intro ie hie i hi
    simp only [Demo.again, List.mem_singleton] at hie
    subst hie; cases hi; exact q1
  · intro ie hie; simp [Demo.again] at hie

theorem Demo.slow_sent1 : (runPacket (DemoDp.at 10000000) ⟨DemoDp.up, Demo.nSlow.dp, {}, {}⟩).2 = .ok (.redirect 7) := by decide +kernel
theorem Demo.slow_sent2 : (runPacket (DemoDp.at 10000000) ⟨DemoDp.up, Demo.nSlow2.dp, {}, {}⟩).2 = .ok (.redirect 7) := by decide +kernel
/-- Without the modification the second frame is dropped. -/
theorem Demo.slow_drop : (runPacket (DemoDp.at 10000000) ⟨DemoDp.up, Demo.nSlow1.dp, {}, {}⟩).2 = .ok .drop := by decide +kernel

/-- the frame and its fate -/
def Demo.slowUp (h : List (Ev × Outcome)) : Passed := ⟨h, DemoDp.at 10000000, DemoDp.up, .redirect 7⟩

theorem Demo.line_step {P : Node → Ev → Prop} {h0 h : List (Ev × Outcome)} {n0 n n' : Node} {l : List Passed} {e : Ev} {o : Outcome} (T : Timeline P h0 n0 h l n)
    (hp : P n e) (hs : n.step e = (n', o)) (ho : o ≠ .crash) : Timeline P h0 n0 ((e, o) :: h) l n' := by
  have := Timeline.request e T hp (by rw [hs]; exact ho)
  rw [hs] at this; exact this

/-- A frame, the modification, a frame. -/
theorem Demo.slow_line (h0 : List (Ev × Outcome)) (n0 : Node) (hn0 : n0 = Demo.nSlow) : ∃ n,
    Timeline Clean h0 n0 [(.modify 1 Demo.again default, .reply Demo.againResp)]
      [Demo.slowUp ((.modify 1 Demo.again default, .reply Demo.againResp) :: h0), Demo.slowUp h0] n := by
  have p1 := Demo.slow_sent1
  have p2 := Demo.slow_sent2
  have st := Demo.again_step
  have cl := Demo.again_clean
  have e1 : Demo.nSlow1 = Demo.pass Demo.nSlow := rfl
  rw [← hn0] at p1 e1
  clear hn0
  generalize Demo.nSlow1 = n1 at e1 st cl
  generalize Demo.nSlow2 = n2 at st p2
  unfold Demo.pass at e1
  unfold Demo.slowUp
  generalize DemoDp.up = f at p1 p2 e1 ⊢
  generalize DemoDp.at 10000000 = env at p1 p2 e1 ⊢
  generalize (Ev.modify 1 Demo.again default) = ev at st cl ⊢
  have ho : Outcome.reply Demo.againResp ≠ .crash := by intro h; cases h
  generalize Outcome.reply Demo.againResp = out at st ho ⊢
  have t1 : Timeline Clean h0 n0 [] [⟨h0, env, f, .redirect 7⟩] n1 := by
    rw [e1]
    exact Timeline.packet .start (Prod.ext rfl p1)
  exact ⟨_, Timeline.packet (Demo.line_step t1 cl st ho) (Prod.ext rfl p2)⟩

theorem Demo.again_said (h : List (Ev × Outcome)) : said ((.modify 1 Demo.again default, .reply Demo.againResp) :: (.establish 1 Demo.svcSlow, .reply Demo.svcResp) :: h) 1 2 =
    some ((ASession.established Demo.svcSlow []).modified Demo.again []) := by
  simp [said, Demo.svcResp, Demo.againResp, Demo.again]

theorem Demo.slow_told (h : List (Ev × Outcome)) : ∀ h', h' <:+ [((.modify 1 Demo.again default, .reply Demo.againResp) : Ev × Outcome)] →
    ∃ Q, SaidQer (h' ++ (.establish 1 Demo.svcSlow, .reply Demo.svcResp) :: h) 1 2 1 Q ∧ Q.mbrUL = 100 := by
  intro h' hs
  rcases List.suffix_cons_iff.1 hs with rfl | hs
  · exact ⟨⟨0, 0, 100, 2000, 9⟩, ⟨_, Demo.again_said h, rfl⟩, rfl⟩
  · rw [List.suffix_nil.1 hs]
    exact ⟨⟨0, 0, 100, 2000, 9⟩, ⟨_, Demo.slow_said h, rfl⟩, rfl⟩

theorem Demo.slow_of (h : List (Ev × Outcome)) (t : U64) : UpOf ((.establish 1 Demo.svcSlow, .reply Demo.svcResp) :: h) 1 2 1 (DemoDp.at t) DemoDp.up :=
  ⟨1, ⟨.ul 0x100, 0, none, 1, 1⟩, ⟨2, 0, 0, 0, 0⟩, ⟨0, 0, 100, 2000, 9⟩, 0x100, ⟨_, Demo.slow_said h, rfl, rfl, rfl⟩, rfl, rfl, DemoDp.at_up t, by intro sdf h; cases h⟩
theorem Demo.again_of (h : List (Ev × Outcome)) (t : U64) :
    UpOf ((.modify 1 Demo.again default, .reply Demo.againResp) :: (.establish 1 Demo.svcSlow, .reply Demo.svcResp) :: h) 1 2 1 (DemoDp.at t) DemoDp.up :=
  ⟨1, ⟨.ul 0x100, 0, none, 1, 1⟩, ⟨2, 0, 0, 0, 0⟩, ⟨0, 0, 100, 2000, 9⟩, 0x100, ⟨_, Demo.again_said h, rfl, rfl, rfl⟩, rfl, rfl, DemoDp.at_up t, by intro sdf h; cases h⟩

theorem timers_run {P : QerInfo → Prop} (hP : ∀ v : QerInfo, v.startUL = 0 → v.startDL = 0 → P v) (l : List Ev) (n : Node) (h : ∀ g, P (n.dp.qer.val g)) :
    ∀ g, P ((n.run l).1.dp.qer.val g) := by
  induction l generalizing n with
  | nil => exact h
  | cons e l ih =>
    have h1 := timers_step hP h e
    unfold Node.run
    rcases hs : n.step e with ⟨n', o⟩
    rw [hs] at h1
    cases o with
    | crash => exact h1
    | silent => exact ih n' h1
    | reply r => exact ih n' h1
theorem Demo.slow_timer : ∀ g, (Demo.nSlow.dp.qer.val g).startUL = 0 := by
  have h0 : ∀ g, (Demo.nSvc0.dp.qer.val g).startUL = 0 := timers_run (P := fun v => v.startUL = 0) (fun _ h _ => h) _ Demo.n0 (fun _ => rfl)
  unfold Demo.nSlow
  generalize Demo.nSvc0 = n at h0 ⊢
  exact timers_step (P := fun v => v.startUL = 0) (fun _ h _ => h) h0 _

theorem Demo.slow_bits {P : List (Ev × Outcome) → Env → List U8 → Prop} {h1 h2 : List (Ev × Outcome)} (p1 : P h1 (DemoDp.at 10000000) DemoDp.up)
    (p2 : P h2 (DemoDp.at 10000000) DemoDp.up) : sentBits P [Demo.slowUp h1, Demo.slowUp h2] = 1312 := by
  have hl : DemoDp.up.length = 82 := by decide
  rw [(sentBits_cons P _ _).1 ⟨p1, rfl⟩, (sentBits_cons P _ _).1 ⟨p2, rfl⟩]
  show 8 * DemoDp.up.length + (8 * DemoDp.up.length + 0) = 1312
  rw [hl]

theorem Demo.slow_time (h1 h2 : List (Ev × Outcome)) : InTime Env.tUL 10000000 10000000 82 [Demo.slowUp h1, Demo.slowUp h2] := by
  have hl : DemoDp.up.length = 82 := by decide
  refine ⟨by simp [Demo.slowUp], ?_, ?_, by decide, by decide⟩
  · intro p hp
    simp only [List.mem_cons, List.not_mem_nil, or_false] at hp
    rcases hp with rfl | rfl <;> exact ⟨by show 10000000 ≤ (10000000 : U64).toNat; decide, by show (10000000 : U64).toNat ≤ 10000000; decide⟩
  · intro p hp
    simp only [List.mem_cons, List.not_mem_nil, or_false] at hp
    rcases hp with rfl | rfl <;> exact Nat.le_of_eq hl

/-- **C116, why the restarts count.** The bound without them fails: with an MBR of 100 kbit/s a session that is told its MBR again (the same)
between two frames gets both through at the same time, although one takes 6.56 ms at this rate, and although without the modification the second is
dropped. So a control plane that repeats a QER gives away a burst each time. -/
theorem C116_restart : ∃ h0 n0 h l n, HistP Clean Demo.n0 h0 n0 ∧ Timeline Clean h0 n0 h l n ∧ (∀ g, (n0.dp.qer.val g).startUL.toNat < 2 ^ 63) ∧ attempts (h ++ h0) < 2 ^ 64 - 2 ∧
    (∀ h', h' <:+ h → ∃ Q, SaidQer (h' ++ h0) 1 2 1 Q ∧ Q.mbrUL = 100) ∧ InTime Env.tUL 10000000 10000000 82 l ∧
    (10000000 - 10000000) + max 5000000 (8 * 82 * (1000000000 / (100 * 1000))) < sentBits (fun h => UpOf h 1 2 1) l * (1000000000 / (100 * 1000)) := by
  obtain ⟨h, H, b⟩ := Demo.histSlow
  have ht := Demo.slow_timer
  obtain ⟨n0, hn0⟩ : ∃ n0, n0 = Demo.nSlow := ⟨_, rfl⟩
  obtain ⟨n, T⟩ := Demo.slow_line ((.establish 1 Demo.svcSlow, .reply Demo.svcResp) :: h) n0 hn0
  rw [← hn0] at H ht
  refine ⟨_, n0, _, _, n, H, T, fun g => (by rw [ht g]; decide), ?_, Demo.slow_told h, Demo.slow_time _ _, ?_⟩
  · show attempts ((.establish 1 Demo.svcSlow, .reply Demo.svcResp) :: h) < _
    rw [b]; decide
  · rw [Demo.slow_bits (Demo.again_of h _) (Demo.slow_of h _)]; decide

theorem Demo.slow_restarts : restarts 1 2 1 [((.modify 1 Demo.again default, .reply Demo.againResp) : Ev × Outcome)] = 1 := by
  have ht : Ev.touches 1 2 1 (.modify 1 Demo.again default) := ⟨rfl, rfl, .inr (.inl ⟨_, List.mem_singleton.2 rfl, rfl⟩)⟩
  rw [(restarts_cons 1 2 1 (.modify 1 Demo.again default, .reply Demo.againResp) []).1 ht]; rfl

/-- C116_uplink_partial on it: with the one restart the bound holds, and exactly. -/
example (n0 n : Node) (hn0 : n0 = Demo.nSlow) (h : List (Ev × Outcome)) (H : HistP Clean Demo.n0 ((.establish 1 Demo.svcSlow, .reply Demo.svcResp) :: h) n0)
    (b : attempts ((.establish 1 Demo.svcSlow, .reply Demo.svcResp) :: h) = 1)
    (T : Timeline Clean ((.establish 1 Demo.svcSlow, .reply Demo.svcResp) :: h) n0 [(.modify 1 Demo.again default, .reply Demo.againResp)]
      [Demo.slowUp ((.modify 1 Demo.again default, .reply Demo.againResp) :: (.establish 1 Demo.svcSlow, .reply Demo.svcResp) :: h),
        Demo.slowUp ((.establish 1 Demo.svcSlow, .reply Demo.svcResp) :: h)] n) :
    1312 * (1000000000 / ((100 : U64).toNat * 1000)) ≤ (10000000 - 10000000) + (1 + 1) * max 5000000 (8 * 82 * (1000000000 / ((100 : U64).toNat * 1000))) := by
  have ht := Demo.slow_timer
  rw [← hn0] at ht
  have w := C116_uplink_partial (fz := 4) (qz := 4) (uz := 4) (by decide) (by decide) (by decide) H T (a := 1) (s := 2) (j := 1) (m := 100) (by decide) (by decide) (Nat.le_refl 10000000)
    (fun g => (by rw [ht g]; decide)) (by show attempts ((.establish 1 Demo.svcSlow, .reply Demo.svcResp) :: h) < _; rw [b]; decide) (Demo.slow_told h) (Demo.slow_time _ _)
  rw [Demo.slow_bits (Demo.again_of h _) (Demo.slow_of h _), Demo.slow_restarts] at w
  exact w

/-- C116_downlink_partial on the same packets: no downlink traffic. -/
example (n0 n : Node) (h : List (Ev × Outcome)) (H : HistP Clean Demo.n0 ((.establish 1 Demo.svcSlow, .reply Demo.svcResp) :: h) n0)
    (b : attempts ((.establish 1 Demo.svcSlow, .reply Demo.svcResp) :: h) = 1) (ht : ∀ g, (n0.dp.qer.val g).startDL.toNat < 2 ^ 63) (l : List Passed)
    (T : Timeline Clean ((.establish 1 Demo.svcSlow, .reply Demo.svcResp) :: h) n0 [] l n) (hin : InTime Env.tDL 0 1000000000 1500 l) :
    sentBits (fun h => DownOf h 1 2 1) l * 500 ≤ 1006000000 := by
  have hs : SaidQer ((.establish 1 Demo.svcSlow, .reply Demo.svcResp) :: h) 1 2 1 ⟨0, 0, 100, 2000, 9⟩ := ⟨_, Demo.slow_said h, rfl⟩
  have w := C116_downlink_partial (fz := 4) (qz := 4) (uz := 4) (by decide) (by decide) (by decide) H T (a := 1) (s := 2) (j := 1) (m := 2000) (by decide) (by decide) (Nat.zero_le 1000000000)
    ht (by show attempts ((.establish 1 Demo.svcSlow, .reply Demo.svcResp) :: h) < _; rw [b]; decide)
    (by intro h' hh; rw [List.suffix_nil.1 hh]; exact ⟨_, hs, rfl⟩) hin
  rw [show restarts 1 2 1 [] = 0 from rfl, show 1000000000 / ((2000 : U64).toNat * 1000) = 500 by decide, show (1000000000 - 0) + (0 + 1) * max 5000000 (8 * 1500 * 500) = 1006000000 by decide] at w
  exact w

/-- C116_still: after the first frame a modification that closes FAR 1 leaves the timer where the frame has moved it. -/
theorem Demo.slow_moved : Demo.nSlow1.qerOf 1 2 1 = some ⟨0, 0, 9, 100000, 2000000, 11560000, 0⟩ := by decide +kernel
def Demo.shut : ModReq := { seid := 2, seq := 9, updateFar := [{ kind := .update, farId := some 1, applyAction := some [1] }] }
theorem Demo.slow_fars : (Demo.nSlow1.session? 1 2).map (fun x => (x.fars.get? 1).isSome) = some true := by decide +kernel
theorem Demo.shut_known (n1 : Node) (hn : n1 = Demo.nSlow1) : (Ev.modify 1 Demo.shut default).refsKnown n1 := by
  intro x hx
  have h := Demo.slow_fars
  rw [← hn, show n1.session? 1 2 = some x from hx] at h
  have h1 : (x.fars.get? 1).isSome = true := Option.some.inj h
  refine ⟨?_, ?_, List.nodup_nil, ?_, ?_, List.nodup_nil, ?_, ?_, List.nodup_nil⟩
  · intro ie hie i hi
    simp only [Demo.shut, List.mem_singleton] at hie
    subst hie; cases hi; exact .inl h1
  all_goals intro ie hie; simp [Demo.shut] at hie
theorem Demo.shut_calm : (Demo.nSlow1.step (.modify 1 Demo.shut default)).2 ≠ .crash := by
  have : (Demo.nSlow1.step (.modify 1 Demo.shut default)).2 = .reply { type := .modification, seid := 100, seq := 9, cause := 1 } := by decide +kernel
  rw [this]; intro h; cases h
example (n1 : Node) (hn : n1 = Demo.nSlow1) : (n1.step (.modify 1 Demo.shut default)).1.qerOf 1 2 1 = some ⟨0, 0, 9, 100000, 2000000, 11560000, 0⟩ := by
  obtain ⟨h, H, b⟩ := Demo.histSlow
  have hk := Demo.slow_moved
  have hr := Demo.shut_known n1 hn
  have ho := Demo.shut_calm
  have p1 := Demo.slow_sent1
  have e1 : Demo.nSlow1 = Demo.pass Demo.nSlow := rfl
  rw [← hn] at hk ho e1
  clear hn
  generalize Demo.nSlow = n0 at H e1 p1
  have H1 : HistP Clean Demo.n0 ((.establish 1 Demo.svcSlow, .reply Demo.svcResp) :: h) n1 := by
    rw [e1]
    exact Timeline.hist (h := []) H (Timeline.packet .start (Prod.ext rfl p1))
  clear e1
  refine C116_still (pz := 8) (fz := 4) (qz := 4) (uz := 4) (P := fun n e => e.refsKnown n) (fun _ _ h => h) (H1.mono fun n e (h : Clean n e) => h.tidy.known)
    (by rw [b]; decide) hr ho ?_ hk
  rintro ⟨-, -, ⟨ie, h, -⟩ | ⟨ie, h, -⟩ | h⟩ <;> simp [Demo.shut] at h
/-- C116_timers: a frame after the start of the program. -/
example : ∃ n, Timeline (fun _ _ => True) [] Demo.n0 [] [⟨[], DemoDp.at 10000000, DemoDp.up, .pass⟩] n := by
  have h : (runPacket (DemoDp.at 10000000) ⟨DemoDp.up, Demo.n0.dp, {}, {}⟩).2 = .ok .pass := by decide +kernel
  generalize Demo.n0 = n at h ⊢
  exact ⟨_, Timeline.packet .start (Prod.ext rfl h)⟩
end Eupf
