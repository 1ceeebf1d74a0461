import Verif.Props.Counters
import Verif.Props.Routing
import Verif.Spec.Lookups
/-
C73: the counters of route lookups and of forwarded packets.
-/
namespace Eupf

/-- leaves the lookup and forwarding counters and the echo counter alone -/
structure Quiet {α : Type} (m : X α) : Prop where
  keep : ∀ s, (m s).1.rt = s.rt ∧ (m s).1.st.txN3 = s.st.txN3 ∧ (m s).1.st.txN6 = s.st.txN6 ∧ (m s).1.st.rxGtpEcho = s.st.rxGtpEcho

namespace Quiet
variable {α β : Type}
theorem pure (a : α) : Quiet (Pure.pure a : X α) := ⟨fun _ => ⟨rfl, rfl, rfl, rfl⟩⟩
theorem panic : Quiet (Act.panic : X α) := ⟨fun _ => ⟨rfl, rfl, rfl, rfl⟩⟩
theorem get : Quiet (Act.get : X PS) := ⟨fun _ => ⟨rfl, rfl, rfl, rfl⟩⟩
theorem bind {m : X α} {k : α → X β} (h1 : Quiet m) (h2 : ∀ a, Quiet (k a)) : Quiet (m >>= k) := by
  constructor
  intro s
  show (Act.bind m k s).1.rt = _ ∧ (Act.bind m k s).1.st.txN3 = _ ∧ (Act.bind m k s).1.st.txN6 = _ ∧ (Act.bind m k s).1.st.rxGtpEcho = _
  unfold Act.bind
  obtain ⟨a1, a2, a3, a4⟩ := h1.keep s
  rcases hm : m s with ⟨s1, r⟩
  rw [hm] at a1 a2 a3 a4
  cases r with
  | ok a =>
    obtain ⟨b1, b2, b3, b4⟩ := (h2 a).keep s1
    exact ⟨b1.trans a1, b2.trans a2, b3.trans a3, b4.trans a4⟩
  | err => exact ⟨a1, a2, a3, a4⟩
  | panic => exact ⟨a1, a2, a3, a4⟩
theorem of_st {m : X α} (h : ∀ s, (m s).1.st = s.st ∧ (m s).1.rt = s.rt) : Quiet m :=
  ⟨fun s => ⟨(h s).2, by rw [(h s).1], by rw [(h s).1], by rw [(h s).1]⟩⟩
theorem ld8 (o : Nat) : Quiet (ld8 o) := of_st (by intro s; unfold Eupf.ld8; split <;> exact ⟨rfl, rfl⟩)
theorem ld16 (o : Nat) : Quiet (ld16 o) := of_st (by intro s; unfold Eupf.ld16; split <;> exact ⟨rfl, rfl⟩)
theorem ld32 (o : Nat) : Quiet (ld32 o) := of_st (by intro s; unfold Eupf.ld32; split <;> exact ⟨rfl, rfl⟩)
theorem ldBytes (o n : Nat) : Quiet (ldBytes o n) := of_st (by intro s; unfold Eupf.ldBytes; split <;> exact ⟨rfl, rfl⟩)
theorem store (o : Nat) (b : List U8) : Quiet (store o b) := of_st (by intro s; unfold Eupf.store; split <;> exact ⟨rfl, rfl⟩)
theorem frameLen : Quiet frameLen := of_st fun _ => ⟨rfl, rfl⟩
theorem ptr (p : Option Nat) : Quiet (ptr p) := by cases p; exact panic; exact pure _
theorem count {f : UpfStat → UpfStat} (h : ∀ x, (f x).txN3 = x.txN3 ∧ (f x).txN6 = x.txN6 ∧ (f x).rxGtpEcho = x.rxGtpEcho) : Quiet (count f) :=
  ⟨fun s => ⟨rfl, (h s.st).1, (h s.st).2.1, (h s.st).2.2⟩⟩
theorem modify {f : PS → PS} (h : ∀ s, (f s).st = s.st ∧ (f s).rt = s.rt) : Quiet (Act.modify f) := of_st h
theorem updUrr (i : U32) (a b : U64) : Quiet (updUrr i a b) := of_st fun _ => ⟨rfl, rfl⟩
theorem ite {p : Prop} [Decidable p] {m1 m2 : X α} (h1 : Quiet m1) (h2 : Quiet m2) : Quiet (if p then m1 else m2) := by
  by_cases h : p
  · rw [if_pos h]; exact h1
  · rw [if_neg h]; exact h2
end Quiet

/-- compose -/
macro "quiet" : tactic => `(tactic| repeat' (first
  | with_reducible exact Quiet.pure _ | with_reducible exact Quiet.panic | with_reducible exact Quiet.get
  | with_reducible exact Quiet.ld8 _ | with_reducible exact Quiet.ld16 _
  | with_reducible exact Quiet.ld32 _ | with_reducible exact Quiet.ldBytes _ _ | with_reducible exact Quiet.store _ _
  | with_reducible exact Quiet.frameLen | with_reducible exact Quiet.ptr _ | with_reducible exact Quiet.updUrr _ _ _
  | ((with_reducible refine Quiet.modify ?_); intro _; exact ⟨rfl, rfl⟩)
  | ((with_reducible refine Quiet.count ?_); intro _; exact ⟨rfl, rfl, rfl⟩)
  | with_reducible refine Quiet.bind ?_ ?_ <;> intros | with_reducible refine Quiet.ite ?_ ?_ | split | dsimp only))

theorem quiet_addGtpHeaders (e c a b t q i) : Quiet (addGtpHeaders e c a b t q i) := by unfold addGtpHeaders; quiet
theorem quiet_ports (c) : Quiet (packetPorts c) := by unfold packetPorts; quiet
theorem quiet_match4 (c k) : Quiet (matchSdfIp4 c k) := by
  unfold matchSdfIp4
  quiet; all_goals exact quiet_ports ..
theorem quiet_match6 (c k) : Quiet (matchSdfIp6 c k) := by
  unfold matchSdfIp6
  quiet; all_goals exact quiet_ports ..
theorem quiet_parseIp4 (c) : Quiet (parseIp4 c) := by unfold parseIp4; quiet
theorem quiet_parseIp6 (c) : Quiet (parseIp6 c) := by unfold parseIp6; quiet
theorem quiet_parseUdp (c) : Quiet (parseUdp c) := by unfold parseUdp; quiet
theorem quiet_parseTcp (c) : Quiet (parseTcp c) := by unfold parseTcp; quiet
theorem quiet_parseGtp (c) : Quiet (parseGtp c) := by unfold parseGtp; quiet
theorem quiet_parseEthernet (c) : Quiet (parseEthernet c) := by unfold parseEthernet; quiet
theorem quiet_parseL4 (p c) : Quiet (parseL4 p c) := by
  unfold parseL4; quiet; all_goals first | exact quiet_parseUdp _ | exact quiet_parseTcp _
theorem quiet_uplinkRule (c p) : Quiet (uplinkRule c p) := by
  unfold uplinkRule
  quiet; all_goals first | exact quiet_parseIp4 _ | exact quiet_parseIp6 _ | exact quiet_parseL4 .. | exact quiet_match4 .. | exact quiet_match6 ..
theorem quiet_swapMac (x) : Quiet (swapMac x) := by unfold swapMac; quiet
theorem quiet_swapPort (x) : Quiet (swapPort x) := by unfold swapPort; quiet
theorem quiet_swapIp (x) : Quiet (swapIp x) := by unfold swapIp; quiet
theorem quiet_reinit (c) : Quiet (contextReinit c) := by
  unfold contextReinit
  quiet; all_goals first | exact quiet_parseEthernet _ | exact quiet_parseIp4 _ | exact quiet_parseIp6 _ | exact quiet_parseL4 ..
theorem quiet_remove (c) : Quiet (removeGtpHeader c) := by
  unfold removeGtpHeader
  quiet; all_goals first | exact quiet_reinit _ | exact Quiet.of_st fun _ => ⟨rfl, rfl⟩
theorem quiet_updTunnel (c a b t) : Quiet (updateGtpTunnel c a b t) := by unfold updateGtpTunnel; quiet
theorem quiet_headers (e c f o) : Quiet (uplinkHeaders e c f o) := by
  unfold uplinkHeaders
  quiet; all_goals first | exact quiet_updTunnel .. | exact quiet_remove _
theorem quiet_ping (c) : Quiet (prepareIcmpEchoReply c) := by
  unfold prepareIcmpEchoReply
  quiet; all_goals first | exact quiet_swapMac _ | exact quiet_swapIp _
theorem quiet_recovery (g) : Quiet (insertRecovery g) := by unfold insertRecovery; quiet
theorem quiet_addBe16 (o n) : Quiet (addBe16 o n) := by unfold addBe16; quiet
theorem quiet_echo (c) : Quiet (handleEchoRequest c) := by
  unfold handleEchoRequest
  quiet
  all_goals first | exact quiet_swapMac _ | exact quiet_swapIp _ | exact quiet_swapPort _ | exact quiet_recovery _ | exact quiet_addBe16 .. | exact Quiet.of_st fun _ => ⟨rfl, rfl⟩

/-! ### the parts that look up a route -/

/-- From `s` to `s'` with action `a`: nothing counted and nothing sent, or one lookup. -/
def Looked (e : Env) (s s' : PS) (a : XAction) : Prop :=
  s'.st.rxGtpEcho = s.st.rxGtpEcho ∧
  ((s'.rt = s.rt ∧ s'.st.txN3 = s.st.txN3 ∧ s'.st.txN6 = s.st.txN6 ∧ a.sent = false) ∨
   OneLookup e a s.rt s'.rt s.st.txN3 s.st.txN6 s'.st.txN3 s'.st.txN6)

structure Looks (e : Env) (m : X XAction) : Prop where
  looked : ∀ s s' a, m s = (s', .ok a) → Looked e s s' a

theorem Looks.unsent (e : Env) {a : XAction} (h : a.sent = false) : Looks e (pure a) := by
  constructor
  intro s s' b hb
  cases hb
  exact ⟨rfl, .inl ⟨rfl, rfl, rfl, h⟩⟩
theorem Looks.panic (e : Env) : Looks e (Act.panic : X XAction) := ⟨fun _ _ _ h => by cases h⟩

theorem bind_ok_inv {α β : Type} {m : X α} {k : α → X β} {s s' : PS} {b : β} (h : (m >>= k) s = (s', .ok b)) :
    ∃ s1 a, m s = (s1, .ok a) ∧ k a s1 = (s', .ok b) := by
  change Act.bind m k s = _ at h
  unfold Act.bind at h
  rcases hm : m s with ⟨s1, r⟩
  rw [hm] at h
  cases r with
  | ok a => exact ⟨s1, a, rfl, h⟩
  | err => cases h
  | panic => cases h

theorem Looks.bind {α : Type} {e : Env} {m : X α} {k : α → X XAction} (h1 : Quiet m) (h2 : ∀ a, Looks e (k a)) : Looks e (m >>= k) := by
  constructor
  intro s s' b h
  obtain ⟨s1, a, g1, g2⟩ := bind_ok_inv h
  obtain ⟨q1, q2, q3, q4⟩ := h1.keep s
  rw [g1] at q1 q2 q3 q4
  simp only at q1 q2 q3 q4
  have := (h2 a).looked s1 s' b g2
  unfold Looked at this ⊢
  rw [q1, q2, q3, q4] at this
  exact this
theorem Looks.ite {e : Env} {p : Prop} [Decidable p] {m1 m2 : X XAction} (h1 : Looks e m1) (h2 : Looks e m2) : Looks e (if p then m1 else m2) := by
  by_cases h : p
  · rw [if_pos h]; exact h1
  · rw [if_neg h]; exact h2

/-- what a lookup counts -/
def RouteOnly (e : Env) (v6 : Bool) (m : X XAction) : Prop :=
  ∀ s s' a, m s = (s', .ok a) → s'.st = s.st ∧ ∃ q, a = routeAct e (e.fib q) ∧ s'.rt = s.rt.count v6 (e.fib q)

theorem store_ok {o : Nat} {b : List U8} {s s' : PS} {x : Unit} (h : store o b s = (s', .ok x)) : s'.st = s.st ∧ s'.rt = s.rt := by
  unfold store at h
  split at h
  · cases h; exact ⟨rfl, rfl⟩
  · cases h

theorem applyRoute_only (e : Env) (eth : Nat) (v6 : Bool) (q : FibReq) {f1 f2 f3 : RouteStat → RouteStat}
    (h1 : ∀ r i a b, f1 r = r.count v6 (.ok i a b)) (h2 : ∀ r rc, (rc = 1 ∨ rc = 2 ∨ rc = 3) → f2 r = r.count v6 (.fail rc))
    (h3 : ∀ r rc, ¬ (rc = 1 ∨ rc = 2 ∨ rc = 3) → f3 r = r.count v6 (.fail rc)) (s s' : PS) (a : XAction)
    (h : applyRoute e eth (e.fib q) f1 f2 f3 s = (s', .ok a)) :
    s'.st = s.st ∧ a = routeAct e (e.fib q) ∧ s'.rt = s.rt.count v6 (e.fib q) := by
  unfold applyRoute at h
  cases hq : e.fib q with
  | ok i sm dm =>
    rw [hq] at h
    obtain ⟨s1, _, g1, h⟩ := bind_ok_inv h
    cases g1
    obtain ⟨s2, _, g2, h⟩ := bind_ok_inv h
    obtain ⟨s3, _, g3, h⟩ := bind_ok_inv h
    cases h
    obtain ⟨a1, a2⟩ := store_ok g2
    obtain ⟨b1, b2⟩ := store_ok g3
    refine ⟨by rw [b1, a1], rfl, ?_⟩
    rw [b2, a2, ← h1]
  | fail rc =>
    rw [hq] at h
    simp only at h
    by_cases hrc : rc = 1 ∨ rc = 2 ∨ rc = 3
    · rw [if_pos hrc] at h
      obtain ⟨s1, _, g1, h⟩ := bind_ok_inv h
      cases g1; cases h
      exact ⟨rfl, by unfold routeAct; simp only [hrc, if_true], h2 _ _ hrc⟩
    · rw [if_neg hrc] at h
      obtain ⟨s1, _, g1, h⟩ := bind_ok_inv h
      cases g1; cases h
      exact ⟨rfl, by unfold routeAct; simp only [hrc, if_false], h3 _ _ hrc⟩

theorem quiet_ok {α : Type} {m : X α} (hm : ∀ s, (m s).1.st = s.st ∧ (m s).1.rt = s.rt) {s s' : PS} {a : α} (h : m s = (s', .ok a)) :
    s'.st = s.st ∧ s'.rt = s.rt := by
  have := hm s
  rw [h] at this
  exact this
theorem st_ld8 (o : Nat) (s : PS) : (ld8 o s).1.st = s.st ∧ (ld8 o s).1.rt = s.rt := by unfold ld8; split <;> exact ⟨rfl, rfl⟩
theorem st_ld16 (o : Nat) (s : PS) : (ld16 o s).1.st = s.st ∧ (ld16 o s).1.rt = s.rt := by unfold ld16; split <;> exact ⟨rfl, rfl⟩
theorem st_ldBytes (o n : Nat) (s : PS) : (ldBytes o n s).1.st = s.st ∧ (ldBytes o n s).1.rt = s.rt := by unfold ldBytes; split <;> exact ⟨rfl, rfl⟩
theorem st_ptr (p : Option Nat) (s : PS) : (ptr p s).1.st = s.st ∧ (ptr p s).1.rt = s.rt := by cases p <;> exact ⟨rfl, rfl⟩

theorem routeOnly_bind {α : Type} {e : Env} {v6 : Bool} {m : X α} {k : α → X XAction} (hm : ∀ s, (m s).1.st = s.st ∧ (m s).1.rt = s.rt)
    (hk : ∀ a, RouteOnly e v6 (k a)) : RouteOnly e v6 (m >>= k) := by
  intro s s' a h
  obtain ⟨s1, x, g1, g2⟩ := bind_ok_inv h
  obtain ⟨q1, q2⟩ := quiet_ok hm g1
  obtain ⟨r1, q, r2, r3⟩ := hk x s1 s' a g2
  exact ⟨r1.trans q1, q, r2, by rw [r3, q2]⟩

theorem routeIp4_only (e : Env) (a b : Option Nat) : RouteOnly e false (routeIp4 e a b) := by
  unfold routeIp4
  refine routeOnly_bind (st_ptr _) fun ip => routeOnly_bind (st_ld8 _) fun _ => routeOnly_bind (st_ld8 _) fun _ => routeOnly_bind (st_ld16 _) fun _ =>
    routeOnly_bind (st_ldBytes _ _) fun _ => routeOnly_bind (st_ldBytes _ _) fun _ => routeOnly_bind (st_ptr _) fun eth => ?_
  intro s s' a h
  obtain ⟨h1, h2, h3⟩ := applyRoute_only e eth false _ (fun _ _ _ _ => rfl) (fun r rc hrc => by simp only [RouteStat.count, hrc, if_true])
    (fun r rc hrc => by simp only [RouteStat.count, hrc, if_false]) s s' a h
  exact ⟨h1, _, h2, h3⟩
theorem routeIp6_only (e : Env) (a b : Option Nat) : RouteOnly e true (routeIp6 e a b) := by
  unfold routeIp6
  refine routeOnly_bind (st_ptr _) fun ip => routeOnly_bind (st_ld8 _) fun _ => routeOnly_bind (st_ld16 _) fun _ =>
    routeOnly_bind (st_ldBytes _ _) fun _ => routeOnly_bind (st_ldBytes _ _) fun _ => routeOnly_bind (st_ptr _) fun eth => ?_
  intro s s' a h
  obtain ⟨h1, h2, h3⟩ := applyRoute_only e eth true _ (fun _ _ _ _ => rfl) (fun r rc hrc => by simp only [RouteStat.count, hrc, if_true])
    (fun r rc hrc => by simp only [RouteStat.count, hrc, if_false]) s s' a h
  exact ⟨h1, _, h2, h3⟩

theorem looks_n3 (e : Env) {m : X XAction} (h : RouteOnly e false m) :
    Looks e (count (fun st => { st with txN3 := st.txN3 + 1 }) >>= fun _ => m) := by
  constructor
  intro s s' a hr
  obtain ⟨s1, _, g1, g2⟩ := bind_ok_inv hr
  cases g1
  obtain ⟨h1, q, h2, h3⟩ := h _ _ _ g2
  exact ⟨by rw [h1], .inr (.n3 q h2 h3 (by rw [h1]) (by rw [h1]))⟩
theorem looks_n6 (e : Env) {m : X XAction} (v6 : Bool) (h : RouteOnly e v6 m) :
    Looks e (count (fun st => { st with txN6 := st.txN6 + 1 }) >>= fun _ => m) := by
  constructor
  intro s s' a hr
  obtain ⟨s1, _, g1, g2⟩ := bind_ok_inv hr
  cases g1
  obtain ⟨h1, q, h2, h3⟩ := h _ _ _ g2
  exact ⟨by rw [h1], .inr (.n6 v6 q h2 h3 (by rw [h1]) (by rw [h1]))⟩

/-- compose -/
macro "looks" : tactic => `(tactic| repeat' (first
  | with_reducible exact looks_n3 _ (routeIp4_only _ _ _) | with_reducible exact looks_n6 _ false (routeIp4_only _ _ _)
  | with_reducible exact looks_n6 _ true (routeIp6_only _ _ _)
  | with_reducible exact Looks.unsent _ rfl
  | with_reducible refine Looks.bind ?_ ?_ <;> intros | with_reducible refine Looks.ite ?_ ?_ | split | dsimp only))

theorem looks_send (e c d t q i) : Looks e (sendToGtpTunnel e c d t q i) := by
  unfold sendToGtpTunnel
  looks
  exact quiet_addGtpHeaders ..
theorem looks_downlinkTail (e c p f q) : Looks e (downlinkTail e c p f q) := by
  unfold downlinkTail
  looks
  all_goals first | exact looks_send .. | quiet
theorem looks_n6Ip4 (e c) : Looks e (handleN6Ip4 e c) := by
  unfold handleN6Ip4
  looks
  all_goals first | exact looks_downlinkTail .. | exact quiet_match4 .. | quiet
theorem looks_n6Ip6 (e c) : Looks e (handleN6Ip6 e c) := by
  unfold handleN6Ip6
  looks
  all_goals first | exact looks_downlinkTail .. | exact quiet_match6 .. | quiet
theorem looks_uplinkOut (e c) : Looks e (uplinkOut e c) := by
  unfold uplinkOut
  looks
  all_goals first | exact looks_n6Ip4 .. | exact quiet_ping _ | quiet
theorem looks_uplinkTail (e c p o f q) : Looks e (uplinkTail e c p o f q) := by
  unfold uplinkTail
  looks
  all_goals first | exact looks_uplinkOut .. | exact quiet_headers .. | quiet
theorem looks_gtpPacket (e c) : Looks e (handleGtpPacket e c) := by
  unfold handleGtpPacket
  looks
  all_goals first | exact looks_uplinkTail .. | exact quiet_uplinkRule .. | quiet

/-! ### whole frames -/

/-- as `Looks`, or an echo request -/
def Looked' (e : Env) (s s' : PS) (a : XAction) : Prop :=
  Looked e s s' a ∨ (s'.st.rxGtpEcho = s.st.rxGtpEcho + 1 ∧ s'.rt = s.rt ∧ s'.st.txN3 = s.st.txN3 ∧ s'.st.txN6 = s.st.txN6)
structure Looks' (e : Env) (m : X XAction) : Prop where
  looked : ∀ s s' a, m s = (s', .ok a) → Looked' e s s' a
theorem Looks.weak {e : Env} {m : X XAction} (h : Looks e m) : Looks' e m := ⟨fun s s' a hr => .inl (h.looked s s' a hr)⟩
theorem Looks'.bind {α : Type} {e : Env} {m : X α} {k : α → X XAction} (h1 : Quiet m) (h2 : ∀ a, Looks' e (k a)) : Looks' e (m >>= k) := by
  constructor
  intro s s' b h
  obtain ⟨s1, a, g1, g2⟩ := bind_ok_inv h
  obtain ⟨q1, q2, q3, q4⟩ := h1.keep s
  rw [g1] at q1 q2 q3 q4
  simp only at q1 q2 q3 q4
  have := (h2 a).looked s1 s' b g2
  unfold Looked' Looked at this ⊢
  rw [q1, q2, q3, q4] at this
  exact this
theorem Looks'.ite {e : Env} {p : Prop} [Decidable p] {m1 m2 : X XAction} (h1 : Looks' e m1) (h2 : Looks' e m2) : Looks' e (if p then m1 else m2) := by
  by_cases h : p
  · rw [if_pos h]; exact h1
  · rw [if_neg h]; exact h2
theorem looks_echo (e c) : Looks' e (count (fun st => { st with rxGtpEcho := st.rxGtpEcho + 1 }) >>= fun _ => handleEchoRequest c) := by
  constructor
  intro s s' b h
  obtain ⟨s1, a, g1, g2⟩ := bind_ok_inv h
  cases g1
  obtain ⟨q1, q2, q3, q4⟩ := (quiet_echo c).keep _
  rw [g2] at q1 q2 q3 q4
  exact .inr ⟨q4, q1, q2, q3⟩

/-- compose -/
macro "looks'" : tactic => `(tactic| repeat' (first
  | with_reducible exact looks_echo _ _
  | with_reducible exact (looks_gtpPacket _ _).weak | with_reducible exact (looks_n6Ip4 _ _).weak | with_reducible exact (looks_n6Ip6 _ _).weak
  | with_reducible exact (Looks.unsent _ rfl).weak
  | with_reducible refine Looks'.bind ?_ ?_ <;> intros | with_reducible refine Looks'.ite ?_ ?_ | split | dsimp only))

theorem looks_gtpu (e c) : Looks' e (handleGtpu e c) := by
  unfold handleGtpu
  looks'
  all_goals first | exact quiet_parseGtp _ | quiet
theorem looks_ip4 (e c) : Looks' e (handleIp4 e c) := by
  unfold handleIp4 n6Ip4
  looks'
  all_goals first | exact looks_gtpu .. | exact quiet_parseIp4 _ | exact quiet_parseUdp _ | exact quiet_parseTcp _ | quiet
theorem looks_ip6 (e c) : Looks' e (handleIp6 e c) := by
  unfold handleIp6 n6Ip6
  looks'
  all_goals first | exact quiet_parseIp6 _ | exact quiet_parseTcp _ | quiet
theorem looks_process (e) : Looks' e (processPacket e) := by
  unfold processPacket
  looks'
  all_goals first | exact looks_ip4 .. | exact looks_ip6 .. | exact quiet_parseEthernet _ | quiet

/-- **C73.** For every frame and all tables: either the frame is an answered GTP-U echo request and no lookup is counted; or the frame is not
sent on, and no lookup is counted; or exactly one lookup is made, its answer decides what becomes of the frame and is what is
counted, and the frame is counted once as forwarded, to N3 or to N6. -/
theorem C73_frame (e : Env) (s s' : PS) (a : XAction) (hrun : runPacket e s = (s', .ok a)) :
    (IsGtpMsg e s.frame 1 ∧ s'.rt = s.rt ∧ s'.st.txN3 = s.st.txN3 ∧ s'.st.txN6 = s.st.txN6) ∨
    (¬ IsGtpMsg e s.frame 1 ∧ a.sent = false ∧ s'.rt = s.rt ∧ s'.st.txN3 = s.st.txN3 ∧ s'.st.txN6 = s.st.txN6) ∨
    (¬ IsGtpMsg e s.frame 1 ∧ OneLookup e a s.rt s'.rt s.st.txN3 s.st.txN6 s'.st.txN3 s'.st.txN6) := by
  classical
  have hrx := rx_packet e s .gtpEcho
  rw [hrun] at hrx
  have hin : IsGtpMsg e s.frame 1 → s'.st.rxGtpEcho = s.st.rxGtpEcho + 1 := fun hm => by
    have hc : Counted e s.frame .gtpEcho := hm
    rw [if_pos hc] at hrx; exact hrx
  have hout : ¬ IsGtpMsg e s.frame 1 → s'.st.rxGtpEcho = s.st.rxGtpEcho := fun hm => by
    have hc : ¬ Counted e s.frame .gtpEcho := hm
    rw [if_neg hc] at hrx; exact hrx.trans (BitVec.add_zero _)
  clear hrx
  have hproc : Looked' e s s' a := by
    unfold runPacket entrypoint at hrun
    obtain ⟨s1, b, g1, g2⟩ := bind_ok_inv hrun
    obtain ⟨s2, _, g3, g4⟩ := bind_ok_inv g2
    cases g3; cases g4
    exact (looks_process e).looked s s1 a g1
  have ne : ∀ x : U64, x + 1 ≠ x := by
    intro x h
    simp at h
  rcases hproc with ⟨he, h | h⟩ | ⟨he, h1, h2, h3⟩
  · have hn : ¬ IsGtpMsg e s.frame 1 := by
      intro hm
      exact ne _ ((hin hm).symm.trans he)
    exact .inr (.inl ⟨hn, h.2.2.2, h.1, h.2.1, h.2.2.1⟩)
  · have hn : ¬ IsGtpMsg e s.frame 1 := by
      intro hm
      exact ne _ ((hin hm).symm.trans he)
    exact .inr (.inr ⟨hn, h⟩)
  · refine .inl ⟨?_, h1, h2, h3⟩
    by_cases hm : IsGtpMsg e s.frame 1
    · exact hm
    · exact absurd (he.symm.trans (hout hm)) (ne _)

theorem total_count (r : RouteStat) (v6 : Bool) (ans : FibAns) : (r.count v6 ans).total = r.total + 1 := by
  cases v6 <;> cases ans <;> simp only [RouteStat.count] <;> (try split) <;> simp only [RouteStat.total] <;> ac_rfl
theorem found_count (r : RouteStat) (e : Env) (v6 : Bool) (ans : FibAns) :
    (r.count v6 ans).found = r.found + if (routeAct e ans).sent = true then 1 else 0 := by
  cases ans with
  | ok i a b =>
    have : (routeAct e (.ok i a b)).sent = true := by
      unfold routeAct
      simp only
      split <;> rfl
    rw [this]
    cases v6 <;> simp only [RouteStat.count, RouteStat.found, if_true] <;> ac_rfl
  | fail rc =>
    have : (routeAct e (.fail rc)).sent = false := by
      unfold routeAct
      simp only
      split <;> rfl
    rw [this]
    cases v6 <;> simp only [RouteStat.count] <;> split <;> simp [RouteStat.found]

/-- **C73, lookups.** After any sequence of frames the route lookups counted are as many as the packets counted as forwarded to N3 and
N6 (modulo 2^64). -/
theorem C73_lookups (d : Dev) (l : List (Env × List U8)) :
    (d.run l).1.rt.total + (d.st.txN3 + d.st.txN6) = d.rt.total + ((d.run l).1.st.txN3 + (d.run l).1.st.txN6) := by
  induction l generalizing d with
  | nil => rfl
  | cons x l ih =>
    obtain ⟨e, f⟩ := x
    obtain ⟨s', a, h⟩ := C49_no_out_of_bounds e ⟨f, d.dp, d.st, d.rt⟩
    unfold Dev.run
    rw [h]
    simp only
    have ih := ih ⟨s'.dp, s'.st, s'.rt⟩
    simp only at ih
    generalize ((⟨s'.dp, s'.st, s'.rt⟩ : Dev).run l).1 = d' at ih ⊢
    have key : s'.rt.total + (d.st.txN3 + d.st.txN6) = d.rt.total + (s'.st.txN3 + s'.st.txN6) := by
      rcases C73_frame e _ s' a h with ⟨_, h1, h2, h3⟩ | ⟨_, _, h1, h2, h3⟩ | ⟨_, h⟩
      · rw [h1, h2, h3]
      · rw [h1, h2, h3]
      · cases h with
        | n3 q _ h1 h2 h3 => rw [h1, h2, h3, total_count]; simp only; ac_rfl
        | n6 v6 q _ h1 h2 h3 => rw [h1, h2, h3, total_count]; simp only; ac_rfl
    have : (d'.rt.total + (d.st.txN3 + d.st.txN6)) + (s'.rt.total + (s'.st.txN3 + s'.st.txN6)) =
        (d.rt.total + (d'.st.txN3 + d'.st.txN6)) + (s'.rt.total + (s'.st.txN3 + s'.st.txN6)) := by
      calc _ = (d'.rt.total + (s'.st.txN3 + s'.st.txN6)) + (s'.rt.total + (d.st.txN3 + d.st.txN6)) := by ac_rfl
        _ = (s'.rt.total + (d'.st.txN3 + d'.st.txN6)) + (d.rt.total + (s'.st.txN3 + s'.st.txN6)) := by rw [ih, key]
        _ = _ := by ac_rfl
    exact (BitVec.add_left_inj _).1 this

open Classical in
/-- **C73, successful lookups.** After any sequence of frames the successful lookups counted are as many as the frames sent out that are
not answers to GTP-U echo requests (modulo 2^64). -/
theorem C73_found (d : Dev) (l : List (Env × List U8)) :
    (d.run l).1.rt.found = d.rt.found +
      BitVec.ofNat 64 ((l.zip (d.run l).2).filter (fun x => x.2.sent && !decide (IsGtpMsg x.1.1 x.1.2 1))).length := by
  induction l generalizing d with
  | nil => simp [Dev.run]
  | cons x l ih =>
    obtain ⟨e, f⟩ := x
    obtain ⟨s', a, h⟩ := C49_no_out_of_bounds e ⟨f, d.dp, d.st, d.rt⟩
    unfold Dev.run
    rw [h]
    simp only
    rw [ih ⟨s'.dp, s'.st, s'.rt⟩, List.zip_cons_cons, List.filter_cons]
    simp only
    have key : s'.rt.found = d.rt.found + if (a.sent && !decide (IsGtpMsg e f 1)) = true then 1 else 0 := by
      rcases C73_frame e _ s' a h with ⟨hm, h1, _⟩ | ⟨hm, hs, h1, _⟩ | ⟨hm, h⟩
      · have hm' : IsGtpMsg e f 1 := hm
        rw [h1, decide_eq_true hm', Bool.not_true, Bool.and_false, if_neg (by decide)]
        exact (BitVec.add_zero _).symm
      · rw [h1]; simp [hs]
      · have hm' : ¬ IsGtpMsg e f 1 := hm
        cases h with
        | n3 q h0 h1 h2 h3 => rw [h1, found_count _ e, h0, decide_eq_false hm', Bool.not_false, Bool.and_true]
        | n6 v6 q h0 h1 h2 h3 => rw [h1, found_count _ e, h0, decide_eq_false hm', Bool.not_false, Bool.and_true]
    rw [key]
    split
    · rw [List.length_cons, BitVec.ofNat_add, BitVec.add_assoc, BitVec.add_comm (BitVec.ofNat 64 _) (BitVec.ofNat 64 1)]
      rfl
    · simp

/-- Non-vacuity: an uplink and a downlink packet, an echo request, and a packet to nowhere. -/
example : let r := (⟨DemoDp.dp, {}, {}⟩ : Dev).run [(DemoDp.env, DemoDp.up), (DemoDp.env, DemoDp.down), (DemoDp.env, DemoDp.echo), (DemoDp.env4, DemoDp.up)]
    r.1.rt.ip4Ok = 2 ∧ r.1.rt.ip4Drop = 1 ∧ r.1.st.txN3 = 1 ∧ r.1.st.txN6 = 2 ∧ r.2 = [.redirect 7, .redirect 7, .tx, .drop] := by decide +kernel

/-- **C73, false part.** The counters of forwarded packets also count packets that are not forwarded: with no route to the destination
the packet is dropped, and counted as sent to N6. -/
theorem C73_counted_not_sent : (runPacket DemoDp.env4 (DemoDp.ps DemoDp.up)).2 = .ok .drop ∧
    (runPacket DemoDp.env4 (DemoDp.ps DemoDp.up)).1.st.txN6 = (DemoDp.ps DemoDp.up).st.txN6 + 1 := by decide +kernel

end Eupf
