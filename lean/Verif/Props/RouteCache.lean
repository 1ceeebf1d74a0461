import Verif.Xdp.RouteCache
import Verif.Props.Routing
/-
C85: what the route cache does to the choice of the next hop.
-/
namespace Eupf

/-! ### the same program with a kernel that answers from the cache -/

/-- The environment in which the kernel's answers for IPv4 are overruled by the cache. Specification device, models no code. -/
def Env.withCache (e : Env) (c : RouteCache) : Env :=
  { e with fib := fun q => if q.dst.length = 4 then (match c q.dst with | some h => h.ans | none => e.fib q) else e.fib q }

/-- What a run of the program with the cache has to do with a run without it. -/
structure SameRun (e : CEnv) (s : CPS) (rc : CPS × Res XAction) (r : PS × Res XAction) : Prop where
  out : rc.2 = r.2
  frame : rc.1.ps.frame = r.1.frame
  dp : rc.1.ps.dp = r.1.dp
  st : rc.1.ps.st = r.1.st
  rt : rc.1.ps.rt = r.1.rt ∧ rc.1.hits = s.hits ∨
    (rc.1.hits = s.hits + 1 ∧ r.1.rt = { rc.1.ps.rt with ip4Ok := rc.1.ps.rt.ip4Ok + 1 } ∧ rc.1.cache = s.cache)
  cache : rc.1.cache = s.cache ∨ ∃ q h, q.family = 2 ∧ q.dst.length = 4 ∧ e.env.fib q = h.ans ∧ s.cache q.dst = none ∧
    rc.1.cache = s.cache.update e.lost q.dst h

structure Sim (e : CEnv) (c : RouteCache) (mc : XC XAction) (m : X XAction) : Prop where
  run : ∀ s : CPS, s.cache = c → SameRun e s (mc s) (m s.ps)

theorem Sim.up (e : CEnv) (c : RouteCache) (m : X XAction) : Sim e c (Eupf.up m) m :=
  ⟨fun _ _ => ⟨rfl, rfl, rfl, rfl, .inl ⟨rfl, rfl⟩, .inl rfl⟩⟩
theorem Sim.pure (e : CEnv) (c : RouteCache) (a : XAction) : Sim e c (Pure.pure a) (Pure.pure a) :=
  ⟨fun _ _ => ⟨rfl, rfl, rfl, rfl, .inl ⟨rfl, rfl⟩, .inl rfl⟩⟩
theorem Sim.bind {α : Type} {e : CEnv} {c : RouteCache} {m : X α} {kc : α → XC XAction} {k : α → X XAction}
    (h : ∀ a, Sim e c (kc a) (k a)) : Sim e c (Eupf.up m >>= kc) (m >>= k) := by
  constructor
  intro s hs
  show SameRun e s (Act.bind (Eupf.up m) kc s) (Act.bind m k s.ps)
  unfold Act.bind Eupf.up
  rcases hm : m s.ps with ⟨s1, r⟩
  cases r with
  | ok a =>
    have := (h a).run { s with ps := s1 } hs
    exact ⟨this.out, this.frame, this.dp, this.st, this.rt, this.cache⟩
  | err => exact ⟨rfl, rfl, rfl, rfl, .inl ⟨rfl, rfl⟩, .inl rfl⟩
  | panic => exact ⟨rfl, rfl, rfl, rfl, .inl ⟨rfl, rfl⟩, .inl rfl⟩
theorem Sim.ite {e : CEnv} {c : RouteCache} {p : Prop} {_ : Decidable p} {mc1 mc2 : XC XAction} {m1 m2 : X XAction}
    (h1 : Sim e c mc1 m1) (h2 : Sim e c mc2 m2) : Sim e c (if p then mc1 else mc2) (if p then m1 else m2) := by
  by_cases h : p
  · rw [if_pos h, if_pos h]; exact h1
  · rw [if_neg h, if_neg h]; exact h2

theorem ldBytes_ok {o n : Nat} {s : PS} (h : o + n ≤ s.frame.length) : ldBytes o n s = (s, .ok (slice s.frame o n)) := if_pos h

theorem up_bind {α β : Type} {m : X α} {k : α → XC β} {s : CPS} {a : α} {p : PS} (h : m s.ps = (p, .ok a)) :
    (Eupf.up m >>= k) s = k a { s with ps := p } := by
  show Act.bind (Eupf.up m) k s = _
  unfold Act.bind Eupf.up
  rw [h]
theorem up_bind_panic {α β : Type} {m : X α} {k : α → XC β} {s : CPS} (h : m s.ps = (s.ps, .panic)) :
    (Eupf.up m >>= k) s = (s, .panic) := by
  show Act.bind (Eupf.up m) k s = _
  unfold Act.bind Eupf.up
  rw [h]
theorem x_bind {α β : Type} {m : X α} {k : α → X β} {s p : PS} {a : α} (h : m s = (p, .ok a)) : (m >>= k) s = k a p := by
  show Act.bind m k s = _
  unfold Act.bind
  rw [h]

theorem doRoute_apply (e : Env) (eth : Nat) (h : Hop) (f : RouteStat → RouteStat) (g1 g2) (s : PS) :
    applyRoute e eth h.ans f g1 g2 s = doRoute e eth h { s with rt := f s.rt } := rfl

theorem xbind {α β : Type} (m : X α) (k : α → X β) (s : PS) : (m >>= k) s = match m s with
    | (s', .ok a) => k a s'
    | (s', .err) => (s', .err)
    | (s', .panic) => (s', .panic) := by
  show Act.bind m k s = _
  unfold Act.bind
  rcases m s with ⟨_, _ | _ | _⟩ <;> rfl

theorem x_bind_panic {α β : Type} {m : X α} {k : α → X β} {s p : PS} (h : m s = (p, .panic)) : (m >>= k) s = (p, .panic) := by
  show Act.bind m k s = _
  unfold Act.bind
  rw [h]

theorem doRoute_rt (e : Env) (eth : Nat) (h : Hop) (s : PS) : (doRoute e eth h s).1.rt = s.rt ∧
    ∀ x, doRoute e eth h { s with rt := x } = ({ (doRoute e eth h s).1 with rt := x }, (doRoute e eth h s).2) := by
  unfold doRoute
  by_cases h1 : eth + 6 + h.smac.toList.length ≤ s.frame.length
  · have a1 : ∀ t : PS, t.frame = s.frame → store (eth + 6) h.smac.toList t = ({ t with frame := put s.frame (eth + 6) h.smac.toList }, .ok ()) :=
      fun t ht => by unfold store; rw [ht]; exact if_pos h1
    rw [x_bind (a1 s rfl)]
    by_cases h2 : eth + h.dmac.toList.length ≤ (put s.frame (eth + 6) h.smac.toList).length
    · have a2 : ∀ t : PS, t.frame = put s.frame (eth + 6) h.smac.toList → store eth h.dmac.toList t = ({ t with frame := put t.frame eth h.dmac.toList }, .ok ()) :=
        fun t ht => by unfold store; rw [ht]; exact if_pos h2
      rw [x_bind (a2 _ rfl)]
      refine ⟨rfl, fun x => ?_⟩
      rw [x_bind (a1 { s with rt := x } rfl), x_bind (a2 _ rfl)]
      rfl
    · have a2 : ∀ t : PS, t.frame = put s.frame (eth + 6) h.smac.toList → store eth h.dmac.toList t = (t, .panic) :=
        fun t ht => by unfold store; rw [ht]; exact if_neg h2
      rw [x_bind_panic (a2 _ rfl)]
      refine ⟨rfl, fun x => ?_⟩
      rw [x_bind (a1 { s with rt := x } rfl), x_bind_panic (a2 _ rfl)]
  · have a1 : ∀ t : PS, t.frame = s.frame → store (eth + 6) h.smac.toList t = (t, .panic) :=
      fun t ht => by unfold store; rw [ht]; exact if_neg h1
    rw [x_bind_panic (a1 s rfl)]
    refine ⟨rfl, fun x => ?_⟩
    rw [x_bind_panic (a1 { s with rt := x } rfl)]

def reqAt (e : Env) (f : List U8) (ip : Nat) (dst : List U8) : FibReq :=
  { family := 2, tos := oct f (ip + 1), proto := oct f (ip + 9), totLen := swap16 (le16 f (ip + 2)), src := slice f (ip + 12) 4, dst := dst,
    ifindex := e.ifindex }

theorem c_get_bind {β : Type} (k : CPS → XC β) (s : CPS) : ((Act.get : XC CPS) >>= k) s = k s s := rfl
theorem c_modify_bind {β : Type} (f : CPS → CPS) (k : Unit → XC β) (s : CPS) : (Act.modify f >>= k) s = k () (f s) := rfl

theorem sim_route4 (e : CEnv) (c : RouteCache) (eth ip : Option Nat) : Sim e c (routeIp4C e eth ip) (routeIp4 (e.env.withCache c) eth ip) := by
  unfold routeIp4C routeIp4
  refine Sim.bind fun ip => ?_
  constructor
  intro s hs
  by_cases hb : ip + 16 + 4 ≤ s.ps.frame.length
  · have hlen : (slice s.ps.frame (ip + 16) 4).length = 4 := by unfold slice; simp; omega
    rw [up_bind (ldBytes_ok hb), x_bind (a := oct s.ps.frame (ip + 1)) (p := s.ps) (if_pos (by omega)),
      x_bind (a := oct s.ps.frame (ip + 9)) (p := s.ps) (if_pos (by omega)), x_bind (a := le16 s.ps.frame (ip + 2)) (p := s.ps) (if_pos (by omega)),
      x_bind (ldBytes_ok (by omega)), x_bind (ldBytes_ok hb)]
    generalize slice s.ps.frame (ip + 16) 4 = dst at hlen ⊢
    subst hs
    cases eth with
    | none => exact ⟨rfl, rfl, rfl, rfl, .inl ⟨rfl, rfl⟩, .inl rfl⟩
    | some o =>
      rw [up_bind (a := o) (p := s.ps) rfl, x_bind (a := o) (p := s.ps) rfl, c_get_bind]
      change SameRun e s _ (applyRoute (e.env.withCache s.cache) o ((e.env.withCache s.cache).fib (reqAt e.env s.ps.frame ip dst)) _ _ _ s.ps)
      have hfib : (e.env.withCache s.cache).fib (reqAt e.env s.ps.frame ip dst) =
          match s.cache dst with | some h => h.ans | none => e.env.fib (reqAt e.env s.ps.frame ip dst) := if_pos hlen
      rw [hfib]
      simp only
      cases hc : s.cache dst with
      | some h =>
        simp only
        rw [c_modify_bind, doRoute_apply]
        obtain ⟨h1, h2⟩ := doRoute_rt e.env o h s.ps
        change SameRun e s (up (doRoute e.env o h) _) (doRoute e.env o h _)
        rw [h2]
        refine ⟨rfl, rfl, rfl, rfl, .inr ⟨rfl, ?_, rfl⟩, .inl rfl⟩
        show _ = { (doRoute e.env o h s.ps).1.rt with ip4Ok := (doRoute e.env o h s.ps).1.rt.ip4Ok + 1 }
        rw [h1]
      | none =>
        simp only
        rw [up_bind (a := oct s.ps.frame (ip + 1)) (p := s.ps) (if_pos (by show ip + 1 + 1 ≤ s.ps.frame.length; omega)),
          up_bind (a := oct s.ps.frame (ip + 9)) (p := s.ps) (if_pos (by show ip + 9 + 1 ≤ s.ps.frame.length; omega)),
          up_bind (a := le16 s.ps.frame (ip + 2)) (p := s.ps) (if_pos (by show ip + 2 + 2 ≤ s.ps.frame.length; omega)),
          up_bind (a := slice s.ps.frame (ip + 12) 4) (p := s.ps) (if_pos (by show ip + 12 + 4 ≤ s.ps.frame.length; omega))]
        change SameRun e s ((match e.env.fib (reqAt e.env s.ps.frame ip dst) with | .ok i smac dmac => _ | .fail rc => _ : XC XAction) s) _
        cases hf : e.env.fib (reqAt e.env s.ps.frame ip dst) with
        | ok i sm dm =>
          refine ⟨rfl, rfl, rfl, rfl, .inl ⟨rfl, rfl⟩, .inr ⟨reqAt e.env s.ps.frame ip dst, ⟨i, sm, dm⟩, rfl, hlen, hf, hc, rfl⟩⟩
        | fail rc =>
          unfold applyRoute
          simp only
          by_cases hr : rc = 1 ∨ rc = 2 ∨ rc = 3
          · rw [if_pos hr, if_pos hr]
            exact ⟨rfl, rfl, rfl, rfl, .inl ⟨rfl, rfl⟩, .inl rfl⟩
          · rw [if_neg hr, if_neg hr]
            exact ⟨rfl, rfl, rfl, rfl, .inl ⟨rfl, rfl⟩, .inl rfl⟩
  · rw [up_bind_panic (if_neg hb)]
    have : ∀ {k : List U8 → X XAction} (l : Nat), l + 4 = ip + 16 + 4 → (ldBytes l 4 >>= k) s.ps = (s.ps, .panic) :=
      fun l hl => x_bind_panic (if_neg (by omega))
    by_cases h1 : ip + 1 + 1 ≤ s.ps.frame.length
    · rw [x_bind (a := oct s.ps.frame (ip + 1)) (p := s.ps) (if_pos h1)]
      by_cases h2 : ip + 9 + 1 ≤ s.ps.frame.length
      · rw [x_bind (a := oct s.ps.frame (ip + 9)) (p := s.ps) (if_pos h2), x_bind (a := le16 s.ps.frame (ip + 2)) (p := s.ps) (if_pos (by omega))]
        by_cases h3 : ip + 12 + 4 ≤ s.ps.frame.length
        · rw [x_bind (ldBytes_ok h3), x_bind_panic (p := s.ps) (if_neg hb)]
          exact ⟨rfl, rfl, rfl, rfl, .inl ⟨rfl, rfl⟩, .inl rfl⟩
        · rw [x_bind_panic (p := s.ps) (if_neg h3)]
          exact ⟨rfl, rfl, rfl, rfl, .inl ⟨rfl, rfl⟩, .inl rfl⟩
      · rw [x_bind_panic (p := s.ps) (if_neg h2)]
        exact ⟨rfl, rfl, rfl, rfl, .inl ⟨rfl, rfl⟩, .inl rfl⟩
    · rw [x_bind_panic (p := s.ps) (if_neg h1)]
      exact ⟨rfl, rfl, rfl, rfl, .inl ⟨rfl, rfl⟩, .inl rfl⟩

theorem route6_cache (e : Env) (c : RouteCache) (eth ip : Option Nat) : routeIp6 (e.withCache c) eth ip = routeIp6 e eth ip := by
  unfold routeIp6
  cases ip with
  | none => rfl
  | some ip =>
    funext s
    simp only [xbind]
    cases h0 : ptr (some ip) s with
    | mk s0 r0 =>
      cases r0 with
      | err => rfl
      | panic => rfl
      | ok ip =>
        simp only []
        by_cases h1 : ip + 24 + 16 ≤ s0.frame.length
        · have hl : (slice s0.frame (ip + 24) 16).length = 16 := by unfold slice; simp; omega
          have a1 : ld8 (ip + 6) s0 = (s0, .ok (oct s0.frame (ip + 6))) := if_pos (by omega)
          have a2 : ld16 (ip + 4) s0 = (s0, .ok (le16 s0.frame (ip + 4))) := if_pos (by omega)
          have a3 : ldBytes (ip + 8) 16 s0 = (s0, .ok (slice s0.frame (ip + 8) 16)) := if_pos (by omega)
          have a4 : ldBytes (ip + 24) 16 s0 = (s0, .ok (slice s0.frame (ip + 24) 16)) := if_pos h1
          simp only [a1, a2, a3, a4]
          generalize slice s0.frame (ip + 24) 16 = dst at hl
          cases h2 : ptr eth s0 with
          | mk s2 r2 =>
            cases r2 with
            | err => rfl
            | panic => rfl
            | ok o =>
              simp only [Env.withCache, hl]
              rfl
        · have a4 : ldBytes (ip + 24) 16 s0 = (s0, .panic) := if_neg h1
          have : ∀ {α} {k k' : List U8 → X α} {t}, ldBytes (ip + 24) 16 t = (t, .panic) → (ldBytes (ip + 24) 16 >>= k) t = (ldBytes (ip + 24) 16 >>= k') t := by
            intro α k k' t h
            simp only [xbind, h]
          unfold ld8 ld16
          by_cases b1 : ip + 6 + 1 ≤ s0.frame.length
          · simp only [if_pos b1]
            by_cases b2 : ip + 4 + 2 ≤ s0.frame.length
            · simp only [if_pos b2]
              unfold ldBytes
              by_cases b3 : ip + 8 + 16 ≤ s0.frame.length
              · simp only [if_pos b3, if_neg h1]
              · simp only [if_neg b3]
            · simp only [if_neg b2]
          · simp only [if_neg b1]

theorem sim_send (e : CEnv) (c : RouteCache) (x d t q i) : Sim e c (sendToGtpTunnelC e x d t q i) (sendToGtpTunnel (e.env.withCache c) x d t q i) := by
  unfold sendToGtpTunnelC sendToGtpTunnel
  refine Sim.bind fun r => ?_
  exact Sim.ite (Sim.bind fun _ => sim_route4 ..) (Sim.pure ..)
theorem sim_down (e : CEnv) (c : RouteCache) (x p f q) : Sim e c (downlinkTailC e x p f q) (downlinkTail (e.env.withCache c) x p f q) := by
  unfold downlinkTailC downlinkTail
  refine Sim.bind fun s => ?_
  cases s.dp.far.lookup f with
  | none => exact Sim.pure ..
  | some far =>
    refine Sim.ite (Sim.pure ..) (Sim.ite (Sim.pure ..) ?_)
    cases s.dp.qer.lookup q with
    | none => exact Sim.pure ..
    | some qer =>
      refine Sim.ite (Sim.pure ..) ?_
      change Sim e c (match limitRate _ _ _ e.env.tDL with | none => _ | some s => _) (match limitRate _ _ _ e.env.tDL with | none => _ | some s => _)
      cases limitRate (BitVec.ofNat 64 s.frame.length) qer.startDL (qer.mbrDL.zeroExtend 64) e.env.tDL with
      | none => exact Sim.pure ..
      | some start => exact Sim.bind fun _ => Sim.bind fun _ => Sim.bind fun _ => sim_send ..
theorem sim_n6 (e : CEnv) (c : RouteCache) (x) : Sim e c (handleN6Ip4C e x) (handleN6Ip4 (e.env.withCache c) x) := by
  unfold handleN6Ip4C handleN6Ip4
  refine Sim.bind fun ip => Sim.bind fun a => Sim.bind fun s => ?_
  change Sim e c (match s.dp.pdrDl4.lookup (swap32 a) with | none => _ | some s => _) (match s.dp.pdrDl4.lookup (swap32 a) with | none => _ | some s => _)
  cases s.dp.pdrDl4.lookup (swap32 a) with
  | none => exact Sim.pure ..
  | some pdr => exact Sim.ite (Sim.bind fun _ => Sim.ite (sim_down ..) (Sim.ite (Sim.pure ..) (sim_down ..))) (sim_down ..)
theorem sim_n66 (e : CEnv) (c : RouteCache) (x) : Sim e c (handleN6Ip6C e x) (handleN6Ip6 (e.env.withCache c) x) := by
  unfold handleN6Ip6C handleN6Ip6
  refine Sim.bind fun ip => Sim.bind fun a => Sim.bind fun s => ?_
  change Sim e c (match s.dp.pdrDl6.lookup (be128 a) with | none => _ | some s => _) (match s.dp.pdrDl6.lookup (be128 a) with | none => _ | some s => _)
  cases s.dp.pdrDl6.lookup (be128 a) with
  | none => exact Sim.pure ..
  | some pdr => exact Sim.ite (Sim.bind fun _ => Sim.ite (sim_down ..) (Sim.ite (Sim.pure ..) (sim_down ..))) (sim_down ..)
theorem sim_out (e : CEnv) (c : RouteCache) (x) : Sim e c (uplinkOutC e x) (uplinkOut (e.env.withCache c) x) := by
  unfold uplinkOutC uplinkOut
  cases x.ip4 with
  | some ip =>
    refine Sim.bind fun dst => Sim.bind fun proto => ?_
    exact Sim.ite (Sim.bind fun _ => Sim.ite (sim_n6 ..) (Sim.pure ..)) (Sim.bind fun _ => sim_route4 ..)
  | none =>
    refine Sim.ite (Sim.bind fun _ => ?_) (Sim.pure ..)
    rw [route6_cache]
    exact Sim.up ..
theorem sim_up (e : CEnv) (c : RouteCache) (x p o f q) : Sim e c (uplinkTailC e x p o f q) (uplinkTail (e.env.withCache c) x p o f q) := by
  unfold uplinkTailC uplinkTail
  refine Sim.bind fun s => ?_
  cases s.dp.far.lookup f with
  | none => exact Sim.pure ..
  | some far =>
    refine Sim.ite (Sim.pure ..) ?_
    cases s.dp.qer.lookup q with
    | none => exact Sim.pure ..
    | some qer =>
      refine Sim.ite (Sim.pure ..) ?_
      change Sim e c (match limitRate _ _ _ e.env.tUL with | none => _ | some s => _) (match limitRate _ _ _ e.env.tUL with | none => _ | some s => _)
      cases limitRate (BitVec.ofNat 64 s.frame.length) qer.startUL (qer.mbrUL.zeroExtend 64) e.env.tUL with
      | none => exact Sim.pure ..
      | some start => exact Sim.bind fun _ => Sim.bind fun _ => Sim.bind fun _ => Sim.bind fun _ => Sim.ite (sim_out ..) (Sim.pure ..)
theorem sim_gtp (e : CEnv) (c : RouteCache) (x) : Sim e c (handleGtpPacketC e x) (handleGtpPacket (e.env.withCache c) x) := by
  unfold handleGtpPacketC handleGtpPacket
  cases x.gtp with
  | none => exact Sim.pure ..
  | some g =>
    refine Sim.bind fun t => Sim.bind fun s => ?_
    change Sim e c (match s.dp.pdrUl.lookup (swap32 t) with | none => _ | some s => _) (match s.dp.pdrUl.lookup (swap32 t) with | none => _ | some s => _)
    cases s.dp.pdrUl.lookup (swap32 t) with
    | none => exact Sim.pure ..
    | some pdr =>
      refine Sim.bind fun r => ?_
      cases r with
      | none => exact Sim.pure ..
      | some r => exact sim_up ..
theorem sim_gtpu (e : CEnv) (c : RouteCache) (x) : Sim e c (handleGtpuC e x) (handleGtpu (e.env.withCache c) x) := by
  unfold handleGtpuC handleGtpu
  refine Sim.bind fun r => ?_
  exact Sim.ite (Sim.bind fun _ => sim_gtp ..) (Sim.ite (Sim.bind fun _ => Sim.up ..) (Sim.ite (Sim.pure ..)
    (Sim.ite (Sim.bind fun _ => Sim.pure ..) (Sim.bind fun _ => Sim.pure ..))))
theorem sim_ip4 (e : CEnv) (c : RouteCache) (x) : Sim e c (handleIp4C e x) (handleIp4 (e.env.withCache c) x) := by
  unfold handleIp4C handleIp4 n6Ip4C n6Ip4
  refine Sim.bind fun r => Sim.ite (Sim.bind fun _ => Sim.bind fun _ => sim_n6 ..) (Sim.ite ?_ (Sim.ite ?_ (Sim.bind fun _ => Sim.pure ..)))
  · refine Sim.bind fun _ => Sim.bind fun _ => Sim.bind fun _ => Sim.bind fun _ => ?_
    exact Sim.ite (Sim.bind fun _ => sim_gtpu ..) (Sim.bind fun _ => sim_n6 ..)
  · exact Sim.bind fun _ => Sim.bind fun _ => Sim.bind fun _ => sim_n6 ..
theorem sim_ip6 (e : CEnv) (c : RouteCache) (x) : Sim e c (handleIp6C e x) (handleIp6 (e.env.withCache c) x) := by
  unfold handleIp6C handleIp6 n6Ip6C n6Ip6
  exact Sim.bind fun r => Sim.ite (Sim.bind fun _ => Sim.pure ..) (Sim.ite (Sim.bind fun _ => Sim.bind fun _ => sim_n66 ..)
    (Sim.ite (Sim.bind fun _ => Sim.bind fun _ => Sim.bind fun _ => sim_n66 ..) (Sim.bind fun _ => Sim.pure ..)))
theorem sim_process (e : CEnv) (c : RouteCache) : Sim e c (processPacketC e) (processPacket (e.env.withCache c)) := by
  unfold processPacketC processPacket
  exact Sim.bind fun r => Sim.ite (Sim.bind fun _ => sim_ip6 ..) (Sim.ite (Sim.bind fun _ => sim_ip4 ..)
    (Sim.ite (Sim.bind fun _ => Sim.pure ..) (Sim.pure ..)))

/-- The program with the cache does to a frame what the program without it does where the kernel answers as the cache does. -/
theorem same_run (e : CEnv) (s : CPS) : SameRun e s (runPacketC e s) (runPacket (e.env.withCache s.cache) s.ps) := by
  have h := (sim_process e s.cache).run s rfl
  unfold runPacketC runPacket entrypointC entrypoint
  change SameRun e s (Act.bind (processPacketC e) _ s) (Act.bind (processPacket (e.env.withCache s.cache)) _ s.ps)
  unfold Act.bind
  rcases hc : processPacketC e s with ⟨s1, r1⟩
  rcases hu : processPacket (e.env.withCache s.cache) s.ps with ⟨s2, r2⟩
  rw [hc, hu] at h
  have ho := h.out
  simp only at ho
  subst ho
  cases r1 with
  | ok a =>
    refine ⟨rfl, h.frame, h.dp, ?_, h.rt, h.cache⟩
    exact congrArg (fun st : UpfStat => { st with actions := fun i => if i = a.code then st.actions i + 1 else st.actions i }) h.st
  | err => exact h
  | panic => exact h

/-! ### sequences of frames -/

/-- What stays between packets: tables, counters and the cache. -/
structure CDev where
  dp : BpfObjects
  st : UpfStat
  rt : RouteStat
  cache : RouteCache
  hits : U64

def CDev.with (d : CDev) (f : List U8) : CPS := ⟨⟨f, d.dp, d.st, d.rt⟩, d.cache, d.hits⟩
def CPS.dev (s : CPS) : CDev := ⟨s.ps.dp, s.ps.st, s.ps.rt, s.cache, s.hits⟩

/-- Process frames one after the other (`runPacketC`); the frames as they leave the program, with their actions. The environment of
each packet is another one: the kernel's routes may change at any time. -/
def CDev.run (d : CDev) : List (CEnv × List U8) → CDev × List (List U8 × Res XAction)
  | [] => (d, [])
  | (e, f) :: l =>
    let r := runPacketC e (d.with f)
    ((r.1.dev.run l).1, (r.1.ps.frame, r.2) :: (r.1.dev.run l).2)

/-- The frame carries the MAC addresses of this next hop and leaves through its interface. -/
def ToHop (e : Env) (h : Hop) (g : List U8) (a : XAction) : Prop :=
  g.take 6 = h.dmac.toList ∧ slice g 6 6 = h.smac.toList ∧ a = if h.ifindex = e.ifindex then .tx else .redirect h.ifindex

theorem macRewrite_long {g : List U8} (h : 34 ≤ g.length) (ans : FibAns) :
    (macRewrite g ans).length = g.length ∧ be16 (macRewrite g ans) 12 = be16 g 12 := by
  constructor
  · cases ans with
    | fail _ => rfl
    | ok i sm dm => simp [macRewrite]; omega
  · unfold be16
    rw [macRewrite_oct (by omega) ans (by omega), macRewrite_oct (by omega) ans (by omega)]

theorem down_long {e : Env} {b dp : BpfObjects} {f fr : List U8} {p? rule} {n : U16} {a : XAction} (h : 14 ≤ f.length)
    (r : DownRes e b f p? rule n fr dp a) (hs : a.sent = true) : 34 ≤ fr.length ∧ be16 fr 12 = 0x0800 := by
  cases r with
  | unclassified _ | denied _ _ | policed _ _ _ | noRoom _ _ _ _ _ => cases hs
  | sent g _ _ _ _ _ hg =>
    have ht : be16 g 12 = 0x0800 ∧ 34 ≤ g.length := by rw [hg]; exact encap_type h ..
    have := macRewrite_long ht.2 (e.fib (fibReq4 e g))
    rw [this.1, this.2]
    exact ⟨ht.2, ht.1⟩

/-- A frame that is sent has its whole IP header. -/
theorem sent_long (e : Env) (s s' : PS) (a : XAction) (hrun : runPacket e s = (s', .ok a)) (hs : a.sent = true)
    (hecho : ¬ IsGtpMsg e s.frame 1) : 34 ≤ s'.frame.length ∧ (be16 s'.frame 12 = 0x86DD → 54 ≤ s'.frame.length) := by
  have res := entry_det hrun
  clear hrun
  generalize s'.frame = fr at res ⊢
  generalize s'.dp = dp at res
  have key : ∀ {fr : List U8}, 34 ≤ fr.length ∧ be16 fr 12 = 0x0800 → 34 ≤ fr.length ∧ (be16 fr 12 = 0x86DD → 54 ≤ fr.length) :=
    fun h => ⟨h.1, fun h6 => absurd (h.2.symm.trans h6) (by decide)⟩
  cases res with
  | foreign _ | otherMsg _ _ _ => cases hs
  | echo h => exact absurd h hecho
  | down4 h r => exact key (down_long (by have := h.ip.len; omega) r hs)
  | down6 h r => exact key (down_long (by have := h.ip.len; omega) r hs)
  | gpdu hm r =>
    have hl34 := hm.gtpu.ip.len
    have hl := hm.len
    cases r with
    | unclassified _ | denied _ _ | policed _ => cases hs
    | garbled _ _ _ _ | selfOther _ _ _ _ _ => cases hs
    | n9 g _ _ _ _ _ hg =>
      have hlen : 34 ≤ g.length := by rw [hg, retunnel_length hl34 hl]; exact hl34
      have ht : be16 g 12 = 0x0800 := by
        obtain ⟨k, hk4⟩ := l4Off_ge s.frame
        have hgo : gtpOff s.frame = l4Off s.frame + 8 := rfl
        rw [← hm.gtpu.ip.type, hg]
        unfold be16
        rw [retunnel_oct hl34 hl _ _ _ _ (by omega) (by omega) (by omega), retunnel_oct hl34 hl _ _ _ _ (by omega) (by omega) (by omega)]
      have := macRewrite_long hlen (e.fib (fibReq4 e g))
      exact key (by rw [this.1, this.2]; exact ⟨hlen, ht⟩)
    | kept _ _ _ _ _ _ =>
      have := macRewrite_long hl34 (e.fib (fibReq4 e s.frame))
      exact key (by rw [this.1, this.2]; exact ⟨hl34, hm.gtpu.ip.type⟩)
    | cut4 g _ _ _ _ _ _ hok hty hg _ =>
      have hlen : 34 ≤ g.length := by
        rcases hok with ⟨_, h⟩ | ⟨h, _⟩
        · rw [hg, cutFrame_length _ (by omega)]; omega
        · rw [hty] at h; cases h
      have := macRewrite_long hlen (e.fib (fibReq4 e g))
      exact key (by rw [this.1, this.2]; exact ⟨hlen, by rw [hg, cutFrame_ether (by omega)]⟩)
    | cut6 g _ _ _ _ _ _ hok hty hg =>
      have hlen : 54 ≤ g.length := by
        rcases hok with ⟨h, _⟩ | ⟨_, h⟩
        · rw [hty] at h; cases h
        · rw [hg, cutFrame_length _ (by omega)]; omega
      have := macRewrite_long (g := g) (by omega) (e.fib (fibReq6 e g))
      rw [this.1]
      exact ⟨by omega, fun _ => hlen⟩
    | ping g _ _ _ _ _ _ hok hty hg hself hping r =>
      refine key (down_long ?_ r hs)
      rw [pingReply_length hping.1]
      have := hping.1; omega

/-- **C85.** With the route cache compiled in, whatever frame the UPF sends (answers to GTP-U echo requests excepted): if it is an IPv4
frame and the cache has an entry for its destination address, it goes to the next hop in the entry, whatever the kernel's routes are by
now, and whatever its source, TOS or protocol; otherwise the kernel was asked about this very packet. -/
theorem C85_next_hop (e : CEnv) (s s' : CPS) (a : XAction) (hrun : runPacketC e s = (s', .ok a)) (hs : a.sent = true)
    (hecho : ¬ IsGtpMsg e.env s.ps.frame 1) :
    (be16 s'.ps.frame 12 ≠ 0x86DD ∧ ∃ h, s.cache (slice s'.ps.frame 30 4) = some h ∧ ToHop e.env h s'.ps.frame a) ∨
    ((be16 s'.ps.frame 12 = 0x86DD ∨ s.cache (slice s'.ps.frame 30 4) = none) ∧ ToNextHop e.env s'.ps.frame a) := by
  have hsame := same_run e s
  rw [hrun] at hsame
  rcases hu : runPacket (e.env.withCache s.cache) s.ps with ⟨u, r⟩
  rw [hu] at hsame
  obtain rfl : .ok a = r := hsame.out
  have hfr : s'.ps.frame = u.frame := hsame.frame
  rw [hfr]
  have hecho : ¬ IsGtpMsg (e.env.withCache s.cache) s.ps.frame 1 := fun h => hecho ⟨⟨h.gtpu.1, h.gtpu.2, h.gtpu.3, h.gtpu.4, h.gtpu.5⟩, h.2, h.3⟩
  have hlen := sent_long (e.env.withCache s.cache) s.ps u a hu hs hecho
  obtain ⟨i, sm, dm, h1, h2, h3, h4⟩ := C72_next_hop (e.env.withCache s.cache) s.ps u a hu hs hecho
  by_cases h6 : be16 u.frame 12 = 0x86DD
  · right
    refine ⟨.inl h6, i, sm, dm, ?_, h2, h3, h4⟩
    rw [fibReq_6 h6] at h1 ⊢
    have hl : (slice u.frame 38 16).length = 16 := by
      have := hlen.2 h6
      unfold slice; simp; omega
    rw [← h1]
    exact (if_neg (by rw [show (fibReq6 (e.env.withCache s.cache) u.frame).dst = slice u.frame 38 16 from rfl, hl]; decide)).symm
  · have hl : (slice u.frame 30 4).length = 4 := by
      have := hlen.1
      unfold slice; simp; omega
    rw [fibReq_4 h6] at h1
    have hf : (e.env.withCache s.cache).fib (fibReq4 (e.env.withCache s.cache) u.frame) =
        match s.cache (slice u.frame 30 4) with | some h => h.ans | none => e.env.fib (fibReq4 e.env u.frame) := if_pos hl
    rw [hf] at h1
    cases hc : s.cache (slice u.frame 30 4) with
    | some h =>
      rw [hc] at h1
      obtain ⟨hi, hsm, hdm⟩ : h.ifindex = i ∧ h.smac = sm ∧ h.dmac = dm := by
        simp only [Hop.ans, FibAns.ok.injEq] at h1
        exact h1
      exact .inl ⟨h6, h, rfl, by rw [hdm]; exact h2, by rw [hsm]; exact h3, by rw [hi]; exact h4⟩
    | none =>
      rw [hc] at h1
      exact .inr ⟨.inr rfl, i, sm, dm, by rw [fibReq_4 h6]; exact h1, h2, h3, h4⟩

/-- the runs of the demonstration: no entry is ever lost -/
def DemoDp.cenv (e : Env) : CEnv := ⟨e, fun _ => false⟩
def DemoDp.cdev : CDev := ⟨DemoDp.dp, {}, {}, fun _ => none, 0⟩

/-- Non-vacuity: an uplink packet asks the kernel and leaves through interface 7; after it, the cache has an entry. -/
example : (DemoDp.cdev.run [(DemoDp.cenv DemoDp.env, DemoDp.up)]).2.map Prod.snd = [.ok (.redirect 7)] ∧ ¬ IsGtpMsg DemoDp.env DemoDp.up 1 ∧
    ((DemoDp.cdev.run [(DemoDp.cenv DemoDp.env, DemoDp.up)]).1.cache [8, 8, 8, 8]).map (·.ifindex) = some 7 ∧
    ((DemoDp.cdev.run [(DemoDp.cenv DemoDp.env, DemoDp.up)]).1.cache [8, 8, 8, 9]).isNone :=
  ⟨by decide +kernel, fun h => absurd h.type (by decide +kernel), by decide +kernel, by decide +kernel⟩

/-- **C85, false as a promise that packets follow the kernel's routes.** After one packet to a destination, another one goes to the
same next hop although the kernel by then says that the destination is unreachable; without the cache it is dropped. -/
theorem C85_stale :
    (DemoDp.cdev.run [(DemoDp.cenv DemoDp.env, DemoDp.up), (DemoDp.cenv DemoDp.env4, DemoDp.up)]).2.map Prod.snd = [.ok (.redirect 7), .ok (.redirect 7)] ∧
    ((⟨DemoDp.dp, {}, {}⟩ : Dev).run [(DemoDp.env, DemoDp.up), (DemoDp.env4, DemoDp.up)]).2 = [.redirect 7, .drop] :=
  ⟨by decide +kernel, by decide +kernel⟩

theorem update_keeps {c : RouteCache} {lost : List U8 → Bool} {dst : List U8} {h h0 : Hop} {d : List U8} (hd : c d = some h0) (hn : c dst = none)
    (hl : lost d = false) : c.update lost dst h d = some h0 := by
  unfold RouteCache.update
  rw [hl, if_neg (by decide), if_neg (by rintro rfl; rw [hn] at hd; cases hd), hd]

/-- **C85: entries are never refreshed.** Once the cache has an entry for a destination, it has the same entry after any number of
packets under any kernel routes, unless the LRU map gives it up. -/
theorem C85_never_refreshed (d : CDev) (l : List (CEnv × List U8)) (dst : List U8) (h : Hop) (hc : d.cache dst = some h)
    (hl : ∀ x ∈ l, x.1.lost dst = false) : (d.run l).1.cache dst = some h := by
  induction l generalizing d with
  | nil => exact hc
  | cons x l ih =>
    obtain ⟨e, f⟩ := x
    unfold CDev.run
    refine ih _ ?_ (fun y hy => hl y (List.mem_cons_of_mem _ hy))
    rcases (same_run e (d.with f)).cache with hk | ⟨q, h', _, _, _, hq, hk⟩
    · show (runPacketC e (d.with f)).1.cache dst = _
      rw [hk]; exact hc
    · show (runPacketC e (d.with f)).1.cache dst = _
      rw [hk]
      exact update_keeps hc hq (hl (e, f) (by simp))

/-- Where an entry comes from: from an answer of the kernel to a packet with this destination, under the routes at that time. -/
theorem C85_entry_origin (d : CDev) (l : List (CEnv × List U8)) (dst : List U8) (h : Hop) (hc : (d.run l).1.cache dst = some h) :
    d.cache dst = some h ∨ ∃ x ∈ l, ∃ q, q.family = 2 ∧ q.dst = dst ∧ x.1.env.fib q = h.ans := by
  induction l generalizing d with
  | nil => exact .inl hc
  | cons x l ih =>
    obtain ⟨e, f⟩ := x
    unfold CDev.run at hc
    rcases ih _ hc with h1 | ⟨x, hx, q, hq⟩
    · have h1 : (runPacketC e (d.with f)).1.cache dst = some h := h1
      rcases (same_run e (d.with f)).cache with hk | ⟨q, h', hfam, h4, hans, hq, hk⟩
      · rw [hk] at h1; exact .inl h1
      · rw [hk] at h1
        unfold RouteCache.update at h1
        split at h1
        · cases h1
        · split at h1
          · rename_i hd
            cases h1
            exact .inr ⟨(e, f), by simp, q, hfam, hd.symm, hans⟩
          · exact .inl h1
    · exact .inr ⟨x, List.mem_cons_of_mem _ hx, q, hq⟩

/-! ### where the cache is harmless -/

/-- The kernel's answer for IPv4 depends on nothing but the destination: no policy routing by source, TOS, protocol or size. -/
def ByDestination (fib : FibReq → FibAns) : Prop := ∀ q q', q.family = 2 → q'.family = 2 → q.dst = q'.dst → fib q = fib q'

/-- **C85, partial.** While the kernel's routes stay the same and depend on the destination only, the cache makes no difference: in
whatever state a sequence of packets has left the device, the next packet gets the same action, leaves as the same frame and changes
tables and packet counters in the same way as without the cache; and a cache hit is counted instead of a successful lookup. What is
missing: routes do change, and the cache is then never corrected (`C85_stale`, `C85_never_refreshed`). -/
theorem C85_constant_partial (fib : FibReq → FibAns) (hby : ByDestination fib) (d0 : CDev) (h0 : ∀ k, d0.cache k = none)
    (l : List (CEnv × List U8)) (hl : ∀ x ∈ l, x.1.env.fib = fib) (e : CEnv) (he : e.env.fib = fib) (f : List U8) :
    let d := (d0.run l).1
    let r := runPacketC e (d.with f)
    let u := runPacket e.env ⟨f, d.dp, d.st, d.rt⟩
    r.2 = u.2 ∧ r.1.ps.frame = u.1.frame ∧ r.1.ps.dp = u.1.dp ∧ r.1.ps.st = u.1.st ∧
      (r.1.ps.rt = u.1.rt ∧ r.1.hits = d.hits ∨
        u.1.rt = { r.1.ps.rt with ip4Ok := r.1.ps.rt.ip4Ok + 1 } ∧ r.1.hits = d.hits + 1) := by
  intro d r u
  have hs := same_run e (d.with f)
  have heq : runPacket (e.env.withCache d.cache) ⟨f, d.dp, d.st, d.rt⟩ = u := by
    refine C72_ipv6_routes_unused (e := e.env) (fib' := (e.env.withCache d.cache).fib) ?_ _
    intro q hq
    unfold Env.withCache
    simp only
    split
    · cases hc : d.cache q.dst with
      | none => rfl
      | some h =>
        rcases C85_entry_origin d0 l q.dst h hc with h1 | ⟨x, hx, q', hfam, hd, hans⟩
        · rw [h0] at h1; cases h1
        · simp only
          rw [← hans, hl x hx, he]
          exact hby q' q hfam hq hd
    · rfl
  change SameRun e (d.with f) r (runPacket (e.env.withCache d.cache) ⟨f, d.dp, d.st, d.rt⟩) at hs
  rw [heq] at hs
  refine ⟨hs.out, hs.frame, hs.dp, hs.st, ?_⟩
  rcases hs.rt with ⟨h1, h2⟩ | ⟨h1, h2, _⟩
  · exact .inl ⟨h1, h2⟩
  · exact .inr ⟨h2, h1⟩

/-- Non-vacuity: a kernel that answers by destination, two packets, the second answered from the cache. -/
example : ByDestination DemoDp.env.fib ∧ ByDestination DemoDp.env4.fib ∧
    (DemoDp.cdev.run [(DemoDp.cenv DemoDp.env, DemoDp.up), (DemoDp.cenv DemoDp.env, DemoDp.up)]).1.hits = 1 ∧
    (DemoDp.cdev.run [(DemoDp.cenv DemoDp.env, DemoDp.up), (DemoDp.cenv DemoDp.env, DemoDp.up)]).1.rt.ip4Ok = 1 := by
  refine ⟨fun _ _ _ _ _ => rfl, ?_, by decide +kernel, by decide +kernel⟩
  intro q q' h h' hd
  show DemoDp.fib4 q = DemoDp.fib4 q'
  unfold DemoDp.fib4
  rw [h, h', hd]

/-- a kernel that routes packets from 10.60.0.1 through interface 7 and all others through interface 8 -/
def DemoDp.envSrc : Env := { DemoDp.env with
  fib := fun q => .ok (if q.src = [10, 60, 0, 1] then 7 else 8) (Vector.replicate 6 0xAA) (Vector.replicate 6 0xBB) }
/-- a packet from 10.60.0.2 to 8.8.8.8 -/
def DemoDp.upOther : List U8 := DemoDp.gpdu [0, 0, 1, 0] (DemoDp.ip4h 32 17 [10, 60, 0, 2] [8, 8, 8, 8] ++ DemoDp.udp4)

/-- **C85, policy routing.** Also without any change of routes: where the kernel routes by source address, the second of two packets to
one destination follows the route of the first one's source. -/
theorem C85_ignores_source :
    (DemoDp.cdev.run [(DemoDp.cenv DemoDp.envSrc, DemoDp.up), (DemoDp.cenv DemoDp.envSrc, DemoDp.upOther)]).2.map Prod.snd =
      [.ok (.redirect 7), .ok (.redirect 7)] ∧
    ((⟨DemoDp.dp, {}, {}⟩ : Dev).run [(DemoDp.envSrc, DemoDp.up), (DemoDp.envSrc, DemoDp.upOther)]).2 = [.redirect 7, .redirect 8] :=
  ⟨by decide +kernel, by decide +kernel⟩

end Eupf
