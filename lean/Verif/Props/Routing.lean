import Verif.Props.Tunnel
import Verif.Xdp.Counters
/-
C72, C73: next hops, and the counters of route lookups.
-/
namespace Eupf

/-! ### C72: the next hop is the kernel's -/

theorem macRewrite_req4 (e : Env) {f : List U8} (h : 34 ≤ f.length) (ans : FibAns) : fibReq4 e (macRewrite f ans) = fibReq4 e f := by
  obtain ⟨m, hm, heq⟩ := macRewrite_shape (f := f) (by omega) ans
  have ho : ∀ i, 12 ≤ i → oct (macRewrite f ans) i = oct f i := fun i hi => macRewrite_oct (by omega) ans hi
  have hd : ∀ i, 12 ≤ i → (macRewrite f ans).drop i = f.drop i := by
    intro i hi
    rw [heq, List.drop_append, hm, List.drop_of_length_le (by omega), List.nil_append, List.drop_drop]
    congr 1
    omega
  unfold fibReq4 be16 slice
  rw [ho _ (by omega), ho _ (by omega), ho _ (by omega), ho _ (by omega), hd _ (by omega), hd _ (by omega)]
theorem macRewrite_req6 (e : Env) {f : List U8} (h : 34 ≤ f.length) (ans : FibAns) : fibReq6 e (macRewrite f ans) = fibReq6 e f := by
  obtain ⟨m, hm, heq⟩ := macRewrite_shape (f := f) (by omega) ans
  have ho : ∀ i, 12 ≤ i → oct (macRewrite f ans) i = oct f i := fun i hi => macRewrite_oct (by omega) ans hi
  have hd : ∀ i, 12 ≤ i → (macRewrite f ans).drop i = f.drop i := by
    intro i hi
    rw [heq, List.drop_append, hm, List.drop_of_length_le (by omega), List.nil_append, List.drop_drop]
    congr 1
    omega
  unfold fibReq6 be16 slice
  rw [ho _ (by omega), ho _ (by omega), ho _ (by omega), hd _ (by omega), hd _ (by omega)]

/-- The question the UPF asks the kernel about a frame it is about to send: by its EtherType, IPv4 or IPv6. -/
def fibReq (e : Env) (f : List U8) : FibReq := if be16 f 12 = 0x86DD then fibReq6 e f else fibReq4 e f

/-- A frame leaving for a next hop: the kernel was asked about this very frame, and the frame carries the MAC addresses of the
answer and leaves through its interface. -/
def ToNextHop (e : Env) (g : List U8) (a : XAction) : Prop :=
  ∃ i smac dmac, e.fib (fibReq e g) = .ok i smac dmac ∧ g.take 6 = dmac.toList ∧ slice g 6 6 = smac.toList ∧
    a = if i = e.ifindex then .tx else .redirect i

theorem nextHop {e : Env} {g : List U8} {a : XAction} {req : FibReq} (hr : fibReq e g = req)
    (ha : a = routeAct e (e.fib req)) (hs : a.sent = true) (hrew : fibReq e (macRewrite g (e.fib req)) = fibReq e g) :
    ToNextHop e (macRewrite g (e.fib req)) a := by
  subst ha
  unfold ToNextHop
  rw [hrew, hr]
  cases hans : e.fib req with
  | fail rc =>
    rw [hans] at hs
    unfold routeAct at hs
    simp only at hs
    split at hs <;> cases hs
  | ok i smac dmac =>
    refine ⟨i, smac, dmac, rfl, ?_, ?_, rfl⟩
    · simp [macRewrite]
    · unfold macRewrite slice
      simp only
      rw [List.append_assoc, List.drop_left' (by simp), List.take_left' (by simp)]

theorem fibReq_4 {e : Env} {g : List U8} (h : be16 g 12 ≠ 0x86DD) : fibReq e g = fibReq4 e g := if_neg h
theorem fibReq_6 {e : Env} {g : List U8} (h : be16 g 12 = 0x86DD) : fibReq e g = fibReq6 e g := if_pos h
theorem fibReq_macRewrite {e : Env} {g : List U8} (h : 34 ≤ g.length) (ans : FibAns) : fibReq e (macRewrite g ans) = fibReq e g := by
  unfold fibReq
  rw [macRewrite_req4 e h, macRewrite_req6 e h]
  have : be16 (macRewrite g ans) 12 = be16 g 12 := by
    unfold be16
    rw [macRewrite_oct (by omega) ans (by omega), macRewrite_oct (by omega) ans (by omega)]
  rw [this]

theorem encap_type {f : List U8} (h : 14 ≤ f.length) (n : U16) (a b : U32) (t q : U8) (i : U32) :
    be16 (encapFrame f n a b t q i) 12 = 0x0800 ∧ 34 ≤ (encapFrame f n a b t q i).length := by
  constructor
  · unfold encapFrame be16
    simp only [List.append_assoc]
    have hl : (f.take 12).length = 12 := by rw [List.length_take]; omega
    generalize outerIp a b t (n + 44) ++ _ = x
    rw [oct_append (f.take 12), oct_append (f.take 12), hl, if_neg (by omega), if_neg (by omega)]
    simp [oct]
  · unfold encapFrame outerIp
    have : (put (fillIpHeader a b t (n + 44)) 10 (bytes16 (ipv4Csum (fillIpHeader a b t (n + 44))))).length = 20 := by
      rw [put_length]
      · rfl
      · rw [bytes16_length]; show 12 ≤ 20; omega
    simp only [List.length_append, this]
    simp
    omega

/-- in downlink -/
theorem down_nextHop {e : Env} {b dp : BpfObjects} {f fr : List U8} {p? rule} {n : U16} {a : XAction} (h : 14 ≤ f.length)
    (r : DownRes e b f p? rule n fr dp a) (hs : a.sent = true) : ToNextHop e fr a := by
  cases r with
  | unclassified _ | denied _ _ | policed _ _ _ | noRoom _ _ _ _ _ => cases hs
  | sent g _ _ _ _ _ hg =>
    have ht : be16 g 12 = 0x0800 ∧ 34 ≤ g.length := by rw [hg]; exact encap_type h ..
    exact nextHop (fibReq_4 (by rw [ht.1]; decide)) rfl hs (fibReq_macRewrite ht.2 _)

theorem cutFrame_ether {f : List U8} (hl : 14 ≤ f.length) (t : U16) : be16 (cutFrame f t) 12 = t := by
  have := cutFrame_tail hl t
  have h0 : oct (cutFrame f t) 12 = t.extractLsb' 8 8 := by
    have := congrArg (fun l => l.getD 0 0) this
    simpa [oct, bytes16_swap] using this
  have h1 : oct (cutFrame f t) 13 = t.extractLsb' 0 8 := by
    have := congrArg (fun l => l.getD 1 0) this
    simpa [oct, bytes16_swap] using this
  unfold be16
  rw [h0, h1]
  exact (cat16 t).symm

/-- **C72.** Whatever frame the UPF sends out, except for answers to GTP-U echo requests (which return to where the request came
from): the kernel's forwarding table was asked about exactly this packet, and the packet goes to the next hop in the answer: its MAC
addresses, its interface. -/
theorem C72_next_hop (e : Env) (s s' : PS) (a : XAction) (hrun : runPacket e s = (s', .ok a)) (hs : a.sent = true)
    (hecho : ¬ IsGtpMsg e s.frame 1) : ToNextHop e s'.frame a := by
  have res := entry_det hrun
  clear hrun
  generalize s'.frame = fr at res ⊢
  generalize s'.dp = dp at res
  cases res with
  | foreign _ | otherMsg _ _ _ => cases hs
  | echo h => exact absurd h hecho
  | down4 h r => exact down_nextHop (by have := h.ip.len; omega) r hs
  | down6 h r => exact down_nextHop (by have := h.ip.len; omega) r hs
  | gpdu hm r =>
    have hl34 := hm.gtpu.ip.len
    have hl := hm.len
    cases r with
    | unclassified _ | denied _ _ | policed _ => cases hs
    | garbled _ _ _ _ | selfOther _ _ _ _ _ => cases hs
    | n9 g _ _ _ _ _ hg =>
      have hlen : 34 ≤ g.length := by rw [hg, retunnel_length hl34 hl]; exact hl34
      have ht : be16 g 12 = 0x0800 := by
        obtain ⟨k, hk4⟩ := l4Off_ge s.frame
        have hgo : gtpOff s.frame = l4Off s.frame + 8 := rfl
        rw [← hm.gtpu.ip.type, hg]
        unfold be16
        rw [retunnel_oct hl34 hl _ _ _ _ (by omega) (by omega) (by omega), retunnel_oct hl34 hl _ _ _ _ (by omega) (by omega) (by omega)]
      exact nextHop (fibReq_4 (by rw [ht]; decide)) rfl hs (fibReq_macRewrite hlen _)
    | kept _ _ _ _ _ _ =>
      exact nextHop (fibReq_4 (by rw [hm.gtpu.ip.type]; decide)) rfl hs (fibReq_macRewrite hl34 _)
    | cut4 g _ _ _ _ _ _ hok hty hg _ =>
      have hlen : 34 ≤ g.length := by
        rcases hok with ⟨_, h⟩ | ⟨h, _⟩
        · rw [hg, cutFrame_length _ (by omega)]; omega
        · rw [hty] at h; cases h
      exact nextHop (fibReq_4 (by rw [hg, cutFrame_ether (by omega)]; decide)) rfl hs (fibReq_macRewrite hlen _)
    | cut6 g _ _ _ _ _ _ hok hty hg =>
      have hlen : 34 ≤ g.length := by
        rcases hok with ⟨h, _⟩ | ⟨_, h⟩
        · rw [hty] at h; cases h
        · rw [hg, cutFrame_length _ (by omega)]; omega
      exact nextHop (fibReq_6 (by rw [hg, cutFrame_ether (by omega)])) rfl hs (fibReq_macRewrite hlen _)
    | ping g _ _ _ _ _ _ hok hty hg hself hping r =>
      refine down_nextHop ?_ r hs
      rw [pingReply_length hping.1]
      have := hping.1; omega

/-- a route to 32.1.13.184 leads to interface 3, everything else is unreachable -/
def DemoDp.fib4 (q : FibReq) : FibAns :=
  if q.family = 2 ∧ q.dst.take 4 = [0x20, 0x01, 0x0d, 0xb8] then .ok 3 (Vector.replicate 6 1) (Vector.replicate 6 2) else .fail 2
def DemoDp.env4 : Env := { DemoDp.env with fib := DemoDp.fib4 }
/-- an IPv6 packet of the UE to 2001:db8::5 -/
def DemoDp.ue6 : List U8 :=
  [0x60, 0, 0, 0, 0, 0, 59, 64] ++ [0x20, 0x01, 0x0d, 0xb8, 0, 0, 0, 0, 0, 0, 0, 0, 0, 0, 0, 9] ++
    [0x20, 0x01, 0x0d, 0xb8, 0, 0, 0, 0, 0, 0, 0, 0, 0, 0, 0, 5]
def DemoDp.up6 : List U8 := DemoDp.gpdu [0, 0, 1, 0] DemoDp.ue6

/-- Non-vacuity: a frame is sent to the next hop; the same frame is dropped where the kernel says unreachable. -/
example : (runPacket DemoDp.env (DemoDp.ps DemoDp.up)).2 = .ok (.redirect 7) ∧ ¬ IsGtpMsg DemoDp.env DemoDp.up 1 ∧
    (runPacket DemoDp.env4 (DemoDp.ps DemoDp.up)).2 = .ok .drop :=
  ⟨by decide +kernel, fun h => absurd h.type (by decide +kernel), by decide +kernel⟩

/-! ### C72, IPv6: the kernel's IPv6 routes are never consulted -/

/-- What an IPv4 lookup reads of a request: `struct bpf_fib_lookup` has one 16 octet field for addresses of either family, of which
IPv4 uses the first 4. -/
def asIp4 (q : FibReq) : FibReq := { q with src := q.src.take 4, dst := q.dst.take 4 }
def Ip4Lookups (fib : FibReq → FibAns) : Prop := ∀ q, q.family = 2 → fib q = fib (asIp4 q)

/-- **C72, IPv6.** An IPv6 packet leaves for the next hop of the *IPv4* address formed by the first four octets of its destination. -/
theorem C72_ipv6_as_ipv4 (e : Env) (hk : Ip4Lookups e.fib) (s s' : PS) (a : XAction) (hrun : runPacket e s = (s', .ok a)) (hs : a.sent = true)
    (hecho : ¬ IsGtpMsg e s.frame 1) (h6 : be16 s'.frame 12 = 0x86DD) :
    ∃ q i smac dmac, q.family = 2 ∧ q.dst = slice s'.frame 38 4 ∧ q.src = slice s'.frame 22 4 ∧ e.fib q = .ok i smac dmac ∧
      s'.frame.take 6 = dmac.toList ∧ a = if i = e.ifindex then .tx else .redirect i := by
  obtain ⟨i, sm, dm, h1, h2, _, h4⟩ := C72_next_hop e s s' a hrun hs hecho
  rw [fibReq_6 h6, hk _ rfl] at h1
  refine ⟨_, i, sm, dm, rfl, ?_, ?_, h1, h2, h4⟩
  · show (slice s'.frame 38 16).take 4 = _
    unfold slice; rw [List.take_take]; rfl
  · show (slice s'.frame 22 16).take 4 = _
    unfold slice; rw [List.take_take]; rfl

/-- Non-vacuity: a packet to 2001:db8::5 leaves for the next hop of 32.1.13.184. -/
example : Ip4Lookups DemoDp.env4.fib ∧ ∃ s', runPacket DemoDp.env4 (DemoDp.ps DemoDp.up6) = (s', .ok (.redirect 3)) ∧
    ¬ IsGtpMsg DemoDp.env4 DemoDp.up6 1 ∧ be16 s'.frame 12 = 0x86DD := by
  refine ⟨?_, (runPacket DemoDp.env4 (DemoDp.ps DemoDp.up6)).1, ?_, fun h => absurd h.type (by decide +kernel), by decide +kernel⟩
  · intro q hq
    show DemoDp.fib4 q = DemoDp.fib4 (asIp4 q)
    unfold DemoDp.fib4 asIp4
    simp only [List.take_take, Nat.min_self]
  · have : (runPacket DemoDp.env4 (DemoDp.ps DemoDp.up6)).2 = .ok (.redirect 3) := by decide +kernel
    exact Prod.ext rfl this

section
variable {e : Env} {fib' : FibReq → FibAns} (h : ∀ q, q.family = 2 → fib' q = e.fib q)
include h

theorem routeIp4_fib (a b) : routeIp4 { e with fib := fib' } a b = routeIp4 e a b := by
  unfold routeIp4
  simp only [h]
  rfl
theorem routeIp6_fib (a b) : routeIp6 { e with fib := fib' } a b = routeIp6 e a b := by
  unfold routeIp6
  simp only [h]
  rfl
theorem send_fib (c d t q i) : sendToGtpTunnel { e with fib := fib' } c d t q i = sendToGtpTunnel e c d t q i := by
  unfold sendToGtpTunnel
  simp only [routeIp4_fib h]
  rfl
theorem downlinkTail_fib (c p f q) : downlinkTail { e with fib := fib' } c p f q = downlinkTail e c p f q := by
  unfold downlinkTail
  simp only [send_fib h]
theorem handleN6Ip4_fib (c) : handleN6Ip4 { e with fib := fib' } c = handleN6Ip4 e c := by
  unfold handleN6Ip4
  simp only [downlinkTail_fib h]
theorem handleN6Ip6_fib (c) : handleN6Ip6 { e with fib := fib' } c = handleN6Ip6 e c := by
  unfold handleN6Ip6
  simp only [downlinkTail_fib h]
theorem uplinkOut_fib (c) : uplinkOut { e with fib := fib' } c = uplinkOut e c := by
  unfold uplinkOut
  simp only [routeIp4_fib h, routeIp6_fib h, handleN6Ip4_fib h]
  rfl
theorem uplinkTail_fib (c p o f q) : uplinkTail { e with fib := fib' } c p o f q = uplinkTail e c p o f q := by
  unfold uplinkTail
  simp only [uplinkOut_fib h]
  rfl
theorem handleGtpPacket_fib (c) : handleGtpPacket { e with fib := fib' } c = handleGtpPacket e c := by
  unfold handleGtpPacket
  simp only [uplinkTail_fib h]
theorem process_fib : processPacket { e with fib := fib' } = processPacket e := by
  unfold processPacket handleIp4 handleIp6 n6Ip4 n6Ip6 handleGtpu
  simp only [handleGtpPacket_fib h, handleN6Ip4_fib h, handleN6Ip6_fib h]

/-- **C72, IPv6.** What the kernel would answer to an IPv6 lookup makes no difference to any packet, table or counter. -/
theorem C72_ipv6_routes_unused (s : PS) : runPacket { e with fib := fib' } s = runPacket e s := by
  unfold runPacket entrypoint
  rw [process_fib h]
end

/-- Non-vacuity: two environments with different IPv6 routes. -/
example : (∀ q : FibReq, q.family = 2 → (fun q : FibReq => if q.family = 10 then FibAns.fail 1 else DemoDp.env.fib q) q = DemoDp.env.fib q) ∧
    (fun q : FibReq => if q.family = 10 then FibAns.fail 1 else DemoDp.env.fib q) ≠ DemoDp.env.fib := by
  constructor
  · intro q hq
    simp only [hq]
    rw [if_neg (by decide)]
  · intro h
    have := congrFun h { family := 10, tos := 0, proto := 0, totLen := 0, src := [], dst := [], ifindex := 0 }
    simp [DemoDp.env] at this

end Eupf
