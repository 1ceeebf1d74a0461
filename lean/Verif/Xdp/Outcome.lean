import Verif.Xdp.Reply
/- All that can happen to a frame. Models no code. -/
namespace Eupf

/-- What can happen to a downlink packet `f` with the rule `rule` of the entry `pdr?` and the length field `n`. -/
inductive DownRes (e : Env) (b : BpfObjects) (f : List U8) (pdr? : Option PdrEntry) (rule : Option Rule) (n : U16) : List U8 → BpfObjects → XAction → Prop
  | unclassified : rule = none → DownRes e b f pdr? rule n f b .pass
  | denied {r : Rule} : rule = some r → (¬ ∃ far qer, PermitsDl b r far qer) → DownRes e b f pdr? rule n f b .drop
  | policed {r : Rule} {far qer} : rule = some r → PermitsDl b r far qer → rateDl e qer f.length = none → DownRes e b f pdr? rule n f b .drop
  | noRoom {pdr : PdrEntry} {r : Rule} {far qer start} : pdr? = some pdr → rule = some r → PermitsDl b r far qer → rateDl e qer f.length = some start →
      e.headroom = none → DownRes e b f pdr? rule n f (chargeDl b pdr r.qer start f.length) .aborted
  | sent {pdr : PdrEntry} {r : Rule} {far qer start} (g : List U8) : pdr? = some pdr → rule = some r → PermitsDl b r far qer → rateDl e qer f.length = some start →
      e.headroom ≠ none → g = encapFrame f n e.n3 far.remoteIP ((far.tlm >>> 8).truncate 8) qer.qfi far.teid →
      DownRes e b f pdr? rule n (macRewrite g (e.fib (fibReq4 e g))) (chargeDl b pdr r.qer start f.length) (routeAct e (e.fib (fibReq4 e g)))

theorem tail_outcome (e : Env) (s : PS) (c : Ctx) {f : List U8} (hs : s.frame = f) {n : U16} (hn : ctxLen c f = some n) {pdr : PdrEntry} {rule : Option Rule}
    (h4 : ∀ o, c.ip4 = some o → o + 4 ≤ f.length) (h6 : ∀ o, c.ip6 = some o → o + 6 ≤ f.length) (hl : 14 ≤ f.length) :
    ∃ fr dp a, Goes (onRule rule (fun r => downlinkTail e c pdr r.far r.qer)) s fr dp a ∧ DownRes e s.dp f (some pdr) rule n fr dp a := by
  subst hs
  cases hr : rule with
  | none => exact ⟨_, _, _, Goes.pure _ _, .unclassified rfl⟩
  | some r =>
    by_cases hp : ∃ far qer, PermitsDl s.dp r far qer
    · obtain ⟨far, qer, hp⟩ := hp
      have h := downlinkTail_permitted s e c pdr hp
      cases hrate : rateDl e qer s.frame.length with
      | none =>
        rw [hrate] at h
        exact ⟨_, _, _, Goes.done h, .policed rfl hp hrate⟩
      | some start =>
        rw [hrate] at h
        simp only at h
        have hsend := send_goes e { s with dp := chargeDl s.dp pdr r.qer start s.frame.length } c far.remoteIP ((far.tlm >>> 8).truncate 8) qer.qfi far.teid hn h4 h6 hl
        by_cases hh : e.headroom = none
        · rw [if_pos hh] at hsend
          exact ⟨_, _, _, Goes.via h rfl hsend, .noRoom rfl rfl hp hrate hh⟩
        · rw [if_neg hh] at hsend
          exact ⟨_, _, _, Goes.via h rfl hsend, .sent _ rfl rfl hp hrate hh rfl⟩
    · exact ⟨_, _, _, Goes.done (downlinkTail_denied s e c pdr r hp), .denied rfl hp⟩

theorem n6Ip4_outcome (e : Env) (s : PS) {c : Ctx} {p : U16 × U16} {f : List U8} (hs : s.frame = f) (hc : c.ip4 = some 14) (hc6 : c.ip6 = none) (hl : 34 ≤ f.length)
    (hp : packetPorts c s = (s, .ok p)) :
    ∃ fr dp a, Goes (handleN6Ip4 e c) s fr dp a ∧
      DownRes e s.dp f (s.dp.pdrDl4.lookup (be32 f 30)) (classify (s.dp.pdrDl4.lookup (be32 f 30)) (flow4 f 14 p).sat) (be16 f 16) fr dp a := by
  subst hs
  have h := n6Ip4_eval s e hc hl hp
  cases hk : s.dp.pdrDl4.lookup (be32 s.frame 30) with
  | none =>
    rw [hk] at h
    exact ⟨_, _, _, Goes.done h, .unclassified rfl⟩
  | some pdr =>
    rw [hk] at h
    simp only at h
    obtain ⟨fr, dp, a, g, d⟩ := tail_outcome e s c rfl (n := be16 s.frame 16) (pdr := pdr) (rule := classify (some pdr) (flow4 s.frame 14 p).sat)
      (by unfold ctxLen; rw [hc]) (by intro o ho; rw [hc] at ho; cases ho; omega) (by intro o ho; rw [hc6] at ho; cases ho) (by omega)
    exact ⟨fr, dp, a, Goes.eq h g, d⟩

theorem n6Ip6_outcome (e : Env) (s : PS) {c : Ctx} {p : U16 × U16} {f : List U8} (hs : s.frame = f) (hc : c.ip6 = some 14) (hc4 : c.ip4 = none) (hl : 54 ≤ f.length)
    (hp : packetPorts c s = (s, .ok p)) :
    ∃ fr dp a, Goes (handleN6Ip6 e c) s fr dp a ∧
      DownRes e s.dp f (s.dp.pdrDl6.lookup (be128 (slice f 38 16))) (classify (s.dp.pdrDl6.lookup (be128 (slice f 38 16))) (flow6 f 14 p).sat) (be16 f 18 + 40) fr dp a := by
  subst hs
  have h := n6Ip6_eval s e hc hl hp
  cases hk : s.dp.pdrDl6.lookup (be128 (slice s.frame 38 16)) with
  | none =>
    rw [hk] at h
    exact ⟨_, _, _, Goes.done h, .unclassified rfl⟩
  | some pdr =>
    rw [hk] at h
    simp only at h
    obtain ⟨fr, dp, a, g, d⟩ := tail_outcome e s c rfl (n := be16 s.frame 18 + 40) (pdr := pdr) (rule := classify (some pdr) (flow6 s.frame 14 p).sat)
      (by unfold ctxLen; rw [hc, hc4]) (by intro o ho; rw [hc4] at ho; cases ho) (by intro o ho; rw [hc] at ho; cases ho; omega) (by omega)
    exact ⟨fr, dp, a, Goes.eq h g, d⟩

/-- What can happen to an IPv4 downlink frame. -/
def DownRes4 (e : Env) (b : BpfObjects) (f : List U8) := DownRes e b f (b.pdrDl4.lookup (be32 f 30)) (dlRule4 b f) (be16 f 16)
def DownRes6 (e : Env) (b : BpfObjects) (f : List U8) := DownRes e b f (b.pdrDl6.lookup (be128 (slice f 38 16))) (dlRule6 b f) (be16 f 18 + 40)

theorem down4_outcome (e : Env) (s : PS) {f : List U8} (hs : s.frame = f) (h : IsDown4 e f) :
    ∃ fr dp a, Goes (processPacket e) s fr dp a ∧ DownRes4 e s.dp f fr dp a := by
  obtain ⟨d, st, sa, hp⟩ := process_down4 e hs h
  have hl := h.ip.len
  have hports : packetPorts { data := d, eth := some 0, ip4 := some 14, udp := down4Udp f, tcp := down4Tcp f } (s.withSt st) =
      (s.withSt st, .ok ((l4Ports f (l4Off f) (oct f 23)).getD (0, 0))) := by
    have hfr : (s.withSt st).frame = f := hs
    unfold l4Ports
    by_cases h17 : oct f 23 = 17
    · by_cases hh : l4Off f + 8 ≤ f.length
      · rw [if_pos h17, if_pos hh, packetPorts_udp (s.withSt st) (u := l4Off f) (by simp [down4Udp, h17, hh]) (by rw [hfr]; omega), hfr]; rfl
      · rw [if_pos h17, if_neg hh, packetPorts_none (s.withSt st) (by simp [down4Udp, hh]) (by simp [down4Tcp, h17])]; rfl
    · rw [if_neg h17]
      by_cases h6 : oct f 23 = 6
      · by_cases hh : l4Off f + 20 ≤ f.length
        · rw [if_pos h6, if_pos hh, packetPorts_tcp (s.withSt st) (u := l4Off f) (if_neg (fun x => h17 x.1)) (by simp [down4Tcp, h6, hh]) (by rw [hfr]; omega), hfr]; rfl
        · rw [if_pos h6, if_neg hh, packetPorts_none (s.withSt st) (if_neg (fun x => h17 x.1)) (by simp [down4Tcp, hh])]; rfl
      · rw [if_neg h6, packetPorts_none (s.withSt st) (if_neg (fun x => h17 x.1)) (if_neg (fun x => h6 x.1))]; rfl
  obtain ⟨fr, dp, a, g, d⟩ := n6Ip4_outcome e (s.withSt st) (f := f) hs rfl rfl hl hports
  exact ⟨fr, dp, a, Goes.via hp sa g, d⟩

theorem down6_outcome (e : Env) (s : PS) {f : List U8} (hs : s.frame = f) (h : IsDown6 f) :
    ∃ fr dp a, Goes (processPacket e) s fr dp a ∧ DownRes6 e s.dp f fr dp a := by
  obtain ⟨d, st, sa, hp⟩ := process_down6 e hs h
  have hl := h.ip.len
  have hports : packetPorts { data := d, eth := some 0, ip6 := some 14, tcp := down6Tcp f } (s.withSt st) =
      (s.withSt st, .ok (if oct f 20 = 17 then (0, 0) else (l4Ports f 54 (oct f 20)).getD (0, 0))) := by
    have hfr : (s.withSt st).frame = f := hs
    rcases h.proto with h6 | h17
    · rw [if_neg (by rw [h6]; decide)]
      unfold l4Ports
      rw [if_neg (by rw [h6]; decide), if_pos h6]
      by_cases hh : 54 + 20 ≤ f.length
      · rw [if_pos hh, packetPorts_tcp (s.withSt st) (u := 54) rfl (by unfold down6Tcp; rw [if_pos ⟨h6, hh⟩]) (by rw [hfr]; omega), hfr]; rfl
      · rw [if_neg hh, packetPorts_none (s.withSt st) rfl (by unfold down6Tcp; rw [if_neg (by omega)])]; rfl
    · rw [if_pos h17, packetPorts_none (s.withSt st) rfl (by unfold down6Tcp; rw [if_neg (by rw [h17]; simp)])]
  obtain ⟨fr, dp, a, g, d⟩ := n6Ip6_outcome e (s.withSt st) (f := f) hs rfl rfl hl hports
  exact ⟨fr, dp, a, Goes.via hp sa g, d⟩

/-- What can happen to a G-PDU `f`. -/
inductive UpRes (e : Env) (b : BpfObjects) (f : List U8) : List U8 → BpfObjects → XAction → Prop
  | unclassified : ulRule b f = none → UpRes e b f f b .pass
  | denied {r : Rule} : ulRule b f = some r → (¬ ∃ far qer, PermitsUl b r far qer) → UpRes e b f f b .drop
  | policed {r : Rule} {far qer} : ulRule b f = some r → PermitsUl b r far qer → rateUl e qer f.length = none → UpRes e b f f b .drop
  | n9 {pdr : PdrEntry} {r : Rule} {far qer start} (g : List U8) : b.pdrUl.lookup (gtpTeid f) = some pdr → ulRule b f = some r →
      PermitsUl b r far qer → rateUl e qer f.length = some start → far.ohc.getLsbD 0 = true → g = retunnelFrame f e.n9 far.remoteIP far.teid →
      UpRes e b f (macRewrite g (e.fib (fibReq4 e g))) (chargeUl b pdr r.qer start f.length) (routeAct e (e.fib (fibReq4 e g)))
  | kept {pdr : PdrEntry} {r : Rule} {far qer start} : b.pdrUl.lookup (gtpTeid f) = some pdr → ulRule b f = some r →
      PermitsUl b r far qer → rateUl e qer f.length = some start → far.ohc.getLsbD 0 = false → r.ohr ≠ 0 →
      UpRes e b f (macRewrite f (e.fib (fibReq4 e f))) (chargeUl b pdr r.qer start f.length) (routeAct e (e.fib (fibReq4 e f)))
  | garbled {pdr : PdrEntry} {r : Rule} {far qer start} (fr : List U8) : b.pdrUl.lookup (gtpTeid f) = some pdr → ulRule b f = some r →
      PermitsUl b r far qer → rateUl e qer f.length = some start → far.ohc.getLsbD 0 = false → r.ohr = 0 → ¬ cutOk f →
      UpRes e b f fr (chargeUl b pdr r.qer start f.length) .aborted
  | cut4 {pdr : PdrEntry} {r : Rule} {far qer start} (g : List U8) : b.pdrUl.lookup (gtpTeid f) = some pdr → ulRule b f = some r →
      PermitsUl b r far qer → rateUl e qer f.length = some start → far.ohc.getLsbD 0 = false → r.ohr = 0 → cutOk f →
      innerType f = some 0x0800 → g = cutFrame f 0x0800 → ¬ ToSelf e g →
      UpRes e b f (macRewrite g (e.fib (fibReq4 e g))) (chargeUl b pdr r.qer start f.length) (routeAct e (e.fib (fibReq4 e g)))
  | cut6 {pdr : PdrEntry} {r : Rule} {far qer start} (g : List U8) : b.pdrUl.lookup (gtpTeid f) = some pdr → ulRule b f = some r →
      PermitsUl b r far qer → rateUl e qer f.length = some start → far.ohc.getLsbD 0 = false → r.ohr = 0 → cutOk f →
      innerType f = some 0x86DD → g = cutFrame f 0x86DD →
      UpRes e b f (macRewrite g (e.fib (fibReq6 e g))) (chargeUl b pdr r.qer start f.length) (routeAct e (e.fib (fibReq6 e g)))
  | selfOther {pdr : PdrEntry} {r : Rule} {far qer start} (g fr : List U8) : b.pdrUl.lookup (gtpTeid f) = some pdr → ulRule b f = some r →
      PermitsUl b r far qer → rateUl e qer f.length = some start → far.ohc.getLsbD 0 = false → r.ohr = 0 → cutOk f →
      innerType f = some 0x0800 → g = cutFrame f 0x0800 → ToSelf e g → ¬ IsPing g →
      UpRes e b f fr (chargeUl b pdr r.qer start f.length) .aborted
  | ping {pdr : PdrEntry} {r : Rule} {far qer start} (g : List U8) {fr dp a} : b.pdrUl.lookup (gtpTeid f) = some pdr → ulRule b f = some r →
      PermitsUl b r far qer → rateUl e qer f.length = some start → far.ohc.getLsbD 0 = false → r.ohr = 0 → cutOk f →
      innerType f = some 0x0800 → g = cutFrame f 0x0800 → ToSelf e g → IsPing g →
      DownRes4 e (chargeUl b pdr r.qer start f.length) (pingReply g) fr dp a → UpRes e b f fr dp a

theorem oct_bytes32 (x : U32) : bytes32 x = [oct (bytes32 x) 0, oct (bytes32 x) 1, oct (bytes32 x) 2, oct (bytes32 x) 3] := rfl

theorem retunnel_oct {f : List U8} (h34 : 34 ≤ f.length) (hl : gtpOff f + 8 ≤ f.length) (saddr daddr teid : U32) (i : Nat)
    (h1 : ¬ (gtpOff f + 4 ≤ i ∧ i < gtpOff f + 8)) (h2 : ¬ (24 ≤ i ∧ i < 34)) (h3 : ¬ (l4Off f + 6 ≤ i ∧ i < l4Off f + 8)) :
    oct (retunnelFrame f saddr daddr teid) i = oct f i := by
  have hgo : gtpOff f = l4Off f + 8 := rfl
  unfold retunnelFrame
  simp only
  have l1 : (put f (gtpOff f + 4) (bytes32 (swap32 teid))).length = f.length := put_length (by rw [bytes32_length]; omega)
  have o1 : oct (put f (gtpOff f + 4) (bytes32 (swap32 teid))) i = oct f i := by
    rw [oct_put (by rw [bytes32_length]; omega), if_neg (by rw [bytes32_length]; omega)]
  generalize put f (gtpOff f + 4) (bytes32 (swap32 teid)) = f1 at *
  have l2 : (put f1 26 (bytes32 saddr)).length = f.length := by rw [put_length (by rw [bytes32_length]; omega), l1]
  have o2 : oct (put f1 26 (bytes32 saddr)) i = oct f i := by
    rw [oct_put (by rw [bytes32_length]; omega), if_neg (by rw [bytes32_length]; omega), o1]
  generalize put f1 26 (bytes32 saddr) = f2 at *
  have l3 : (put f2 30 (bytes32 daddr)).length = f.length := by rw [put_length (by rw [bytes32_length]; omega), l2]
  have o3 : oct (put f2 30 (bytes32 daddr)) i = oct f i := by
    rw [oct_put (by rw [bytes32_length]; omega), if_neg (by rw [bytes32_length]; omega), o2]
  generalize put f2 30 (bytes32 daddr) = f3 at *
  have l4 : (put f3 24 [0, 0]).length = f.length := by rw [put_length (by simp; omega), l3]
  have o4 : oct (put f3 24 [0, 0]) i = oct f i := by
    rw [oct_put (by simp; omega), if_neg (by simp; omega), o3]
  generalize put f3 24 [0, 0] = f4 at *
  have l5 : (put f4 24 (bytes16 (ipv4Csum (slice f4 14 20)))).length = f.length := by rw [put_length (by simp; omega), l4]
  have o5 : oct (put f4 24 (bytes16 (ipv4Csum (slice f4 14 20)))) i = oct f i := by
    rw [oct_put (by simp; omega), if_neg (by simp; omega), o4]
  rw [oct_put (by simp; omega), if_neg (by simp; omega), o5]

theorem l4Off_ge (f : List U8) : ∃ k, l4Off f = 14 + 4 * k := ⟨(oct f 14).toNat % 16, by unfold l4Off ip4End; omega⟩

theorem isLocal_iff (e : Env) (x : U32) : isLocalIp e x = true ↔ (swap32 x = e.n3Ip ∨ swap32 x = e.n9Ip) := by
  unfold isLocalIp Env.n3Ip Env.n9Ip
  simp only [decide_eq_true_eq, swap32_inj]

theorem out4_route (e : Env) (s : PS) (c : Ctx) (h4 : c.ip4 = some 14) (he : c.eth = some 0) (hl : 34 ≤ s.frame.length) (hn : ¬ ToSelf e s.frame) :
    Goes (uplinkOut e c) s (macRewrite s.frame (e.fib (fibReq4 e s.frame))) s.dp (routeAct e (e.fib (fibReq4 e s.frame))) := by
  unfold uplinkOut
  simp only [h4, he]
  refine Goes.l32 (by omega) ?_
  refine Goes.l8 (by omega) ?_
  rw [if_neg ?_]
  · refine Goes.cnt (fun _ => rfl) fun st => ?_
    exact routeIp4_goes e (s.withSt st) hl
  · intro h
    simp only [Bool.and_eq_true, decide_eq_true_eq, isLocal_iff, swap32_le] at h
    exact hn ⟨h.2, h.1⟩

theorem out6_route (e : Env) (s : PS) (c : Ctx) (h4 : c.ip4 = none) (h6 : c.ip6 = some 14) (he : c.eth = some 0) (hl : 54 ≤ s.frame.length) :
    Goes (uplinkOut e c) s (macRewrite s.frame (e.fib (fibReq6 e s.frame))) s.dp (routeAct e (e.fib (fibReq6 e s.frame))) := by
  unfold uplinkOut
  simp only [h4, h6, he, Option.isSome_some, if_true]
  refine Goes.cnt (fun _ => rfl) fun st => ?_
  exact routeIp6_goes e (s.withSt st) hl

theorem swapped_oct {f : List U8} (h : 34 ≤ f.length) {i : Nat} (hi : 34 ≤ i ∨ (12 ≤ i ∧ i < 26)) : oct (ipSwapped (macSwapped f)) i = oct f i := by
  have lm := macSwapped_length (f := f) (by omega)
  have om : oct (macSwapped f) i = oct f i := by
    unfold macSwapped
    rw [oct_put, if_neg, oct_put, if_neg]
    all_goals (try rw [put_length]) <;> (try rw [slice_length]) <;> (try rw [slice_length]) <;> omega
  unfold ipSwapped
  rw [oct_put, if_neg, oct_put, if_neg, om]
  all_goals (try rw [put_length]) <;> (try rw [bytes32_length]) <;> (try rw [bytes32_length]) <;> omega

theorem pingReply_length {f : List U8} (h : 42 ≤ f.length) : (pingReply f).length = f.length := by
  unfold pingReply
  simp only
  have l2 : (ipSwapped (macSwapped f)).length = f.length := by rw [ipSwapped_length, macSwapped_length] <;> (try rw [macSwapped_length]) <;> omega
  generalize ipSwapped (macSwapped f) = f2 at *
  have l3 : (put f2 34 [0]).length = f.length := by rw [put_length (by simp; omega), l2]
  generalize put f2 34 [0] = f3 at *
  have l4 : (put f3 35 [0]).length = f.length := by rw [put_length (by simp; omega), l3]
  generalize put f3 35 [0] = f4 at *
  rw [put_length (by simp; omega), l4]

theorem pingReply_oct {f : List U8} (h : 42 ≤ f.length) {i : Nat} (hi : i < 34 ∨ 38 ≤ i) : oct (pingReply f) i = oct (ipSwapped (macSwapped f)) i := by
  unfold pingReply
  simp only
  have l2 : (ipSwapped (macSwapped f)).length = f.length := by rw [ipSwapped_length, macSwapped_length] <;> (try rw [macSwapped_length]) <;> omega
  generalize ipSwapped (macSwapped f) = f2 at *
  have l3 : (put f2 34 [0]).length = f.length := by rw [put_length (by simp; omega), l2]
  have o3 : oct (put f2 34 [0]) i = oct f2 i := by rw [oct_put (by simp; omega), if_neg (by simp; omega)]
  generalize put f2 34 [0] = f3 at *
  have l4 : (put f3 35 [0]).length = f.length := by rw [put_length (by simp; omega), l3]
  have o4 : oct (put f3 35 [0]) i = oct f2 i := by rw [oct_put (by simp; omega), if_neg (by simp; omega), o3]
  generalize put f3 35 [0] = f4 at *
  rw [oct_put (by simp; omega), if_neg (by simp; omega), o4]
theorem pingReply_oct_lo {f : List U8} (h : 42 ≤ f.length) {i : Nat} (hi : i < 34) : oct (pingReply f) i = oct (ipSwapped (macSwapped f)) i := pingReply_oct h (.inl hi)

theorem Goes.bindEx {α β : Type} {m : X α} {k : α → X β} {b : α} {s : PS} {fr1 dp1} {P : List U8 → BpfObjects → β → Prop} (h1 : Goes m s fr1 dp1 b)
    (h2 : ∀ s' : PS, s'.frame = fr1 → s'.dp = dp1 → ∃ fr dp a, Goes (k b) s' fr dp a ∧ P fr dp a) : ∃ fr dp a, Goes (m >>= k) s fr dp a ∧ P fr dp a := by
  obtain ⟨st, rt, g1, g2⟩ := h1
  obtain ⟨fr, dp, a, ⟨st', rt', g3, g4⟩, hp⟩ := h2 ⟨fr1, dp1, st, rt⟩ rfl rfl
  exact ⟨fr, dp, a, ⟨st', rt', g3.trans g1, by rw [bind_run g2, g4]⟩, hp⟩

theorem gpdu_outcome (e : Env) (s : PS) {f : List U8} (hs : s.frame = f) (h : IsGtpMsg e f 255) :
    ∃ fr dp a, Goes (processPacket e) s fr dp a ∧ UpRes e s.dp f fr dp a := by
  obtain ⟨st, sa, hp⟩ := process_msg e hs h
  rw [if_pos rfl] at hp
  have hl := h.len
  have hl34 := h.gtpu.ip.len
  have hgo : gtpOff f = l4Off f + 8 := rfl
  have hproto := h.gtpu.proto
  have h := gpdu_eval (s.withSt st) e hs hl
  rw [PS.withSt_dp] at h
  cases hk : s.dp.pdrUl.lookup (gtpTeid f) with
  | none =>
    rw [hk] at h
    exact ⟨_, _, _, Goes.via hp sa (Goes.done h), hs ▸ .unclassified (by unfold ulRule; rw [hs, hk])⟩
  | some pdr =>
    rw [hk] at h
    simp only at h
    cases hr : ulRule s.dp f with
    | none =>
      rw [hr] at h
      exact ⟨_, _, _, Goes.via hp sa (Goes.done h), hs ▸ .unclassified (hs ▸ hr)⟩
    | some r =>
      rw [hr] at h
      simp only [onRule] at h
      by_cases hpm : ∃ far qer, PermitsUl s.dp r far qer
      · obtain ⟨far, qer, hpm⟩ := hpm
        have ht := uplinkTail_permitted (s.withSt st) e (ctxU f) pdr hpm
        rw [PS.withSt_frame, hs] at ht
        cases hrate : rateUl e qer f.length with
        | none =>
          rw [hrate] at ht
          exact ⟨_, _, _, Goes.via (hp.trans h) sa (Goes.done ht), hs ▸ .policed (hs ▸ hr) hpm (hs ▸ hrate)⟩
        | some start =>
          rw [hrate] at ht
          simp only [PS.withSt_dp] at ht
          obtain ⟨s', hs'⟩ : ∃ s' : PS, s' = ⟨f, chargeUl s.dp pdr r.qer start f.length, st, s.rt⟩ := ⟨_, rfl⟩
          have f' : s'.frame = f := by rw [hs']
          have d' : s'.dp = chargeUl s.dp pdr r.qer start f.length := by rw [hs']
          have to : ∀ {fr dp a}, Goes (uplinkHeaders e (ctxU f) far r.ohr >>= fun x => if x.snd = true then uplinkOut e x.fst else pure XAction.aborted) s' fr dp a →
              Goes (processPacket e) s fr dp a := by
            intro fr dp a g
            rw [hs'] at g
            exact Goes.via (hp.trans (h.trans ht)) sa g
          by_cases hoc : far.ohc.getLsbD 0 = true
          · have hub : ¬ (far.ohc &&& 0x01 = 0) := by rw [bit0_iff, hoc]; simp
            refine ⟨_, _, _, to ?_, .n9 _ hk hr hpm hrate hoc rfl⟩
            have hx : Goes (uplinkHeaders e (ctxU f) far r.ohr) s' (retunnelFrame f e.n9 far.remoteIP far.teid) s'.dp (ctxU f, true) := by
              unfold uplinkHeaders
              rw [if_pos hub]
              exact Goes.sub (retunnel_goes s' f' hl34 hl _ _ _) fun s2 f2 d2 => Goes.ret f2 d2
            refine Goes.sub hx fun s2 f2 d2 => ?_
            rw [if_pos rfl]
            have hout := out4_route e s2 (ctxU f) rfl rfl (by rw [f2, retunnel_length hl34 hl]; exact hl34) (by
              rintro ⟨q, _⟩
              obtain ⟨k, hk4⟩ := l4Off_ge f
              rw [f2, retunnel_oct hl34 hl _ _ _ _ (by omega) (by omega) (by omega), hproto] at q
              revert q; decide)
            rw [f2, d2, d'] at hout
            exact hout
          · have hoc' : far.ohc.getLsbD 0 = false := by simpa using hoc
            have hub : far.ohc &&& 0x01 = 0 := by rw [bit0_iff, hoc']
            by_cases hohr : r.ohr = 0
            · have hcut : uplinkHeaders e (ctxU f) far r.ohr s' = removeGtpHeader (ctxU f) s' := by
                unfold uplinkHeaders; rw [if_neg ((fun hne => hne hub)), if_pos hohr]
              by_cases hok : cutOk f
              · obtain ⟨t, c, htt, gg, ce, cu, ct, hcc⟩ := (cut_goes s' f' hl).1 hok
                rcases hcc with ⟨rfl, c4, c6, hlen⟩ | ⟨rfl, c4, c6, hlen⟩
                · have lg : (cutFrame f 0x0800).length = f.length - cutLen f := cutFrame_length _ (by omega)
                  by_cases hself : ToSelf e (cutFrame f 0x0800)
                  · have hsw : oct (ipSwapped (macSwapped (cutFrame f 0x0800))) 34 = oct (cutFrame f 0x0800) 34 := swapped_oct (by omega) (.inl (by omega))
                    have pre : ∀ {fr dp a}, (∀ s2 : PS, s2.frame = cutFrame f 0x0800 → s2.dp = chargeUl s.dp pdr r.qer start f.length →
                        Goes (prepareIcmpEchoReply c >>= fun ok => if ok = true then handleN6Ip4 e c else pure .aborted) s2 fr dp a) → Goes (processPacket e) s fr dp a := by
                      intro fr dp a g
                      refine to (Goes.sub (Goes.eq hcut gg) fun s2 f2 d2 => ?_)
                      rw [if_pos rfl]
                      unfold uplinkOut
                      simp only [c4]
                      refine Goes.l32 (by rw [f2]; omega) ?_
                      refine Goes.l8 (by rw [f2]; omega) ?_
                      rw [if_pos ?_]
                      · exact g s2 f2 (d2.trans d')
                      · simp only [Bool.and_eq_true, decide_eq_true_eq, isLocal_iff, swap32_le, f2]
                        exact ⟨hself.2, hself.1⟩
                    by_cases hping : IsPing (cutFrame f 0x0800)
                    · have key : ∃ fr dp a, Goes (uplinkHeaders e (ctxU f) far r.ohr >>= fun x => if x.snd = true then uplinkOut e x.fst else pure XAction.aborted) s' fr dp a ∧
                          DownRes4 e (chargeUl s.dp pdr r.qer start f.length) (pingReply (cutFrame f 0x0800)) fr dp a := by
                        refine Goes.bindEx (Goes.eq hcut gg) fun s2 f2 d2 => ?_
                        have hpg := (ping_goes s2 c c4 ce (by rw [f2]; omega)).1 (by rw [f2, hsw]; exact hping)
                        have key2 : ∃ fr dp a, Goes (prepareIcmpEchoReply c >>= fun ok => if ok = true then handleN6Ip4 e c else pure .aborted) s2 fr dp a ∧
                            DownRes4 e (chargeUl s.dp pdr r.qer start f.length) (pingReply (cutFrame f 0x0800)) fr dp a := by
                          refine Goes.bindEx hpg fun s3 f3 d3 => ?_
                          rw [if_pos rfl]
                          have l3 : s3.frame.length = (cutFrame f 0x0800).length := by rw [f3, f2, pingReply_length (by have := hping.1; omega)]
                          have o23 : oct s3.frame 23 = 1 := by rw [f3, f2, pingReply_oct_lo (by have := hping.1; omega) (by omega), swapped_oct (by omega) (.inr (by omega))]; exact hself.1
                          have hpp : packetPorts c s3 = (s3, .ok ((l4Ports s3.frame (l4Off s3.frame) (oct s3.frame 23)).getD (0, 0))) := by
                            rw [packetPorts_none s3 cu ct, o23]; rfl
                          have := n6Ip4_outcome e s3 rfl c4 c6 (by omega) hpp
                          rw [f3, f2, d3, d2, d'] at this
                          exact this
                        obtain ⟨fr, dp, a, g2, hres⟩ := key2
                        refine ⟨fr, dp, a, ?_, hres⟩
                        rw [if_pos rfl]
                        unfold uplinkOut
                        simp only [c4]
                        refine Goes.l32 (by rw [f2]; omega) ?_
                        refine Goes.l8 (by rw [f2]; omega) ?_
                        rw [if_pos ?_]
                        · exact g2
                        · simp only [Bool.and_eq_true, decide_eq_true_eq, isLocal_iff, swap32_le, f2]
                          exact ⟨hself.2, hself.1⟩
                      obtain ⟨fr, dp, a, g2, hres⟩ := key
                      exact ⟨fr, dp, a, to g2, .ping _ hk hr hpm hrate hoc' hohr hok htt rfl hself hping hres⟩
                    · refine ⟨ipSwapped (macSwapped (cutFrame f 0x0800)), _, _, pre fun s2 f2 d2 => ?_, .selfOther _ _ hk hr hpm hrate hoc' hohr hok htt rfl hself hping⟩
                      have := (ping_goes s2 c c4 ce (by rw [f2]; omega)).2 (by rw [f2, hsw]; exact hping)
                      rw [f2, d2] at this
                      exact Goes.sub this fun s3 f3 d3 => Goes.ret f3 d3
                  · refine ⟨_, _, _, to ?_, .cut4 _ hk hr hpm hrate hoc' hohr hok htt rfl hself⟩
                    refine Goes.sub (Goes.eq hcut gg) fun s2 f2 d2 => ?_
                    rw [if_pos rfl]
                    have := out4_route e s2 c c4 ce (by rw [f2]; omega) (by rw [f2]; exact hself)
                    rw [f2, d2, d'] at this
                    exact this
                · have lg : (cutFrame f 0x86DD).length = f.length - cutLen f := cutFrame_length _ (by omega)
                  refine ⟨_, _, _, to ?_, .cut6 _ hk hr hpm hrate hoc' hohr hok htt rfl⟩
                  refine Goes.sub (Goes.eq hcut gg) fun s2 f2 d2 => ?_
                  rw [if_pos rfl]
                  have := out6_route e s2 c c4 c6 ce (by rw [f2]; omega)
                  rw [f2, d2, d'] at this
                  exact this
              · obtain ⟨c, fr, gg⟩ := (cut_goes s' f' hl).2 hok
                refine ⟨fr, _, _, to ?_, .garbled _ hk hr hpm hrate hoc' hohr hok⟩
                refine Goes.sub (Goes.eq hcut gg) fun s2 f2 d2 => ?_
                exact Goes.ret f2 (d2.trans d')
            · refine ⟨_, _, _, to ?_, .kept hk hr hpm hrate hoc' hohr⟩
              have hx : Goes (uplinkHeaders e (ctxU f) far r.ohr) s' s'.frame s'.dp (ctxU f, true) := by
                unfold uplinkHeaders; rw [if_neg ((fun hne => hne hub)), if_neg hohr]; exact Goes.pure _ _
              refine Goes.sub hx fun s2 f2 d2 => ?_
              rw [if_pos rfl]
              have := out4_route e s2 (ctxU f) rfl rfl (by rw [f2, f']; exact hl34) (by
                rintro ⟨q, _⟩; rw [f2, f', hproto] at q; revert q; decide)
              rw [f2, d2, d', f'] at this
              exact this
      · exact ⟨_, _, _, Goes.via (hp.trans h) sa (Goes.done (uplinkTail_denied (s.withSt st) e _ pdr r hpm)), hs ▸ .denied (hs ▸ hr) hpm⟩

/-- All that can happen to a frame. -/
inductive PacketRes (e : Env) (b : BpfObjects) (f : List U8) : List U8 → BpfObjects → XAction → Prop
  | foreign : Foreign e f → PacketRes e b f f b .pass
  | otherMsg {t : U8} : IsGtpMsg e f t → t ≠ 255 → t ≠ 1 → PacketRes e b f f b .pass
  | echo : IsGtpMsg e f 1 → PacketRes e b f (echoFrame f) b .tx
  | gpdu {fr dp a} : IsGtpMsg e f 255 → UpRes e b f fr dp a → PacketRes e b f fr dp a
  | down4 {fr dp a} : IsDown4 e f → DownRes4 e b f fr dp a → PacketRes e b f fr dp a
  | down6 {fr dp a} : IsDown6 f → DownRes6 e b f fr dp a → PacketRes e b f fr dp a

theorem packet_outcome (e : Env) (s : PS) :
    ∃ fr dp a, Goes (processPacket e) s fr dp a ∧ PacketRes e s.dp s.frame fr dp a := by
  rcases frame_cases e s.frame with ⟨t, ht⟩ | h4 | h6 | hf
  · by_cases h255 : t = 255
    · subst h255
      obtain ⟨fr, dp, a, g, r⟩ := gpdu_outcome e s rfl ht
      exact ⟨fr, dp, a, g, .gpdu ht r⟩
    · obtain ⟨st, sa, hp⟩ := process_msg e rfl ht
      rw [if_neg h255] at hp
      by_cases h1 : t = 1
      · subst h1
        rw [if_pos rfl] at hp
        exact ⟨_, _, _, Goes.via hp sa (echo_goes (s.withSt st) rfl ht.gtpu.ip.len ht.len), .echo ht⟩
      · rw [if_neg h1] at hp
        exact ⟨_, _, _, Goes.via (m' := pure .pass) hp sa (Goes.pure _ _), .otherMsg ht h255 h1⟩
  · obtain ⟨fr, dp, a, g, r⟩ := down4_outcome e s rfl h4
    exact ⟨fr, dp, a, g, .down4 h4 r⟩
  · obtain ⟨fr, dp, a, g, r⟩ := down6_outcome e s rfl h6
    exact ⟨fr, dp, a, g, .down6 h6 r⟩
  · obtain ⟨st, sa, hp⟩ := process_foreign e rfl hf
    exact ⟨_, _, _, Goes.via (m' := pure .pass) hp sa (Goes.pure _ _), .foreign hf⟩

/-- The same of the whole program, with the action counted. -/
theorem entry_outcome (e : Env) (s : PS) :
    ∃ s' a, runPacket e s = (s', .ok a) ∧ PacketRes e s.dp s.frame s'.frame s'.dp a ∧
      s'.st.actions = fun i => if i = a.code then s.st.actions i + 1 else s.st.actions i := by
  obtain ⟨fr, dp, a, ⟨st, rt, sa, h⟩, r⟩ := packet_outcome e s
  refine ⟨⟨fr, dp, { st with actions := fun i => if i = a.code then st.actions i + 1 else st.actions i }, rt⟩, a, ?_, r, ?_⟩
  · unfold runPacket entrypoint
    rw [bind_run h]; rfl
  · simp only [show st.actions = s.st.actions from sa]

/-- the result is determined -/
theorem entry_det {e : Env} {s s' : PS} {a : XAction} (h : runPacket e s = (s', .ok a)) : PacketRes e s.dp s.frame s'.frame s'.dp a := by
  obtain ⟨s1, a1, h1, r, _⟩ := entry_outcome e s
  rw [h] at h1; cases h1; exact r

end Eupf
