import Verif.Props.FilterText
/-
C92: service for UEs with IPv6 addresses, from the request to the packet.
-/
namespace Eupf

/-- **C92, TCP and UDP to the address given.** A Session Establishment Request that was accepted asked for packets to the IPv6 address `ip`
(fitting the PDR's filter, if it has one) to be forwarded in the tunnel to `peer`, TEID `teid`, with an open gate and no rate limit. `ip`
was not used by a PDR of any session. Then after every later history of messages that are not about this session and do not give `ip`, and
packets, every TCP or UDP frame to `ip` leaves towards `peer` as the unchanged packet in exactly that tunnel (or gets what the route
towards `peer` says). Missing: packets of other protocols, with extension headers, or to other addresses of the UE's prefix (false, see
below). -/
theorem C92_downlink_partial {cfg : NodeCfg} {rm : Option ResourceManager} {p f q u : U32} {h1 : List (Ev × Outcome)} {n1 : Node}
    (H1 : HistP (fun n e => e.refsKnown n) (Node.init cfg rm (BpfObjects.load p f q u)) h1 n1)
    {a : Addr} {r : EstReq} {n2 : Node} {resp : Resp} (hstep : n1.step (.establish a r) = (n2, .reply resp)) (hacc : resp.cause = 1)
    {pie : PdrIE} {fie : FarIE} {qie : QerIE} {ip : Ip6} (hask : AsksRule r pie fie qie (.dl6 ip))
    {peer : Ip4} {teid : U32} {tos : U8} (hfar : fie.intoTunnel peer teid tos)
    (hgate : qie.gateDL.getD 0 = 0) (hmbr : qie.mbrDL.getD 0 = 0) (hused : ¬ n1.used (.dl6 ip))
    {seid : U64} (hse : resp.fseid = some seid) {h2 : List (Ev × Outcome)} {n3 : Node} (H2 : HistP (Elsewhere a seid (.dl6 ip)) n2 h2 n3)
    (hb : attempts h2 + attempts h1 + 1 < 2 ^ 64 - 2)
    (e : Env) (s : PS) (hdp : s.dp = n3.dp) (hd : IsDown6 s.frame) (hip : be128 (slice s.frame 38 16) = ip) (hfit : pie.fits (downFlow6 s.frame).sat)
    (hroom : e.headroom ≠ none) :
    ∃ s' fib, runPacket e s = (s', .ok (routeAct e (e.fib fib))) ∧ fib.dst = slice s'.frame 30 4 ∧
      IsTunnelled ⟨e.n3Ip, peer, tos, qie.qfi.getD 0, teid⟩ (be16 s.frame 18 + 40) (s.frame.drop 14) s'.frame :=
  downlink_served6 hfar hgate hmbr (asked_rule H1 hstep hacc hask (by simp) (fun h => h) hused hse H2 hb) e s hdp hd hip hfit hroom

/-- **C92 fails: other protocols.** An IPv6 frame whose next header is neither TCP nor UDP (ICMPv6, any extension header, ESP, ...) goes to
the host unchanged, whatever sessions there are. -/
theorem C92_other_protocols (e : Env) (s : PS) (h : IsIp6 s.frame) (ht : oct s.frame 20 ≠ 6) (hu : oct s.frame 20 ≠ 17) :
    ∃ s', runPacket e s = (s', .ok .pass) ∧ s'.frame = s.frame ∧ s'.dp = s.dp := by
  refine C25_unclassified_untouched e s (.foreign ⟨fun _ x => ?_, fun x => ?_, fun x => ?_⟩)
  · exact absurd (h.type.symm.trans x.gtpu.ip.type) (by decide)
  · exact absurd (h.type.symm.trans x.ip.type) (by decide)
  · rcases x.proto with x | x
    · exact ht x
    · exact hu x

/-- **C92 fails: dual stack, and prefixes.** If no message ever had a PDR that gives `ip` as the UE's IPv6 address *without giving an IPv4
address too*, then every frame to `ip` goes to the host unchanged. So the IPv6 address of a PDR with both is not served; nor are the
other addresses of a UE whose PDR gives a prefix by one of its addresses. -/
theorem C92_only_exact_address {cfg : NodeCfg} {rm : Option ResourceManager} {p f q u : U32} {ip : Ip6} {h : List (Ev × Outcome)} {n : Node}
    (H : HistP (NeverGiven (.dl6 ip)) (Node.init cfg rm (BpfObjects.load p f q u)) h n)
    (e : Env) (s : PS) (hdp : s.dp = n.dp) (hd : IsDown6 s.frame) (hip : be128 (slice s.frame 38 16) = ip) :
    ∃ s', runPacket e s = (s', .ok .pass) ∧ s'.frame = s.frame ∧ s'.dp = s.dp :=
  C25_unknown_ue6 e s hd (by rw [hip, hdp]; exact (never_given (by simp) H).1)

/-! ### concrete cases -/

/-- 2001:db8:1:1::1, 2001:db8:1:1::2 -/
def Demo.ue6 : Ip6 := 0x20010db8000100010000000000000001
def Demo.ue6b : Ip6 := 0x20010db8000100010000000000000002
/-- an IPv6 frame to 2001:db8:1:1::`i` with this next header and 12 octets of payload -/
def DemoDp.to6 (proto i : U8) : List U8 :=
  macsIn ++ [0x86, 0xDD] ++ ([0x60, 0, 0, 0, 0, 12, proto, 64] ++ [0x20, 0x01, 0x0d, 0xb8, 0, 9, 0, 0, 0, 0, 0, 0, 0, 0, 0, 9] ++
    [0x20, 0x01, 0x0d, 0xb8, 0, 1, 0, 1, 0, 0, 0, 0, 0, 0, 0, i] ++ udp4)
/-- a PDR for these UE addresses -/
def Demo.toUe6 (i : U16) (far : U32) (v4 : Option Ip4) (ip : Ip6) : PdrIE :=
  { pdrId := some i, farId := some far, qerId := some 1, pdi := some { ueip := some (some { ipv4 := v4, ipv6 := some ip }) } }
theorem Demo.names_toUe6 {i : U16} {far : U32} {v4 : Option Ip4} {ip x : Ip6} (h : (Demo.toUe6 i far v4 ip).names (.dl6 x)) : v4 = none ∧ x = ip := by
  obtain ⟨pdi, f, a1, -, a2, a3, a4⟩ := h; cases a1; cases a2; cases a4; exact ⟨a3, rfl⟩

def Demo.req6 : EstReq := Demo.req [Demo.toUe6 1 1 none Demo.ue6]
def Demo.n6 : Node := (Demo.nSvc0.step (.establish 1 Demo.req6)).1
theorem Demo.n6_step : Demo.nSvc0.step (.establish 1 Demo.req6) = (Demo.n6, .reply Demo.svcResp) := by
  have : (Demo.nSvc0.step (.establish 1 Demo.req6)).2 = .reply Demo.svcResp := by decide +kernel
  exact Prod.ext (by simp only [Demo.n6]) this
theorem DemoDp.to6_down : IsDown6 (DemoDp.to6 17 1) ∧ IsDown6 (DemoDp.to6 17 2) := ⟨⟨⟨by decide, by decide⟩, .inr (by decide)⟩, ⟨⟨by decide, by decide⟩, .inr (by decide)⟩⟩

/-- `C92_downlink_partial` applied: every TCP or UDP frame to 2001:db8:1:1::1 leaves in tunnel 0x200. -/
example (e : Env) (s : PS) (hdp : s.dp = Demo.n6.dp) (hd : IsDown6 s.frame) (hip : be128 (slice s.frame 38 16) = Demo.ue6) (hroom : e.headroom ≠ none) :
    ∃ s' fib, runPacket e s = (s', .ok (routeAct e (e.fib fib))) ∧ fib.dst = slice s'.frame 30 4 ∧
      IsTunnelled ⟨e.n3Ip, 0x0A000314, 0, 9, 0x200⟩ (be16 s.frame 18 + 40) (s.frame.drop 14) s'.frame := by
  obtain ⟨h1, H1, b1⟩ := Demo.two_hist
  exact C92_downlink_partial (qie := { qerId := some 1, qfi := some 9 }) (pie := Demo.toUe6 1 1 none Demo.ue6) (fie := Demo.into 1 0x200) H1 Demo.n6_step rfl
    ⟨by decide, ⟨_, _, rfl, rfl, rfl, rfl, rfl, rfl⟩, ⟨[], [], rfl, by simp⟩, ⟨1, [], _, rfl, rfl, rfl, by decide⟩, ⟨1, [], [], rfl, rfl, rfl, by simp⟩⟩
    (Demo.into_tunnel ..) rfl rfl (Demo.two_unused _) rfl .init (by rw [b1]; decide) e s hdp hd hip
    (fun c cs f (h : none = some (c :: cs)) => (by cases h)) hroom
example : (runPacket DemoDp.env ⟨DemoDp.to6 17 1, Demo.n6.dp, {}, {}⟩).2 = .ok (.redirect 7) ∧
    be32 (runPacket DemoDp.env ⟨DemoDp.to6 17 1, Demo.n6.dp, {}, {}⟩).1.frame 46 = 0x200 ∧
    be128 (slice (DemoDp.to6 17 1) 38 16) = Demo.ue6 := ⟨by decide +kernel, by decide +kernel, by decide +kernel⟩

/-- **C92 fails: a ping of the UE.** The session is for 2001:db8:1:1::1; an ICMPv6 frame to it is not forwarded, a UDP frame is. -/
theorem C92_ping_not_forwarded : (runPacket DemoDp.env ⟨DemoDp.to6 58 1, Demo.n6.dp, {}, {}⟩).2 = .ok .pass ∧
    (runPacket DemoDp.env ⟨DemoDp.to6 17 1, Demo.n6.dp, {}, {}⟩).2 = .ok (.redirect 7) ∧ IsIp6 (DemoDp.to6 58 1) :=
  ⟨by decide +kernel, by decide +kernel, by decide, by decide⟩

/-- **C92 fails: the UE's other addresses.** UE IP Address without prefix length stands for the /64 prefix (3GPP TS 29.244, 8.2.62).
A frame to 2001:db8:1:1::2 is not forwarded. -/
theorem C92_prefix_not_served : ∃ h, HistP (NeverGiven (.dl6 Demo.ue6b)) Demo.n0 h Demo.n6 ∧ Demo.ue6.toNat / 2 ^ 64 = Demo.ue6b.toNat / 2 ^ 64 ∧
    be128 (slice (DemoDp.to6 17 2) 38 16) = Demo.ue6b ∧ IsDown6 (DemoDp.to6 17 2) ∧
    (runPacket DemoDp.env ⟨DemoDp.to6 17 2, Demo.n6.dp, {}, {}⟩).2 = .ok .pass := by
  have s1 := HistP.step (P := NeverGiven (.dl6 Demo.ue6b)) (n0 := Demo.n0) (.assocSetup 1 1 (some (some ())) (some (some ()))) .init
    ⟨trivial, id, id⟩ (by decide +kernel)
  have s2 := HistP.step (.assocSetup 2 1 (some (some ())) (some (some ()))) s1 ⟨trivial, id, id⟩ (by decide +kernel)
  have hn : NeverGiven (.dl6 Demo.ue6b) Demo.nSvc0 (.establish 1 Demo.req6) := by
    refine ⟨trivial, ?_, id⟩
    rintro ⟨ie, hie, h⟩
    have hie : ie ∈ [Demo.toUe6 1 1 none Demo.ue6] := hie
    rw [List.mem_singleton] at hie
    subst hie
    exact absurd (Demo.names_toUe6 h).2 (by decide)
  have s3 := HistP.snoc (n := Demo.nSvc0) s2 hn Demo.n6_step
  exact ⟨_, s3, by decide +kernel, by decide +kernel, DemoDp.to6_down.2, by decide +kernel⟩

/-- a PDR with an IPv4 and an IPv6 address -/
def Demo.req46 : EstReq := Demo.req [Demo.toUe6 1 1 (some 0x0A3C0001) Demo.ue6]
def Demo.n46 : Node := (Demo.nSvc0.step (.establish 1 Demo.req46)).1
theorem Demo.n46_step : Demo.nSvc0.step (.establish 1 Demo.req46) = (Demo.n46, .reply Demo.svcResp) := by
  have : (Demo.nSvc0.step (.establish 1 Demo.req46)).2 = .reply Demo.svcResp := by decide +kernel
  exact Prod.ext (by simp only [Demo.n46]) this

/-- **C92 fails: dual stack.** The PDR gives both addresses of the UE. Frames to its IPv4 address are forwarded, all frames to its IPv6
address go to the host. -/
theorem C92_dual_stack : Demo.nSvc0.step (.establish 1 Demo.req46) = (Demo.n46, .reply Demo.svcResp) ∧ Demo.svcResp.cause = 1 ∧
    (runPacket DemoDp.env ⟨DemoDp.down, Demo.n46.dp, {}, {}⟩).2 = .ok (.redirect 7) ∧
    ∀ (e : Env) (s : PS), s.dp = Demo.n46.dp → IsDown6 s.frame → be128 (slice s.frame 38 16) = Demo.ue6 →
      ∃ s', runPacket e s = (s', .ok .pass) ∧ s'.frame = s.frame := by
  refine ⟨Demo.n46_step, rfl, by decide +kernel, fun e s hdp hd hip => ?_⟩
  have s1 := HistP.step (P := NeverGiven (.dl6 Demo.ue6)) (n0 := Demo.n0) (.assocSetup 1 1 (some (some ())) (some (some ()))) .init
    ⟨trivial, id, id⟩ (by decide +kernel)
  have s2 := HistP.step (.assocSetup 2 1 (some (some ())) (some (some ()))) s1 ⟨trivial, id, id⟩ (by decide +kernel)
  have hn : NeverGiven (.dl6 Demo.ue6) Demo.nSvc0 (.establish 1 Demo.req46) := by
    refine ⟨trivial, ?_, id⟩
    rintro ⟨ie, hie, h⟩
    have hie : ie ∈ [Demo.toUe6 1 1 (some 0x0A3C0001) Demo.ue6] := hie
    rw [List.mem_singleton] at hie
    subst hie
    cases (Demo.names_toUe6 h).1
  have s3 := HistP.snoc (n := Demo.nSvc0) s2 hn Demo.n46_step
  obtain ⟨s', w1, w2, -⟩ := C92_only_exact_address s3 e s hdp hd hip
  exact ⟨s', w1, w2⟩

end Eupf
