import Verif.Props.FilterText
import Verif.Props.SdfMatch6
import Verif.Props.Ipv6Service
/-
C91 for UEs with IPv6 addresses: packet filters given as text, from the request to the packet.
-/
namespace Eupf
open Sdf

/-- The frame carries an IPv6 packet with this next header and these addresses. The ports are those of a complete TCP header; of UDP packets the UPF does
not read the ports (n3n6_entrypoint.c 438-441), they count as 0. -/
structure Carries6 (f : List U8) (proto : U8) (src dst : List U8) (sport dport : U16) : Prop where
  hproto : oct f 20 = proto
  hsrc : src = slice f 22 16
  hdst : dst = slice f 38 16
  ports : (proto = 6 ∧ 74 ≤ f.length ∧ sport = be16 f 54 ∧ dport = be16 f 56) ∨ (proto = 17 ∧ sport = 0 ∧ dport = 0)

/-- The text is a flow description that means `rule`, about any protocol but ICMPv6, with addresses of either IP version. -/
structure FilterText (text : List Char) (rule : SdfRule) : Prop where
  parses : SdfText text rule
  proto : rule.proto ≠ some 58

/-- What an IPv6 packet is compared with: the protocol and ports of the rule, and what `comparedAs6` makes of its addresses. -/
def SdfRule.Covers6 (rule : SdfRule) (proto : U8) (src dst : List U8) (sport dport : U16) : Prop :=
  ({ rule with src := .any, dst := .any } : SdfRule).Covers proto src dst sport dport ∧ comparedAs6 src rule.src ∧ comparedAs6 dst rule.dst

theorem carries_down6 {f : List U8} {proto : U8} {src dst : List U8} {sp dp : U16} (h : Carries6 f proto src dst sp dp) :
    downFlow6 f = .v6 proto src dst sp dp := by
  unfold downFlow6 flow6
  have hp := h.hproto
  rcases h.ports with ⟨h1, h2, h3, h4⟩ | ⟨h1, h2, h3⟩
  · subst h1
    rw [hp, if_neg (by decide)]
    unfold l4Ports
    rw [if_neg (by decide), if_pos rfl, if_pos (by omega), h.hsrc, h.hdst, h3, h4]
    rfl
  · subst h1
    rw [hp, if_pos rfl, h.hsrc, h.hdst, h2, h3]

theorem text_parses6 {text : List Char} {rule : SdfRule} (h : FilterText text rule) {pie : PdrIE} (hs : pie.sdf = some text) {sess : Session} {p : SPdr}
    (hg : PdrGiven pie sess p) : ∃ flt, p.info.sdf = some flt ∧ ∀ (pr : U8) (a b : List U8) (sp dp : U16),
      (Flow.v6 pr a b sp dp).sat (toKFilter flt) = true ↔ rule.Covers6 pr a b sp dp := by
  obtain ⟨flt, hf, -⟩ := C21_complete h.parses
  refine ⟨flt, ?_, fun pr a b sp dp => C24_exact h.parses hf h.proto pr a b sp dp⟩
  cases text with
  | nil => revert hf; rw [show parse [] = none by decide +kernel]; intro hf; cases hf
  | cons c cs =>
    obtain ⟨g, g1, g2⟩ := hg.sdf c cs hs
    rw [hf] at g1; cases g1; exact g2

/-- **C91, downlink to an IPv6 address, one PDR with a filter.** An accepted establishment has one PDR for the UE address `ip`, with a filter text that means
`rule`. No message gave `ip` before. Then after every later history elsewhere, a TCP or UDP frame to `ip` that compares with the rule (in the UPF's way,
`SdfRule.Covers6`) is sent in exactly the tunnel asked for, and any other goes to the host, unchanged. Missing: that the comparison is what the text says
(false, `C91_ipv6_source_never`). -/
theorem C91_downlink6_partial {cfg : NodeCfg} {rm : Option ResourceManager} {p f q u : U32} {h1 : List (Ev × Outcome)} {n1 : Node} {ip : Ip6}
    (H1 : HistP (NeverGiven (.dl6 ip)) (Node.init cfg rm (BpfObjects.load p f q u)) h1 n1)
    {a : Addr} {r : EstReq} {n2 : Node} {resp : Resp} (hstep : n1.step (.establish a r) = (n2, .reply resp)) (hacc : resp.cause = 1)
    {pie : PdrIE} {text : List Char} {rule : SdfRule} (hask : AsksFilter r pie text (.dl6 ip)) (htext : FilterText text rule)
    {fie : FarIE} {qie : QerIE} (hrules : HasRules r pie fie qie) {peer : Ip4} {teid : U32} {tos : U8} (hfar : fie.intoTunnel peer teid tos)
    (hgate : qie.gateDL.getD 0 = 0) (hmbr : qie.mbrDL.getD 0 = 0)
    {seid : U64} (hse : resp.fseid = some seid) {h2 : List (Ev × Outcome)} {n3 : Node} (H2 : HistP (Elsewhere a seid (.dl6 ip)) n2 h2 n3)
    (hb : attempts h2 + attempts h1 + 1 < 2 ^ 64 - 2)
    (e : Env) (s : PS) (hdp : s.dp = n3.dp) (hd : IsDown6 s.frame) (hip : be128 (slice s.frame 38 16) = ip) (hroom : e.headroom ≠ none)
    {proto : U8} {src dst : List U8} {sport dport : U16} (hc : Carries6 s.frame proto src dst sport dport) :
    (rule.Covers6 proto src dst sport dport → ∃ s' fib, runPacket e s = (s', .ok (routeAct e (e.fib fib))) ∧ fib.dst = slice s'.frame 30 4 ∧
      IsTunnelled ⟨e.n3Ip, peer, tos, qie.qfi.getD 0, teid⟩ (be16 s.frame 18 + 40) (s.frame.drop 14) s'.frame) ∧
    (¬ rule.Covers6 proto src dst sport dport → ∃ s', runPacket e s = (s', .ok .pass) ∧ s'.frame = s.frame ∧ s'.dp = s.dp) := by
  obtain ⟨hno, hused⟩ := never_given (by simp) H1
  have H1' := H1.mono (Q := fun n e => e.refsKnown n) fun _ _ h => h.known
  obtain ⟨seid', sess, pr, hs1, hs2, hg, hent⟩ := establish_filter hstep hacc (by simp) hask (fun h => h) hno
  have : seid' = seid := Option.some.inj (hs1.symm.trans hse)
  subst this
  obtain ⟨flt, hflt, hcov⟩ := text_parses6 htext hask.filter hg
  have hfl := carries_down6 hc
  have hiff := hcov proto src dst sport dport
  rw [← hfl] at hiff
  constructor
  · intro hcv
    refine downlink_served6 hfar hgate hmbr (rule_after_on H1' hstep hacc (by simp) hused hrules.far hrules.qer hs1 hs2 hg
      (G := fun m => m (toKFilter flt) = true) ?_ H2 hb) e s hdp hd hip (hiff.2 hcv) hroom
    intro m hm
    rw [hent, classify_store, hflt]; simp [hm]
  · intro hcv
    refine C25_unclassified_untouched e s (.down6 hd ?_)
    have hk := entry_after H1' hstep (K := .dl6 ip) (by simp) hused hs1 hs2 H2 hb
    unfold dlRule6
    rw [hdp, hip, show n3.dp.pdrDl6.lookup ip = n3.dp.entry? (.dl6 ip) from rfl, hk, hent, classify_store, hflt]
    have : (downFlow6 s.frame).sat (toKFilter flt) = false := by
      rw [← Bool.not_eq_true, hiff]; exact hcv
    simp [this]

/-- **C91 is false for IPv6 sources, whatever the request, the history and the packet.** If the filter text names one IPv6 source address other than
`::`, no TCP or UDP frame from that address to the UE is ever forwarded: it goes to the host, unchanged. -/
theorem C91_ipv6_source_never {cfg : NodeCfg} {rm : Option ResourceManager} {p f q u : U32} {h1 : List (Ev × Outcome)} {n1 : Node} {ip : Ip6}
    (H1 : HistP (NeverGiven (.dl6 ip)) (Node.init cfg rm (BpfObjects.load p f q u)) h1 n1)
    {a : Addr} {r : EstReq} {n2 : Node} {resp : Resp} (hstep : n1.step (.establish a r) = (n2, .reply resp)) (hacc : resp.cause = 1)
    {pie : PdrIE} {text : List Char} {rule : SdfRule} (hask : AsksFilter r pie text (.dl6 ip)) (htext : FilterText text rule)
    {o : List U8} (ho : o.length = 16) (hsrc : rule.src = .net o 128) (hne : o ≠ List.replicate 16 0)
    {seid : U64} (hse : resp.fseid = some seid) {h2 : List (Ev × Outcome)} {n3 : Node} (H2 : HistP (Elsewhere a seid (.dl6 ip)) n2 h2 n3)
    (hb : attempts h2 + attempts h1 + 1 < 2 ^ 64 - 2)
    (e : Env) (s : PS) (hdp : s.dp = n3.dp) (hd : IsDown6 s.frame) (hip : be128 (slice s.frame 38 16) = ip) (hfrom : slice s.frame 22 16 = o) :
    ∃ s', runPacket e s = (s', .ok .pass) ∧ s'.frame = s.frame ∧ s'.dp = s.dp := by
  obtain ⟨hno, hused⟩ := never_given (by simp) H1
  have H1' := H1.mono (Q := fun n e => e.refsKnown n) fun _ _ h => h.known
  obtain ⟨seid', sess, pr, hs1, hs2, hg, hent⟩ := establish_filter hstep hacc (by simp) hask (fun h => h) hno
  have : seid' = seid := Option.some.inj (hs1.symm.trans hse)
  subst this
  obtain ⟨flt, hf, -⟩ := C21_complete htext.parses
  have hflt : pr.info.sdf = some flt := by
    have hs := hask.filter
    cases text with
    | nil => revert hf; rw [show parse [] = none by decide +kernel]; intro hf; cases hf
    | cons c cs =>
      obtain ⟨g, g1, g2⟩ := hg.sdf c cs hs
      rw [hf] at g1; cases g1; exact g2
  refine C25_unclassified_untouched e s (.down6 hd ?_)
  have hk := entry_after H1' hstep (K := .dl6 ip) (by simp) hused hs1 hs2 H2 hb
  unfold dlRule6
  rw [hdp, hip, show n3.dp.pdrDl6.lookup ip = n3.dp.entry? (.dl6 ip) from rfl, hk, hent, classify_store, hflt]
  have : (downFlow6 s.frame).sat (toKFilter flt) = false := by
    unfold downFlow6 flow6
    rw [show slice s.frame (14 + 8) 16 = o from hfrom]
    exact (C24_host htext.parses hf ho hsrc htext.proto _ o _ ho _ _).2 hne
  simp [this]

/-! ### a concrete case -/

/-- packets from 2001:db8:9::9 -/
def Demo.six : List Char := "permit out ip from 2001:db8:9::9/128 to assigned".toList
def Demo.sixRule : SdfRule := ⟨none, .net [0x20, 0x01, 0x0d, 0xb8, 0, 9, 0, 0, 0, 0, 0, 0, 0, 0, 0, 9] 128, (0, 65535), .any, (0, 65535)⟩
theorem Demo.six_text : FilterText Demo.six Demo.sixRule := by
  refine ⟨?_, by decide⟩
  have := demo_text "2001:db8:9::9".toList [0x20, 0x01, 0x0d, 0xb8, 0, 9, 0, 0, 0, 0, 0, 0, 0, 0, 0, 9] "128".toList 128 (by decide +kernel) (by decide) (by decide)
  have e : Demo.six = "permit out ip from ".toList ++ ("2001:db8:9::9".toList ++ ['/'] ++ "128".toList) ++ " to assigned".toList := by decide
  rw [e]; exact this
def Demo.toUe6F : PdrIE := { Demo.toUe6 1 1 none Demo.ue6 with sdf := some Demo.six }
def Demo.req6F : EstReq := Demo.req [Demo.toUe6F]
def Demo.n6F : Node := (Demo.nSvc0.step (.establish 1 Demo.req6F)).1
theorem Demo.n6F_step : Demo.nSvc0.step (.establish 1 Demo.req6F) = (Demo.n6F, .reply Demo.svcResp) := by
  have : (Demo.nSvc0.step (.establish 1 Demo.req6F)).2 = .reply Demo.svcResp := by decide +kernel
  exact Prod.ext (by simp only [Demo.n6F]) this
/-- the frame `DemoDp.to6 17 1`, but from 0:9:: -/
def DemoDp.odd6 : List U8 :=
  macsIn ++ [0x86, 0xDD] ++ ([0x60, 0, 0, 0, 0, 12, 17, 64] ++ [0, 0, 0, 9, 0, 0, 0, 0, 0, 0, 0, 0, 0, 0, 0, 0] ++
    [0x20, 0x01, 0x0d, 0xb8, 0, 1, 0, 1, 0, 0, 0, 0, 0, 0, 0, 1] ++ udp4)

theorem Demo.six_never : ∃ h, HistP (NeverGiven (.dl6 Demo.ue6)) Demo.n0 h Demo.nSvc0 ∧ attempts h = 0 := by
  have s1 := HistP.step (P := NeverGiven (.dl6 Demo.ue6)) (n0 := Demo.n0) (.assocSetup 1 1 (some (some ())) (some (some ()))) .init
    ⟨trivial, id, id⟩ (by decide +kernel)
  have s2 := HistP.step (.assocSetup 2 1 (some (some ())) (some (some ()))) s1 ⟨trivial, id, id⟩ (by decide +kernel)
  exact ⟨_, s2, by simp [attempts]⟩

theorem Demo.six_asks : AsksFilter Demo.req6F Demo.toUe6F Demo.six (.dl6 Demo.ue6) :=
  ⟨by decide, ⟨_, _, rfl, rfl, rfl, rfl, rfl, rfl⟩, rfl, [], [], rfl, by simp⟩

/-- `C91_ipv6_source_never` applied: the session's filter is for packets from 2001:db8:9::9, but every TCP or UDP frame from there goes to the host. -/
example (e : Env) (s : PS) (hdp : s.dp = Demo.n6F.dp) (hd : IsDown6 s.frame) (hip : be128 (slice s.frame 38 16) = Demo.ue6)
    (hfrom : slice s.frame 22 16 = [0x20, 0x01, 0x0d, 0xb8, 0, 9, 0, 0, 0, 0, 0, 0, 0, 0, 0, 9]) :
    ∃ s', runPacket e s = (s', .ok .pass) ∧ s'.frame = s.frame ∧ s'.dp = s.dp := by
  obtain ⟨h1, H1, b1⟩ := Demo.six_never
  exact C91_ipv6_source_never H1 Demo.n6F_step rfl Demo.six_asks Demo.six_text rfl rfl (by decide) rfl .init (by rw [b1]; decide) e s hdp hd hip hfrom
example : IsDown6 (DemoDp.to6 17 1) ∧ be128 (slice (DemoDp.to6 17 1) 38 16) = Demo.ue6 ∧
    slice (DemoDp.to6 17 1) 22 16 = [0x20, 0x01, 0x0d, 0xb8, 0, 9, 0, 0, 0, 0, 0, 0, 0, 0, 0, 9] ∧
    (runPacket DemoDp.env ⟨DemoDp.to6 17 1, Demo.n6F.dp, {}, {}⟩).2 = .ok .pass := ⟨DemoDp.to6_down.1, by decide +kernel, by decide +kernel, by decide +kernel⟩

/-- `C91_downlink6_partial` applied: a UDP frame to the UE that compares with the rule leaves in the tunnel; a frame from 0:9:: does. -/
example (e : Env) (s : PS) (hdp : s.dp = Demo.n6F.dp) (hd : IsDown6 s.frame) (hip : be128 (slice s.frame 38 16) = Demo.ue6) (hroom : e.headroom ≠ none)
    {src dst : List U8} (hc : Carries6 s.frame 17 src dst 0 0) (hcv : Demo.sixRule.Covers6 17 src dst 0 0) :
    ∃ s' fib, runPacket e s = (s', .ok (routeAct e (e.fib fib))) ∧ fib.dst = slice s'.frame 30 4 ∧
      IsTunnelled ⟨e.n3Ip, 0x0A000314, 0, 9, 0x200⟩ (be16 s.frame 18 + 40) (s.frame.drop 14) s'.frame := by
  obtain ⟨h1, H1, b1⟩ := Demo.six_never
  exact (C91_downlink6_partial H1 Demo.n6F_step rfl Demo.six_asks Demo.six_text (fie := Demo.into 1 0x200) (qie := { qerId := some 1, qfi := some 9 })
    ⟨⟨1, [], _, rfl, rfl, rfl, by decide⟩, ⟨1, [], [], rfl, rfl, rfl, by simp⟩⟩ (Demo.into_tunnel ..) rfl rfl rfl .init (by rw [b1]; decide)
    e s hdp hd hip hroom hc).1 hcv
example : IsDown6 DemoDp.odd6 ∧ be128 (slice DemoDp.odd6 38 16) = Demo.ue6 ∧
    Carries6 DemoDp.odd6 17 [0, 0, 0, 9, 0, 0, 0, 0, 0, 0, 0, 0, 0, 0, 0, 0] [0x20, 0x01, 0x0d, 0xb8, 0, 1, 0, 1, 0, 0, 0, 0, 0, 0, 0, 1] 0 0 ∧
    Demo.sixRule.Covers6 17 [0, 0, 0, 9, 0, 0, 0, 0, 0, 0, 0, 0, 0, 0, 0, 0] [0x20, 0x01, 0x0d, 0xb8, 0, 1, 0, 1, 0, 0, 0, 0, 0, 0, 0, 1] 0 0 := by
  refine ⟨⟨⟨by decide +kernel, by decide +kernel⟩, .inr (by decide +kernel)⟩, by decide +kernel,
    ⟨by decide +kernel, by decide +kernel, by decide +kernel, .inr ⟨rfl, rfl, rfl⟩⟩, ⟨fun p h => ?_, trivial, trivial, by decide, by decide⟩, ?_, trivial⟩
  · cases h
  · exact (compared_host rfl rfl).2 (by decide)

end Eupf
