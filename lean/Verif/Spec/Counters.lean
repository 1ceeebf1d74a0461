import Verif.Spec.Frames
/-
Specification: what each packet counter counts, in terms of the frame alone.
-/
namespace Eupf

/-- The receive counters exported by the UPF (cmd/api/rest/stats.go 17-30, cmd/core/metrics.go 122-135), and the two
interface counters. -/
inductive RxKind
  | arp | icmp | icmp6 | ip4 | ip6 | tcp | udp | other | gtpEcho | gtpPdu | gtpOther | gtpUnexp | n3 | n6
deriving DecidableEq, Repr

/-- the counter of a kind in the statistics of one CPU -/
def UpfStat.rx (st : UpfStat) : RxKind → U64
  | .arp => st.rxArp
  | .icmp => st.rxIcmp
  | .icmp6 => st.rxIcmp6
  | .ip4 => st.rxIp4
  | .ip6 => st.rxIp6
  | .tcp => st.rxTcp
  | .udp => st.rxUdp
  | .other => st.rxOther
  | .gtpEcho => st.rxGtpEcho
  | .gtpPdu => st.rxGtpPdu
  | .gtpOther => st.rxGtpOther
  | .gtpUnexp => st.rxGtpUnexp
  | .n3 => st.rxN3
  | .n6 => st.rxN6

/-- an Ethernet frame with EtherType `t` -/
def HasType (f : List U8) (t : U16) : Prop := 14 ≤ f.length ∧ be16 f 12 = t
/-- an IP packet with transport protocol `p` -/
def Carries (f : List U8) (p : U8) : Prop := (IsIp4 f ∧ oct f 23 = p) ∨ (IsIp6 f ∧ oct f 20 = p)

/-- the frames a counter stands for -/
def Counted (e : Env) (f : List U8) : RxKind → Prop
  | .arp => HasType f 0x0806
  | .ip4 => HasType f 0x0800
  | .ip6 => HasType f 0x86DD
  | .icmp => IsIp4 f ∧ oct f 23 = 1
  | .icmp6 => IsIp6 f ∧ oct f 20 = 58
  | .tcp => Carries f 6
  | .udp => Carries f 17
  | .other => (HasType f 0x0800 ∧ ¬ (IsIp4 f ∧ (oct f 23 = 1 ∨ oct f 23 = 6 ∨ oct f 23 = 17))) ∨
      (HasType f 0x86DD ∧ ¬ (IsIp6 f ∧ (oct f 20 = 58 ∨ oct f 20 = 6 ∨ oct f 20 = 17)))
  | .gtpPdu => IsGtpMsg e f 255
  | .gtpEcho => IsGtpMsg e f 1
  | .gtpOther => IsGtpMsg e f 26 ∨ IsGtpMsg e f 31 ∨ IsGtpMsg e f 254
  | .gtpUnexp => IsGtpu e f ∧ ∀ t, IsGtpMsg e f t → t ≠ 255 ∧ t ≠ 1 ∧ t ≠ 2 ∧ t ≠ 26 ∧ t ≠ 31 ∧ t ≠ 254
  | .n3 => IsGtpu e f
  | .n6 => IsDown4 e f ∨ IsDown6 f

end Eupf
