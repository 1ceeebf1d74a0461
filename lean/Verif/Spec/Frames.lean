import Verif.Xdp.Mem
/-
Specification vocabulary: Ethernet frames with IPv4, IPv6, UDP, TCP and GTP-U headers, as in the RFCs and 3GPP TS 29.281,
independent of the packet program. A frame is its list of octets (`oct f i`).
-/
namespace Eupf

/-- 16-bit and 32-bit big-endian fields -/
def be16 (f : List U8) (i : Nat) : U16 := oct f i ++ oct f (i + 1)
def be32 (f : List U8) (i : Nat) : U32 := oct f i ++ oct f (i + 1) ++ oct f (i + 2) ++ oct f (i + 3)

/-- The UPF's addresses (the configuration stores their memory image). -/
def Env.n3Ip (e : Env) : Ip4 := swap32 e.n3
def Env.n9Ip (e : Env) : Ip4 := swap32 e.n9

/-- An Ethernet frame with a complete basic IPv4 header. -/
structure IsIp4 (f : List U8) : Prop where
  len : 34 ≤ f.length
  type : be16 f 12 = 0x0800

/-- An Ethernet frame with a complete IPv6 header. -/
structure IsIp6 (f : List U8) : Prop where
  len : 54 ≤ f.length
  type : be16 f 12 = 0x86DD

/-- Where the header after an IPv4 header at `o` starts (the header length field counts 32-bit words). -/
def ip4End (f : List U8) (o : Nat) : Nat := o + ((oct f o).toNat % 16) * 4
/-- Where the header after the outer IPv4 header starts. -/
def l4Off (f : List U8) : Nat := ip4End f 14

/-- A UDP datagram for the GTP-U port of one of the UPF's addresses. -/
structure IsGtpu (e : Env) (f : List U8) : Prop where
  ip : IsIp4 f
  proto : oct f 23 = 17
  len : l4Off f + 8 ≤ f.length
  port : be16 f (l4Off f + 2) = 2152
  dst : be32 f 30 = e.n3Ip ∨ be32 f 30 = e.n9Ip

/-- Start of the GTP-U header. -/
def gtpOff (f : List U8) : Nat := l4Off f + 8

/-- A GTP-U message of type `t` with a complete mandatory header. -/
structure IsGtpMsg (e : Env) (f : List U8) (t : U8) : Prop where
  gtpu : IsGtpu e f
  len : gtpOff f + 8 ≤ f.length
  type : oct f (gtpOff f + 1) = t

/-- The TEID of a GTP-U message. -/
def gtpTeid (f : List U8) : U32 := be32 f (gtpOff f + 4)
/-- Is any of the flags E, S, PN set? -/
def gtpHasOpt (f : List U8) : Bool := decide ((oct f (gtpOff f)).toNat % 8 ≠ 0)

/-- IPv4 packets the UPF treats as downlink user traffic: ICMP, TCP, UDP, other than its own GTP-U. -/
structure IsDown4 (e : Env) (f : List U8) : Prop where
  ip : IsIp4 f
  proto : oct f 23 = 1 ∨ oct f 23 = 6 ∨ oct f 23 = 17
  notGtpu : ¬ IsGtpu e f

/-- IPv6 packets the UPF treats as downlink user traffic: TCP, UDP. -/
structure IsDown6 (f : List U8) : Prop where
  ip : IsIp6 f
  proto : oct f 20 = 6 ∨ oct f 20 = 17

/-- The frames the UPF has nothing to do with. -/
structure Foreign (e : Env) (f : List U8) : Prop where
  notMsg : ∀ t, ¬ IsGtpMsg e f t
  notDown4 : ¬ IsDown4 e f
  notDown6 : ¬ IsDown6 f

/-- ICMP to one of the UPF's addresses. -/
def ToSelf (e : Env) (f : List U8) : Prop := oct f 23 = 1 ∧ (be32 f 30 = e.n3Ip ∨ be32 f 30 = e.n9Ip)
/-- An ICMP echo request with a complete ICMP header behind an IPv4 header without options. -/
def IsPing (f : List U8) : Prop := 42 ≤ f.length ∧ oct f 34 = 8

end Eupf
