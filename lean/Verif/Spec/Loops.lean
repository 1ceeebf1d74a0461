import Verif.Spec.Flow
import Verif.Spec.Route
import Verif.Spec.Tunnel
import Verif.Xdp.Tail
/-
Specification vocabulary: how far a packet may still travel, and UPFs that pass a packet on to each other.
-/
namespace Eupf

/-- How many more routers may forward the packet `p`: the Time To Live of an IPv4 packet (RFC 791), the Hop Limit of an IPv6 packet
(RFC 8200). -/
def hopsLeft (p : List U8) : Option U8 :=
  if (oct p 0).toNat / 16 = 4 then some (oct p 8) else if (oct p 0).toNat / 16 = 6 then some (oct p 7) else none

/-- A router has forwarded `p` as `q`: there was something left, and it is one less. -/
def Forwarded (p q : List U8) : Prop := ∃ n, hopsLeft p = some n ∧ n ≠ 0 ∧ hopsLeft q = some (n - 1)

/-- The tables `b` pass user data that comes with TEID `t` on to the address of the UPF `e'`, with TEID `t'`: the rule of the TEID has no
packet filter, its FAR forwards into a tunnel to that address, its QER is open and has no uplink limit. -/
structure PassesTo (b : BpfObjects) (t : U32) (e' : Env) (t' : U32) (p : PdrEntry) (far : FarInfo) (qer : QerInfo) : Prop where
  pdr : b.pdrUl.lookup t = some p
  plain : p.sdfMode = 0
  hasFar : b.far.lookup p.farId = some far
  forw : far.action.getLsbD 1 = true
  tunnel : far.ohc.getLsbD 0 = true
  teid : far.teid = t'
  addr : swap32 far.remoteIP = e'.n3Ip ∨ swap32 far.remoteIP = e'.n9Ip
  hasQer : b.qer.lookup p.qerId = some qer
  gate : qer.gateUL = 0
  rate : qer.mbrUL = 0

/-- A packet's way: the UPF at position `k` (at that moment its addresses, clock and routes are `e k`) handles the frame `(s k).frame` with the
tables `(s k).dp`, ending in `s' k` with action `a k`; what it has made of the frame arrives at the next position, with new MAC addresses. -/
structure Way (e : Nat → Env) (s s' : Nat → PS) (a : Nat → XAction) : Prop where
  run : ∀ k, runPacket (e k) (s k) = (s' k, .ok (a k))
  wire : ∀ k, ∃ m : List U8, m.length = 12 ∧ (s (k + 1)).frame = m ++ (s' k).frame.drop 12

end Eupf
