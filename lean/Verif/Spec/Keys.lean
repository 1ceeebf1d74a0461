import Verif.Session
/-
Specification vocabulary: the match key of a PDR and the entry the forwarding plane has under a key.
-/
namespace Eupf

/-- What a PDR matches on: the TEID of uplink packets or the UE address of downlink packets. -/
inductive PdrKey
  | ul (teid : U32)
  | dl4 (ip : Ip4)
  | dl6 (ip : Ip6)
deriving DecidableEq

/-- A PDR record with a UE address is a downlink PDR, any other an uplink PDR. -/
def SPdr.key (p : SPdr) : PdrKey :=
  match p.ipv4, p.ipv6 with
  | some ip, _ => .dl4 ip
  | none, some ip => .dl6 ip
  | none, none => .ul p.teid

/-- The forwarding plane's PDR entry under a key. -/
def BpfObjects.entry? (b : BpfObjects) : PdrKey → Option PdrEntry
  | .ul t => b.pdrUl.lookup t
  | .dl4 ip => b.pdrDl4.lookup ip
  | .dl6 ip => b.pdrDl6.lookup ip

end Eupf
