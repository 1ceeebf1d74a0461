import Verif.Json
/-
What it means that a JSON document shows the records of the UPF. Only field access and decimal numbers are used, nothing of the encoder.
-/
namespace Eupf

/-- the value of a field of an object -/
def Json.field (k : String) : Json → Option Json
  | .obj l => l.lookup k
  | _ => none

/-- the value at the end of a path of field names -/
def Json.at : List String → Json → Option Json
  | [], j => some j
  | k :: p, j => (j.field k).bind (Json.at p)

/-- the field at the end of the path is this number -/
def Json.NumAt {w : Nat} (j : Json) (p : List String) (x : BitVec w) : Prop := j.at p = some (.num x.toNat)
/-- the field at the end of the path is this text -/
def Json.StrAt (j : Json) (p : List String) (s : String) : Prop := j.at p = some (.str s)

/-- The object at `key` has exactly one field for each entry of the map, named by the decimal form of its key, and the value of that
field shows the entry. -/
structure Json.MapAt {w : Nat} {V : Type} (j : Json) (key : String) (m : GoMap (BitVec w) V) (shows_ : V → Json → Prop) : Prop where
  all : ∀ k v, m.get? k = some v → ∃ x, j.at [key, Nat.repr k.toNat] = some x ∧ shows_ v x
  only : ∀ name x, j.at [key, name] = some x → ∃ k v, name = Nat.repr k.toNat ∧ m.get? k = some v

/-- the dotted decimal form of the IPv4 address with this number, first octet most significant -/
def dotted (x : Nat) : String :=
  Nat.repr (x / 16777216 % 256) ++ "." ++ Nat.repr (x / 65536 % 256) ++ "." ++ Nat.repr (x / 256 % 256) ++ "." ++ Nat.repr (x % 256)

/-- the dotted decimal form of an IPv4 address of which the *last* octet is the most significant (as in the FAR table) -/
def dottedLe (x : Nat) : String :=
  Nat.repr (x % 256) ++ "." ++ Nat.repr (x / 256 % 256) ++ "." ++ Nat.repr (x / 65536 % 256) ++ "." ++ Nat.repr (x / 16777216 % 256)

/-- how an address given by its octets is shown: nothing, four octets in dotted decimal, 16 octets as an IPv6 address -/
structure IpText (tx : Texts) (l : List U8) (s : String) : Prop where
  none : l = [] → s = ""
  four : ∀ a b c d, l = [a, b, c, d] → s = Nat.repr a.toNat ++ "." ++ Nat.repr b.toNat ++ "." ++ Nat.repr c.toNat ++ "." ++ Nat.repr d.toNat
  many : l.length = 16 → s = tx.ip6 l

/-- the 16 octets of an IPv6 address, first octet most significant -/
def IsOctets6 (a : Ip6) (l : List U8) : Prop := l.length = 16 ∧ ∀ i (h : i < l.length), (l[i]).toNat = a.toNat / 2 ^ (8 * (15 - i)) % 256

/-- one end of a filter: kind, address, mask, ports -/
structure ShowsEnd (tx : Texts) (a : IpWMask) (r : PortRange) (addr ports : List String) (j : Json) : Prop where
  type : j.NumAt (addr ++ ["Type"]) a.type
  ip : ∃ s, j.StrAt (addr ++ ["Ip"]) s ∧ IpText tx a.ip s
  noMask : a.mask = [] → j.at (addr ++ ["Mask"]) = some .null
  mask : a.mask ≠ [] → j.StrAt (addr ++ ["Mask"]) (tx.base64 a.mask)
  lo : j.NumAt (ports ++ ["LowerBound"]) r.lo
  hi : j.NumAt (ports ++ ["UpperBound"]) r.hi

/-- a PDR: id, references to table slots, TEID, UE addresses, filter -/
structure ShowsPdr (tx : Texts) (p : SPdr) (j : Json) : Prop where
  id : j.NumAt ["PdrID"] p.pdrId
  ohr : j.NumAt ["PdrInfo", "OuterHeaderRemoval"] p.info.ohr
  far : j.NumAt ["PdrInfo", "FarId"] p.info.farId
  qer : j.NumAt ["PdrInfo", "QerId"] p.info.qerId
  urr1 : j.NumAt ["PdrInfo", "Urr1Id"] p.info.urr1
  urr2 : j.NumAt ["PdrInfo", "Urr2Id"] p.info.urr2
  nosdf : p.info.sdf = none → j.at ["PdrInfo", "SdfFilter"] = some .null
  sdf : ∀ f, p.info.sdf = some f → j.NumAt ["PdrInfo", "SdfFilter", "Protocol"] f.proto ∧
    ShowsEnd tx f.src f.srcPort ["PdrInfo", "SdfFilter", "SrcAddress"] ["PdrInfo", "SdfFilter", "SrcPortRange"] j ∧
    ShowsEnd tx f.dst f.dstPort ["PdrInfo", "SdfFilter", "DstAddress"] ["PdrInfo", "SdfFilter", "DstPortRange"] j
  teid : j.NumAt ["Teid"] p.teid
  ip4 : ∀ a, p.ipv4 = some a → j.StrAt ["Ipv4"] (dotted a.toNat)
  noip4 : p.ipv4 = none → j.StrAt ["Ipv4"] ""
  ip6 : ∀ a, p.ipv6 = some a → ∃ l, IsOctets6 a l ∧ j.StrAt ["Ipv6"] (tx.ip6 l)
  noip6 : p.ipv6 = none → j.StrAt ["Ipv6"] ""
  allocated : j.at ["Allocated"] = some (.bool p.allocated)

/-- a FAR: its values, with the tunnel peer's address in dotted decimal (the table has its first octet least significant), and its
table slot -/
structure ShowsFar (f : SFar) (j : Json) : Prop where
  action : j.NumAt ["FarInfo", "action"] f.info.action
  ohc : j.NumAt ["FarInfo", "outer_header_creation"] f.info.ohc
  teid : j.NumAt ["FarInfo", "teid"] f.info.teid
  ip : j.StrAt ["FarInfo", "remote_ip"] (dottedLe f.info.remoteIP.toNat)
  tlm : j.NumAt ["FarInfo", "transport_level_marking"] f.info.tlm
  slot : j.NumAt ["GlobalId"] f.gid

/-- a QER: its values and its table slot -/
structure ShowsQer (q : SQer) (j : Json) : Prop where
  gateUL : j.NumAt ["QerInfo", "GateStatusUL"] q.info.gateUL
  gateDL : j.NumAt ["QerInfo", "GateStatusDL"] q.info.gateDL
  qfi : j.NumAt ["QerInfo", "Qfi"] q.info.qfi
  mbrUL : j.NumAt ["QerInfo", "MaxBitrateUL"] q.info.mbrUL
  mbrDL : j.NumAt ["QerInfo", "MaxBitrateDL"] q.info.mbrDL
  slot : j.NumAt ["GlobalId"] q.gid

/-- a URR: the volumes of its record, its table slot and the number of reports -/
structure ShowsUrr (u : SUrr) (j : Json) : Prop where
  ul : j.NumAt ["UrrInfo", "UplinkVolume"] u.info.ul
  dl : j.NumAt ["UrrInfo", "DownlinkVolume"] u.info.dl
  slot : j.NumAt ["GlobalId"] u.gid
  seqn : j.NumAt ["ReportSeqNumber"] u.seqn

/-- a session: both SEIDs and exactly its rules -/
structure ShowsSession (tx : Texts) (s : Session) (j : Json) : Prop where
  localSEID : j.NumAt ["LocalSEID"] s.localSEID
  remoteSEID : j.NumAt ["RemoteSEID"] s.remoteSEID
  pdrs : j.MapAt "PDRs" s.pdrs (ShowsPdr tx)
  fars : j.MapAt "FARs" s.fars ShowsFar
  qers : j.MapAt "QERs" s.qers ShowsQer
  urrs : j.MapAt "URRs" s.urrs ShowsUrr

end Eupf
