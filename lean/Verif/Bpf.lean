import Verif.IdTracker
import Verif.SdfParser
/-
The eBPF tables as user space sees them: cmd/ebpf/pdr.go, table declarations cmd/ebpf/xdp/pdr.h,
qer.h, urr.h. Trusted: the kernel's hash and array map semantics stated at `HMap` and `ArrMap`.
-/
namespace Eupf

/-! ### records -/

/-- cmd/ebpf/pdr.go 153-159 `FarInfo` = cmd/ebpf/xdp/pdr.h `struct far_info`. `remoteIP` is the
little-endian load of the address octets (pfcp_session_handlers.go 591), i.e. the host integer whose
memory image is the address in network order. -/
structure FarInfo where
  action : U8 := 0
  ohc : U8 := 0
  teid : U32 := 0
  remoteIP : U32 := 0
  tlm : U16 := 0
deriving DecidableEq, Repr, Inhabited

/-- cmd/ebpf/pdr.go 194-202 `QerInfo` = cmd/ebpf/xdp/qer.h `struct qer_info` -/
structure QerInfo where
  gateUL : U8 := 0
  gateDL : U8 := 0
  qfi : U8 := 0
  mbrUL : U32 := 0
  mbrDL : U32 := 0
  startUL : U64 := 0
  startDL : U64 := 0
deriving DecidableEq, Repr, Inhabited

/-- cmd/ebpf/pdr.go 225-228 `UrrInfo` = cmd/ebpf/xdp/urr.h `struct urr_info` -/
structure UrrInfo where
  ul : U64 := 0
  dl : U64 := 0
deriving DecidableEq, Repr, Inhabited

/-- cmd/ebpf/pdr.go 17-24 `PdrInfo` (user space only) -/
structure PdrInfo where
  ohr : U8 := 0
  farId : U32 := 0
  qerId : U32 := 0
  urr1 : U32 := 0
  urr2 : U32 := 0
  sdf : Option SdfFilter := none
deriving DecidableEq, Repr, Inhabited

/-- cmd/ebpf/xdp/sdf_filter.h 30-38 `struct ip_subnet` -/
structure KSubnet where
  type : U8 := 0
  ip : BitVec 128 := 0
  mask : BitVec 128 := 0
deriving DecidableEq, Repr, Inhabited

/-- cmd/ebpf/xdp/sdf_filter.h 45-51 `struct sdf_filter` -/
structure KFilter where
  proto : U8 := 0
  src : KSubnet := {}
  srcPort : PortRange := ⟨0, 0⟩
  dst : KSubnet := {}
  dstPort : PortRange := ⟨0, 0⟩
deriving DecidableEq, Repr, Inhabited

/-- cmd/ebpf/xdp/pdr.h `struct pdr_info` with its embedded `struct sdf_rules`
(bpf2go type `IpEntrypointPdrInfo`). -/
structure PdrEntry where
  farId : U32 := 0
  qerId : U32 := 0
  urr1 : U32 := 0
  urr2 : U32 := 0
  ohr : U8 := 0
  sdfMode : U8 := 0
  filter : KFilter := {}
  sdfOhr : U8 := 0
  sdfFar : U32 := 0
  sdfQer : U32 := 0
  sdfUrr1 : U32 := 0
  sdfUrr2 : U32 := 0
deriving DecidableEq, Repr, Inhabited

/-! ### kernel maps -/

/-- BPF_MAP_TYPE_HASH with `max_entries = cap`. -/
structure HMap (K V : Type) where
  m : GoMap K V
  cap : Nat

namespace HMap
variable {K V : Type} [DecidableEq K]
def lookup (h : HMap K V) (k : K) : Option V := h.m.get? k
/-- bpf_map_update_elem(BPF_ANY): a new key fails with E2BIG when the map is full. -/
def put (h : HMap K V) (k : K) (v : V) : Option (HMap K V) :=
  if (h.m.get? k).isSome ∨ h.m.size < h.cap then some { h with m := h.m.set k v } else none
/-- bpf_map_delete_elem: ENOENT for a missing key. -/
def delete (h : HMap K V) (k : K) : Option (HMap K V) :=
  if (h.m.get? k).isSome then some { h with m := h.m.erase k } else none
end HMap

/-- BPF_MAP_TYPE_ARRAY with `max_entries = size`: all slots exist, initially zero; updates and lookups of
an index at or above the size fail. -/
structure ArrMap (V : Type) where
  size : U32
  val : U32 → V

namespace ArrMap
variable {V : Type}
def lookup (a : ArrMap V) (i : U32) : Option V := if i.toNat < a.size.toNat then some (a.val i) else none
def update (a : ArrMap V) (i : U32) (v : V) : Option (ArrMap V) :=
  if i.toNat < a.size.toNat then some { a with val := fun j => if j = i then v else a.val j } else none
end ArrMap

/-- The tables and slot allocators: cmd/ebpf/objects.go 27-41 `BpfObjects`, created at 71-153. -/
structure BpfObjects where
  pdrUl : HMap U32 PdrEntry
  pdrDl4 : HMap Ip4 PdrEntry
  pdrDl6 : HMap Ip6 PdrEntry
  far : ArrMap FarInfo
  qer : ArrMap QerInfo
  urr : ArrMap UrrInfo
  farIds : IdTracker
  qerIds : IdTracker
  urrIds : IdTracker

/-- cmd/ebpf/objects.go 43-153 `NewBpfObjects`, `Load`: empty maps of the configured sizes and allocators of
the same sizes (line 130-150 takes the size back from the map). -/
def BpfObjects.load (pdrSize farSize qerSize urrSize : U32) : BpfObjects where
  pdrUl := ⟨GoMap.empty, pdrSize.toNat⟩
  pdrDl4 := ⟨GoMap.empty, pdrSize.toNat⟩
  pdrDl6 := ⟨GoMap.empty, pdrSize.toNat⟩
  far := ⟨farSize, fun _ => {}⟩
  qer := ⟨qerSize, fun _ => {}⟩
  urr := ⟨urrSize, fun _ => {}⟩
  farIds := IdTracker.new farSize
  qerIds := IdTracker.new qerSize
  urrIds := IdTracker.new urrSize

/-! ### PDR records -/

/-- cmd/ebpf/pdr.go 317-333 `Copy16Ip`: the 16-byte array it returns. -/
def copy16 (arr : List U8) : List U8 :=
  if arr.length = 4 ∨ arr.length = 16 then arr.reverse ++ List.replicate (16 - arr.length) 0
  else List.replicate 16 0

/-- A 16-byte array read by the kernel as `__u128` on a little-endian host. -/
def le128 (bytes : List U8) : BitVec 128 :=
  bytes.foldr (fun b acc => (acc <<< 8) ||| b.zeroExtend 128) 0

/-- cmd/ebpf/pdr.go 309-315 `ToIpEntrypointPdrInfo` (URR ids are not copied) -/
def toEntry (p : PdrInfo) : PdrEntry := { ohr := p.ohr, farId := p.farId, qerId := p.qerId }

/-- cmd/ebpf/pdr.go 292-302 -/
def toKFilter (f : SdfFilter) : KFilter where
  proto := f.proto
  src := ⟨f.src.type, le128 (copy16 f.src.ip), le128 (copy16 f.src.mask)⟩
  srcPort := f.srcPort
  dst := ⟨f.dst.type, le128 (copy16 f.dst.ip), le128 (copy16 f.dst.mask)⟩
  dstPort := f.dstPort

/-- cmd/ebpf/pdr.go 279-307 `CombinePdrWithSdf` (URR ids are not copied) -/
def combineWithSdf (dflt : Option PdrEntry) (p : PdrInfo) (f : SdfFilter) : PdrEntry :=
  let base : PdrEntry := match dflt with
    | some d => { ohr := d.ohr, farId := d.farId, qerId := d.qerId, sdfMode := 2 }
    | none => { sdfMode := 1 }
  { base with filter := toKFilter f, sdfOhr := p.ohr, sdfFar := p.farId, sdfQer := p.qerId }

/-- cmd/ebpf/pdr.go 45-66: what `PutPdr*` stores, given the entry found under the key. -/
def pdrToStore (cur : Option PdrEntry) (p : PdrInfo) : PdrEntry :=
  match p.sdf with
  | some f => combineWithSdf cur p f
  | none => toEntry p

namespace BpfObjects
variable (b : BpfObjects)

/-- cmd/ebpf/pdr.go 54-66 `PutPdrUplink` -/
def putPdrUplink (teid : U32) (p : PdrInfo) : Option BpfObjects :=
  (b.pdrUl.put teid (pdrToStore (b.pdrUl.lookup teid) p)).map (fun h => { b with pdrUl := h })
/-- cmd/ebpf/pdr.go 68-80 `PutPdrDownlink`. The key is the 4 address octets. -/
def putPdrDownlink (ip : Ip4) (p : PdrInfo) : Option BpfObjects :=
  (b.pdrDl4.put ip (pdrToStore (b.pdrDl4.lookup ip) p)).map (fun h => { b with pdrDl4 := h })
/-- cmd/ebpf/pdr.go 120-132 `PutDownlinkPdrIp6` -/
def putDownlinkPdrIp6 (ip : Ip6) (p : PdrInfo) : Option BpfObjects :=
  (b.pdrDl6.put ip (pdrToStore (b.pdrDl6.lookup ip) p)).map (fun h => { b with pdrDl6 := h })
/-- cmd/ebpf/pdr.go 110-113 `DeletePdrUplink` -/
def deletePdrUplink (teid : U32) : Option BpfObjects :=
  (b.pdrUl.delete teid).map (fun h => { b with pdrUl := h })
/-- cmd/ebpf/pdr.go 115-118 `DeletePdrDownlink` -/
def deletePdrDownlink (ip : Ip4) : Option BpfObjects :=
  (b.pdrDl4.delete ip).map (fun h => { b with pdrDl4 := h })
/-- cmd/ebpf/pdr.go 148-151 `DeleteDownlinkPdrIp6` -/
def deleteDownlinkPdrIp6 (ip : Ip6) : Option BpfObjects :=
  (b.pdrDl6.delete ip).map (fun h => { b with pdrDl6 := h })

/-- cmd/ebpf/pdr.go 174-181 `NewFar`: the id is taken from the pool even if the update fails. -/
def newFar (f : FarInfo) : BpfObjects × Option U32 :=
  let r := b.farIds.getNext
  let b := { b with farIds := r.1 }
  match r.2 with
  | none => (b, none)
  | some id => match b.far.update id f with
    | some a => ({ b with far := a }, some id)
    | none => (b, none)
/-- cmd/ebpf/pdr.go 183-186 `UpdateFar` -/
def updateFar (id : U32) (f : FarInfo) : Option BpfObjects :=
  (b.far.update id f).map (fun a => { b with far := a })
/-- cmd/ebpf/pdr.go 188-192 `DeleteFar`: release, then zero the slot; second component is success. -/
def deleteFar (id : U32) : BpfObjects × Bool :=
  let b := { b with farIds := b.farIds.release id }
  match b.far.update id {} with
  | some a => ({ b with far := a }, true)
  | none => (b, false)

/-- cmd/ebpf/pdr.go 204-211 `NewQer` -/
def newQer (q : QerInfo) : BpfObjects × Option U32 :=
  let r := b.qerIds.getNext
  let b := { b with qerIds := r.1 }
  match r.2 with
  | none => (b, none)
  | some id => match b.qer.update id q with
    | some a => ({ b with qer := a }, some id)
    | none => (b, none)
/-- cmd/ebpf/pdr.go 213-216 `UpdateQer` -/
def updateQer (id : U32) (q : QerInfo) : Option BpfObjects :=
  (b.qer.update id q).map (fun a => { b with qer := a })
/-- cmd/ebpf/pdr.go 218-222 `DeleteQer` -/
def deleteQer (id : U32) : BpfObjects × Bool :=
  let b := { b with qerIds := b.qerIds.release id }
  match b.qer.update id {} with
  | some a => ({ b with qer := a }, true)
  | none => (b, false)

/-- cmd/ebpf/pdr.go 230-237 `NewUrr` -/
def newUrr (u : UrrInfo) : BpfObjects × Option U32 :=
  let r := b.urrIds.getNext
  let b := { b with urrIds := r.1 }
  match r.2 with
  | none => (b, none)
  | some id => match b.urr.update id u with
    | some a => ({ b with urr := a }, some id)
    | none => (b, none)
/-- cmd/ebpf/pdr.go 239-242 `UpdateUrr` -/
def updateUrr (id : U32) (u : UrrInfo) : Option BpfObjects :=
  (b.urr.update id u).map (fun a => { b with urr := a })
/-- cmd/ebpf/pdr.go 244-256 `DeleteUrr`: the accumulated volumes, or an error if the slot does not exist. -/
def deleteUrr (id : U32) : BpfObjects × Option UrrInfo :=
  match b.urr.lookup id with
  | none => (b, none)
  | some u =>
    let b := { b with urrIds := b.urrIds.release id }
    match b.urr.update id {} with
    | some a => ({ b with urr := a }, some u)
    | none => (b, none)

end BpfObjects
end Eupf
