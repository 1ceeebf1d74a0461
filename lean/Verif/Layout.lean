import Verif.Xdp.Mem
import Verif.Bpf
/-
Memory layout of the table records in user space (Go structs, handed to the kernel as `unsafe.Pointer`, cmd/ebpf/pdr.go 65,
180, 210, 236) and in the XDP program (C structs, cmd/ebpf/xdp/pdr.h, qer.h, urr.h, sdf_filter.h). Both sides declare
the records separately; both lay members out in declared order with natural alignment (Go: size and alignment guarantees
of the specification on 64-bit targets; C: the bpf target ABI; `__u128` has alignment 16). That rule is `MTy` below; the
member lists are transcribed from the two sources. The byte order is little-endian on both sides.
-/
namespace Eupf

/-- a member: an integer of so many octets, an array of octets (Go `[n]byte`), or a struct -/
inductive MTy
  | int (bytes : Nat)
  | bytes (n : Nat)
  | struct (fields : List MTy)

/-- round up -/
def alignUp (o a : Nat) : Nat := (o + a - 1) / a * a

mutual
/-- alignment of a type -/
def MTy.align : MTy → Nat
  | .int n => n
  | .bytes _ => 1
  | .struct fs => MTy.alignL fs
def MTy.alignL : List MTy → Nat
  | [] => 1
  | t :: ts => max t.align (MTy.alignL ts)
end

mutual
/-- size of a type -/
def MTy.size : MTy → Nat
  | .int n => n
  | .bytes n => n
  | .struct fs => alignUp (MTy.endL 0 fs) (MTy.alignL fs)
/-- where the last member ends -/
def MTy.endL (o : Nat) : List MTy → Nat
  | [] => o
  | t :: ts => MTy.endL (alignUp o t.align + t.size) ts
end

mutual
/-- the integers of a type, in order: offset and size -/
def MTy.leaves (o : Nat) : MTy → List (Nat × Nat)
  | .int n => [(o, n)]
  | .bytes n => [(o, n)]
  | .struct fs => MTy.leavesL o 0 fs
def MTy.leavesL (base o : Nat) : List MTy → List (Nat × Nat)
  | [] => []
  | t :: ts => t.leaves (base + alignUp o t.align) ++ MTy.leavesL base (alignUp o t.align + t.size) ts
end

/-- the octets of the i-th integer of a variable of type `t` in memory (as many as its declaration says) -/
def MTy.part (t : MTy) (m : List U8) (i : Nat) : List U8 := (m.drop ((t.leaves 0).getD i (0, 0)).1).take ((t.leaves 0).getD i (0, 0)).2

/-- memory image of a 64-bit integer -/
def bytes64 (x : U64) : List U8 :=
  [x.extractLsb' 0 8, x.extractLsb' 8 8, x.extractLsb' 16 8, x.extractLsb' 24 8, x.extractLsb' 32 8, x.extractLsb' 40 8,
   x.extractLsb' 48 8, x.extractLsb' 56 8]
/-- little-endian 64-bit load -/
def le64 (f : List U8) (i : Nat) : U64 :=
  oct f (i + 7) ++ oct f (i + 6) ++ oct f (i + 5) ++ oct f (i + 4) ++ oct f (i + 3) ++ oct f (i + 2) ++ oct f (i + 1) ++ oct f i

/-- the memory of a variable of type `t` whose integers have these images (cut to the declared sizes); padding is zero -/
def MTy.image (t : MTy) (vals : List (List U8)) : List U8 :=
  ((t.leaves 0).zip vals).foldl (fun m x => put m x.1.1 (x.2.take x.1.2)) (List.replicate t.size 0)

/-- cmd/ebpf/pdr.go 153-159 `FarInfo` -/
def goFar : MTy := .struct [.int 1, .int 1, .int 4, .int 4, .int 2]
/-- cmd/ebpf/xdp/pdr.h 110-117 `struct far_info` -/
def cFar : MTy := .struct [.int 1, .int 1, .int 4, .int 4, .int 2]
/-- cmd/ebpf/pdr.go 194-202 `QerInfo` -/
def goQer : MTy := .struct [.int 1, .int 1, .int 1, .int 4, .int 4, .int 8, .int 8]
/-- cmd/ebpf/xdp/qer.h 30-38 `struct qer_info` -/
def cQer : MTy := .struct [.int 1, .int 1, .int 1, .int 4, .int 4, .int 8, .int 8]
/-- cmd/ebpf/pdr.go 225-228 `UrrInfo` -/
def goUrr : MTy := .struct [.int 8, .int 8]
/-- cmd/ebpf/xdp/urr.h 25-28 `struct urr_info` -/
def cUrr : MTy := .struct [.int 8, .int 8]
/-- cmd/ebpf/pdr.go 17-24 `PdrInfo` (the last member is a pointer) -/
def goPdr : MTy := .struct [.int 1, .int 4, .int 4, .int 4, .int 4, .int 8]
/-- cmd/ebpf/xdp/sdf_filter.h 32-41, 43-46, 48-54 -/
def cSubnet : MTy := .struct [.int 1, .int 16, .int 16]
def cPorts : MTy := .struct [.int 2, .int 2]
def cFilter : MTy := .struct [.int 1, cSubnet, cPorts, cSubnet, cPorts]
/-- cmd/ebpf/xdp/pdr.h 46-53 `struct sdf_rules` -/
def cRules : MTy := .struct [cFilter, .int 1, .int 4, .int 4, .int 4, .int 4]
/-- cmd/ebpf/xdp/pdr.h 55-63 `struct pdr_info` -/
def cPdr : MTy := .struct [.int 4, .int 4, .int 4, .int 4, .int 1, .int 1, cRules]

/-- a FAR variable laid out as `t` (members in the order of both declarations) -/
def FarInfo.toMem (t : MTy) (v : FarInfo) : List U8 := t.image [[v.action], [v.ohc], bytes32 v.teid, bytes32 v.remoteIP, bytes16 v.tlm]
/-- a FAR read with layout `t` -/
def FarInfo.ofMem (t : MTy) (m : List U8) : FarInfo :=
  ⟨oct (t.part m 0) 0, oct (t.part m 1) 0, le32 (t.part m 2) 0, le32 (t.part m 3) 0, le16 (t.part m 4) 0⟩

def QerInfo.toMem (t : MTy) (v : QerInfo) : List U8 :=
  t.image [[v.gateUL], [v.gateDL], [v.qfi], bytes32 v.mbrUL, bytes32 v.mbrDL, bytes64 v.startUL, bytes64 v.startDL]
def QerInfo.ofMem (t : MTy) (m : List U8) : QerInfo :=
  ⟨oct (t.part m 0) 0, oct (t.part m 1) 0, oct (t.part m 2) 0, le32 (t.part m 3) 0, le32 (t.part m 4) 0, le64 (t.part m 5) 0, le64 (t.part m 6) 0⟩

def UrrInfo.toMem (t : MTy) (v : UrrInfo) : List U8 := t.image [bytes64 v.ul, bytes64 v.dl]
def UrrInfo.ofMem (t : MTy) (m : List U8) : UrrInfo := ⟨le64 (t.part m 0) 0, le64 (t.part m 1) 0⟩

/-- cmd/api/rest/uplink_pdr.go 14-19 `PdrElement` without the id -/
structure RestPdr where
  ohr : U8
  farId : U32
  qerId : U32
deriving DecidableEq, Repr

/-- cmd/api/rest/uplink_pdr.go 54-58: the variable whose address is handed to the kernel (the URR ids and the filter pointer
are zero) -/
def RestPdr.toMem (p : RestPdr) : List U8 := goPdr.image [[p.ohr], bytes32 p.farId, bytes32 p.qerId, bytes32 0, bytes32 0, bytes64 0]
/-- cmd/api/rest/uplink_pdr.go 36-41: what is displayed of the variable after the kernel wrote to it -/
def RestPdr.ofMem (m : List U8) : RestPdr := ⟨oct (goPdr.part m 0) 0, le32 (goPdr.part m 1) 0, le32 (goPdr.part m 2) 0⟩

/-- the members of `struct pdr_info` that the XDP program reads first (n3n6_entrypoint.c 194-286) -/
structure KPdrHead where
  farId : U32
  qerId : U32
  urr1 : U32
  urr2 : U32
  ohr : U8
  sdfMode : U8
deriving DecidableEq, Repr
def KPdrHead.ofMem (m : List U8) : KPdrHead :=
  ⟨le32 (cPdr.part m 0) 0, le32 (cPdr.part m 1) 0, le32 (cPdr.part m 2) 0, le32 (cPdr.part m 3) 0, oct (cPdr.part m 4) 0, oct (cPdr.part m 5) 0⟩
/-- the first members of a `struct pdr_info` in memory -/
def KPdrHead.toMem (k : KPdrHead) : List U8 :=
  cPdr.image [bytes32 k.farId, bytes32 k.qerId, bytes32 k.urr1, bytes32 k.urr2, [k.ohr], [k.sdfMode]]

/-- the Go struct that `bpf2go` (cmd/ebpf/objects.go 23) generates for `struct ip_subnet` (sdf_filter.h 32-41): members at the
offsets of the C declaration, gaps filled with blank arrays, `__u128` as `[16]byte`. The generated file is not in the repository;
the member list follows the C declaration and the assignments of cmd/ebpf/pdr.go 279-315. -/
def goSubnet : MTy := .struct [.int 1, .bytes 15, .bytes 16, .bytes 16]
/-- the generated struct for `struct port_range` (sdf_filter.h 43-46) -/
def goPorts : MTy := .struct [.int 2, .int 2]
/-- the generated struct for `struct sdf_filter` (sdf_filter.h 48-54) -/
def goFilter : MTy := .struct [.int 1, .bytes 15, goSubnet, goPorts, .bytes 12, goSubnet, goPorts, .bytes 12]
/-- the generated struct for `struct sdf_rules` (xdp/pdr.h 46-53) -/
def goRules : MTy := .struct [goFilter, .int 1, .bytes 3, .int 4, .int 4, .int 4, .int 4, .bytes 12]
/-- the generated struct `IpEntrypointPdrInfo` (xdp/pdr.h 55-63) -/
def goEntry : MTy := .struct [.int 4, .int 4, .int 4, .int 4, .int 1, .int 1, .bytes 14, goRules]

/-- a Go value of the generated struct for `struct ip_subnet` -/
structure GoSubnet where
  type : U8 := 0
  ip : List U8 := List.replicate 16 0
  mask : List U8 := List.replicate 16 0
/-- a Go value of the generated struct `IpEntrypointPdrInfo`; all zero by default, as declared by `var` -/
structure GoEntry where
  farId : U32 := 0
  qerId : U32 := 0
  urr1 : U32 := 0
  urr2 : U32 := 0
  ohr : U8 := 0
  sdfMode : U8 := 0
  proto : U8 := 0
  src : GoSubnet := {}
  srcPort : PortRange := ⟨0, 0⟩
  dst : GoSubnet := {}
  dstPort : PortRange := ⟨0, 0⟩
  sdfOhr : U8 := 0
  sdfFar : U32 := 0
  sdfQer : U32 := 0
  sdfUrr1 : U32 := 0
  sdfUrr2 : U32 := 0

/-- the memory behind `unsafe.Pointer(&pdrToStore)` (cmd/ebpf/pdr.go 65, 79, 93, 107, 131, 145) -/
def GoEntry.toMem (v : GoEntry) : List U8 :=
  goEntry.image [bytes32 v.farId, bytes32 v.qerId, bytes32 v.urr1, bytes32 v.urr2, [v.ohr], [v.sdfMode], List.replicate 14 0,
    [v.proto], List.replicate 15 0,
    [v.src.type], List.replicate 15 0, v.src.ip, v.src.mask, bytes16 v.srcPort.lo, bytes16 v.srcPort.hi, List.replicate 12 0,
    [v.dst.type], List.replicate 15 0, v.dst.ip, v.dst.mask, bytes16 v.dstPort.lo, bytes16 v.dstPort.hi, List.replicate 12 0,
    [v.sdfOhr], List.replicate 3 0, bytes32 v.sdfFar, bytes32 v.sdfQer, bytes32 v.sdfUrr1, bytes32 v.sdfUrr2, List.replicate 12 0]

/-- cmd/ebpf/pdr.go 46-51: the variable the kernel's octets are copied into by `lookup(key, &defaultPdr)`; only the members that
`CombinePdrWithSdf` reads (283-285) -/
def GoEntry.ofMem (m : List U8) : GoEntry :=
  { farId := le32 (goEntry.part m 0) 0, qerId := le32 (goEntry.part m 1) 0, ohr := oct (goEntry.part m 4) 0 }

/-- cmd/ebpf/pdr.go 279-307 `CombinePdrWithSdf` on the generated struct -/
def goCombine (dflt : Option GoEntry) (p : PdrInfo) (f : SdfFilter) : GoEntry :=
  let base : GoEntry := match dflt with
    | some d => { ohr := d.ohr, farId := d.farId, qerId := d.qerId, sdfMode := 2 }
    | none => { sdfMode := 1 }
  { base with proto := f.proto, src := ⟨f.src.type, copy16 f.src.ip, copy16 f.src.mask⟩, srcPort := f.srcPort,
              dst := ⟨f.dst.type, copy16 f.dst.ip, copy16 f.dst.mask⟩, dstPort := f.dstPort, sdfOhr := p.ohr, sdfFar := p.farId, sdfQer := p.qerId }

/-- cmd/ebpf/pdr.go 45-66, 309-315: the octets a `PutPdr*` or `UpdatePdr*` hands to the kernel, given the octets the table holds
under the key -/
def storeMem (cur : Option (List U8)) (p : PdrInfo) : List U8 :=
  match p.sdf with
  | some f => (goCombine (cur.map GoEntry.ofMem) p f).toMem
  | none => GoEntry.toMem { ohr := p.ohr, farId := p.farId, qerId := p.qerId }

/-- the members of `struct pdr_info` (xdp/pdr.h 46-63, xdp/sdf_filter.h 32-54) that the XDP program reads in the octets of a table value -/
def PdrEntry.ofMem (m : List U8) : PdrEntry where
  farId := le32 (cPdr.part m 0) 0
  qerId := le32 (cPdr.part m 1) 0
  urr1 := le32 (cPdr.part m 2) 0
  urr2 := le32 (cPdr.part m 3) 0
  ohr := oct (cPdr.part m 4) 0
  sdfMode := oct (cPdr.part m 5) 0
  filter :=
    { proto := oct (cPdr.part m 6) 0
      src := ⟨oct (cPdr.part m 7) 0, le128 (cPdr.part m 8), le128 (cPdr.part m 9)⟩
      srcPort := ⟨le16 (cPdr.part m 10) 0, le16 (cPdr.part m 11) 0⟩
      dst := ⟨oct (cPdr.part m 12) 0, le128 (cPdr.part m 13), le128 (cPdr.part m 14)⟩
      dstPort := ⟨le16 (cPdr.part m 15) 0, le16 (cPdr.part m 16) 0⟩ }
  sdfOhr := oct (cPdr.part m 17) 0
  sdfFar := le32 (cPdr.part m 18) 0
  sdfQer := le32 (cPdr.part m 19) 0
  sdfUrr1 := le32 (cPdr.part m 20) 0
  sdfUrr2 := le32 (cPdr.part m 21) 0

end Eupf
