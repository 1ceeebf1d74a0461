import Verif.Base
/-
UE IP and TEID pools: cmd/core/service/resource_manager.go.
The mutexes are not modelled: every method body is one critical section, so calls are atomic.
-/
namespace Eupf

/-- A choice of iteration order for one Go `for range` loop over a map: any permutation of the entries,
possibly depending on them. -/
structure Shuffle (α : Type) where
  run : List α → List α
  perm : ∀ l, (run l).Perm l

def Shuffle.id {α : Type} : Shuffle α := ⟨fun l => l, fun _ => List.Perm.refl _⟩
def Shuffle.rev {α : Type} : Shuffle α := ⟨List.reverse, fun l => List.reverse_perm l⟩
instance {α : Type} : Inhabited (Shuffle α) := ⟨Shuffle.id⟩

/-- resource_manager.go 16-20 `FTEIDM`. `busyTEIDs` is `map[seID]map[pdrID]teid`. -/
structure FTEIDM where
  freeTEIDs : List U32
  busyTEIDs : GoMap U64 (GoMap U32 U32)

/-- resource_manager.go 22-26 `IPAM`. IPv4 pools only. -/
structure IPAM where
  freeIPs : List Ip4
  busyIPs : GoMap U64 Ip4

/-- resource_manager.go 11-14 `ResourceManager`; both components are always non-nil (66-69). -/
structure ResourceManager where
  ipam : IPAM
  fteidm : FTEIDM

/-- resource_manager.go 53-57: the state of the loop `for teid = 1; teid <= teidRange; teid++` is the
loop variable and the slice built so far; `none` when the loop condition fails. -/
def teidLoopStep (range : U32) (st : U32 × List U32) : Option (U32 × List U32) :=
  if st.1 ≤ range then some (st.1 + 1, st.2 ++ [st.1]) else none

/-- `n` iterations of the loop; `none` if it has stopped before. -/
def teidLoopIter (range : U32) : Nat → Option (U32 × List U32)
  | 0 => some (1, [])
  | n + 1 => (teidLoopIter range n).bind (teidLoopStep range)

/-- resource_manager.go 49-57: the pool contents 1..range (for `range = 2^32-1` the loop does not
terminate, see `C55`). -/
def teidPool (range : U32) : List U32 := (List.range range.toNat).map (fun i => BitVec.ofNat 32 (i + 1))

/-- resource_manager.go 33-43 with ipnetgen: all addresses of the prefix `base/len` except the first.
Simplification: IPv4 prefixes only. -/
def ipPool (base : Ip4) (len : Nat) : List Ip4 :=
  ((List.range (2 ^ (32 - len))).tail).map
    (fun i => (base &&& (BitVec.allOnes 32 <<< (32 - len))) + BitVec.ofNat 32 i)

/-- resource_manager.go 28-71 `NewResourceManager`; `ips = []` when no pool is configured. -/
def newResourceManager (ips : List Ip4) (teidRange : U32) : ResourceManager :=
  { ipam := ⟨ips, GoMap.empty⟩, fteidm := ⟨teidPool teidRange, GoMap.empty⟩ }

namespace FTEIDM
/-- resource_manager.go 87-105 `AllocateTEID` -/
def allocate (m : FTEIDM) (seid : U64) (pdr : U32) : FTEIDM × Option U32 :=
  match m.freeTEIDs with
  | [] => (m, none)
  | t :: rest =>
    let inner := match m.busyTEIDs.get? seid with
      | none => (GoMap.empty : GoMap U32 U32).set pdr t
      | some pm => pm.set pdr t
    (⟨rest, m.busyTEIDs.set seid inner⟩, some t)

/-- resource_manager.go 116-126 `ReleaseTEID` -/
def release (m : FTEIDM) (ord : Shuffle (U32 × U32)) (seid : U64) : FTEIDM :=
  match m.busyTEIDs.get? seid with
  | some pm => ⟨m.freeTEIDs ++ (ord.run pm.entries).map Prod.snd, m.busyTEIDs.erase seid⟩
  | none => m
end FTEIDM

namespace IPAM
/-- resource_manager.go 73-85 `AllocateIP` -/
def allocate (m : IPAM) (key : U64) : IPAM × Option Ip4 :=
  match m.freeIPs with
  | [] => (m, none)
  | ip :: rest => (⟨rest, m.busyIPs.set key ip⟩, some ip)

/-- resource_manager.go 107-114 `ReleaseIP` -/
def release (m : IPAM) (seid : U64) : IPAM :=
  match m.busyIPs.get? seid with
  | some ip => ⟨m.freeIPs ++ [ip], m.busyIPs.erase seid⟩
  | none => m
end IPAM

theorem mem_teidPool (range t : U32) : t ∈ teidPool range ↔ 1 ≤ t.toNat ∧ t.toNat ≤ range.toNat := by
  unfold teidPool
  simp only [List.mem_map, List.mem_range]
  have := range.isLt
  constructor
  · rintro ⟨i, hi, rfl⟩
    rw [BitVec.toNat_ofNat]
    omega
  · rintro ⟨h1, h2⟩
    refine ⟨t.toNat - 1, by omega, ?_⟩
    rw [show t.toNat - 1 + 1 = t.toNat by omega]
    simp

theorem teidPool_nodup (range : U32) : (teidPool range).Nodup := by
  unfold teidPool List.Nodup
  rw [List.pairwise_map]
  have h : (List.range range.toNat).Pairwise (fun a b => a < b) := List.pairwise_lt_range
  refine (List.Pairwise.imp_of_mem ?_ h)
  intro a b ha hb hab h2
  have hr := range.isLt
  have ha' := List.mem_range.1 ha
  have hb' := List.mem_range.1 hb
  have := congrArg BitVec.toNat h2
  simp only [BitVec.toNat_ofNat] at this
  omega

end Eupf
