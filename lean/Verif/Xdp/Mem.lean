import Verif.Bpf
/-
Memory of the packet program: the frame between `data` and `data_end`, the tables and the statistics.
Every access to the frame is checked; an access outside is the outcome `panic` (the real program would be
rejected by the verifier or read foreign memory). The host is little-endian, as the target in the Makefile
(bpfel).
-/
namespace Eupf

/-- octet `i` of a frame (0 behind its end) -/
def oct (f : List U8) (i : Nat) : U8 := f.getD i 0
/-- little-endian 16-bit load -/
def le16 (f : List U8) (i : Nat) : U16 := oct f (i + 1) ++ oct f i
/-- little-endian 32-bit load -/
def le32 (f : List U8) (i : Nat) : U32 := oct f (i + 3) ++ oct f (i + 2) ++ oct f (i + 1) ++ oct f i
/-- `n` octets from `i` -/
def slice (f : List U8) (i n : Nat) : List U8 := (f.drop i).take n
/-- replace the octets from `i` by `bs` -/
def put (f : List U8) (i : Nat) (bs : List U8) : List U8 := f.take i ++ bs ++ f.drop (i + bs.length)

/-- memory image of a 16-bit integer -/
def bytes16 (x : U16) : List U8 := [x.extractLsb' 0 8, x.extractLsb' 8 8]
/-- memory image of a 32-bit integer -/
def bytes32 (x : U32) : List U8 := [x.extractLsb' 0 8, x.extractLsb' 8 8, x.extractLsb' 16 8, x.extractLsb' 24 8]

/-- __builtin_bswap16; `bpf_htons` and `bpf_ntohs` on a little-endian host -/
def swap16 (x : U16) : U16 := x.extractLsb' 0 8 ++ x.extractLsb' 8 8
/-- __builtin_bswap32; `bpf_htonl` and `bpf_ntohl` on a little-endian host -/
def swap32 (x : U32) : U32 := x.extractLsb' 0 8 ++ x.extractLsb' 8 8 ++ x.extractLsb' 16 8 ++ x.extractLsb' 24 8
/-- A map key made of octets in memory, written as the big-endian number used as key in `BpfObjects`. -/
def be128 (bs : List U8) : BitVec 128 := bs.foldl (fun acc b => (acc <<< 8) ||| b.zeroExtend 128) 0

/-- cmd/ebpf/xdp/statistics.h 22-51 `struct upf_counters`, `n3_n6_counters`, `upf_statistic` of one CPU -/
structure UpfStat where
  rxArp : U64 := 0
  rxIcmp : U64 := 0
  rxIcmp6 : U64 := 0
  rxIp4 : U64 := 0
  rxIp6 : U64 := 0
  rxTcp : U64 := 0
  rxUdp : U64 := 0
  rxOther : U64 := 0
  rxGtpEcho : U64 := 0
  rxGtpPdu : U64 := 0
  rxGtpOther : U64 := 0
  rxGtpUnexp : U64 := 0
  rxN3 : U64 := 0
  txN3 : U64 := 0
  rxN6 : U64 := 0
  txN6 : U64 := 0
  actions : Fin 8 → U64 := fun _ => 0

/-- cmd/ebpf/xdp/utils/routing.h 30-39 `struct route_stat` of one CPU (cache disabled: the `cache` counters
stay 0 and are left out) -/
structure RouteStat where
  ip4Ok : U64 := 0
  ip4Drop : U64 := 0
  ip4Pass : U64 := 0
  ip6Ok : U64 := 0
  ip6Drop : U64 := 0
  ip6Pass : U64 := 0

/-- What the program works on. Simplification: one packet at a time (no other CPU updates the tables
meanwhile). -/
structure PS where
  frame : List U8
  dp : BpfObjects
  st : UpfStat
  rt : RouteStat

abbrev X := Act PS

def ld8 (o : Nat) : X U8 := fun s => if o + 1 ≤ s.frame.length then (s, .ok (oct s.frame o)) else (s, .panic)
def ld16 (o : Nat) : X U16 := fun s => if o + 2 ≤ s.frame.length then (s, .ok (le16 s.frame o)) else (s, .panic)
def ld32 (o : Nat) : X U32 := fun s => if o + 4 ≤ s.frame.length then (s, .ok (le32 s.frame o)) else (s, .panic)
def ldBytes (o n : Nat) : X (List U8) :=
  fun s => if o + n ≤ s.frame.length then (s, .ok (slice s.frame o n)) else (s, .panic)
def store (o : Nat) (bs : List U8) : X Unit :=
  fun s => if o + bs.length ≤ s.frame.length then ({ s with frame := put s.frame o bs }, .ok ()) else (s, .panic)
/-- `data_end - data` -/
def frameLen : X Nat := fun s => (s, .ok s.frame.length)
/-- dereference of a header pointer -/
def ptr (p : Option Nat) : X Nat := match p with | some o => pure o | none => Act.panic
def count (f : UpfStat → UpfStat) : X Unit := Act.modify (fun s => { s with st := f s.st })
def countRt (f : RouteStat → RouteStat) : X Unit := Act.modify (fun s => { s with rt := f s.rt })

/-- cmd/ebpf/xdp/utils/packet_context.h 28-40 `struct packet_context`: header pointers as offsets into the
frame. `data_end` always equals the end of the frame when it is read. -/
structure Ctx where
  data : Nat := 0
  eth : Option Nat := none
  ip4 : Option Nat := none
  ip6 : Option Nat := none
  udp : Option Nat := none
  tcp : Option Nat := none
  gtp : Option Nat := none
deriving DecidableEq, Repr

/-- <linux/bpf.h> `enum xdp_action`; a redirect carries the interface given to `bpf_redirect` -/
inductive XAction
  | aborted
  | drop
  | pass
  | tx
  | redirect (ifindex : U32)
deriving DecidableEq, Repr

/-- numeric value of the action -/
def XAction.code : XAction → Fin 8
  | .aborted => 0
  | .drop => 1
  | .pass => 2
  | .tx => 3
  | .redirect _ => 4

/-- The fields of `struct bpf_fib_lookup` that the program fills in. -/
structure FibReq where
  family : Nat
  tos : U8
  proto : U8
  totLen : U16
  src : List U8
  dst : List U8
  ifindex : U32
deriving DecidableEq, Repr

/-- Answer of `bpf_fib_lookup`: success, or a return code other than 0. -/
inductive FibAns
  | ok (ifindex : U32) (smac dmac : Vector U8 6)
  | fail (rc : Nat)

/-- What the program gets from outside while handling one packet: the configured addresses (raw 32-bit values
as stored in `global_config`), the receiving interface, the clock at the uplink and at the downlink rate check,
the octets `bpf_xdp_adjust_head(-44)` uncovers (`none`: the helper fails for lack of headroom), and the FIB. -/
structure Env where
  n3 : U32
  n9 : U32
  ifindex : U32
  tUL : U64
  tDL : U64
  headroom : Option (Vector U8 44)
  fib : FibReq → FibAns

end Eupf
