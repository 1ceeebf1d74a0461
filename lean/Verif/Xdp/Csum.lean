import Verif.Xdp.Mem
/- Checksums: cmd/ebpf/xdp/utils/csum.h. -/
namespace Eupf

/-- The 32-bit little-endian words of a buffer (length a multiple of 4). -/
def words32 : List U8 → List U32
  | a :: b :: c :: d :: l => (d ++ c ++ b ++ a) :: words32 l
  | _ => []

/-- 32-bit ones' complement addition -/
def add1c (a b : U32) : U32 := if a.toNat + b.toNat < 2 ^ 32 then a + b else a + b + 1

/-- The kernel helper `bpf_csum_diff(0, 0, data, size, 0)`: 32-bit ones' complement sum of the words. (Kernels may
sum in wider registers; after `csum_fold` every representative of the sum gives the same result, see
`csumFold_unique`.) -/
def csumDiff (bs : List U8) : U64 := ((words32 bs).foldl add1c 0).zeroExtend 64

/-- cmd/ebpf/xdp/utils/csum.h 25-27: one iteration -/
def foldStep (c : U64) : U64 := (c &&& 0xffff) + (c >>> 16)

/-- cmd/ebpf/xdp/utils/csum.h 23-30 `csum_fold_helper` -/
def csumFold (c : U64) : U16 := ~~~ ((foldStep (foldStep (foldStep (foldStep c)))).truncate 16)

/-- cmd/ebpf/xdp/utils/csum.h 32-35 `ipv4_csum` (the result is assigned to a 16-bit field) -/
def ipv4Csum (bs : List U8) : U16 := csumFold (csumDiff bs)

/-- cmd/ebpf/xdp/utils/csum.h 37-45 `ipv4_csum_replace`: the new value of `*sum` -/
def csumReplace (sum old new : U16) : U16 :=
  let c := ~~~ sum
  let c := c + ~~~ old
  let c := if c < ~~~ old then c + 1 else c
  let c := c + new
  let c := if c < new then c + 1 else c
  ~~~ c

end Eupf
