import Verif.Xdp.RateLimit
/-
Several CPUs run the packet program at the same time. They share the QER timers (cmd/ebpf/xdp/qer.h 67-90) and the URR volumes
(cmd/ebpf/xdp/urr.h 41-49), which they access with plain loads and stores, and user space reads and clears the URR volumes
(cmd/ebpf/pdr.go 244-255). One word of shared memory at a time, sequentially consistent, events interleaved in any order.
-/
namespace Eupf.Smp

/-! ### a QER timer -/

/-- qer.h 67-90: where a CPU is in `limit_rate_sliding_window` -/
inductive Lim
  | idle
  /-- after line 76 (`bpf_ktime_get_ns`) -/
  | entered (size now : U64)
  /-- after line 78 (load of the timer) -/
  | loaded (size now start : U64)

/-- one timer of a QER (qer.h 36-37, `ul_start` or `dl_start`), and the CPUs (numbered without bound). Simplification: the rate does not
change. -/
structure Timer where
  rate : U64
  mem : U64
  cpu : Nat → Lim

/-- A packet of `size` octets enters the limiter on CPU `i` at time `now`; its load; its decision, with the store if it passes. -/
inductive TEv
  | enter (i : Nat) (size now : U64)
  | load (i : Nat)
  | finish (i : Nat)

/-- a per-CPU state changed -/
def setCpu {α : Type} (f : Nat → α) (i : Nat) (x : α) : Nat → α := fun j => if j = i then x else f j

/-- qer.h 67-90, one step of one CPU; the size and time of a packet that passes. A step that the CPU is not at does nothing. (With rate 0 the
timer is not written, line 72-73; otherwise lines 79-90 are `limitRate`.) -/
def Timer.step (t : Timer) : TEv → Timer × List (U64 × U64)
  | .enter i size now =>
    match t.cpu i with
    | .idle => ({ t with cpu := setCpu t.cpu i (.entered size now) }, [])
    | _ => (t, [])
  | .load i =>
    match t.cpu i with
    | .entered size now => ({ t with cpu := setCpu t.cpu i (.loaded size now t.mem) }, [])
    | _ => (t, [])
  | .finish i =>
    match t.cpu i with
    | .loaded size now start =>
      match limitRate size start t.rate now with
      | none => ({ t with cpu := setCpu t.cpu i .idle }, [])
      | some s' => ({ t with mem := if t.rate = 0 then t.mem else s', cpu := setCpu t.cpu i .idle }, [(size, now)])
    | _ => (t, [])

/-- qer.h 67-90: a sequence of steps; the packets that passed, oldest first -/
def Timer.run (t : Timer) : List TEv → Timer × List (U64 × U64)
  | [] => (t, [])
  | e :: es => (((t.step e).1.run es).1, (t.step e).2 ++ ((t.step e).1.run es).2)

/-! ### a URR volume -/

/-- one volume of a URR (urr.h 25-28, `ul` or `dl`): memory, what each CPU has loaded (with the amount to add), what user space has looked up -/
structure Volume where
  mem : U64
  cpu : Nat → Option (U64 × U64)
  user : Option U64

/-- CPU `i` loads to add `n`; it stores; user space looks the volume up; it clears it and reports what it had looked up. -/
inductive VEv
  | load (i : Nat) (n : U64)
  | store (i : Nat)
  | lookup
  | reset

/-- urr.h 45-46 (`+=` is a load, an addition and a store) and pdr.go 247-255 (`Lookup`, then `Update` with zeros); the volume reported, if
any. A step that the CPU or user space is not at does nothing. -/
def Volume.step (v : Volume) : VEv → Volume × Option U64
  | .load i n =>
    match v.cpu i with
    | none => ({ v with cpu := setCpu v.cpu i (some (v.mem, n)) }, none)
    | some _ => (v, none)
  | .store i =>
    match v.cpu i with
    | none => (v, none)
    | some (x, n) => ({ v with mem := x + n, cpu := setCpu v.cpu i none }, none)
  | .lookup =>
    match v.user with
    | none => ({ v with user := some v.mem }, none)
    | some _ => (v, none)
  | .reset =>
    match v.user with
    | none => (v, none)
    | some x => ({ v with mem := 0, user := none }, some x)

/-- urr.h 45-46, pdr.go 247-255: a sequence of steps; the reports, oldest first -/
def Volume.run (v : Volume) : List VEv → Volume × List U64
  | [] => (v, [])
  | e :: es => (((v.step e).1.run es).1, (v.step e).2.toList ++ ((v.step e).1.run es).2)

/-! ### a FAR record -/

/-- n3n6_entrypoint.c 98, 102, 122, 128 (= 161, 165, 185, 191): the program keeps a pointer into the FAR table and reads the fields of
the record one after the other: the times of these reads -/
structure Reads where
  action : Nat
  ohc : Nat
  tlm : Nat
  remoteIP : Nat
  teid : Nat

/-- n3n6_entrypoint.c 91-128: what the downlink path uses of a record that is replaced meanwhile (`v t` is the record at time `t`; each
replacement is taken to be atomic, which is more than the kernel promises) -/
def Reads.far (r : Reads) (v : Nat → FarInfo) : FarInfo :=
  { action := (v r.action).action, ohc := (v r.ohc).ohc, tlm := (v r.tlm).tlm, remoteIP := (v r.remoteIP).remoteIP, teid := (v r.teid).teid }

end Eupf.Smp
