import Verif.Props.ToldRate
/-
Specification for C116: packets and requests in any order. Models no code.
-/
namespace Eupf

/-- The request may restart the rate limiter of QER `j` of session `s` of peer `a`: it is a modification of this session with this QER among the
created, updated or removed ones, or the end of the session. -/
def Ev.touches (a : Addr) (s : U64) (j : U32) : Ev → Prop
  | .modify a' r _ => a' = a ∧ r.seid = s ∧ ((∃ ie ∈ r.createQer, ie.qerId = some j) ∨ (∃ ie ∈ r.updateQer, ie.qerId = some j) ∨ some j ∈ r.removeQer)
  | .delete a' r _ => a' = a ∧ r.seid = s
  | .peerLost a' _ => a' = a
  | _ => False

/-- A packet and what became of it, with the requests (and their outcomes) before it, newest first. -/
structure Passed where
  hist : List (Ev × Outcome)
  env : Env
  frame : List U8
  act : XAction

/-- Packets and requests that satisfy `P`, in any order, from node `n0` after the requests `h0`: the requests since then, the packets since
then (both newest first) and the node after them. The counters of the program and the routes are arbitrary for every packet. -/
inductive Timeline (P : Node → Ev → Prop) (h0 : List (Ev × Outcome)) (n0 : Node) : List (Ev × Outcome) → List Passed → Node → Prop
  | start : Timeline P h0 n0 [] [] n0
  | packet {h : List (Ev × Outcome)} {l : List Passed} {n : Node} {e : Env} {f : List U8} {st : UpfStat} {rt : RouteStat} {s' : PS} {act : XAction} :
      Timeline P h0 n0 h l n → runPacket e ⟨f, n.dp, st, rt⟩ = (s', .ok act) → Timeline P h0 n0 h (⟨h ++ h0, e, f, act⟩ :: l) { n with dp := s'.dp }
  | request {h : List (Ev × Outcome)} {l : List Passed} {n : Node} (e : Ev) : Timeline P h0 n0 h l n → P n e → (n.step e).2 ≠ .crash →
      Timeline P h0 n0 ((e, (n.step e).2) :: h) l (n.step e).1

/-- The packets (newest first) arrive one after the other between the times `t0` and `t1` (in nanoseconds), each at most `L` octets long. -/
structure InTime (clock : Env → U64) (t0 t1 L : Nat) (l : List Passed) : Prop where
  order : l.Pairwise fun y x => (clock x.env).toNat ≤ (clock y.env).toNat
  time : ∀ p ∈ l, t0 ≤ (clock p.env).toNat ∧ (clock p.env).toNat ≤ t1
  size : ∀ p ∈ l, p.frame.length ≤ L
  /-- 146 years of uptime -/
  sane : t1 < 2 ^ 62
  /-- half a gigabyte -/
  short : L < 2 ^ 29

open Classical in
/-- The bits of the packets that satisfied `P` (of the requests before them) and were sent on. -/
noncomputable def sentBits (P : List (Ev × Outcome) → Env → List U8 → Prop) : List Passed → Nat
  | [] => 0
  | p :: l => (if P p.hist p.env p.frame ∧ p.act.sent = true then 8 * p.frame.length else 0) + sentBits P l

open Classical in
/-- How many of the requests may restart the limiter. -/
noncomputable def restarts (a : Addr) (s : U64) (j : U32) (h : List (Ev × Outcome)) : Nat := (h.filter fun x => decide (x.1.touches a s j)).length

end Eupf
