import Verif.NodeLemmas
/-
Specification: what an outside observer of the PFCP interface concludes from requests and responses alone.
Nothing here looks into the node.
-/
namespace Eupf

/-- A PFCP session as the two ends know it: peer, UP's SEID (handed out in the response), CP's SEID. -/
structure LedgerEntry where
  peer : Addr
  seid : U64
  cp : U64
deriving DecidableEq, Repr

/-- One exchange, added to the sessions alive before it. -/
def ledgerStep (l : List LedgerEntry) : Ev × Outcome → List LedgerEntry
  | (.establish a r, .reply resp) =>
    match resp.fseid, r.cpFseid with
    | some s, some (some c) => if resp.cause = 1 then ⟨a, s, c⟩ :: l else l
    | _, _ => l
  | (.modify a r _, .reply _) =>
    match r.cpFseid with
    | some (some c) => l.map (fun e => if e.peer = a ∧ e.seid = r.seid then { e with cp := c } else e)
    | _ => l
  | (.delete a r _, .reply resp) =>
    if resp.cause = 1 then l.filter (fun e => ¬ (e.peer = a ∧ e.seid = r.seid)) else l
  | (.peerLost a _, _) => l.filter (fun e => e.peer ≠ a)
  | _ => l

/-- Sessions alive after a history (newest exchange first): established, not deleted, not lost with their
peer. -/
def ledger : List (Ev × Outcome) → List LedgerEntry
  | [] => []
  | x :: h => ledgerStep (ledger h) x

/-- SEIDs handed out to peer `a` since its association was last lost (newest first). -/
def issued (a : Addr) : List (Ev × Outcome) → List U64
  | [] => []
  | (.establish b _, .reply resp) :: h =>
    match resp.fseid with
    | some s => if b = a then s :: issued a h else issued a h
    | none => issued a h
  | (.peerLost b _, _) :: h => if b = a then [] else issued a h
  | _ :: h => issued a h

/-- Number of establishment requests in a history. -/
def attempts (h : List (Ev × Outcome)) : Nat :=
  (h.filter (fun x => match x.1 with | .establish .. => true | _ => false)).length

/-- Histories with what was observed, newest first; packets may be processed in between; a crash ends it. -/
inductive Hist (n0 : Node) : List (Ev × Outcome) → Node → Prop
  | init : Hist n0 [] n0
  | step {h : List (Ev × Outcome)} {n : Node} (e : Ev) : Hist n0 h n → (n.step e).2 ≠ .crash →
      Hist n0 ((e, (n.step e).2) :: h) (n.step e).1
  | traffic {h : List (Ev × Outcome)} {n : Node} {dp : BpfObjects} : Hist n0 h n → TrafficEffect n.dp dp →
      Hist n0 h { n with dp := dp }

theorem Hist.reach {n0 n : Node} {h} (H : Hist n0 h n) : Reach n0 n := by
  induction H with
  | init => exact .init
  | step e _ hc ih => exact .step e ih hc
  | traffic _ t ih => exact .traffic ih t

end Eupf
