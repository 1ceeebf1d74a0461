import Verif.Spec.AbstractUpf
import Verif.Spec.Atomic
/-
Specification vocabulary for C115: two UPFs that were told the same.
-/
namespace Eupf

/-- In the history some session was given a PDR with match key `k`, Outer Header Removal `ohr` and filter `sdf`, whose FAR and QER, as last told, are
`F` and `Q`. (Which session and peer, and under which ids, is left open.) -/
def Tells (h : List (Ev × Outcome)) (k : PdrKey) (ohr : U8) (sdf : Option SdfFilter) (F : AFar) (Q : AQer) : Prop :=
  ∃ a s i P, Said h a s i P F Q ∧ P.key = k ∧ P.ohr = ohr ∧ P.sdf = sdf

/-- The two histories told the same rules. -/
def SameTold (h h' : List (Ev × Outcome)) : Prop := ∀ k ohr sdf F Q, Tells h k ohr sdf F Q ↔ Tells h' k ohr sdf F Q

/-- There is no rate limit in the direction of the key. -/
def AQer.unlimitedFor (q : AQer) : PdrKey → Prop
  | .ul _ => q.mbrUL = 0
  | .dl4 _ => q.mbrDL = 0
  | .dl6 _ => q.mbrDL = 0

/-- Both rate limiters of the QER are in the same state. -/
def QerInfo.sameTimers (q q' : QerInfo) : Prop := q.startUL = q'.startUL ∧ q.startDL = q'.startDL

/-- The event without the order in which Go happens to go through its maps. -/
def Ev.unordered : Ev → Ev
  | .modify a r _ => .modify a r default
  | .delete a r _ => .delete a r default
  | .peerLost a _ => .peerLost a default
  | e => e

/-- The two histories are the same, requests and answers, but for the orders in which Go went through its maps. -/
def SameButOrders (h h' : List (Ev × Outcome)) : Prop := h.map (fun x => (x.1.unordered, x.2)) = h'.map (fun x => (x.1.unordered, x.2))

end Eupf
