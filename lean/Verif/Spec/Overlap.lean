import Verif.Spec.Moments
/-
Specification vocabulary for C114: a packet that overlaps with a request.
-/
namespace Eupf

/-- The tables are `b1`, then `b2`, then `b3` at three successive moments while the event is processed (any pieces and packets in between, or none). -/
def Node.moments (n : Node) (e : Ev) (b1 b2 b3 : BpfObjects) : Prop :=
  match n.job e with
  | none => TrafficEffect n.dp b1 ∧ TrafficEffect b1 b2 ∧ TrafficEffect b2 b3
  | some (s, l) => ∃ l1 t1 r1 l2 t2 r2 l3 t3 r3, Prog l s l1 t1 r1 ∧ Prog l1 t1 l2 t2 r2 ∧ Prog l2 t2 l3 t3 r3 ∧ t1.dp = b1 ∧ t2.dp = b2 ∧ t3.dp = b3

/-- The tables with every QER empty: gates open, no limits, QFI 0. -/
def BpfObjects.noQers (d : BpfObjects) : BpfObjects := { d with qer := { d.qer with val := fun _ => {} } }

end Eupf
