import Verif.Spec.Timers
/-
Specification for C117: what usage reports say. Models no code.
-/
namespace Eupf

/-- The request names URR `i` of session `s` of peer `a`: it is a modification of this session with this URR among the created, updated or
removed ones, or the end of the session. -/
def Ev.touchesUrr (a : Addr) (s : U64) (i : U32) : Ev → Prop
  | .modify a' r _ => a' = a ∧ r.seid = s ∧ (some i ∈ r.createUrr ∨ some i ∈ r.updateUrr ∨ some i ∈ r.removeUrr)
  | .delete a' r _ => a' = a ∧ r.seid = s
  | .peerLost a' _ => a' = a
  | _ => False

/-- The volumes counted for URR `i` of session `s` of peer `a` (they are what a usage report says, C39). -/
def Node.urrOf (n : Node) (a : Addr) (s : U64) (i : U32) : Option UrrInfo :=
  ((n.session? a s).bind fun x => x.urrs.get? i).bind fun u => n.dp.urr.lookup u.gid

/-- The report says something other than nothing. -/
def UsageReport.nonzero (r : UsageReport) : Bool := r.total != 0 || r.ul != 0 || r.dl != 0

/-- The packet came from the access network as user data, and was sent on. -/
def Passed.up (p : Passed) : Prop := IsGtpMsg p.env p.frame 255 ∧ p.act.sent = true
/-- The packet came from the data network, and was sent on. -/
def Passed.down (p : Passed) : Prop := (IsDown4 p.env p.frame ∨ IsDown6 p.frame) ∧ p.act.sent = true

open Classical in
/-- The octets of the packets that satisfy `P`. -/
noncomputable def octets (P : Passed → Prop) : List Passed → Nat
  | [] => 0
  | p :: l => (if P p then p.frame.length else 0) + octets P l

end Eupf
