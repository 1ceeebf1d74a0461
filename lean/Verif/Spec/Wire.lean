import Verif.Wire
/-
Specification of the PFCP message counters: what an observer at the network would count.
-/
namespace Eupf

/-- the name of the message taken in a turn -/
def Turn.name : Turn → Option MsgName
  | .unexpected t => some (.other t)
  | .event e => e.msgName
  | _ => none

/-- The first defect of an Association Setup Response, as a cause. -/
def setupRespDefect (nodeId : Option (Option Unit)) (cause : Option (Option U8)) (cpFeatures : Option (Option Unit)) : Option U8 :=
  if nodeId = none then some 66 else if nodeId = some none then some 69
  else if cause = none then some 66 else if cause = some none then some 69
  else if cause = some (some 1) then (if cpFeatures = some (some ()) then none else some 67)
  else cause.join

/-- The cause under which a message should be counted: the cause of the response, if the message was answered and the response
has one; a deletion that failed is not answered and counts as a rule failure; an Association Setup Response counts with its first
defect. -/
def verdict : Turn × Outcome → Option U8
  | (_, .reply r) => if r.type = .heartbeat then none else some r.cause
  | (.event (.delete _ _ _), .silent) => some 73
  | (.event (.assocSetupResp _ i c f), .silent) => setupRespDefect i c f
  | _ => none

/-- Is there an association with this peer? Told from the messages alone (newest first): it is made by an accepted Association Setup
Request of the peer or by a flawless Association Setup Response of the peer, and ended when the peer is given up. -/
def associated (a : Addr) : List (Turn × Outcome) → Bool
  | [] => false
  | (.event (.assocSetup b _ _ _), .reply r) :: h => if b = a ∧ r.cause = 1 then true else associated a h
  | (.event (.assocSetupResp b i c f), .silent) :: h => if b = a ∧ setupRespDefect i c f = none then true else associated a h
  | (.event (.peerLost b _), .silent) :: h => if b = a then false else associated a h
  | _ :: h => associated a h

end Eupf
