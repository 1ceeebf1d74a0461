import Verif.Restart
import Verif.Spec.Wire
import Verif.Spec.Ledger
/-
Specification for C88: the part of a history since the last start, and the messages of a history.
-/
namespace Eupf

/-- the turns since the last start -/
def sinceBoot : List WEv → List (Turn × Outcome)
  | [] => []
  | .boot _ :: _ => []
  | .turn t o _ :: h => (t, o) :: sinceBoot h

/-- the messages sent since the last start, with their Recovery Time Stamps -/
def messagesSince : List WEv → List (Sent × Option U32)
  | [] => []
  | .boot _ :: _ => []
  | .turn _ _ m :: h => m ++ messagesSince h

/-- the last start -/
def lastBoot : List WEv → Option Boot
  | [] => none
  | .boot b :: _ => some b
  | .turn _ _ _ :: h => lastBoot h

/-- the PFCP events of a list of turns -/
def evsOf (h : List (Turn × Outcome)) : List (Ev × Outcome) :=
  h.filterMap fun x => match x.1 with
    | .event e => some (e, x.2)
    | _ => none

/-- What a request of a peer is answered with: the peer, the name of the response, the sequence number of the request. -/
def Ev.answer : Ev → Option (Addr × MsgName × U32)
  | .assocSetup a q _ _ => some (a, .associationSetupResponse, q)
  | .assocUpdate a q _ => some (a, .associationUpdateResponse, q)
  | .heartbeatReq a q _ => some (a, .heartbeatResponse, q)
  | .establish a r => some (a, .sessionEstablishmentResponse, r.seq)
  | .modify a r _ => some (a, .sessionModificationResponse, r.seq)
  | .delete a r _ => some (a, .sessionDeletionResponse, r.seq)
  | _ => none

/-- the message, other than an Association Setup Request, that a turn puts on the wire -/
def saysOf (resolves : Addr → Bool) : Turn × Outcome → Option (Addr × MsgName × U32)
  | (.event e, .reply _) => e.answer
  | (.probe a q, _) => if resolves a then some (a, .heartbeatRequest, q) else none
  | _ => none

/-- destination, name and sequence number of a message -/
def Sent.head (s : Sent) : Addr × MsgName × U32 := (s.dst, s.name, s.seq)

end Eupf
