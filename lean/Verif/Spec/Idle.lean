import Verif.Spec.Wire
/-
Specification for C121: what the UPF says to its peers, as a function of what was said to it (and of the timers). Models no code.
-/
namespace Eupf

/-- The control messages of an execution, newest first, computed from its turns alone: the responses to requests, a heartbeat request when
one is due, and at every tick of the association timer an Association Setup Request for each configured peer (that resolves) without
association. `cfg`, `remotes` and `resolves` are configuration. -/
def messagesOf (cfg : NodeCfg) (remotes : List Addr) (resolves : Addr → Bool) : List (Turn × Outcome) → List Sent
  | [] => []
  | (.event e, .reply r) :: h => ⟨e.from, r.type.respName, r.seq, r.features⟩ :: messagesOf cfg remotes resolves h
  | (.tick, _) :: h =>
    (((remotes.filter fun a => !associated a h).filter resolves).map fun a => (⟨a, .associationSetupRequest, 0, some cfg.features⟩ : Sent)).reverse ++
      messagesOf cfg remotes resolves h
  | (.probe a q, _) :: h => if resolves a then ⟨a, .heartbeatRequest, q, none⟩ :: messagesOf cfg remotes resolves h else messagesOf cfg remotes resolves h
  | _ :: h => messagesOf cfg remotes resolves h

/-- the messages that tell a peer something it did not ask for are only these two -/
def MsgName.unasked : MsgName → Bool
  | .heartbeatRequest => true
  | .associationSetupRequest => true
  | _ => false

/-- the responses -/
def MsgName.response : MsgName → Bool
  | .heartbeatResponse => true
  | .associationSetupResponse => true
  | .associationUpdateResponse => true
  | .sessionEstablishmentResponse => true
  | .sessionModificationResponse => true
  | .sessionDeletionResponse => true
  | _ => false

end Eupf
