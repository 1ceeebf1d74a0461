import Verif.ResourceManager
/-
The GTP path manager: cmd/core/gtp_path_manager.go.
Trusted: gopacket (decoding of the answer: a parameter), sockets and timers. `AddGtpPath` is only called before `Run`
(main.go 132-136).
-/
namespace Eupf

/-- What is read of an answer (gopacket layers.GTPv1U). -/
structure GtpAnswer where
  messageType : U8
  teid : U32
  seqFlag : Bool
  seq : U16
deriving DecidableEq, Repr

/-- What happens to an echo request: it could not be sent (lines 71-103: serializing, resolving, dialling, writing), there was no
readable answer within 3 s (lines 105-108, 124-126), or an answer. -/
inductive EchoFate
  | notSent
  | noAnswer
  | answer (m : GtpAnswer)
deriving DecidableEq, Repr

/-- lines 111-126: is the answer taken? The sequence number is not looked at (lines 118-120 are commented out). -/
def EchoFate.ok : EchoFate → Bool
  | .answer m => m.messageType == 2 && m.teid == 0
  | _ => false

/-- An attempt to reach a peer, with the sequence number of the request. -/
structure Attempt where
  peer : String
  seq : U16
  fate : EchoFate
deriving DecidableEq, Repr

/-- lines 14-20 `GtpPathManager` (the peers), with the attempts made so far, newest first -/
structure PathManager where
  peers : GoMap String U16
  log : List Attempt

/-- lines 22-31 `NewGtpPathManager` -/
def PathManager.new : PathManager := ⟨GoMap.empty, []⟩
/-- lines 34-36 `AddGtpPath` -/
def PathManager.addGtpPath (m : PathManager) (p : String) : PathManager := { m with peers := m.peers.set p 0 }

/-- lines 48-57: one peer of a tick -/
def PathManager.probe (fate : String → EchoFate) (m : PathManager) (x : String × U16) : PathManager :=
  let m := { m with log := ⟨x.1, x.2, fate x.1⟩ :: m.log }
  if (fate x.1).ok then { m with peers := m.peers.set x.1 (x.2 + 1) } else m

/-- lines 47-59: one tick. The loop ranges over the peers as they were at its start: it changes the value of no peer but the one it is
at, and adds none. -/
def PathManager.tick (m : PathManager) (ord : Shuffle (String × U16)) (fate : String → EchoFate) : PathManager :=
  (ord.run m.peers.entries).foldl (PathManager.probe fate) m

/-- main.go 132-136 and `Run`: the configured peers, then a number of ticks -/
def PathManager.start (peers : List String) : PathManager := peers.foldl PathManager.addGtpPath PathManager.new
def PathManager.run (m : PathManager) : List (Shuffle (String × U16) × (String → EchoFate)) → PathManager
  | [] => m
  | t :: ts => (m.tick t.1 t.2).run ts

/-- lines 71-80: the octets of the request (gopacket serialisation of the given fields) -/
def echoRequest (seq : U16) : List U8 :=
  [0x32, 1, 0, 4, 0, 0, 0, 0, seq.extractLsb' 8 8, seq.extractLsb' 0 8, 0, 0]

end Eupf
