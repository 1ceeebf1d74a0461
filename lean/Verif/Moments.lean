import Verif.Node
/-
Requests as sequences of table writes. The packet program runs on other CPUs while the main loop (pfcp_connection.go 113-139) processes a
request, so packets meet the tables as they are between any two writes. `Node.step` runs a request as a whole; here the same code is cut
into its writes, with packets in between.

A step below makes at most one `bpf_map_update_elem` or `bpf_map_delete_elem` (cmd/ebpf/pdr.go 45-256), which the kernel makes atomic for the
element (for array maps: see C76), so the tables between the steps are all the tables that packets can meet. (`DeleteUrr`, pdr.go 244-255,
reads and then clears a URR; what is counted between the two is lost, C75. `PutPdr*` with a filter reads the entry before it is written;
packets do not write PDR entries.)
-/
namespace Eupf

/-- A piece of a handler. -/
abbrev Piece := Act HS Unit

/-- One piece after the other, stopping at the first that fails. -/
def Act.all (l : List Piece) : Act HS Unit := Act.each (fun m => m) l

/-- pfcp_session_handlers.go 41-120, piece by piece -/
def estPieces (ue : Bool) (r : EstReq) : List Piece :=
  r.createPdr.map displayPdr ++ (r.createFar.map createFar ++ (r.createQer.map createQer ++ (r.createUrr.map createUrr ++
  r.createPdr.map (createPdr ue))))

/-- pfcp_session_handlers.go 251-461, piece by piece -/
def modPieces (ue : Bool) (ord : Orders) (r : ModReq) : List Piece :=
  r.createPdr.map displayPdr ++ (r.updatePdr.map displayPdr ++ (r.createFar.map createFar ++ (r.updateFar.map updateFar ++
  (r.removeFar.map removeFar ++ (r.createQer.map createQer ++ (r.updateQer.map updateQer ++ (r.removeQer.map removeQer ++
  (r.createUrr.map createUrr ++ (r.updateUrr.map updateUrr ++ (r.removeUrr.map removeUrr ++ (r.createPdr.map (createPdr ue) ++
  (r.updatePdr.map (updatePdr ue) ++ r.removePdr.map (removePdr ord)))))))))))))

/-- pfcp_session_handlers.go 165-200, piece by piece -/
def delPieces (ord : Orders) (x : Session) : List Piece :=
  (ord.pdrs.run x.pdrs.entries).map (fun e => deletePdr ord e.2) ++ ((ord.fars.run x.fars.entries).map dropFar ++
  ((ord.qers.run x.qers.entries).map dropQer ++ (ord.urrs.run x.urrs.entries).map dropUrr))

/-- pfcp_connection.go 192-204 `DeleteSession` and its call at 186: a new PDR creation context for session `x` -/
def enter (x : Session) : Piece := fun s => (⟨x, GoMap.empty, s.rm, s.dp, [], []⟩, .ok ())

/-- pfcp_connection.go 192-204 `DeleteSession`, piece by piece -/
def dropPieces (ord : Orders) (x : Session) : List Piece :=
  enter x :: ((ord.fars.run x.fars.entries).map (fun e => Act.ignore (dropFar e)) ++
    ((ord.qers.run x.qers.entries).map (fun e => Act.ignore (dropQer e)) ++
    (ord.pdrs.run x.pdrs.entries).map (fun e => Act.ignore (deletePdr ord e.2))))

/-- What a session that does not exist would be; `DeleteAssociation` starts outside of any session. -/
def Session.nil : Session := Session.new 0 0

/-- The pieces of an event and the state in which the first starts: pfcp_session_handlers.go 20-120 (establishment), 219-461 (modification),
148-200 (deletion), pfcp_connection.go 181-190 (lost peer). `none`: the event writes no table. -/
def Node.job (n : Node) : Ev → Option (HS × List Piece)
  | .establish addr r =>
    match validateRequest r.nodeId r.cpFseid, n.assocs.get? addr with
    | some remote, some a => some (n.hs (Session.new (a.nextSessionID + 1) remote), estPieces n.ueip r)
    | _, _ => none
  | .modify addr r ord =>
    match (n.assocs.get? addr).bind (fun a => a.sessions.get? r.seid) with
    | some x => some (n.hs (x.setRemote r.cpFseid), modPieces n.ueip ord r)
    | none => none
  | .delete addr r ord =>
    match (n.assocs.get? addr).bind (fun a => a.sessions.get? r.seid) with
    | some x => some (n.hs x, delPieces ord x)
    | none => none
  | .peerLost addr ord =>
    match n.assocs.get? addr with
    | some a => some (n.hs Session.nil, (ord.sessions.run a.sessions.entries).flatMap (fun e => dropPieces ord e.2))
    | none => none
  | _ => none

/-- What the event does after its last piece: the records are stored and the answer is sent. pfcp_session_handlers.go 121-146, 462-484,
200-217 (with pfcp_handlers.go 29-33), pfcp_connection.go 188-189. -/
def Node.conclude (n : Node) (e : Ev) (hs : HS) (res : Res Unit) : Node × Outcome :=
  let n1 := { n with rm := hs.rm, dp := hs.dp }
  match e with
  | .establish addr r =>
    match r.cpFseid, n.assocs.get? addr with
    | some (some remote), some a =>
      let seid := a.nextSessionID + 1
      let a := { a with nextSessionID := seid }
      match res with
      | .ok () => ({ n1 with assocs := n.assocs.set addr { a with sessions := a.sessions.set seid hs.sess } },
          .reply { type := .establishment, seid := remote, seq := r.seq, cause := causeAccepted, fseid := some seid,
                   created := createdIEs n.cfg.n3 hs.created })
      | .err => ({ n1 with assocs := n.assocs.set addr a },
          .reply { type := .establishment, seid := remote, seq := r.seq, cause := causeRuleFailure })
      | .panic => ({ n1 with assocs := n.assocs.set addr a }, .crash)
    | _, _ => n.step e
  | .modify addr r _ =>
    match n.assocs.get? addr with
    | some a =>
      ({ n1 with assocs := n.assocs.set addr { a with sessions := a.sessions.set r.seid hs.sess } },
       match res with
       | .ok () => .reply { type := .modification, seid := hs.sess.remoteSEID, seq := r.seq, cause := causeAccepted,
                            created := createdIEs n.cfg.n3 hs.created, reports := hs.reports }
       | .err => .reply { type := .modification, seid := hs.sess.remoteSEID, seq := r.seq, cause := causeRuleFailure }
       | .panic => .crash)
    | none => n.step e
  | .delete addr r ord =>
    match n.assocs.get? addr with
    | none => n.step e
    | some a => match a.sessions.get? r.seid with
      | none => n.step e
      | some sess => match res with
        | .ok () =>
          ({ n1 with rm := releaseResources ord r.seid hs.rm, assocs := n.assocs.set addr { a with sessions := a.sessions.erase r.seid } },
           .reply { type := .deletion, seid := sess.remoteSEID, seq := r.seq, cause := causeAccepted, reports := hs.reports })
        | .err => (n1, .silent)
        | .panic => (n1, .crash)
  | .peerLost addr _ =>
    match res with
    | .panic => (n1, .crash)
    | _ => ({ n1 with assocs := n.assocs.erase addr }, .silent)
  | _ => n.step e

/-- From the pieces `l` in state `s` on: pieces are executed, and packets are processed in between; what remains, the state, and how the
last piece ended. -/
inductive Prog (l : List Piece) (s : HS) : List Piece → HS → Res Unit → Prop
  | start : Prog l s l s (.ok ())
  | piece {m : Piece} {l' : List Piece} {t t' : HS} : Prog l s (m :: l') t (.ok ()) → m t = (t', .ok ()) → Prog l s l' t' (.ok ())
  | failed {m : Piece} {l' : List Piece} {t t' : HS} {r : Res Unit} : Prog l s (m :: l') t (.ok ()) → m t = (t', r) → r ≠ .ok () →
      Prog l s [] t' r
  | packets {l' : List Piece} {t : HS} {r : Res Unit} {b : BpfObjects} : Prog l s l' t r → TrafficEffect t.dp b →
      Prog l s l' { t with dp := b } r

/-- The event from beginning to end, with packets in between. -/
inductive Node.Runs (n : Node) (e : Ev) : Node → Outcome → Prop
  | whole : n.job e = none → n.Runs e (n.step e).1 (n.step e).2
  | pieces {s t : HS} {l : List Piece} {r : Res Unit} : n.job e = some (s, l) → Prog l s [] t r →
      n.Runs e (n.conclude e t r).1 (n.conclude e t r).2

/-- Histories with packets at any moment, in which every event satisfies `P` in the state in which it arrives. -/
inductive HistI (P : Node → Ev → Prop) (n0 : Node) : List (Ev × Outcome) → Node → Prop
  | init : HistI P n0 [] n0
  | step {h : List (Ev × Outcome)} {n n' : Node} {o : Outcome} (e : Ev) : HistI P n0 h n → P n e → n.Runs e n' o → o ≠ .crash →
      HistI P n0 ((e, o) :: h) n'
  | traffic {h : List (Ev × Outcome)} {n : Node} {dp : BpfObjects} : HistI P n0 h n → TrafficEffect n.dp dp →
      HistI P n0 h { n with dp := dp }

/-- The tables are `b` at some moment while the event is processed. -/
def Node.moment (n : Node) (e : Ev) (b : BpfObjects) : Prop :=
  match n.job e with
  | none => TrafficEffect n.dp b
  | some (s, l) => ∃ l' t r, Prog l s l' t r ∧ t.dp = b

end Eupf
