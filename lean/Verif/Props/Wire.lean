import Verif.Spec.Wire
import Verif.Props.DeletionCases
/-
C67: PFCP message counters.
-/
namespace Eupf

theorem errOf_verdict (n : Node) (e : Ev) : n.errOf e = verdict (.event e, (n.step e).2) := by
  cases e with
  | establish a r =>
    simp only [Node.errOf, Node.establishErr, Node.step, Node.establish]
    cases validateRequest r.nodeId r.cpFseid with
    | none => rfl
    | some remote =>
      cases n.assocs.get? a with
      | none => rfl
      | some as =>
        simp only
        cases (establishBody n.ueip r (n.hs (Session.new as.newLocalSEID.2 remote))).2 <;> rfl
  | modify a r o =>
    simp only [Node.errOf, Node.modifyErr, Node.step, Node.modify]
    cases n.assocs.get? a with
    | none => rfl
    | some as =>
      simp only
      cases as.sessions.get? r.seid with
      | none => rfl
      | some sess =>
        simp only
        cases (modifyBody n.ueip o r (n.hs (sess.setRemote r.cpFseid))).2 <;> rfl
  | delete a r o =>
    simp only [Node.errOf, Node.deleteErr, Node.step, Node.delete]
    cases n.assocs.get? a with
    | none => rfl
    | some as =>
      simp only
      cases as.sessions.get? r.seid with
      | none => rfl
      | some sess =>
        simp only
        cases (deleteBody o sess (n.hs sess)).2 <;> rfl
  | assocSetup a s i t => rcases i with _ | _ | _ <;> rcases t with _ | _ | _ <;> rfl
  | assocUpdate a s i =>
    simp only [Node.errOf, Node.assocUpdateErr, Node.step, Node.assocUpdate]
    rcases i with _ | _ | _
    · rfl
    · rfl
    · simp only
      cases n.assocs.get? a <;> rfl
  | assocSetupResp a i c f =>
    have hs : (n.step (.assocSetupResp a i c f)).2 = .silent := by
      simp only [Node.step]
      unfold Node.assocSetupResp
      split
      · split <;> rfl
      · rfl
    rw [hs]
    simp only [Node.errOf, verdict]
    unfold assocSetupRespErr setupRespDefect
    rcases i with _ | _ | _
    · rfl
    · rfl
    rcases c with _ | _ | c
    · rfl
    · rfl
    by_cases hc : c = 1
    · subst hc
      rcases f with _ | _ | _ <;> rfl
    · have h1 : c ≠ causeAccepted := hc
      have h2 : ¬ (some (some c) : Option (Option U8)) = some (some 1) := fun h => hc (by simpa using h)
      simp only [if_pos h1, if_neg h2]
      simp
  | heartbeatReq a s t => rcases t with _ | _ | _ <;> rfl
  | heartbeatResp a s t => rcases t with _ | _ | _ <;> rfl
  | peerLost a o =>
    have hs : ∀ r, (n.step (.peerLost a o)).2 ≠ .reply r := by
      intro r
      simp only [Node.step, Node.deleteAssociation]
      split
      · simp
      · split <;> simp
    simp only [Node.errOf]
    cases h : (n.step (.peerLost a o)).2 with
    | reply r => exact absurd h (hs r)
    | _ => rfl
  | setConfig u => rfl

/-- proof device: what one turn does to the counters -/
theorem turn_rx (w : Endpoint) (t : Turn) (k : MsgName) :
    (w.turn t).m.rx k = w.m.rx k + (if t.name = some k then 1 else 0) := by
  have key : ∀ (m : Metrics) (e : Option MsgName) (c : Option U8), (countErr (countRx m e) e c).rx k = m.rx k + (if e = some k then 1 else 0) := by
    intro m e c
    cases e with
    | none => simp [countRx, countErr]
    | some j =>
      have : (countErr (countRx m (some j)) (some j) c).rx k = (m.incRx j).rx k := by cases c <;> rfl
      rw [this]
      simp only [Metrics.incRx, Option.some.injEq]
      by_cases h : k = j
      · simp [h]
      · simp [h, Ne.symm h]
  cases t with
  | undecodable => simp [Endpoint.turn, Turn.name]
  | unexpected t =>
    simp only [Endpoint.turn, Turn.name, Metrics.incRx, Option.some.injEq]
    by_cases h : k = .other t
    · simp [h]
    · simp [h, Ne.symm h]
  | tick => simp [Endpoint.turn, Turn.name]
  | probe a q =>
    simp only [Endpoint.turn, Turn.name]
    split <;> simp
  | event e =>
    have : (w.turn (.event e)).m.rx k = (countErr (countRx w.m e.msgName) e.msgName (w.node.errOf e)).rx k := by
      simp only [Endpoint.turn]
      rcases w.node.step e with ⟨n, _ | _ | _⟩ <;> rfl
    rw [this, key]
    rfl

theorem turn_err (w : Endpoint) (t : Turn) (k : MsgName) (l : String) :
    (w.turn t).m.rxErrors k l = w.m.rxErrors k l +
      (if t.name = some k ∧ (verdict (t, match t with | .event e => (w.node.step e).2 | _ => .silent)).map causeToString = some l
       then 1 else 0) := by
  cases t with
  | undecodable => simp [Endpoint.turn, Turn.name]
  | unexpected t => simp [Endpoint.turn, Turn.name, Metrics.incRx, verdict]
  | tick => simp [Endpoint.turn, Turn.name]
  | probe a q =>
    simp only [Endpoint.turn, Turn.name]
    split <;> simp
  | event e =>
    simp only [Turn.name, ← errOf_verdict]
    have : (w.turn (.event e)).m.rxErrors k l = (countErr (countRx w.m e.msgName) e.msgName (w.node.errOf e)).rxErrors k l := by
      simp only [Endpoint.turn]
      rcases w.node.step e with ⟨n, _ | _ | _⟩ <;> rfl
    rw [this]
    cases e.msgName with
    | none => simp [countRx, countErr]
    | some j =>
      cases w.node.errOf e with
      | none => simp [countErr, countRx, Metrics.incRx]
      | some c =>
        simp only [countErr, countRx, Metrics.incRx, Metrics.incErr, Option.map_some, Option.some.injEq]
        by_cases h1 : k = j
        · subst h1
          by_cases h2 : l = causeToString c
          · simp [h2]
          · simp [h2, Ne.symm h2]
        · simp [h1, Ne.symm h1]

/-- **C67, received.** In every execution of the endpoint `upf_pfcp_rx` of a message name is the number of decodable messages of that
name taken from the socket, whether or not the UPF handles them. -/
theorem C67_rx {w0 w : Endpoint} {h : List (Turn × Outcome)} (h0 : w0.m = {}) (hr : Endpoint.Run w0 h w) (k : MsgName) :
    w.m.rx k = h.countP (fun t => t.1.name = some k) := by
  induction hr with
  | init => simp [h0]
  | turn t ha _ ih => rw [turn_rx, ih, List.countP_cons]; simp
  | traffic _ _ ih => exact ih

/-- **C67, causes.** In every execution `upf_pfcp_rx_errors` of a message name and a cause name is the number of messages of that name
whose verdict is a cause of that name (16 values have names of their own, all others share "UnknownCause"); the verdict is the cause
of the response, so accepted requests are counted here, too. -/
theorem C67_causes {w0 w : Endpoint} {h : List (Turn × Outcome)} (h0 : w0.m = {}) (hr : Endpoint.Run w0 h w) (k : MsgName) (l : String) :
    w.m.rxErrors k l = h.countP (fun t => t.1.name = some k ∧ (verdict t).map causeToString = some l) := by
  induction hr with
  | init => simp [h0]
  | turn t ha _ ih =>
    rw [turn_err, ih, List.countP_cons]
    congr 1
    simp only [decide_eq_true_eq]
    cases t <;> rfl
  | traffic _ _ ih => exact ih

/-- a request the UPF sends on its own account -/
def MsgName.isRequest : MsgName → Bool
  | .heartbeatRequest => true
  | .associationSetupRequest => true
  | _ => false

theorem respName_not_request (t : MsgType) : t.respName.isRequest = false := by cases t <;> rfl

theorem refresh_names (w : Endpoint) : ∀ s ∈ w.refresh, s.name = .associationSetupRequest := by
  intro s hs
  simp only [Endpoint.refresh, List.mem_map] at hs
  obtain ⟨a, _, rfl⟩ := hs
  rfl

/-- **C67, sent (part).** In every execution `upf_pfcp_tx` of every message name except the two requests the UPF sends on its own
account is the number of messages of that name sent. Missing: those two (next theorem). -/
theorem C67_tx_partial {w0 w : Endpoint} {h : List (Turn × Outcome)} (h0 : w0.m = {}) (hs0 : w0.sent = []) (hr : Endpoint.Run w0 h w)
    (k : MsgName) (hk : k.isRequest = false) : w.m.tx k = w.sent.countP (fun s => s.name = k) := by
  induction hr with
  | init => simp [h0, hs0]
  | traffic _ _ ih => exact ih
  | @turn h w t ha _ ih =>
    cases t with
    | undecodable => exact ih
    | unexpected t => exact ih
    | tick =>
      simp only [Endpoint.turn, List.countP_append, ih]
      suffices h : w.refresh.reverse.countP (fun s => s.name = k) = 0 by omega
      rw [List.countP_eq_zero]
      intro s hs
      have := refresh_names w s (by simpa using hs)
      simp only [decide_eq_true_eq, this]
      rintro rfl
      cases hk
    | probe a q =>
      simp only [Endpoint.turn]
      split
      · simp only [List.countP_cons, ih]
        rw [if_neg]
        · rfl
        · simp only [decide_eq_true_eq]
          rintro rfl
          cases hk
      · exact ih
    | event e =>
      have key : (countErr (countRx w.m e.msgName) e.msgName (w.node.errOf e)).tx k = w.m.tx k := by
        cases e.msgName <;> cases w.node.errOf e <;> rfl
      simp only [Endpoint.turn]
      rcases w.node.step e with ⟨n, r | _ | _⟩
      · simp only [Metrics.incTx, List.countP_cons, ← ih, key]
        by_cases hh : k = r.type.respName
        · simp [hh]
        · simp [hh, Ne.symm hh]
      · exact key.trans ih
      · exact key.trans ih

/-- **C67, sent, negation.** Heartbeat requests and association setup requests are never counted as sent, whatever was sent. -/
theorem C67_requests_not_counted {w0 w : Endpoint} {h : List (Turn × Outcome)} (h0 : w0.m = {}) (hr : Endpoint.Run w0 h w)
    (k : MsgName) (hk : k.isRequest = true) : w.m.tx k = 0 := by
  induction hr with
  | init => simp [h0]
  | traffic _ _ ih => exact ih
  | @turn h w t ha _ ih =>
    cases t with
    | probe a q =>
      simp only [Endpoint.turn]
      split <;> exact ih
    | event e =>
      have key : (countErr (countRx w.m e.msgName) e.msgName (w.node.errOf e)).tx k = w.m.tx k := by
        cases e.msgName <;> cases w.node.errOf e <;> rfl
      simp only [Endpoint.turn]
      rcases w.node.step e with ⟨n, r | _ | _⟩
      · simp only [Metrics.incTx]
        rw [if_neg, key, ih]
        rintro rfl
        rw [respName_not_request] at hk
        cases hk
      · exact key.trans ih
      · exact key.trans ih
    | _ => exact ih

/-! ### examples -/

/-- the demo node with an endpoint around it -/
def Demo.w0 : Endpoint := { node := Demo.n0, remotes := [7] }

/-- proof device: running events and other turns -/
def Endpoint.turns (w : Endpoint) : List Turn → Endpoint
  | [] => w
  | t :: ts => (w.turn t).turns ts

theorem run_turns {w0 : Endpoint} : ∀ (ts : List Turn) {h : List (Turn × Outcome)} {w : Endpoint}, Endpoint.Run w0 h w →
    (w.turns ts).alive = true → ∃ h', Endpoint.Run w0 (h' ++ h) (w.turns ts) ∧ h'.map Prod.fst = ts.reverse
  | [], h, w, H, _ => ⟨[], H, rfl⟩
  | t :: ts, h, w, H, ha => by
    have hw : w.alive = true := by
      have dead : ∀ (ts : List Turn) (w : Endpoint), w.alive = false → (w.turns ts).alive = false := by
        intro ts
        induction ts with
        | nil => exact fun w h => h
        | cons t ts ih =>
          intro w h
          refine ih _ ?_
          cases t with
          | event e =>
            simp only [Endpoint.turn]
            rcases w.node.step e with ⟨n, _ | _ | _⟩ <;> simp [h]
          | probe a q =>
            simp only [Endpoint.turn]
            split <;> exact h
          | _ => exact h
      cases h : w.alive with
      | true => rfl
      | false => rw [dead _ w h] at ha; cases ha
    obtain ⟨h', H', e⟩ := run_turns ts (H.turn t hw) ha
    exact ⟨h' ++ [_], by rw [List.append_assoc]; exact H', by simp [e]⟩

/-- A heartbeat request and an association setup request were sent, an undecodable datagram, a message without handler, an accepted
setup and an establishment for an unknown peer were received. -/
def Demo.wEnd : Endpoint := Demo.w0.turns
  [.tick, .undecodable, .unexpected 12, .event (.assocSetup 1 1 (some (some ())) (some (some ()))), .probe 1 2,
   .event (.establish 2 (Demo.est 100))]

example : (∃ h, Endpoint.Run Demo.w0 h Demo.wEnd) ∧ Demo.wEnd.m.rx (.other 12) = 1 ∧ Demo.wEnd.m.rx .associationSetupRequest = 1 ∧
    Demo.wEnd.m.tx .associationSetupResponse = 1 ∧ Demo.wEnd.m.tx .sessionEstablishmentResponse = 1 ∧
    Demo.wEnd.m.rxErrors .associationSetupRequest "RequestAccepted" = 1 ∧
    Demo.wEnd.m.rxErrors .sessionEstablishmentRequest "NoEstablishedPFCPAssociation" = 1 ∧
    Demo.wEnd.sent.countP (fun s => s.name.isRequest) = 2 ∧ Demo.wEnd.m.tx .heartbeatRequest = 0 := by
  refine ⟨?_, ?_⟩
  · obtain ⟨h, H, _⟩ := run_turns (w0 := Demo.w0)
      [.tick, .undecodable, .unexpected 12, .event (.assocSetup 1 1 (some (some ())) (some (some ()))), .probe 1 2,
       .event (.establish 2 (Demo.est 100))] .init (by decide +kernel)
    exact ⟨h ++ [], H⟩
  · decide +kernel

/-- the demo endpoint after the establishment of a session with two PDRs for one UE address, and a request to delete it -/
def Demo.wDel : Endpoint := Demo.w0.turns ((Demo.evsSameIp ++ [Ev.delete 1 ⟨2, 9⟩ default]).map Turn.event)

/-- **C67, negation.** A failing deletion is counted with a cause although no response was sent: the counter is not the number of
responses with that cause. -/
theorem C67_counted_unanswered : ∃ h w, Endpoint.Run Demo.w0 h w ∧
    w.m.rxErrors .sessionDeletionRequest "RuleCreationModificationFailure" = 1 ∧ w.sent.countP (fun s => s.name = .sessionDeletionResponse) = 0 := by
  obtain ⟨h, H, _⟩ := run_turns (w0 := Demo.w0) ((Demo.evsSameIp ++ [Ev.delete 1 ⟨2, 9⟩ default]).map Turn.event) .init (by decide +kernel)
  exact ⟨h ++ [], Demo.wDel, H, by decide +kernel, by decide +kernel⟩

end Eupf
