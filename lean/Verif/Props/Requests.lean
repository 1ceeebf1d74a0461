import Verif.Demo
/-
C01 C02 C03 C05 C06 C12 C48: what session and association requests may change and how they are answered.
All statements hold for every node state, reachable or not.
-/
namespace Eupf

/-- **C01.** Without an association, every session request is answered with cause 72 and nothing
changes. -/
theorem C01_no_association (n : Node) (addr : Addr) (h : n.assocs.get? addr = none) :
    (∀ r : EstReq, r.nodeId = some (some ()) → (∃ s, r.cpFseid = some (some s)) →
      n.step (.establish addr r) = (n, .reply { type := .establishment, seid := 0, seq := r.seq, cause := 72 })) ∧
    (∀ (r : ModReq) ord,
      n.step (.modify addr r ord) = (n, .reply { type := .modification, seid := r.seid, seq := r.seq, cause := 72 })) ∧
    (∀ (r : DelReq) ord,
      n.step (.delete addr r ord) = (n, .reply { type := .deletion, seid := 0, seq := r.seq, cause := 72 })) := by
  refine ⟨?_, ?_, ?_⟩
  · rintro r h1 ⟨s, h2⟩
    simp [Node.step, Node.establish, validateRequest, h1, h2, h, causeNoAssociation]
  · intro r ord
    simp [Node.step, Node.modify, h, causeNoAssociation]
  · intro r ord
    simp [Node.step, Node.delete, h, causeNoAssociation]

/-- **C02.** A modification or deletion for a SEID that is not a session of this peer is answered with
cause 65 and nothing changes, whoever else may own that SEID. -/
theorem C02_unknown_seid (n : Node) (addr : Addr) (a : Assoc) (ha : n.assocs.get? addr = some a) (seid : U64)
    (hs : n.session? addr seid = none) :
    (∀ (r : ModReq) ord, r.seid = seid →
      n.step (.modify addr r ord) = (n, .reply { type := .modification, seid := 0, seq := r.seq, cause := 65 })) ∧
    (∀ (r : DelReq) ord, r.seid = seid →
      n.step (.delete addr r ord) = (n, .reply { type := .deletion, seid := 0, seq := r.seq, cause := 65 })) := by
  have hs' : a.sessions.get? seid = none := by simpa [Node.session?, ha] using hs
  constructor
  · rintro r ord rfl
    simp [Node.step, Node.modify, ha, hs', causeSessionNotFound]
  · rintro r ord rfl
    simp [Node.step, Node.delete, ha, hs', causeSessionNotFound]

/-- **C03.** Missing or undecodable mandatory IEs: rejected with the right cause, before anything else is
looked at, and without any effect. -/
theorem C03_mandatory (n : Node) (addr : Addr) :
    (∀ r : EstReq, (r.nodeId ≠ some (some ()) ∨ ¬ ∃ s, r.cpFseid = some (some s)) →
      n.step (.establish addr r) = (n, .reply { type := .establishment, seid := 0, seq := r.seq, cause := 66 })) ∧
    (∀ seq rts, n.step (.assocSetup addr seq none rts) =
      (n, .reply { type := .assocSetup, seq := seq, cause := 66 })) ∧
    (∀ seq rts, n.step (.assocSetup addr seq (some none) rts) =
      (n, .reply { type := .assocSetup, seq := seq, cause := 69 })) ∧
    (∀ seq, n.step (.assocSetup addr seq (some (some ())) none) =
      (n, .reply { type := .assocSetup, seq := seq, cause := 66 })) ∧
    (∀ seq, n.step (.assocSetup addr seq (some (some ())) (some none)) =
      (n, .reply { type := .assocSetup, seq := seq, cause := 69 })) := by
  refine ⟨?_, fun _ _ => rfl, fun _ _ => rfl, fun _ => rfl, fun _ => rfl⟩
  intro r h
  have hv : validateRequest r.nodeId r.cpFseid = none := by
    unfold validateRequest
    split
    · rename_i x s h1 h2
      rcases h with h | h
      · exact absurd h1 h
      · exact absurd ⟨s, h2⟩ h
    · rfl
  simp [Node.step, Node.establish, hv, causeMandatoryIEMissing]

/-- **C05.** A session message addressed to session `seid` of peer `addr` leaves every other session record,
of this and of every other peer, exactly as it was: whether it is accepted, rejected or crashes. An
establishment only touches the SEID it hands out (`a.nextSessionID + 1`; see C04 for its freshness). -/
theorem C05_isolation (n : Node) (addr addr' : Addr) (seid' : U64) :
    (∀ r : EstReq, (∀ a, n.assocs.get? addr = some a → (addr', seid') ≠ (addr, a.nextSessionID + 1)) →
      (n.step (.establish addr r)).1.session? addr' seid' = n.session? addr' seid') ∧
    (∀ (r : ModReq) ord, (addr', seid') ≠ (addr, r.seid) →
      (n.step (.modify addr r ord)).1.session? addr' seid' = n.session? addr' seid') ∧
    (∀ (r : DelReq) ord, (addr', seid') ≠ (addr, r.seid) →
      (n.step (.delete addr r ord)).1.session? addr' seid' = n.session? addr' seid') := by
  refine ⟨?_, ?_, ?_⟩
  · intro r h
    simp only [Node.step, Node.session?]
    rcases establish_assocs n addr r with h1 | ⟨a, ss, ha, h1, h2⟩
    · rw [h1]
    · rw [h1]
      have hne := h a ha
      by_cases hd : addr' = addr
      · subst hd
        simp only [GoMap.get?_set, if_true, ha, Option.bind_some]
        have hs : seid' ≠ a.nextSessionID + 1 := by
          rintro rfl; exact hne rfl
        rcases h2 with rfl | ⟨s, rfl⟩
        · rfl
        · exact (GoMap.get?_set ..).trans (if_neg hs)
      · simp [hd]
  · intro r ord h
    simp only [Node.step, Node.modify, Node.session?]
    cases ha : n.assocs.get? addr with
    | none => rfl
    | some a =>
      cases hs : a.sessions.get? r.seid with
      | none => simp only [hs]
      | some sess =>
        simp only [hs]
        have key : ∀ s : Session, ((n.assocs.set addr { a with sessions := a.sessions.set r.seid s }).get? addr').bind
            (fun a => a.sessions.get? seid') = (n.assocs.get? addr').bind (fun a => a.sessions.get? seid') := by
          intro s
          by_cases hd : addr' = addr
          · subst hd
            have hs2 : seid' ≠ r.seid := by rintro rfl; exact h rfl
            simp [ha, hs2]
          · simp [hd]
        split <;> exact key _
  · intro r ord h
    simp only [Node.step, Node.delete, Node.session?]
    cases ha : n.assocs.get? addr with
    | none => rfl
    | some a =>
      cases hs : a.sessions.get? r.seid with
      | none => simp only [hs]
      | some sess =>
        simp only [hs]
        split
        · by_cases hd : addr' = addr
          · subst hd
            have hs2 : seid' ≠ r.seid := by rintro rfl; exact h rfl
            simp [ha, hs2]
          · simp [hd]
        · rfl
        · rfl

/-- Association and heartbeat messages never change any session record. -/
theorem C05_association_messages (n : Node) (addr : Addr) (seid : U64) (e : Ev)
    (he : e.isNodeMsg = true) :
    (n.step e).1.session? addr seid = n.session? addr seid ∧ (n.step e).1.dp = n.dp ∧ (n.step e).1.rm = n.rm := by
  have hadd : ∀ b, (n.addAssoc b).session? addr seid = n.session? addr seid ∧ (n.addAssoc b).dp = n.dp ∧
      (n.addAssoc b).rm = n.rm := by
    intro b
    unfold Node.addAssoc
    split
    · exact ⟨rfl, rfl, rfl⟩
    · rename_i hb
      refine ⟨?_, rfl, rfl⟩
      simp only [Node.session?, GoMap.get?_set]
      by_cases hab : addr = b
      · subst hab; simp [hb, Assoc.new]
      · simp [hab]
  cases e with
  | assocSetup a s i t =>
    simp only [Node.step, Node.assocSetup]
    split
    · exact ⟨rfl, rfl, rfl⟩
    · exact ⟨rfl, rfl, rfl⟩
    · split
      · exact ⟨rfl, rfl, rfl⟩
      · exact ⟨rfl, rfl, rfl⟩
      · exact hadd _
  | assocSetupResp a i c f =>
    simp only [Node.step, Node.assocSetupResp]
    split
    · split
      · exact hadd _
      · exact ⟨rfl, rfl, rfl⟩
    · exact ⟨rfl, rfl, rfl⟩
  | assocUpdate a s i =>
    simp only [Node.step, Node.assocUpdate]
    split
    · exact ⟨rfl, rfl, rfl⟩
    · exact ⟨rfl, rfl, rfl⟩
    · split <;> exact ⟨rfl, rfl, rfl⟩
  | heartbeatReq a s t =>
    simp only [Node.step, Node.heartbeatReq]
    split <;> exact ⟨rfl, rfl, rfl⟩
  | heartbeatResp a s t =>
    simp only [Node.step, Node.heartbeatResp]
    split <;> exact ⟨rfl, rfl, rfl⟩
  | establish => exact Bool.noConfusion he
  | modify => exact Bool.noConfusion he
  | delete => exact Bool.noConfusion he
  | peerLost => exact Bool.noConfusion he
  | setConfig => exact Bool.noConfusion he

/-- Sequence number and message type a response must carry. -/
def Ev.expected : Ev → Option (MsgType × U32)
  | .assocSetup _ s _ _ => some (.assocSetup, s)
  | .assocUpdate _ s _ => some (.assocUpdate, s)
  | .heartbeatReq _ s _ => some (.heartbeat, s)
  | .establish _ r => some (.establishment, r.seq)
  | .modify _ r _ => some (.modification, r.seq)
  | .delete _ r _ => some (.deletion, r.seq)
  | .assocSetupResp .. => none
  | .heartbeatResp .. => none
  | .peerLost .. => none
  | .setConfig .. => none

/-- **C06.** A response is only sent to a request, is of the matching type and carries its sequence
number. -/
theorem C06_sequence (n : Node) (e : Ev) (resp : Resp) (h : (n.step e).2 = .reply resp) :
    e.expected = some (resp.type, resp.seq) := by
  cases e with
  | assocSetup a s i t =>
    simp only [Node.step, Node.assocSetup] at h
    split at h
    · cases h; rfl
    · cases h; rfl
    · split at h <;> cases h <;> rfl
  | assocSetupResp a i c f =>
    simp only [Node.step, Node.assocSetupResp] at h
    split at h
    · split at h <;> cases h
    · cases h
  | assocUpdate a s i =>
    simp only [Node.step, Node.assocUpdate] at h
    split at h
    · cases h; rfl
    · cases h; rfl
    · split at h <;> cases h <;> rfl
  | heartbeatReq a s t =>
    simp only [Node.step, Node.heartbeatReq] at h
    split at h <;> cases h
    rfl
  | heartbeatResp a s t =>
    simp only [Node.step, Node.heartbeatResp] at h
    split at h <;> cases h
  | establish a r =>
    simp only [Node.step, Node.establish] at h
    split at h
    · cases h; rfl
    · split at h
      · cases h; rfl
      · split at h <;> cases h <;> rfl
  | modify a r o =>
    simp only [Node.step, Node.modify] at h
    split at h
    · cases h; rfl
    · split at h
      · cases h; rfl
      · split at h <;> cases h <;> rfl
  | delete a r o =>
    simp only [Node.step, Node.delete] at h
    split at h
    · cases h; rfl
    · split at h
      · cases h; rfl
      · split at h <;> cases h <;> rfl
  | setConfig u => cases h
  | peerLost a o =>
    simp only [Node.step, Node.deleteAssociation] at h
    split at h
    · cases h
    · split at h <;> cases h

/-- **C12, proved half.** An establishment that is answered with any other cause than 1, or that is not
answered, leaves the set of sessions and every session record unchanged. -/
theorem C12_rejected_establishment_partial (n : Node) (addr : Addr) (r : EstReq)
    (h : ∀ resp, (n.step (.establish addr r)).2 = .reply resp → resp.cause ≠ 1) (a : Addr) (s : U64) :
    (n.step (.establish addr r)).1.session? a s = n.session? a s := by
  simp only [Node.step] at *
  cases establish_cases n addr r with
  | refused c hcc he => rw [he]
  | ran remote as hs' res hid hcp ha hbody hl hrem he =>
    rw [he] at h ⊢
    have key : ∀ x : Node, x.assocs = n.assocs.set addr (as.bumped as.sessions) → x.session? a s = n.session? a s := by
      intro x hx
      simp only [Node.session?, hx, GoMap.get?_set]
      split
      · rename_i h2; subst h2; rw [ha]; rfl
      · rfl
    cases res with
    | ok u => cases u; exact absurd rfl (h _ rfl)
    | err => exact key _ rfl
    | panic => exact key _ rfl

/-- An establishment with a FAR, an uplink PDR and a PDR without PDI. -/
def Demo.badEst : EstReq :=
  { seq := 5, nodeId := some (some ()), cpFseid := some (some 100), createFar := [Demo.fwd],
    createPdr := [{ pdrId := some 1, farId := some 1, pdi := some { fteid := some (some ⟨77, false, none⟩) } },
                  { pdrId := some 2, farId := some 1 }] }

/-- **C12, negation of the other half.** A rejected establishment (cause 73) leaves behind a FAR and an uplink
PDR for TEID 77 that forwards: there is no rollback. -/
theorem C12_no_rollback : ∃ h n, Hist Demo.n0 h n ∧
    (∃ resp, (n.step (.establish 1 Demo.badEst)).2 = .reply resp ∧ resp.cause = 73) ∧
    n.dp.pdrUl.lookup 77 = none ∧ n.dp.far.lookup 0 = some {} ∧
    (∃ e, (n.step (.establish 1 Demo.badEst)).1.dp.pdrUl.lookup 77 = some e ∧ e.farId = 0) ∧
    (∃ f, (n.step (.establish 1 Demo.badEst)).1.dp.far.lookup 0 = some f ∧ f.action = 2) := by
  refine ⟨Demo.n0.observed [.assocSetup 1 1 (some (some ())) (some (some ()))], _, hist_run_init _ (by decide +kernel),
    ⟨_, rfl, ?_⟩, ?_, ?_, ⟨_, rfl, ?_⟩, ⟨_, rfl, ?_⟩⟩ <;> decide +kernel

/-- **C48.** An association setup request from a peer that already has an association is accepted and
changes nothing: sessions, SEID counter, pools and tables stay as they are. -/
theorem C48_repeated_setup (n : Node) (addr : Addr) (a : Assoc) (ha : n.assocs.get? addr = some a) (seq : U32) :
    n.step (.assocSetup addr seq (some (some ())) (some (some ()))) =
      (n, .reply { type := .assocSetup, seq := seq, cause := 1, features := some n.cfg.features }) := by
  simp [Node.step, Node.assocSetup, Node.addAssoc, ha, causeAccepted]

/-! ### concrete cases meeting the hypotheses -/

/-- The demo history ends with associations of peers 1 and 2, sessions (1,3) and (2,2); SEID 2 belongs to
peer 2 only, SEID 3 to peer 1 only, peer 3 has no association. -/
example : Demo.nEnd.assocs.get? 3 = none ∧ (Demo.nEnd.assocs.get? 1).isSome ∧ Demo.nEnd.session? 1 2 = none ∧
    (Demo.nEnd.session? 2 2).isSome ∧ (Demo.nEnd.session? 1 3).isSome := by decide +kernel

/-- C01, C02 and C48 on that state. -/
example : (Demo.nEnd.step (.establish 3 (Demo.est 7))).2 =
      .reply { type := .establishment, seid := 0, seq := 5, cause := 72 } ∧
    (Demo.nEnd.step (.delete 1 ⟨2, 8⟩ default)).2 = .reply { type := .deletion, seq := 8, cause := 65 } := by
  decide +kernel

/-- C05: a modification of (1,3) really changes that session and not (2,2). -/
example : ((Demo.nEnd.step (.modify 1 { seid := 3, seq := 1, removePdr := [some 1] } default)).1.session? 1 3 ≠
      Demo.nEnd.session? 1 3) ∧
    ((Demo.nEnd.step (.modify 1 { seid := 3, seq := 1, removePdr := [some 1] } default)).1.session? 2 2 =
      Demo.nEnd.session? 2 2) := by decide +kernel

end Eupf
