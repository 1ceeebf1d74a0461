import Verif.HandlerLemmas
/- Helper lemmas about the node model. -/
namespace Eupf

/-- The session a peer would find under a SEID (what `/api/v1/pfcp_sessions` lists). -/
def Node.session? (n : Node) (addr : Addr) (seid : U64) : Option Session :=
  (n.assocs.get? addr).bind (fun a => a.sessions.get? seid)

theorem establish_assocs (n : Node) (addr : Addr) (r : EstReq) :
    (n.establish addr r).1.assocs = n.assocs ∨
    ∃ a ss, n.assocs.get? addr = some a ∧
      (n.establish addr r).1.assocs = n.assocs.set addr ⟨a.nextSessionID + 1, a.nextSequenceID, ss⟩ ∧
      (ss = a.sessions ∨ ∃ s, ss = a.sessions.set (a.nextSessionID + 1) s) := by
  unfold Node.establish
  split
  · exact Or.inl rfl
  · split
    · exact Or.inl rfl
    · rename_i remote _ a ha
      refine Or.inr ⟨a, ?_⟩
      simp only [Assoc.newLocalSEID]
      split
      · exact ⟨_, ha, rfl, Or.inr ⟨_, rfl⟩⟩
      · exact ⟨_, ha, rfl, Or.inl rfl⟩
      · exact ⟨_, ha, rfl, Or.inl rfl⟩

theorem validateRequest_some {i : Option (Option Unit)} {f : Option (Option U64)} {c : U64}
    (h : validateRequest i f = some c) : i = some (some ()) ∧ f = some (some c) := by
  unfold validateRequest at h
  split at h
  · cases h; exact ⟨rfl, rfl⟩
  · cases h

/-- the association record after handing out a SEID and storing the session -/
def Assoc.bumped (a : Assoc) (ss : GoMap U64 Session) : Assoc := ⟨a.nextSessionID + 1, a.nextSequenceID, ss⟩

/-- what an establishment returns once its rules have been processed -/
def Node.estResult (n : Node) (addr : Addr) (r : EstReq) (remote : U64) (a : Assoc) (hs : HS) :
    Res Unit → Node × Outcome
  | .ok () =>
    ({ n with rm := hs.rm, dp := hs.dp,
              assocs := n.assocs.set addr (a.bumped (a.sessions.set (a.nextSessionID + 1) hs.sess)) },
     .reply { type := .establishment, seid := remote, seq := r.seq, cause := causeAccepted,
              fseid := some (a.nextSessionID + 1), created := createdIEs n.cfg.n3 hs.created })
  | .err =>
    ({ n with rm := hs.rm, dp := hs.dp, assocs := n.assocs.set addr (a.bumped a.sessions) },
     .reply { type := .establishment, seid := remote, seq := r.seq, cause := causeRuleFailure })
  | .panic => ({ n with rm := hs.rm, dp := hs.dp, assocs := n.assocs.set addr (a.bumped a.sessions) }, .crash)

/-- what a modification returns once its rules have been processed -/
def Node.modResult (n : Node) (addr : Addr) (r : ModReq) (a : Assoc) (hs : HS) (res : Res Unit) : Node × Outcome :=
  ({ n with rm := hs.rm, dp := hs.dp, assocs := n.assocs.set addr { a with sessions := a.sessions.set r.seid hs.sess } },
   match res with
   | .ok () => .reply { type := .modification, seid := hs.sess.remoteSEID, seq := r.seq, cause := causeAccepted,
                        created := createdIEs n.cfg.n3 hs.created, reports := hs.reports }
   | .err => .reply { type := .modification, seid := hs.sess.remoteSEID, seq := r.seq, cause := causeRuleFailure }
   | .panic => .crash)

/-- what a deletion returns once the rules have been removed -/
def Node.delResult (n : Node) (addr : Addr) (r : DelReq) (ord : Orders) (a : Assoc) (sess : Session) (hs : HS) :
    Res Unit → Node × Outcome
  | .ok () =>
    ({ n with rm := releaseResources ord r.seid hs.rm, dp := hs.dp,
              assocs := n.assocs.set addr { a with sessions := a.sessions.erase r.seid } },
     .reply { type := .deletion, seid := sess.remoteSEID, seq := r.seq, cause := causeAccepted,
              reports := hs.reports })
  | .err => ({ n with rm := hs.rm, dp := hs.dp }, .silent)
  | .panic => ({ n with rm := hs.rm, dp := hs.dp }, .crash)

/-- The ways an establishment can go. -/
inductive EstCase (n : Node) (addr : Addr) (r : EstReq) : Prop
  | refused (c : U8) (hc : c = 66 ∨ c = 72)
      (h : n.establish addr r = (n, .reply { type := .establishment, seq := r.seq, cause := c }))
  | ran (remote : U64) (a : Assoc) (hs : HS) (res : Res Unit)
      (hid : r.nodeId = some (some ())) (hcp : r.cpFseid = some (some remote)) (ha : n.assocs.get? addr = some a)
      (hbody : establishBody n.ueip r (n.hs (Session.new (a.nextSessionID + 1) remote)) = (hs, res))
      (hl : hs.sess.localSEID = a.nextSessionID + 1) (hr : hs.sess.remoteSEID = remote)
      (h : n.establish addr r = n.estResult addr r remote a hs res)

theorem establish_cases (n : Node) (addr : Addr) (r : EstReq) : EstCase n addr r := by
  cases hv : validateRequest r.nodeId r.cpFseid with
  | none => exact .refused 66 (Or.inl rfl) (by simp [Node.establish, hv, causeMandatoryIEMissing])
  | some remote =>
    cases ha : n.assocs.get? addr with
    | none => exact .refused 72 (Or.inr rfl) (by simp [Node.establish, hv, ha, causeNoAssociation])
    | some a =>
      obtain ⟨h1, h2⟩ := validateRequest_some hv
      rcases hb : establishBody n.ueip r (n.hs (Session.new (a.nextSessionID + 1) remote)) with ⟨hs, res⟩
      have hp := (establishBody_seids (l := a.nextSessionID + 1) (r := remote) n.ueip r).apply
        (s := n.hs (Session.new (a.nextSessionID + 1) remote)) ⟨rfl, rfl⟩
      rw [hb] at hp
      refine .ran remote a hs res h1 h2 ha hb hp.1 hp.2 ?_
      simp only [Node.establish, hv, ha, Assoc.newLocalSEID, hb]
      cases res <;> rfl

/-- The ways a modification can go. -/
inductive ModCase (n : Node) (addr : Addr) (r : ModReq) (ord : Orders) : Prop
  | refused (c : U8) (x : U64) (hc : c = 65 ∨ c = 72) (hs : n.session? addr r.seid = none)
      (h : n.modify addr r ord = (n, .reply { type := .modification, seid := x, seq := r.seq, cause := c }))
  | ran (a : Assoc) (sess : Session) (hs : HS) (res : Res Unit)
      (ha : n.assocs.get? addr = some a) (hsess : a.sessions.get? r.seid = some sess)
      (hbody : modifyBody n.ueip ord r (n.hs (sess.setRemote r.cpFseid)) = (hs, res))
      (hl : hs.sess.localSEID = sess.localSEID) (hr : hs.sess.remoteSEID = (sess.setRemote r.cpFseid).remoteSEID)
      (h : n.modify addr r ord = n.modResult addr r a hs res)

theorem modify_cases (n : Node) (addr : Addr) (r : ModReq) (ord : Orders) : ModCase n addr r ord := by
  cases ha : n.assocs.get? addr with
  | none =>
    exact .refused 72 r.seid (Or.inr rfl) (by simp [Node.session?, ha])
      (by simp [Node.modify, ha, causeNoAssociation])
  | some a =>
    cases hs : a.sessions.get? r.seid with
    | none =>
      exact .refused 65 0 (Or.inl rfl) (by simp [Node.session?, ha, hs])
        (by simp [Node.modify, ha, hs, causeSessionNotFound])
    | some sess =>
      rcases hb : modifyBody n.ueip ord r (n.hs (sess.setRemote r.cpFseid)) with ⟨x, res⟩
      have hp := (modifyBody_seids (l := sess.localSEID) (r := (sess.setRemote r.cpFseid).remoteSEID)
        n.ueip ord r).apply (s := n.hs (sess.setRemote r.cpFseid)) ⟨by
          unfold Session.setRemote Node.hs; split <;> rfl, rfl⟩
      rw [hb] at hp
      refine .ran a sess x res ha hs hb hp.1 hp.2 ?_
      simp only [Node.modify, ha, hs, hb]
      cases res <;> rfl

/-- The ways a deletion can go. -/
inductive DelCase (n : Node) (addr : Addr) (r : DelReq) (ord : Orders) : Prop
  | refused (c : U8) (hc : c = 65 ∨ c = 72) (hs : n.session? addr r.seid = none)
      (h : n.delete addr r ord = (n, .reply { type := .deletion, seq := r.seq, cause := c }))
  | ran (a : Assoc) (sess : Session) (hs : HS) (res : Res Unit)
      (ha : n.assocs.get? addr = some a) (hsess : a.sessions.get? r.seid = some sess)
      (hbody : deleteBody ord sess (n.hs sess) = (hs, res))
      (h : n.delete addr r ord = n.delResult addr r ord a sess hs res)

theorem delete_cases (n : Node) (addr : Addr) (r : DelReq) (ord : Orders) : DelCase n addr r ord := by
  cases ha : n.assocs.get? addr with
  | none =>
    exact .refused 72 (Or.inr rfl) (by simp [Node.session?, ha]) (by simp [Node.delete, ha, causeNoAssociation])
  | some a =>
    cases hs : a.sessions.get? r.seid with
    | none =>
      exact .refused 65 (Or.inl rfl) (by simp [Node.session?, ha, hs])
        (by simp [Node.delete, ha, hs, causeSessionNotFound])
    | some sess =>
      rcases hb : deleteBody ord sess (n.hs sess) with ⟨x, res⟩
      refine .ran a sess x res ha hs hb ?_
      simp only [Node.delete, ha, hs, hb]
      cases res <;> rfl

/-- Node related messages (TS 29.244 6.2): association and heartbeat, not about a session. -/
def Ev.isNodeMsg : Ev → Bool
  | .assocSetup .. | .assocSetupResp .. | .assocUpdate .. | .heartbeatReq .. | .heartbeatResp .. => true
  | _ => false

/-- Messages that are neither session messages nor the loss of a peer: at most an association is added. -/
theorem other_step (n : Node) (e : Ev)
    (he : e.isNodeMsg = true) :
    (n.step e).1 = n ∨ ∃ b, n.assocs.get? b = none ∧ (n.step e).1 = { n with assocs := n.assocs.set b Assoc.new } := by
  have hadd' : ∀ b, n.addAssoc b = n ∨ ∃ c, n.assocs.get? c = none ∧
      n.addAssoc b = { n with assocs := n.assocs.set c Assoc.new } := by
    intro b
    unfold Node.addAssoc
    split
    · exact Or.inl rfl
    · exact Or.inr ⟨b, by assumption, rfl⟩
  cases e with
  | assocSetup a s i t =>
    simp only [Node.step, Node.assocSetup]
    split
    · exact Or.inl rfl
    · exact Or.inl rfl
    · split
      · exact Or.inl rfl
      · exact Or.inl rfl
      · exact hadd' _
  | assocSetupResp a i c f =>
    simp only [Node.step, Node.assocSetupResp]
    split
    · split
      · exact hadd' _
      · exact Or.inl rfl
    · exact Or.inl rfl
  | assocUpdate a s i =>
    simp only [Node.step, Node.assocUpdate]
    split
    · exact Or.inl rfl
    · exact Or.inl rfl
    · split <;> exact Or.inl rfl
  | heartbeatReq a s t =>
    simp only [Node.step, Node.heartbeatReq]
    split <;> exact Or.inl rfl
  | heartbeatResp a s t =>
    simp only [Node.step, Node.heartbeatResp]
    split <;> exact Or.inl rfl
  | establish => exact Bool.noConfusion he
  | modify => exact Bool.noConfusion he
  | delete => exact Bool.noConfusion he
  | peerLost => exact Bool.noConfusion he
  | setConfig => exact Bool.noConfusion he

end Eupf
