import Verif.Demo
/-
C04, C06 (second half), C52: the node's sessions against the ledger an outside observer keeps.
Theorems quantify over all histories of a node started with any configuration, tables and pools.
-/
namespace Eupf

/-- Invariant of the refinement. -/
structure LInv (h : List (Ev × Outcome)) (n : Node) : Prop where
  live : ∀ a s c, (∃ sess, n.session? a s = some sess ∧ sess.remoteSEID = c) ↔ (⟨a, s, c⟩ : LedgerEntry) ∈ ledger h
  nodup : ((ledger h).map (fun e => (e.peer, e.seid))).Nodup
  next : ∀ a as, n.assocs.get? a = some as → as.nextSessionID.toNat ≤ 1 + attempts h ∧ 1 ≤ as.nextSessionID.toNat
  keys : ∀ a as s, n.assocs.get? a = some as → as.sessions.get? s ≠ none →
    2 ≤ s.toNat ∧ s.toNat ≤ as.nextSessionID.toNat
  issued : ∀ a s, s ∈ issued a h → 2 ≤ s.toNat ∧ ∃ as, n.assocs.get? a = some as ∧ s.toNat ≤ as.nextSessionID.toNat
  issuedNodup : ∀ a, (Eupf.issued a h).Nodup
  localId : ∀ a s sess, n.session? a s = some sess → sess.localSEID = s

theorem attempts_cons (x : Ev × Outcome) (h : List (Ev × Outcome)) :
    attempts h ≤ attempts (x :: h) := by
  unfold attempts
  rw [List.filter_cons]
  split <;> simp

theorem attempts_est (a : Addr) (r : EstReq) (o : Outcome) (h : List (Ev × Outcome)) :
    attempts ((.establish a r, o) :: h) = attempts h + 1 := by
  simp [attempts]

theorem setRemote_local (s : Session) (f) : (s.setRemote f).localSEID = s.localSEID := by
  unfold Session.setRemote; split <;> rfl

theorem LInv.of_same {h h' : List (Ev × Outcome)} {n n' : Node} (H : LInv h n) (hl : ledger h' = ledger h)
    (hi : ∀ a, Eupf.issued a h' = Eupf.issued a h) (ha : attempts h ≤ attempts h') (hn : n'.assocs = n.assocs) :
    LInv h' n' := by
  have hs : ∀ a s, n'.session? a s = n.session? a s := by intro a s; simp [Node.session?, hn]
  refine ⟨?_, ?_, ?_, ?_, ?_, ?_, ?_⟩
  · intro a s c; rw [hs, hl]; exact H.live a s c
  · rw [hl]; exact H.nodup
  · intro a as; rw [hn]; intro h1; have := H.next a as h1; omega
  · intro a as s; rw [hn]; exact H.keys a as s
  · intro a s; rw [hi, hn]; exact H.issued a s
  · intro a; rw [hi]; exact H.issuedNodup a
  · intro a s sess; rw [hs]; exact H.localId a s sess

theorem linv_step {h : List (Ev × Outcome)} {n : Node} (e : Ev) (H : LInv h n) (hc : (n.step e).2 ≠ .crash)
    (hb : attempts ((e, (n.step e).2) :: h) < 2 ^ 64 - 2) :
    LInv ((e, (n.step e).2) :: h) (n.step e).1 := by
  have hat := attempts_cons (e, (n.step e).2) h
  have other : e.isNodeMsg = true → LInv ((e, (n.step e).2) :: h) (n.step e).1 := by
    intro he
    have hl : ledger ((e, (n.step e).2) :: h) = ledger h := by
      revert he; generalize (n.step e).2 = o; intro he
      cases e <;> first | exact Bool.noConfusion he | (cases o <;> rfl)
    have hi : ∀ a, Eupf.issued a ((e, (n.step e).2) :: h) = Eupf.issued a h := by
      revert he; generalize (n.step e).2 = o; intro he
      cases e <;> first | exact Bool.noConfusion he | (cases o <;> exact fun _ => rfl)
    rcases other_step n e he with h1 | ⟨b, hbn, h1⟩
    · rw [h1]; exact H.of_same hl hi hat rfl
    · rw [h1]
      have hs : ∀ a s, (Node.session? { n with assocs := n.assocs.set b Assoc.new } a s) = n.session? a s := by
        intro a s
        simp only [Node.session?, GoMap.get?_set]
        by_cases hab : a = b
        · subst hab; simp [hbn, Assoc.new]
        · simp [hab]
      refine ⟨?_, ?_, ?_, ?_, ?_, ?_, ?_⟩
      · intro a s c; rw [hs, hl]; exact H.live a s c
      · rw [hl]; exact H.nodup
      · intro a as
        simp only [GoMap.get?_set]
        split
        · intro h2; cases h2; simp [Assoc.new]
        · intro h2; have := H.next a as h2; omega
      · intro a as s
        simp only [GoMap.get?_set]
        split
        · intro h2; cases h2; simp [Assoc.new]
        · exact H.keys a as s
      · intro a s; rw [hi]
        intro h2
        obtain ⟨h3, as, h4, h5⟩ := H.issued a s h2
        refine ⟨h3, as, ?_, h5⟩
        have : a ≠ b := by rintro rfl; rw [hbn] at h4; cases h4
        simp [this, h4]
      · intro a; rw [hi]; exact H.issuedNodup a
      · intro a s sess; rw [hs]; exact H.localId a s sess
  cases e with
  | assocSetup => exact other rfl
  | assocSetupResp => exact other rfl
  | assocUpdate => exact other rfl
  | heartbeatReq => exact other rfl
  | heartbeatResp => exact other rfl
  | setConfig u => exact H.of_same rfl (fun _ => rfl) hat rfl
  | establish addr r =>
    simp only [Node.step] at *
    rw [attempts_est] at hb
    cases establish_cases n addr r with
    | refused c hcc he =>
      rw [he]
      have : c ≠ 1 := by rcases hcc with rfl | rfl <;> decide
      apply H.of_same _ _ (by rw [attempts_est]; omega) rfl
      · simp only [ledger, ledgerStep]
      · intro a; simp only [Eupf.issued]
    | ran remote a hs res hid hcp ha hbody hl hr he =>
      have hnx := H.next addr a ha
      have hsucc : (a.nextSessionID + 1).toNat = a.nextSessionID.toNat + 1 := by
        rw [BitVec.toNat_add]; simp; omega
      rw [he]
      cases res with
      | panic => rw [he] at hc; exact absurd rfl hc
      | err =>
        simp only [Node.estResult]
        have hsess : ∀ b s, Node.session? { n with rm := hs.rm, dp := hs.dp, assocs := n.assocs.set addr (a.bumped a.sessions) } b s = n.session? b s := by
          intro b s
          simp only [Node.session?, GoMap.get?_set]
          by_cases hab : b = addr
          · subst hab; simp [ha, Assoc.bumped]
          · simp [hab]
        refine ⟨?_, ?_, ?_, ?_, ?_, ?_, ?_⟩
        · intro b s c; rw [hsess]; simp only [ledger, ledgerStep]; exact H.live b s c
        · simp only [ledger, ledgerStep]; exact H.nodup
        · intro b as
          rw [attempts_est]
          simp only [GoMap.get?_set]
          split
          · intro h2; cases h2; simp only [Assoc.bumped]; omega
          · intro h2; have := H.next b as h2; omega
        · intro b as s
          simp only [GoMap.get?_set]
          split
          · intro h2 h3; cases h2; have := H.keys addr a s ha h3; simp only [Assoc.bumped]; omega
          · exact H.keys b as s
        · intro b s hi
          simp only [Eupf.issued] at hi
          obtain ⟨h3, as, h4, h5⟩ := H.issued b s hi
          simp only [GoMap.get?_set]
          refine ⟨h3, ?_⟩
          split
          · rename_i hba; subst hba; rw [ha] at h4; cases h4
            refine ⟨_, rfl, ?_⟩; simp only [Assoc.bumped]; omega
          · exact ⟨as, h4, h5⟩
        · intro b; simp only [Eupf.issued]; exact H.issuedNodup b
        · intro b s sess; rw [hsess]; exact H.localId b s sess
      | ok u =>
        cases u
        simp only [Node.estResult]
        have hfresh : n.session? addr (a.nextSessionID + 1) = none := by
          simp only [Node.session?, ha, Option.bind_some]
          cases hg : a.sessions.get? (a.nextSessionID + 1) with
          | none => rfl
          | some x =>
            have := (H.keys addr a _ ha (by rw [hg]; simp)).2
            omega
        have hsess : ∀ b s, Node.session? { n with rm := hs.rm, dp := hs.dp, assocs := n.assocs.set addr (a.bumped (a.sessions.set (a.nextSessionID + 1) hs.sess)) } b s =
            if b = addr ∧ s = a.nextSessionID + 1 then some hs.sess else n.session? b s := by
          intro b s
          simp only [Node.session?, GoMap.get?_set]
          by_cases hab : b = addr
          · subst hab; simp only [if_true, ha, Option.bind_some, Assoc.bumped, true_and]
            exact GoMap.get?_set ..
          · simp [hab]
        have hnotin : ∀ c, (⟨addr, a.nextSessionID + 1, c⟩ : LedgerEntry) ∉ ledger h := by
          intro c hin
          obtain ⟨sess, h2, _⟩ := (H.live _ _ _).2 hin
          rw [hfresh] at h2; cases h2
        refine ⟨?_, ?_, ?_, ?_, ?_, ?_, ?_⟩
        · intro b s c
          rw [hsess]
          simp only [ledger, ledgerStep, hcp, causeAccepted, if_true, List.mem_cons, LedgerEntry.mk.injEq]
          by_cases hk : b = addr ∧ s = a.nextSessionID + 1
          · obtain ⟨rfl, rfl⟩ := hk
            simp only [and_self, if_true, Option.some.injEq, true_and]
            constructor
            · rintro ⟨sess, rfl, rfl⟩; exact Or.inl hr
            · rintro (rfl | hin)
              · exact ⟨_, rfl, hr⟩
              · exact absurd hin (hnotin c)
          · rw [if_neg hk, H.live]
            constructor
            · exact Or.inr
            · rintro (⟨h1, h2, _⟩ | hin)
              · exact absurd ⟨h1, h2⟩ hk
              · exact hin
        · simp only [ledger, ledgerStep, hcp, causeAccepted, if_true, List.map_cons, List.nodup_cons]
          refine ⟨?_, H.nodup⟩
          intro hin
          obtain ⟨⟨p, s, c⟩, h1, h2⟩ := List.mem_map.1 hin
          simp only [Prod.mk.injEq] at h2
          obtain ⟨rfl, rfl⟩ := h2
          exact hnotin c h1
        · intro b as
          rw [attempts_est]
          simp only [GoMap.get?_set]
          split
          · intro h2; cases h2; simp only [Assoc.bumped]; omega
          · intro h2; have := H.next b as h2; omega
        · intro b as s
          simp only [GoMap.get?_set]
          split
          · intro h2 h3; cases h2
            simp only [Assoc.bumped] at h3 ⊢
            rw [GoMap.get?_set] at h3
            split at h3
            · rename_i hs2; rw [hs2]; omega
            · have := H.keys addr a s ha h3; omega
          · exact H.keys b as s
        · intro b s hi
          simp only [Eupf.issued] at hi
          simp only [GoMap.get?_set]
          by_cases hba : addr = b
          · subst hba
            simp only [if_true, List.mem_cons] at hi ⊢
            rcases hi with rfl | hi
            · refine ⟨by omega, _, rfl, ?_⟩; simp only [Assoc.bumped]; omega
            · obtain ⟨h3, as, h4, h5⟩ := H.issued addr s hi
              rw [ha] at h4; cases h4
              refine ⟨h3, _, rfl, ?_⟩; simp only [Assoc.bumped]; omega
          · rw [if_neg hba] at hi
            rw [if_neg (Ne.symm hba)]
            exact H.issued b s hi
        · intro b; simp only [Eupf.issued]
          split
          · rename_i hba; subst hba
            refine List.nodup_cons.2 ⟨?_, H.issuedNodup addr⟩
            intro hi
            obtain ⟨h3, as, h4, h5⟩ := H.issued addr _ hi
            rw [ha] at h4; cases h4; omega
          · exact H.issuedNodup b
        · intro b s sess; rw [hsess]
          split
          · rename_i hk; intro h2; cases h2; rw [hk.2]; exact hl
          · exact H.localId b s sess
  | modify addr r ord =>
    simp only [Node.step] at *
    cases modify_cases n addr r ord with
    | refused c x hcc hs he =>
      rw [he]
      apply H.of_same _ _ (by rw [he] at hat; exact hat) rfl
      · simp only [ledger, ledgerStep]
        split
        · rename_i c' _
          conv => rhs; rw [← List.map_id (ledger h)]
          apply List.map_congr_left
          rintro ⟨p, s, c2⟩ hin
          have hne : ¬ (p = addr ∧ s = r.seid) := by
            rintro ⟨rfl, rfl⟩
            obtain ⟨sess, h2, _⟩ := (H.live _ _ _).2 hin
            rw [hs] at h2; cases h2
          simp [hne]
        · rfl
      · intro a; simp only [Eupf.issued]
    | ran a sess hs res ha hsess hbody hl hr he =>
      rw [he] at hat hc ⊢
      have hsess' : ∀ b s, Node.session? (n.modResult addr r a hs res).1 b s =
          if b = addr ∧ s = r.seid then some hs.sess else n.session? b s := by
        intro b s
        simp only [Node.session?, Node.modResult, GoMap.get?_set]
        by_cases hab : b = addr
        · subst hab; simp [ha]
        · simp [hab]
      have hold : n.session? addr r.seid = some sess := by simp [Node.session?, ha, hsess]
      have hloc : sess.localSEID = r.seid := H.localId _ _ _ hold
      have hled : ledger ((Ev.modify addr r ord, (n.modResult addr r a hs res).2) :: h) =
          match r.cpFseid with
          | some (some c) => (ledger h).map (fun e => if e.peer = addr ∧ e.seid = r.seid then { e with cp := c } else e)
          | _ => ledger h := by
        cases res with
        | ok u => cases u; rfl
        | err => rfl
        | panic => exact absurd rfl hc
      have hiss : ∀ b, Eupf.issued b ((Ev.modify addr r ord, (n.modResult addr r a hs res).2) :: h) = Eupf.issued b h :=
        fun _ => by simp only [Eupf.issued]
      have hget : ∀ b, (n.modResult addr r a hs res).1.assocs.get? b =
          if b = addr then some { a with sessions := a.sessions.set r.seid hs.sess } else n.assocs.get? b := by
        intro b; simp only [Node.modResult, GoMap.get?_set]
      refine ⟨?_, ?_, ?_, ?_, ?_, ?_, ?_⟩
      · intro b s c
        rw [hsess', hled]
        by_cases hk : b = addr ∧ s = r.seid
        · obtain ⟨rfl, rfl⟩ := hk
          simp only [and_self, if_true, Option.some.injEq]
          have hmem : (⟨b, r.seid, sess.remoteSEID⟩ : LedgerEntry) ∈ ledger h := (H.live _ _ _).1 ⟨sess, hold, rfl⟩
          have huniq : ∀ c, (⟨b, r.seid, c⟩ : LedgerEntry) ∈ ledger h → c = sess.remoteSEID := by
            intro c hc'
            obtain ⟨s2, h2, h3⟩ := (H.live _ _ _).2 hc'
            rw [hold] at h2; cases h2; exact h3.symm
          have e1 : (∃ sess_1, hs.sess = sess_1 ∧ sess_1.remoteSEID = c) ↔ hs.sess.remoteSEID = c := by
            constructor
            · rintro ⟨_, rfl, h2⟩; exact h2
            · intro h2; exact ⟨_, rfl, h2⟩
          rw [e1, hr]
          split
          · rename_i c' hcp
            simp only [hcp, Session.setRemote, List.mem_map]
            constructor
            · rintro rfl
              exact ⟨_, hmem, by simp⟩
            · rintro ⟨⟨p, s, c2⟩, h2, h3⟩
              simp only at h3
              by_cases hk : p = b ∧ s = r.seid
              · rw [if_pos hk] at h3; cases h3; rfl
              · rw [if_neg hk] at h3; cases h3; exact absurd ⟨rfl, rfl⟩ hk
          · rename_i hcp
            have : (sess.setRemote r.cpFseid).remoteSEID = sess.remoteSEID := by
              unfold Session.setRemote
              split
              · rename_i h2; exact absurd h2 (hcp _)
              · rfl
            rw [this]
            exact ⟨fun h2 => h2 ▸ hmem, fun h2 => (huniq c h2).symm⟩
        · rw [if_neg hk, H.live]
          split
          · rename_i c' _
            rw [List.mem_map]
            constructor
            · intro h2; exact ⟨_, h2, by simp [hk]⟩
            · rintro ⟨⟨p, s2, c2⟩, h2, h3⟩
              simp only at h3
              by_cases hk2 : p = addr ∧ s2 = r.seid
              · rw [if_pos hk2] at h3; cases h3; exact absurd hk2 hk
              · rw [if_neg hk2] at h3; rw [← h3]; exact h2
          · exact Iff.rfl
      · rw [hled]
        split
        · rename_i c' _
          rw [List.map_map]
          have : ((fun e : LedgerEntry => (e.peer, e.seid)) ∘ fun e => if e.peer = addr ∧ e.seid = r.seid then { e with cp := c' } else e)
              = (fun e : LedgerEntry => (e.peer, e.seid)) := by
            funext e
            show (fun e : LedgerEntry => (e.peer, e.seid)) (if e.peer = addr ∧ e.seid = r.seid then { e with cp := c' } else e) = _
            split <;> rfl
          rw [this]; exact H.nodup
        · exact H.nodup
      · intro b as; rw [hget]
        split
        · intro h2; cases h2; have := H.next addr a ha; simp only; omega
        · intro h2; have := H.next b as h2; omega
      · intro b as s; rw [hget]
        split
        · intro h2 h3; cases h2
          simp only [GoMap.get?_set] at h3
          simp only
          split at h3
          · rename_i hs2; subst hs2; exact H.keys addr a _ ha (by rw [hsess]; simp)
          · exact H.keys addr a _ ha h3
        · exact H.keys b as s
      · intro b s; rw [hiss, hget]
        intro h2
        obtain ⟨h3, as, h4, h5⟩ := H.issued b s h2
        refine ⟨h3, ?_⟩
        split
        · rename_i hba; subst hba; rw [ha] at h4; cases h4; exact ⟨_, rfl, h5⟩
        · exact ⟨as, h4, h5⟩
      · intro b; rw [hiss]; exact H.issuedNodup b
      · intro b s sess2; rw [hsess']
        split
        · rename_i hk; intro h2; cases h2; rw [hl, hloc, hk.2]
        · exact H.localId b s sess2
  | delete addr r ord =>
    simp only [Node.step] at *
    cases delete_cases n addr r ord with
    | refused c hcc hs he =>
      rw [he]
      apply H.of_same _ _ (by rw [he] at hat; exact hat) rfl
      · have : c ≠ 1 := by rcases hcc with rfl | rfl <;> decide
        simp only [ledger, ledgerStep, if_neg this]
      · intro a; simp only [Eupf.issued]
    | ran a sess hs res ha hsess hbody he =>
      rw [he] at hat hc ⊢
      cases res with
      | panic => exact absurd rfl hc
      | err => exact H.of_same (by simp only [ledger, ledgerStep, Node.delResult]) (fun _ => by simp only [Eupf.issued]) hat rfl
      | ok u =>
        cases u
        simp only [Node.delResult] at hat ⊢
        have hsess' : ∀ b s, Node.session? { n with rm := releaseResources ord r.seid hs.rm, dp := hs.dp, assocs := n.assocs.set addr { a with sessions := a.sessions.erase r.seid } } b s =
            if b = addr ∧ s = r.seid then none else n.session? b s := by
          intro b s
          simp only [Node.session?, GoMap.get?_set]
          by_cases hab : b = addr
          · subst hab; simp [ha]
          · simp [hab]
        refine ⟨?_, ?_, ?_, ?_, ?_, ?_, ?_⟩
        · intro b s c
          rw [hsess']
          simp only [ledger, ledgerStep, causeAccepted, if_true, List.mem_filter]
          by_cases hk : b = addr ∧ s = r.seid
          · rw [if_pos hk]; simp [hk]
          · rw [if_neg hk, H.live]; simp only [hk, not_false_eq_true, decide_true, and_true]
        · simp only [ledger, ledgerStep, causeAccepted, if_true]
          exact (List.filter_sublist.map _).nodup H.nodup
        · intro b as
          simp only [GoMap.get?_set]
          split
          · intro h2; cases h2; have := H.next addr a ha; simp only; omega
          · intro h2; have := H.next b as h2; omega
        · intro b as s
          simp only [GoMap.get?_set]
          split
          · intro h2 h3; cases h2
            simp only [GoMap.get?_erase] at h3
            simp only
            split at h3
            · exact absurd rfl h3
            · exact H.keys addr a _ ha h3
          · exact H.keys b as s
        · intro b s hi
          simp only [Eupf.issued] at hi
          obtain ⟨h3, as, h4, h5⟩ := H.issued b s hi
          simp only [GoMap.get?_set]
          refine ⟨h3, ?_⟩
          split
          · rename_i hba; subst hba; rw [ha] at h4; cases h4; exact ⟨_, rfl, h5⟩
          · exact ⟨as, h4, h5⟩
        · intro b; simp only [Eupf.issued]; exact H.issuedNodup b
        · intro b s sess2; rw [hsess']
          split
          · intro h2; cases h2
          · exact H.localId b s sess2
  | peerLost addr ord =>
    simp only [Node.step, Node.deleteAssociation] at *
    cases ha : n.assocs.get? addr with
    | none => simp only [ha] at hc; exact absurd rfl hc
    | some a =>
      simp only [ha] at hc hat ⊢
      rcases hd : dropSessions ord (ord.sessions.run a.sessions.entries) n.rm n.dp with ⟨rm, dp, ok⟩
      rw [hd] at hc hat
      cases ok with
      | false => exact absurd rfl hc
      | true =>
        simp only at hat ⊢
        have hsess' : ∀ b s, Node.session? { n with rm := rm, dp := dp, assocs := n.assocs.erase addr } b s =
            if b = addr then none else n.session? b s := by
          intro b s
          simp only [Node.session?, GoMap.get?_erase]
          split <;> rfl
        refine ⟨?_, ?_, ?_, ?_, ?_, ?_, ?_⟩
        · intro b s c
          rw [hsess']
          simp only [ledger, ledgerStep, List.mem_filter]
          by_cases hk : b = addr
          · simp [hk]
          · simp [hk, H.live]
        · simp only [ledger, ledgerStep]
          exact (List.filter_sublist.map _).nodup H.nodup
        · intro b as
          simp only [GoMap.get?_erase]
          split
          · intro h2; cases h2
          · intro h2; have := H.next b as h2; omega
        · intro b as s
          simp only [GoMap.get?_erase]
          split
          · intro h2; cases h2
          · exact H.keys b as s
        · intro b s hi
          simp only [Eupf.issued] at hi
          simp only [GoMap.get?_erase]
          by_cases hba : addr = b
          · rw [if_pos hba] at hi; simp at hi
          · rw [if_neg hba] at hi
            rw [if_neg (Ne.symm hba)]
            exact H.issued b s hi
        · intro b; simp only [Eupf.issued]
          split
          · simp
          · exact H.issuedNodup b
        · intro b s sess2; rw [hsess']
          split
          · intro h2; cases h2
          · exact H.localId b s sess2

theorem linv_hist {cfg : NodeCfg} {rm : Option ResourceManager} {dp : BpfObjects} {h : List (Ev × Outcome)} {n : Node}
    (H : Hist (Node.init cfg rm dp) h n) (hb : attempts h < 2 ^ 64 - 2) : LInv h n := by
  induction H with
  | init =>
    refine ⟨?_, ?_, ?_, ?_, ?_, ?_, ?_⟩ <;> simp [Node.init, Node.session?, ledger, Eupf.issued]
  | @step h' n' e _ hc ih =>
    exact linv_step e (ih (by have := attempts_cons (e, (n'.step e).2) h'; omega)) hc hb
  | traffic _ _ ih => exact (ih hb).of_same rfl (fun _ => rfl) (Nat.le_refl _) rfl

/-! ### the properties -/

/-- All live sessions of all peers, as (peer, SEID). -/
def Node.sessionKeys (n : Node) : List (Addr × U64) :=
  n.assocs.entries.flatMap (fun e => e.2.sessions.keys.map (fun s => (e.1, s)))

theorem sessionCount_eq (n : Node) : n.sessionCount = n.sessionKeys.length := by
  simp only [Node.sessionCount, Node.sessionKeys, GoMap.values, List.length_flatMap, List.map_map]
  congr 1
  apply List.map_congr_left
  intro e _
  simp [GoMap.size, GoMap.keys]

theorem mem_sessionKeys (n : Node) (a : Addr) (s : U64) : (a, s) ∈ n.sessionKeys ↔ (n.session? a s).isSome := by
  simp only [Node.sessionKeys, List.mem_flatMap, List.mem_map, Prod.mk.injEq, Node.session?]
  constructor
  · rintro ⟨⟨b, x⟩, h1, s', h2, rfl, rfl⟩
    have := (n.assocs.mem_entries_iff _ _).1 h1
    rw [this]
    exact (x.sessions.mem_keys_iff _).1 h2
  · intro h
    cases ha : n.assocs.get? a with
    | none => rw [ha] at h; simp at h
    | some x =>
      rw [ha] at h
      exact ⟨(a, x), (n.assocs.mem_entries_iff _ _).2 ha, s, (x.sessions.mem_keys_iff _).2 h, rfl, rfl⟩

theorem sessionKeys_nodup (n : Node) : n.sessionKeys.Nodup := by
  unfold Node.sessionKeys
  have := n.assocs.nodup
  generalize n.assocs.entries = l at this
  induction l with
  | nil => simp
  | cons e l ih =>
    simp only [List.map_cons, List.nodup_cons] at this
    rw [List.flatMap_cons, List.nodup_append]
    refine ⟨?_, ih this.2, ?_⟩
    · have hk := e.2.sessions.keys_nodup
      generalize e.2.sessions.keys = ks at hk
      unfold List.Nodup at *
      rw [List.pairwise_map]
      exact hk.imp (fun h1 h2 => h1 (Prod.mk.inj h2).2)
    · rintro ⟨x1, x2⟩ h1 y h2 rfl
      obtain ⟨s, _, h3⟩ := List.mem_map.1 h1
      obtain ⟨e', h4, h5⟩ := List.mem_flatMap.1 h2
      obtain ⟨s', _, h6⟩ := List.mem_map.1 h5
      have h7 : e'.1 = e.1 := ((Prod.mk.inj h6).1).trans ((Prod.mk.inj h3).1).symm
      exact this.1 (List.mem_map.2 ⟨e', h4, h7⟩)

/-- **C04.** Every SEID handed out to a peer is at least 2 and different from all handed out to it before
since its association was set up; in particular it never names a session this peer already has. -/
theorem C04_seid_fresh {cfg rm dp h n} (H : Hist (Node.init cfg rm dp) h n) (hb : attempts h < 2 ^ 64 - 2) (a : Addr) :
    (issued a h).Nodup ∧ ∀ s ∈ issued a h, 2 ≤ s.toNat :=
  ⟨(linv_hist H hb).issuedNodup a, fun s hs => ((linv_hist H hb).issued a s hs).1⟩

/-- **C04.** The SEID in an accepted establishment response did not name a session of the peer before, and
names the new one afterwards. -/
theorem C04_seid_new {cfg rm dp h n} (H : Hist (Node.init cfg rm dp) h n) (hb : attempts h + 1 < 2 ^ 64 - 2)
    (a : Addr) (r : EstReq) (resp : Resp) (s : U64)
    (hr : (n.step (.establish a r)).2 = .reply resp) (hs : resp.fseid = some s) :
    n.session? a s = none ∧ ((n.step (.establish a r)).1.session? a s).isSome := by
  have hi := linv_hist H (by omega)
  simp only [Node.step] at *
  cases establish_cases n a r with
  | refused c hcc he => rw [he] at hr; cases hr; cases hs
  | ran remote as hs' res hid hcp ha hbody hl hrem he =>
    rw [he] at hr ⊢
    cases res with
    | panic => cases hr
    | err => cases hr; cases hs
    | ok u =>
      cases u
      simp only [Node.estResult, Outcome.reply.injEq] at hr
      subst hr
      simp only [Option.some.injEq] at hs
      subst hs
      have hnx := hi.next a as ha
      have hsucc : (as.nextSessionID + 1).toNat = as.nextSessionID.toNat + 1 := by
        rw [BitVec.toNat_add]; simp; omega
      constructor
      · simp only [Node.session?, ha, Option.bind_some]
        cases hg : as.sessions.get? (as.nextSessionID + 1) with
        | none => rfl
        | some x =>
          have := (hi.keys a as _ ha (by rw [hg]; simp)).2
          omega
      · simp only [Node.session?, Node.estResult, GoMap.get?_set, if_true, Option.bind_some, Assoc.bumped]
        rfl

/-- **C52.** The reported number of sessions is the number of sessions an observer counts: established, and
neither deleted nor lost with their association; and the sessions are exactly those, each with the SEID the
control plane gave last. -/
theorem C52_session_gauge {cfg rm dp h n} (H : Hist (Node.init cfg rm dp) h n) (hb : attempts h < 2 ^ 64 - 2) :
    n.sessionCount = (ledger h).length ∧
    (∀ a s c, (∃ sess, n.session? a s = some sess ∧ sess.remoteSEID = c) ↔ (⟨a, s, c⟩ : LedgerEntry) ∈ ledger h) := by
  have hi := linv_hist H hb
  refine ⟨?_, hi.live⟩
  rw [sessionCount_eq, ← List.length_map (f := fun e : LedgerEntry => (e.peer, e.seid)) (as := ledger h)]
  apply List.Perm.length_eq
  rw [List.perm_ext_iff_of_nodup (sessionKeys_nodup n) hi.nodup]
  rintro ⟨a, s⟩
  rw [mem_sessionKeys, List.mem_map, Option.isSome_iff_exists]
  constructor
  · rintro ⟨sess, h1⟩
    exact ⟨⟨a, s, sess.remoteSEID⟩, (hi.live _ _ _).1 ⟨sess, h1, rfl⟩, rfl⟩
  · rintro ⟨⟨p, q, c⟩, h1, h2⟩
    cases h2
    obtain ⟨sess, h3, _⟩ := (hi.live _ _ _).2 h1
    exact ⟨sess, h3⟩

/-- **C06.** In every history, a response to a session request that was accepted (or whose rules were
rejected, cause 73) carries in its header the SEID the control plane gave last for that session: for an
establishment the one in this request, for a modification the one in this request if there is one. -/
theorem C06_header_seid {cfg rm dp h n} (H : Hist (Node.init cfg rm dp) h n) (hb : attempts h < 2 ^ 64 - 2)
    (a : Addr) (resp : Resp) (hc : resp.cause = 1 ∨ resp.cause = 73) :
    (∀ r : EstReq, (n.step (.establish a r)).2 = .reply resp → r.cpFseid = some (some resp.seid)) ∧
    (∀ (r : ModReq) ord, (n.step (.modify a r ord)).2 = .reply resp →
      (∀ c, r.cpFseid = some (some c) → resp.seid = c) ∧
      ((∀ c, r.cpFseid ≠ some (some c)) → (⟨a, r.seid, resp.seid⟩ : LedgerEntry) ∈ ledger h)) ∧
    (∀ (r : DelReq) ord, (n.step (.delete a r ord)).2 = .reply resp →
      (⟨a, r.seid, resp.seid⟩ : LedgerEntry) ∈ ledger h) := by
  have hi := linv_hist H hb
  refine ⟨?_, ?_, ?_⟩
  · intro r hr
    simp only [Node.step] at hr
    cases establish_cases n a r with
    | refused c hcc he => rw [he] at hr; cases hr; rcases hcc with rfl | rfl <;> rcases hc with h2 | h2 <;> simp at h2
    | ran remote as hs' res hid hcp ha hbody hl hrem he =>
      rw [he] at hr
      cases res with
      | panic => cases hr
      | err => cases hr; exact hcp
      | ok u => cases u; cases hr; exact hcp
  · intro r ord hr
    simp only [Node.step] at hr
    cases modify_cases n a r ord with
    | refused c x hcc hs he => rw [he] at hr; cases hr; rcases hcc with rfl | rfl <;> rcases hc with h2 | h2 <;> simp at h2
    | ran as sess hs res ha hsess hbody hl hrem he =>
      rw [he] at hr
      have hseid : resp.seid = (sess.setRemote r.cpFseid).remoteSEID := by
        rw [← hrem]
        cases res with
        | panic => cases hr
        | err => cases hr; rfl
        | ok u => cases u; cases hr; rfl
      constructor
      · intro c hcp; rw [hseid, hcp]; rfl
      · intro hcp
        refine (hi.live _ _ _).1 ⟨sess, by simp [Node.session?, ha, hsess], ?_⟩
        rw [hseid]
        unfold Session.setRemote
        split
        · rename_i h2; exact absurd h2 (hcp _)
        · rfl
  · intro r ord hr
    simp only [Node.step] at hr
    cases delete_cases n a r ord with
    | refused c hcc hs he => rw [he] at hr; cases hr; rcases hcc with rfl | rfl <;> rcases hc with h2 | h2 <;> simp at h2
    | ran as sess hs res ha hsess hbody he =>
      rw [he] at hr
      refine (hi.live _ _ _).1 ⟨sess, by simp [Node.session?, ha, hsess], ?_⟩
      cases res with
      | panic => cases hr
      | err => cases hr
      | ok u => cases u; cases hr; rfl

/-! ### concrete histories -/

/-- Non-vacuity of C04, C06, C52: six requests, two sessions left, SEIDs 2 and 3 were issued to peer 1. -/
example : ∃ h n, Hist Demo.n0 h n ∧ n.sessionCount = 2 ∧ (ledger h).length = 2 ∧ issued 1 h = [3, 2] ∧
    issued 2 h = [2] ∧ attempts h < 2 ^ 64 - 2 :=
  ⟨Demo.n0.observed Demo.evs, (Demo.n0.run Demo.evs).1, hist_run_init _ (by decide +kernel), by decide +kernel⟩

/-- **C04, negation across peers.** Two live sessions of different peers have the same SEID. -/
theorem C04_not_unique_across_peers : ∃ h n, Hist Demo.n0 h n ∧
    ∃ s, (n.session? 1 s).isSome ∧ (n.session? 2 s).isSome :=
  ⟨Demo.n0.observed Demo.evs2, (Demo.n0.run Demo.evs2).1, hist_run_init _ (by decide +kernel), 2, by decide +kernel⟩

end Eupf
