import Verif.Spec.Retransmit
import Verif.Props.Ledger
import Verif.Props.Merge
import Verif.Props.Acceptance
/-
C103: a request that arrives twice. The code keeps no record of the requests it has answered (pfcp_handlers.go 17-46).
-/
namespace Eupf

/-! ### histories -/

/-- The last exchange of a history. -/
theorem Hist.last {n0 n : Node} {x : Ev × Outcome} {h : List (Ev × Outcome)} (H : Hist n0 (x :: h) n) :
    ∃ m, Hist n0 h m ∧ (m.step x.1).2 = x.2 ∧ x.2 ≠ .crash := by
  generalize hl : x :: h = l at H
  induction H with
  | init => cases hl
  | step e H hc _ => cases hl; exact ⟨_, H, rfl, hc⟩
  | traffic _ _ ih => exact ih hl

/-- What a live session is called was handed out. -/
theorem ledger_issued : ∀ (h : List (Ev × Outcome)) (e : LedgerEntry), e ∈ ledger h → e.seid ∈ issued e.peer h := by
  intro h
  induction h with
  | nil => intro e he; cases he
  | cons x h ih =>
    intro e he
    obtain ⟨ev, o⟩ := x
    have he : e ∈ ledgerStep (ledger h) (ev, o) := he
    cases ev with
    | establish a r =>
      cases o with
      | silent => exact ih e he
      | crash => exact ih e he
      | reply resp =>
        simp only [ledgerStep] at he
        simp only [issued]
        cases hf : resp.fseid with
        | none => simp only [hf] at he; exact ih e he
        | some s =>
          simp only [hf] at he ⊢
          have keep : e ∈ ledger h → e.seid ∈ (if a = e.peer then s :: issued e.peer h else issued e.peer h) := by
            intro h1
            split
            · exact List.mem_cons_of_mem _ (ih e h1)
            · exact ih e h1
          split at he
          · rename_i s' c hs hc
            cases hs
            split at he
            · rcases List.mem_cons.1 he with rfl | he
              · simp
              · exact keep he
            · exact keep he
          · exact keep he
    | modify a r ord =>
      have hi : issued e.peer ((Ev.modify a r ord, o) :: h) = issued e.peer h := by simp [issued]
      rw [hi]
      cases o with
      | silent => exact ih e he
      | crash => exact ih e he
      | reply resp =>
        simp only [ledgerStep] at he
        split at he
        · obtain ⟨d, hd, rfl⟩ := List.mem_map.1 he
          have := ih d hd
          split <;> exact this
        · exact ih e he
    | delete a r ord =>
      have hi : issued e.peer ((Ev.delete a r ord, o) :: h) = issued e.peer h := by simp [issued]
      rw [hi]
      cases o with
      | silent => exact ih e he
      | crash => exact ih e he
      | reply resp =>
        simp only [ledgerStep] at he
        split at he
        · exact ih e (List.mem_filter.1 he).1
        · exact ih e he
    | peerLost a ord =>
      simp only [ledgerStep, List.mem_filter, decide_eq_true_eq] at he
      have : ¬ a = e.peer := fun h => he.2 h.symm
      simp only [issued, if_neg this]
      exact ih e he.1
    | assocSetup a s i t => simpa [issued, ledgerStep] using ih e he
    | assocSetupResp a i c f => simpa [issued, ledgerStep] using ih e he
    | assocUpdate a s i => simpa [issued, ledgerStep] using ih e he
    | heartbeatReq a s t => simpa [issued, ledgerStep] using ih e he
    | heartbeatResp a s t => simpa [issued, ledgerStep] using ih e he
    | setConfig u => simpa [issued, ledgerStep] using ih e he

/-- A SEID that was handed out and names no live session names none as long as the association lasts. -/
theorem issued_stays {cfg rm dp} {a : Addr} {s : U64} {h1 : List (Ev × Outcome)} (hi : s ∈ issued a h1)
    (hd : ∀ c, (⟨a, s, c⟩ : LedgerEntry) ∉ ledger h1) :
    ∀ (h2 : List (Ev × Outcome)) (n : Node), Hist (Node.init cfg rm dp) (h2 ++ h1) n → attempts (h2 ++ h1) < 2 ^ 64 - 2 →
      (∀ ord o, (Ev.peerLost a ord, o) ∉ h2) → s ∈ issued a (h2 ++ h1) ∧ ∀ c, (⟨a, s, c⟩ : LedgerEntry) ∉ ledger (h2 ++ h1) := by
  intro h2
  induction h2 with
  | nil => intro n _ _ _; exact ⟨hi, hd⟩
  | cons x h2 ih =>
    intro n H hb hl
    obtain ⟨m, Hm, -, -⟩ := Hist.last (h := h2 ++ h1) H
    have hb' : attempts (h2 ++ h1) < 2 ^ 64 - 2 := Nat.lt_of_le_of_lt (attempts_cons x _) hb
    obtain ⟨k1, k2⟩ := ih m Hm hb' (fun ord o hm => hl ord o (List.mem_cons_of_mem _ hm))
    have nd := (C04_seid_fresh H hb a).1
    have hll : ledger (x :: h2 ++ h1) = ledgerStep (ledger (h2 ++ h1)) x := rfl
    rw [hll]
    obtain ⟨ev, o⟩ := x
    have nd : (issued a ((ev, o) :: (h2 ++ h1))).Nodup := nd
    show s ∈ issued a ((ev, o) :: (h2 ++ h1)) ∧ _
    generalize h2 ++ h1 = h at k1 k2 nd
    cases ev with
    | establish b r =>
      cases o with
      | silent => exact ⟨k1, k2⟩
      | crash => exact ⟨k1, k2⟩
      | reply resp =>
        simp only [issued, ledgerStep] at nd ⊢
        cases hf : resp.fseid with
        | none => simp only; exact ⟨k1, k2⟩
        | some s' =>
          simp only [hf] at nd ⊢
          refine ⟨?_, fun c hc => ?_⟩
          · split
            · exact List.mem_cons_of_mem _ k1
            · exact k1
          · split at hc
            · rename_i s'' c' hs hc'
              cases hs
              split at hc
              · rcases List.mem_cons.1 hc with hc | hc
                · cases hc
                  rw [if_pos rfl, List.nodup_cons] at nd
                  exact nd.1 k1
                · exact k2 c hc
              · exact k2 c hc
            · exact k2 c hc
    | modify b r ord =>
      refine ⟨by simpa [issued] using k1, fun c hc => ?_⟩
      cases o with
      | silent => exact k2 c hc
      | crash => exact k2 c hc
      | reply resp =>
        simp only [ledgerStep] at hc
        split at hc
        · obtain ⟨d, hmd, e⟩ := List.mem_map.1 hc
          have : d.peer = a ∧ d.seid = s := by
            split at e
            · have e1 := congrArg LedgerEntry.peer e; have e2 := congrArg LedgerEntry.seid e; exact ⟨e1, e2⟩
            · have e1 := congrArg LedgerEntry.peer e; have e2 := congrArg LedgerEntry.seid e; exact ⟨e1, e2⟩
          obtain ⟨p, q, c'⟩ := d
          obtain ⟨rfl, rfl⟩ := this
          exact k2 c' hmd
        · exact k2 c hc
    | delete b r ord =>
      refine ⟨by simpa [issued] using k1, fun c hc => ?_⟩
      cases o with
      | silent => exact k2 c hc
      | crash => exact k2 c hc
      | reply resp =>
        simp only [ledgerStep] at hc
        split at hc
        · exact k2 c (List.mem_filter.1 hc).1
        · exact k2 c hc
    | peerLost b ord =>
      have hba : ¬ b = a := by
        rintro rfl; exact hl ord o List.mem_cons_self
      refine ⟨by simpa [issued, if_neg hba] using k1, fun c hc => ?_⟩
      simp only [ledgerStep, List.mem_filter] at hc
      exact k2 c hc.1
    | assocSetup b s i t => exact ⟨by simpa [issued] using k1, by simpa [ledgerStep] using k2⟩
    | assocSetupResp b i c f => exact ⟨by simpa [issued] using k1, by simpa [ledgerStep] using k2⟩
    | assocUpdate b s i => exact ⟨by simpa [issued] using k1, by simpa [ledgerStep] using k2⟩
    | heartbeatReq b s t => exact ⟨by simpa [issued] using k1, by simpa [ledgerStep] using k2⟩
    | heartbeatResp b s t => exact ⟨by simpa [issued] using k1, by simpa [ledgerStep] using k2⟩
    | setConfig u => exact ⟨by simpa [issued] using k1, by simpa [ledgerStep] using k2⟩

/-! ### node messages, refused requests -/

/-- **C103, node messages**: association and heartbeat messages may arrive any number of times. -/
theorem C103_node_messages (n : Node) (e : Ev) (he : e.isNodeMsg = true) : n.once e := by
  have hadd : ∀ b, (n.addAssoc b).addAssoc b = n.addAssoc b := by
    intro b
    unfold Node.addAssoc
    cases hb : n.assocs.get? b with
    | some a => simp [hb]
    | none => simp [GoMap.get?_set]
  have hcfg : ∀ b, (n.addAssoc b).cfg = n.cfg := by
    intro b; unfold Node.addAssoc; split <;> rfl
  unfold Node.once
  cases e with
  | assocSetup a s i t =>
    cases i with
    | none => exact ⟨rfl, rfl⟩
    | some i => cases i with
      | none => exact ⟨rfl, rfl⟩
      | some i => cases t with
        | none => exact ⟨rfl, rfl⟩
        | some t => cases t with
          | none => exact ⟨rfl, rfl⟩
          | some t => exact ⟨by simp only [Node.step, Node.assocSetup, hcfg], hadd a⟩
  | assocSetupResp a i c f =>
    simp only [Node.step]
    have key : ((n.assocSetupResp a i c f).1 = n ∧ (n.assocSetupResp a i c f) = (n, .silent)) ∨ ((n.assocSetupResp a i c f) = (n.addAssoc a, .silent) ∧
        ∀ m : Node, m.assocSetupResp a i c f = (m.addAssoc a, .silent)) := by
      cases i with
      | none => exact Or.inl ⟨rfl, rfl⟩
      | some i => cases i with
        | none => exact Or.inl ⟨rfl, rfl⟩
        | some i => cases c with
          | none => exact Or.inl ⟨rfl, rfl⟩
          | some c => cases c with
            | none => exact Or.inl ⟨rfl, rfl⟩
            | some c => cases f with
              | none => exact Or.inl ⟨rfl, rfl⟩
              | some f => cases f with
                | none => exact Or.inl ⟨rfl, rfl⟩
                | some f =>
                  by_cases hc : c = causeAccepted
                  · exact Or.inr ⟨by simp [Node.assocSetupResp, hc], fun m => by simp [Node.assocSetupResp, hc]⟩
                  · exact Or.inl ⟨by simp [Node.assocSetupResp, hc], by simp [Node.assocSetupResp, hc]⟩
    rcases key with ⟨-, h⟩ | ⟨h1, h2⟩
    · rw [h]; exact ⟨by rw [h], by rw [h]⟩
    · rw [h1, h2]; exact ⟨rfl, hadd a⟩
  | assocUpdate a s i =>
    have : (n.step (.assocUpdate a s i)).1 = n := by
      simp only [Node.step, Node.assocUpdate]
      split
      · rfl
      · rfl
      · split <;> rfl
    rw [this]; exact ⟨rfl, this⟩
  | heartbeatReq a s t =>
    have : (n.step (.heartbeatReq a s t)).1 = n := by
      simp only [Node.step, Node.heartbeatReq]
      split <;> rfl
    rw [this]; exact ⟨rfl, this⟩
  | heartbeatResp a s t =>
    have : (n.step (.heartbeatResp a s t)).1 = n := by
      simp only [Node.step, Node.heartbeatResp]
      split <;> rfl
    rw [this]; exact ⟨rfl, this⟩
  | establish => cases he
  | modify => cases he
  | delete => cases he
  | peerLost => cases he
  | setConfig => cases he

/-- **C103, refused requests**: a request that was refused for an IE that is missing (66), an unknown session (65) or a missing association (72) may
arrive again. -/
theorem C103_refused (n : Node) (e : Ev) (resp : Resp) (hr : (n.step e).2 = .reply resp) (hc : resp.cause = 65 ∨ resp.cause = 66 ∨ resp.cause = 72) : n.once e := by
  by_cases hm : e.isNodeMsg = true
  · exact C103_node_messages n e hm
  have same : (n.step e).1 = n → n.once e := by
    intro h; unfold Node.once; rw [h]; exact ⟨rfl, h⟩
  cases e with
  | establish a r =>
    apply same
    have hr : (n.establish a r).2 = .reply resp := hr
    show (n.establish a r).1 = n
    cases establish_cases n a r with
    | refused c hcc he => rw [he]
    | ran remote as hs' res hid hcp ha hbody hl hrem he =>
      rw [he] at hr
      exfalso
      cases res with
      | panic => cases hr
      | err => cases hr; rcases hc with hc | hc | hc <;> cases hc
      | ok _ => cases hr; rcases hc with hc | hc | hc <;> cases hc
  | modify a r ord =>
    apply same
    have hr : (n.modify a r ord).2 = .reply resp := hr
    show (n.modify a r ord).1 = n
    cases modify_cases n a r ord with
    | refused c x hcc hs he => rw [he]
    | ran as sess hs' res ha hsess hbody hl hrem he =>
      rw [he] at hr
      exfalso
      cases res with
      | panic => cases hr
      | err => cases hr; rcases hc with hc | hc | hc <;> cases hc
      | ok _ => cases hr; rcases hc with hc | hc | hc <;> cases hc
  | delete a r ord =>
    apply same
    have hr : (n.delete a r ord).2 = .reply resp := hr
    show (n.delete a r ord).1 = n
    cases delete_cases n a r ord with
    | refused c hcc hs he => rw [he]
    | ran as sess hs' res ha hsess hbody he =>
      rw [he] at hr
      exfalso
      cases res with
      | panic => cases hr
      | err => cases hr
      | ok _ => cases hr; rcases hc with hc | hc | hc <;> cases hc
  | peerLost a ord =>
    exfalso
    have hr : (n.deleteAssociation a ord).2 = .reply resp := hr
    unfold Node.deleteAssociation at hr
    split at hr
    · cases hr
    · split at hr <;> cases hr
  | setConfig u => cases hr
  | assocSetup => exact absurd rfl hm
  | assocSetupResp => exact absurd rfl hm
  | assocUpdate => exact absurd rfl hm
  | heartbeatReq => exact absurd rfl hm
  | heartbeatResp => exact absurd rfl hm

/-! ### deletions -/

/-- **C103, deletions**: a session was deleted. As long as the association of the peer lasts, whatever else happens, its deletion is executed once: every further
deletion request for it is answered "session context not found" (65) and changes nothing. What is missing: it is not answered like the first. -/
theorem C103_deleted_once_partial {cfg rm dp} {a : Addr} {r r' : DelReq} {ord ord' : Orders} {resp : Resp} {h1 h2 : List (Ev × Outcome)} {n : Node}
    (H : Hist (Node.init cfg rm dp) (h2 ++ (.delete a r ord, .reply resp) :: h1) n) (hb : attempts (h2 ++ (.delete a r ord, .reply resp) :: h1) < 2 ^ 64 - 2)
    (hacc : resp.cause = 1) (hl : ∀ o x, (Ev.peerLost a o, x) ∉ h2) (hs : r'.seid = r.seid) :
    n.step (.delete a r' ord') = (n, .reply { type := .deletion, seq := r'.seq, cause := 65 }) := by
  have sub : ∀ l : List (Ev × Outcome), ∀ m, Hist (Node.init cfg rm dp) (l ++ (.delete a r ord, .reply resp) :: h1) m →
      ∃ m', Hist (Node.init cfg rm dp) ((.delete a r ord, .reply resp) :: h1) m' := by
    intro l
    induction l with
    | nil => exact fun m H => ⟨m, H⟩
    | cons x l ih => intro m H; obtain ⟨m', H', -, -⟩ := H.last; exact ih m' H'
  have subb : ∀ l : List (Ev × Outcome), attempts ((.delete a r ord, .reply resp) :: h1) ≤ attempts (l ++ (.delete a r ord, .reply resp) :: h1) := by
    intro l
    induction l with
    | nil => exact Nat.le_refl _
    | cons x l ih => exact Nat.le_trans ih (attempts_cons x _)
  obtain ⟨m', H'⟩ := sub h2 n H
  obtain ⟨m, Hm, hm, -⟩ := H'.last
  have hb1 : attempts ((.delete a r ord, .reply resp) :: h1) < 2 ^ 64 - 2 := Nat.lt_of_le_of_lt (subb h2) hb
  have I := linv_hist Hm (Nat.lt_of_le_of_lt (attempts_cons _ _) hb1)
  have hm : (m.delete a r ord).2 = .reply resp := hm
  have hiss : r.seid ∈ issued a h1 := by
    cases delete_cases m a r ord with
    | refused c hcc hs he =>
      rw [he] at hm; cases hm; rcases hcc with rfl | rfl <;> cases hacc
    | ran as sess hs' res ha hsess hbody he =>
      exact ledger_issued h1 _ ((I.live a r.seid sess.remoteSEID).1 ⟨sess, by simp [Node.session?, ha, hsess], rfl⟩)
  have hgone : ∀ c, (⟨a, r.seid, c⟩ : LedgerEntry) ∉ ledger ((.delete a r ord, .reply resp) :: h1) := by
    intro c hc
    simp [ledger, ledgerStep, hacc] at hc
  obtain ⟨k1, k2⟩ := issued_stays (cfg := cfg) (rm := rm) (dp := dp) (a := a) (s := r.seid) (by simpa [issued] using hiss) hgone h2 n H hb hl
  have J := linv_hist H hb
  obtain ⟨-, as, has, -⟩ := J.issued a _ k1
  have hnone : n.session? a r'.seid = none := by
    rw [hs]
    cases hq : n.session? a r.seid with
    | none => rfl
    | some sess => exact absurd ((J.live _ _ _).1 ⟨sess, hq, rfl⟩) (k2 _)
  have hnone : as.sessions.get? r'.seid = none := by
    simpa [Node.session?, has] using hnone
  simp [Node.step, Node.delete, has, hnone, causeSessionNotFound]

/-! ### establishments -/

/-- **C103, establishments (negation)**: whatever state the UPF is in, an establishment request is never answered with an F-SEID that was handed out before (since
the association was set up): a request that was accepted and arrives again is not answered like the first time, neither at once nor later. -/
theorem C103_establish_new_answer {cfg rm dp} {a : Addr} {r : EstReq} {resp resp' : Resp} {s : U64} {h : List (Ev × Outcome)} {n : Node}
    (H : Hist (Node.init cfg rm dp) h n) (hb : attempts h + 1 < 2 ^ 64 - 2) (hs : resp.fseid = some s) (hi : s ∈ issued a h)
    (hr : (n.step (.establish a r)).2 = .reply resp') : resp' ≠ resp := by
  rintro rfl
  have H' := Hist.step (.establish a r) H (by rw [hr]; intro h; cases h)
  have nd := (C04_seid_fresh H' (by rw [attempts_est]; exact hb) a).1
  rw [hr] at nd
  simp only [issued, hs, if_pos trivial, List.nodup_cons] at nd
  exact nd.1 hi

/-- **C103, establishments (negation)**: if the second arrival is accepted, a second session exists beside the first, with the same F-SEID of the control
plane. -/
theorem C103_establish_second_session {cfg rm dp} {a : Addr} {r : EstReq} {resp resp' : Resp} {c : U64} {h : List (Ev × Outcome)} {n n' n'' : Node}
    (H : Hist (Node.init cfg rm dp) h n) (hb : attempts h + 2 < 2 ^ 64 - 2) (hcp : r.cpFseid = some (some c))
    (h1 : n.step (.establish a r) = (n', .reply resp)) (hacc : resp.cause = 1)
    (h2 : n'.step (.establish a r) = (n'', .reply resp')) (hacc' : resp'.cause = 1) :
    ∃ s s', s ≠ s' ∧ resp.fseid = some s ∧ resp'.fseid = some s' ∧ n''.sessionCount = n.sessionCount + 2 ∧
      (∃ x, n''.session? a s = some x ∧ x.remoteSEID = c) ∧ ∃ x, n''.session? a s' = some x ∧ x.remoteSEID = c := by
  have fs : ∀ {m m' : Node} {q : Resp}, m.step (.establish a r) = (m', .reply q) → q.cause = 1 → ∃ s, q.fseid = some s := by
    intro m m' q hm hq
    have hm : m.establish a r = (m', .reply q) := hm
    cases establish_cases m a r with
    | refused k hcc he => rw [hm] at he; cases he; rcases hcc with rfl | rfl <;> cases hq
    | ran remote as hs' res hid hcp ha hbody hl hrem he =>
      rw [hm] at he
      cases res with
      | panic => cases he
      | err => cases he; cases hq
      | ok _ => cases he; exact ⟨_, rfl⟩
  obtain ⟨s, e1⟩ := fs h1 hacc
  obtain ⟨s', e2⟩ := fs h2 hacc'
  have H1 := Hist.step (.establish a r) H (by rw [h1]; intro h; cases h)
  rw [h1] at H1
  have b1 : attempts ((Ev.establish a r, Outcome.reply resp) :: h) = attempts h + 1 := attempts_est ..
  have H2 := Hist.step (.establish a r) H1 (by rw [h2]; intro h; cases h)
  rw [h2] at H2
  have b2 : attempts ((Ev.establish a r, Outcome.reply resp') :: (Ev.establish a r, Outcome.reply resp) :: h) = attempts h + 1 + 1 := by
    rw [attempts_est, b1]
  have nd := (C04_seid_fresh H2 (by rw [b2]; omega) a).1
  simp only [issued, e1, e2, if_pos trivial, List.nodup_cons, List.mem_cons, not_or] at nd
  have g0 := (C52_session_gauge H (by omega)).1
  obtain ⟨g2, l2⟩ := C52_session_gauge H2 (by rw [b2]; omega)
  have hled : ledger ((Ev.establish a r, Outcome.reply resp') :: (Ev.establish a r, Outcome.reply resp) :: h) = ⟨a, s', c⟩ :: ⟨a, s, c⟩ :: ledger h := by
    simp [ledger, ledgerStep, e1, e2, hcp, hacc, hacc']
  rw [hled] at g2 l2
  exact ⟨s, s', fun h => nd.1.1 h.symm, e1, e2, by rw [g2, g0]; rfl, (l2 _ _ _).2 (by simp), (l2 _ _ _).2 (by simp)⟩

/-- **C103, establishments (negation)**: as long as there is room, the second arrival of a request that was accepted makes a second session. -/
theorem C103_establish_twice {cfg rm} {p f q u : U32} {a : Addr} {r : EstReq} {resp : Resp} {h : List (Ev × Outcome)} {n n' : Node}
    (H : Hist (Node.init cfg rm (BpfObjects.load p f q u)) h n) (hb : attempts h + 2 < 2 ^ 64 - 2)
    (h1 : n.step (.establish a r) = (n', .reply resp)) (hacc : resp.cause = 1)
    (hfar : r.createFar.length ≤ n'.freeFars) (hqer : r.createQer.length ≤ n'.freeQers) (hurr : r.createUrr.length ≤ n'.freeUrrs)
    (hteid : teidsNeeded r.createPdr ≤ (freeTeids n'.rm).length) (hip : n'.ueip = true → (r.createPdr.filter (·.asksIp)).length ≤ (freeIps n'.rm).length)
    (hpdr : PdrRoom n'.dp r.createPdr) :
    ∃ n'' resp' s s' c, n'.step (.establish a r) = (n'', .reply resp') ∧ resp'.cause = 1 ∧ s ≠ s' ∧ resp.fseid = some s ∧ resp'.fseid = some s' ∧
      n''.sessionCount = n.sessionCount + 2 ∧ (∃ x, n''.session? a s = some x ∧ x.remoteSEID = c) ∧ ∃ x, n''.session? a s' = some x ∧ x.remoteSEID = c := by
  have H1 := Hist.step (.establish a r) H (by rw [h1]; intro h; cases h)
  rw [h1] at H1
  have N := C95_needed H (addr := a) (r := r) ⟨resp, by rw [h1], hacc⟩
  have hu : n'.ueip = n.ueip := by
    have h1 : n.establish a r = (n', .reply resp) := h1
    cases establish_cases n a r with
    | refused c hcc he => rw [h1] at he; cases he; rfl
    | ran remote as hs' res hid hcp ha hbody hl hrem he =>
      rw [h1] at he
      cases res with
      | panic => cases he
      | err => cases he; rfl
      | ok _ => cases he; rfl
  have hassoc : (n'.assocs.get? a).isSome := by
    have h1 : n.establish a r = (n', .reply resp) := h1
    cases establish_cases n a r with
    | refused c hcc he => rw [h1] at he; cases he; exact N.assoc
    | ran remote as hs' res hid hcp ha hbody hl hrem he =>
      rw [h1] at he
      cases res with
      | panic => cases he
      | err => cases he; simp [GoMap.get?_set]
      | ok _ => cases he; simp [GoMap.get?_set]
  obtain ⟨c, hc⟩ := N.fseid
  obtain ⟨resp', k1, k2⟩ := C95_accepted (cfg := cfg) (rm := rm) H1 hassoc N.nodeId ⟨c, hc⟩ (hu.symm ▸ N.usable) hfar hqer hurr hteid hip hpdr
  have h2 : n'.step (.establish a r) = ((n'.step (.establish a r)).1, .reply resp') := Prod.ext rfl k1
  obtain ⟨s, s', d1, d2, d3, d4, d5, d6⟩ := C103_establish_second_session H hb hc h1 hacc h2 k2
  exact ⟨_, resp', s, s', c, h2, k2, d1, d2, d3, d4, d5, d6⟩

/-! ### modifications that only update -/

theorem composeFarInfo_again (ie : FarIE) (f g : FarInfo) (h : composeFarInfo ie f = .ok g) : composeFarInfo ie g = .ok g := by
  obtain ⟨kind, farId, aa, fw, tlm⟩ := ie
  unfold composeFarInfo composeAction composeForward composeTlm at *
  rcases aa with _ | _ | ⟨x, xs⟩ <;> rcases fw with _ | _ | _ | ⟨desc, teid, _ | ip, _ | _⟩ <;> cases tlm <;> by_cases hk : kind = .other <;> simp [hk] at h ⊢ <;>
    rw [← h]

theorem mergeQer_again (ie : QerIE) (q : QerInfo) : mergeQer (mergeQer q ie) ie = mergeQer q ie := by
  obtain ⟨i, a, b, c, d, e⟩ := ie
  unfold mergeQer
  cases a <;> cases b <;> cases c <;> cases d <;> cases e <;> rfl

/-- A sequence of slot writes. -/
def writes {V : Type} (w : List (U32 × V)) (a : ArrMap V) : ArrMap V :=
  w.foldl (fun a x => { a with val := fun j => if j = x.1 then x.2 else a.val j }) a

theorem writes_size {V : Type} (w : List (U32 × V)) : ∀ a : ArrMap V, (writes w a).size = a.size := by
  induction w with
  | nil => intro a; rfl
  | cons x w ih => intro a; exact ih _

theorem writes_val {V : Type} (w : List (U32 × V)) : ∀ (a b : ArrMap V) (j : U32), (j ∈ w.map (·.1) ∧ (writes w a).val j = (writes w b).val j) ∨
    (j ∉ w.map (·.1) ∧ ∀ c : ArrMap V, (writes w c).val j = c.val j) := by
  induction w with
  | nil => intro a b j; exact Or.inr ⟨by simp, fun _ => rfl⟩
  | cons x w ih =>
    intro a b j
    rcases ih { a with val := fun j => if j = x.1 then x.2 else a.val j } { b with val := fun j => if j = x.1 then x.2 else b.val j } j with ⟨h1, h2⟩ | ⟨h1, h2⟩
    · exact Or.inl ⟨by simp [h1], h2⟩
    · by_cases hj : j = x.1
      · refine Or.inl ⟨by simp [hj], ?_⟩
        show (writes w _).val j = (writes w _).val j
        rw [h2, h2]; simp [hj]
      · refine Or.inr ⟨by simp [hj, h1], fun c => ?_⟩
        show (writes w _).val j = _
        rw [h2]; simp [hj]

theorem writes_again {V : Type} (w : List (U32 × V)) (a : ArrMap V) : writes w (writes w a) = writes w a := by
  have hs : (writes w (writes w a)).size = (writes w a).size := writes_size ..
  have hv : (writes w (writes w a)).val = (writes w a).val := by
    funext j
    rcases writes_val w (writes w a) a j with ⟨-, h⟩ | ⟨-, h⟩
    · exact h
    · exact h _
  cases h1 : writes w (writes w a)
  cases h2 : writes w a
  rw [h1, h2] at hs hv
  cases hs; cases hv; rfl

/-- What the writes of a list of Update FARs are, given the FARs. -/
def farWrites (g : U32 → SFar) (l : List FarIE) : List (U32 × FarInfo) :=
  l.map fun ie => ((g (ie.farId.getD 0)).gid, match composeFarInfo ie (g (ie.farId.getD 0)).info with | .ok f => f | _ => {})

/-- The Update FARs can be executed. -/
def FarsOk (s : HS) (l : List FarIE) : Prop :=
  ∀ ie ∈ l, ∃ id f, ie.farId = some id ∧ composeFarInfo ie (s.sess.getFar id).info = .ok f ∧ (s.sess.getFar id).gid.toNat < s.dp.far.size.toNat

structure FarPass (l : List FarIE) (s s' : HS) : Prop where
  frame : s' = { s with sess := { s.sess with fars := s'.sess.fars }, dp := { s.dp with far := writes (farWrites s.sess.getFar l) s.dp.far } }
  set : ∀ ie ∈ l, ∀ id f, ie.farId = some id → composeFarInfo ie (s.sess.getFar id).info = .ok f → s'.sess.fars.get? id = some { s.sess.getFar id with info := f }
  keep : ∀ i, (∀ ie ∈ l, ie.farId ≠ some i) → s'.sess.fars.get? i = s.sess.fars.get? i

theorem updateFar_one {ie : FarIE} {s : HS} {id : U32} {f : FarInfo} (hid : ie.farId = some id) (hf : composeFarInfo ie (s.sess.getFar id).info = .ok f)
    (hg : (s.sess.getFar id).gid.toNat < s.dp.far.size.toNat) :
    updateFar ie s = ({ s with sess := s.sess.updateFar id f,
                               dp := { s.dp with far := { s.dp.far with val := fun j => if j = (s.sess.getFar id).gid then f else s.dp.far.val j } } }, .ok ()) := by
  simp only [updateFar, hid, hf, BpfObjects.updateFar, ArrMap.update, if_pos hg, Option.map_some]

theorem far_pass : ∀ (l : List FarIE) (s : HS), (l.map (·.farId)).Nodup → FarsOk s l → ∃ s', Act.each updateFar l s = (s', .ok ()) ∧ FarPass l s s' := by
  intro l
  induction l with
  | nil => intro s _ _; exact ⟨s, rfl, ⟨rfl, fun ie h => (nomatch h), fun _ _ => rfl⟩⟩
  | cons ie l ih =>
    intro s hn ho
    rw [List.map_cons, List.nodup_cons] at hn
    obtain ⟨id, f, hid, hf, hg⟩ := ho ie List.mem_cons_self
    have e1 := updateFar_one hid hf hg
    generalize hs1 : ({ s with sess := s.sess.updateFar id f, dp := { s.dp with far := { s.dp.far with val := fun j => if j = (s.sess.getFar id).gid then f else s.dp.far.val j } } } : HS) = s1 at e1
    have hne : ∀ x ∈ l, ∀ i, x.farId = some i → i ≠ id := by
      rintro x hx i hi rfl
      exact hn.1 (List.mem_map.2 ⟨x, hx, hi.trans hid.symm⟩)
    have hget : ∀ i, i ≠ id → s1.sess.fars.get? i = s.sess.fars.get? i := by
      intro i hi; subst hs1; simp [Session.updateFar, GoMap.get?_set, hi]
    have hgetF : ∀ i, i ≠ id → s1.sess.getFar i = s.sess.getFar i := by
      intro i hi; unfold Session.getFar; rw [hget i hi]
    obtain ⟨s', e2, P⟩ := ih s1 hn.2 (by
      intro x hx
      obtain ⟨i, g, a1, a2, a3⟩ := ho x (List.mem_cons_of_mem _ hx)
      refine ⟨i, g, a1, ?_, ?_⟩
      · rw [hgetF i (hne x hx i a1)]; exact a2
      · rw [hgetF i (hne x hx i a1)]; subst hs1; exact a3)
    refine ⟨s', ?_, ⟨?_, ?_, ?_⟩⟩
    · show Act.each updateFar (ie :: l) s = _
      simp only [Act.each, bind, Act.bind, e1]
      exact e2
    · rw [P.frame]
      have hw : farWrites s1.sess.getFar l = farWrites s.sess.getFar l := by
        unfold farWrites
        apply List.map_congr_left
        intro x hx
        obtain ⟨i, g, a1, a2, a3⟩ := ho x (List.mem_cons_of_mem _ hx)
        simp only [a1, Option.getD_some, hgetF i (hne x hx i a1)]
      rw [hw]
      have hw2 : writes (farWrites s.sess.getFar (ie :: l)) s.dp.far = writes (farWrites s.sess.getFar l) s1.dp.far := by
        subst hs1
        simp only [farWrites, List.map_cons, hid, Option.getD_some, hf, writes, List.foldl_cons]
      rw [hw2]
      subst hs1
      rfl
    · intro x hx i g hi hg'
      rcases List.mem_cons.1 hx with rfl | hx
      · rw [hid] at hi; cases hi
        rw [hf] at hg'; cases hg'
        rw [P.keep id (fun y hy hy' => hne y hy id hy' rfl)]
        subst hs1; simp [Session.updateFar, GoMap.get?_set]
      · have := P.set x hx i g hi (by rw [hgetF i (hne x hx i hi)]; exact hg')
        rw [hgetF i (hne x hx i hi)] at this
        exact this
    · intro i hi
      rw [P.keep i (fun y hy => hi y (List.mem_cons_of_mem _ hy))]
      exact hget i (fun h => hi ie List.mem_cons_self (h ▸ hid))

theorem far_pass_ok : ∀ (l : List FarIE) (s s' : HS), (l.map (·.farId)).Nodup → Act.each updateFar l s = (s', .ok ()) → FarsOk s l := by
  intro l
  induction l with
  | nil => intro s s' _ _ ie h; cases h
  | cons ie l ih =>
    intro s s' hn h
    rw [List.map_cons, List.nodup_cons] at hn
    obtain ⟨s1, e1, e2⟩ := each_cons_ok h
    have one : ∃ id f, ie.farId = some id ∧ composeFarInfo ie (s.sess.getFar id).info = .ok f ∧ (s.sess.getFar id).gid.toNat < s.dp.far.size.toNat := by
      unfold updateFar at e1
      cases hid : ie.farId with
      | none => rw [hid] at e1; cases e1
      | some id =>
        cases hf : composeFarInfo ie (s.sess.getFar id).info with
        | err => simp only [hid, hf] at e1; cases e1
        | panic => simp only [hid, hf] at e1; cases e1
        | ok f =>
          by_cases hg : (s.sess.getFar id).gid.toNat < s.dp.far.size.toNat
          · exact ⟨id, f, rfl, hf, hg⟩
          · simp only [hid, hf, BpfObjects.updateFar, ArrMap.update, if_neg hg, Option.map_none] at e1
            cases e1
    obtain ⟨id, f, hid, hf, hg⟩ := one
    rw [updateFar_one hid hf hg] at e1
    have hs1 := (Prod.mk.inj e1).1
    have hgetF : ∀ i, i ≠ id → s1.sess.getFar i = s.sess.getFar i := by
      intro i hi; rw [← hs1]; simp [Session.getFar, Session.updateFar, GoMap.get?_set, hi]
    have o := ih s1 s' hn.2 e2
    intro x hx
    rcases List.mem_cons.1 hx with rfl | hx
    · exact ⟨id, f, hid, hf, hg⟩
    · obtain ⟨i, g, a1, a2, a3⟩ := o x hx
      have hi : i ≠ id := by
        rintro rfl
        exact hn.1 (List.mem_map.2 ⟨x, hx, a1.trans hid.symm⟩)
      rw [hgetF i hi] at a2 a3
      exact ⟨i, g, a1, a2, by rw [← hs1] at a3; exact a3⟩

/-- What the writes of a list of Update QERs are, given the QERs. -/
def qerWrites (g : U32 → SQer) (l : List QerIE) : List (U32 × QerInfo) :=
  l.map fun ie => ((g (ie.qerId.getD 0)).gid, mergeQer (g (ie.qerId.getD 0)).info ie)

/-- The Update QERs can be executed. -/
def QersOk (s : HS) (l : List QerIE) : Prop :=
  ∀ ie ∈ l, ∃ id f, ie.qerId = some id ∧ mergeQer (s.sess.getQer id).info ie = f ∧ (s.sess.getQer id).gid.toNat < s.dp.qer.size.toNat

structure QerPass (l : List QerIE) (s s' : HS) : Prop where
  frame : s' = { s with sess := { s.sess with qers := s'.sess.qers }, dp := { s.dp with qer := writes (qerWrites s.sess.getQer l) s.dp.qer } }
  set : ∀ ie ∈ l, ∀ id f, ie.qerId = some id → mergeQer (s.sess.getQer id).info ie = f → s'.sess.qers.get? id = some { s.sess.getQer id with info := f }
  keep : ∀ i, (∀ ie ∈ l, ie.qerId ≠ some i) → s'.sess.qers.get? i = s.sess.qers.get? i

theorem updateQer_one {ie : QerIE} {s : HS} {id : U32} {f : QerInfo} (hid : ie.qerId = some id) (hf : mergeQer (s.sess.getQer id).info ie = f)
    (hg : (s.sess.getQer id).gid.toNat < s.dp.qer.size.toNat) :
    updateQer ie s = ({ s with sess := s.sess.updateQer id f,
                               dp := { s.dp with qer := { s.dp.qer with val := fun j => if j = (s.sess.getQer id).gid then f else s.dp.qer.val j } } }, .ok ()) := by
  simp only [updateQer, hid, hf, BpfObjects.updateQer, ArrMap.update, if_pos hg, Option.map_some]

theorem qer_pass : ∀ (l : List QerIE) (s : HS), (l.map (·.qerId)).Nodup → QersOk s l → ∃ s', Act.each updateQer l s = (s', .ok ()) ∧ QerPass l s s' := by
  intro l
  induction l with
  | nil => intro s _ _; exact ⟨s, rfl, ⟨rfl, fun ie h => (nomatch h), fun _ _ => rfl⟩⟩
  | cons ie l ih =>
    intro s hn ho
    rw [List.map_cons, List.nodup_cons] at hn
    obtain ⟨id, f, hid, hf, hg⟩ := ho ie List.mem_cons_self
    have e1 := updateQer_one hid hf hg
    generalize hs1 : ({ s with sess := s.sess.updateQer id f, dp := { s.dp with qer := { s.dp.qer with val := fun j => if j = (s.sess.getQer id).gid then f else s.dp.qer.val j } } } : HS) = s1 at e1
    have hne : ∀ x ∈ l, ∀ i, x.qerId = some i → i ≠ id := by
      rintro x hx i hi rfl
      exact hn.1 (List.mem_map.2 ⟨x, hx, hi.trans hid.symm⟩)
    have hget : ∀ i, i ≠ id → s1.sess.qers.get? i = s.sess.qers.get? i := by
      intro i hi; subst hs1; simp [Session.updateQer, GoMap.get?_set, hi]
    have hgetF : ∀ i, i ≠ id → s1.sess.getQer i = s.sess.getQer i := by
      intro i hi; unfold Session.getQer; rw [hget i hi]
    obtain ⟨s', e2, P⟩ := ih s1 hn.2 (by
      intro x hx
      obtain ⟨i, g, a1, a2, a3⟩ := ho x (List.mem_cons_of_mem _ hx)
      refine ⟨i, g, a1, ?_, ?_⟩
      · rw [hgetF i (hne x hx i a1)]; exact a2
      · rw [hgetF i (hne x hx i a1)]; subst hs1; exact a3)
    refine ⟨s', ?_, ⟨?_, ?_, ?_⟩⟩
    · show Act.each updateQer (ie :: l) s = _
      simp only [Act.each, bind, Act.bind, e1]
      exact e2
    · rw [P.frame]
      have hw : qerWrites s1.sess.getQer l = qerWrites s.sess.getQer l := by
        unfold qerWrites
        apply List.map_congr_left
        intro x hx
        obtain ⟨i, g, a1, a2, a3⟩ := ho x (List.mem_cons_of_mem _ hx)
        simp only [a1, Option.getD_some, hgetF i (hne x hx i a1)]
      rw [hw]
      have hw2 : writes (qerWrites s.sess.getQer (ie :: l)) s.dp.qer = writes (qerWrites s.sess.getQer l) s1.dp.qer := by
        subst hs1
        simp only [qerWrites, List.map_cons, hid, Option.getD_some, hf, writes, List.foldl_cons]
      rw [hw2]
      subst hs1
      rfl
    · intro x hx i g hi hg'
      rcases List.mem_cons.1 hx with rfl | hx
      · rw [hid] at hi; cases hi
        rw [hf] at hg'; cases hg'
        rw [P.keep id (fun y hy hy' => hne y hy id hy' rfl)]
        subst hs1; simp [Session.updateQer, GoMap.get?_set]
      · have := P.set x hx i g hi (by rw [hgetF i (hne x hx i hi)]; exact hg')
        rw [hgetF i (hne x hx i hi)] at this
        exact this
    · intro i hi
      rw [P.keep i (fun y hy => hi y (List.mem_cons_of_mem _ hy))]
      exact hget i (fun h => hi ie List.mem_cons_self (h ▸ hid))

theorem qer_pass_ok : ∀ (l : List QerIE) (s s' : HS), (l.map (·.qerId)).Nodup → Act.each updateQer l s = (s', .ok ()) → QersOk s l := by
  intro l
  induction l with
  | nil => intro s s' _ _ ie h; cases h
  | cons ie l ih =>
    intro s s' hn h
    rw [List.map_cons, List.nodup_cons] at hn
    obtain ⟨s1, e1, e2⟩ := each_cons_ok h
    have one : ∃ id f, ie.qerId = some id ∧ mergeQer (s.sess.getQer id).info ie = f ∧ (s.sess.getQer id).gid.toNat < s.dp.qer.size.toNat := by
      unfold updateQer at e1
      cases hid : ie.qerId with
      | none => rw [hid] at e1; cases e1
      | some id =>
          by_cases hg : (s.sess.getQer id).gid.toNat < s.dp.qer.size.toNat
          · exact ⟨id, _, rfl, rfl, hg⟩
          · simp only [hid, BpfObjects.updateQer, ArrMap.update, if_neg hg, Option.map_none] at e1
            cases e1
    obtain ⟨id, f, hid, hf, hg⟩ := one
    rw [updateQer_one hid hf hg] at e1
    have hs1 := (Prod.mk.inj e1).1
    have hgetF : ∀ i, i ≠ id → s1.sess.getQer i = s.sess.getQer i := by
      intro i hi; rw [← hs1]; simp [Session.getQer, Session.updateQer, GoMap.get?_set, hi]
    have o := ih s1 s' hn.2 e2
    intro x hx
    rcases List.mem_cons.1 hx with rfl | hx
    · exact ⟨id, f, hid, hf, hg⟩
    · obtain ⟨i, g, a1, a2, a3⟩ := o x hx
      have hi : i ≠ id := by
        rintro rfl
        exact hn.1 (List.mem_map.2 ⟨x, hx, a1.trans hid.symm⟩)
      rw [hgetF i hi] at a2 a3
      exact ⟨i, g, a1, a2, by rw [← hs1] at a3; exact a3⟩

theorem far_again {l : List FarIE} {s s' t : HS} (hn : (l.map (·.farId)).Nodup) (ho : FarsOk s l) (P : FarPass l s s')
    (hf : ∀ i, t.sess.fars.get? i = s'.sess.fars.get? i) (hd : t.dp.far = s'.dp.far) :
    ∃ t', Act.each updateFar l t = (t', .ok ()) ∧ t'.dp = t.dp ∧ (∀ i, t'.sess.fars.get? i = t.sess.fars.get? i) ∧
      t' = { t with sess := { t.sess with fars := t'.sess.fars } } := by
  have hget : ∀ ie ∈ l, ∀ id f, ie.farId = some id → composeFarInfo ie (s.sess.getFar id).info = .ok f → t.sess.getFar id = { s.sess.getFar id with info := f } := by
    intro ie hie id f h1 h2
    unfold Session.getFar
    rw [hf, P.set ie hie id f h1 h2]; rfl
  have hsz : t.dp.far = writes (farWrites s.sess.getFar l) s.dp.far := by rw [hd, P.frame]
  have hsize : t.dp.far.size = s.dp.far.size := by rw [hsz, writes_size]
  have ot : FarsOk t l := by
    intro ie hie
    obtain ⟨id, f, h1, h2, h3⟩ := ho ie hie
    have hg := hget ie hie id f h1 h2
    exact ⟨id, f, h1, by rw [hg]; exact composeFarInfo_again _ _ _ h2, by rw [hg, hsize]; exact h3⟩
  obtain ⟨t', e, Q⟩ := far_pass l t hn ot
  have hw : farWrites t.sess.getFar l = farWrites s.sess.getFar l := by
    unfold farWrites
    apply List.map_congr_left
    intro ie hie
    obtain ⟨id, f, h1, h2, h3⟩ := ho ie hie
    have hg := hget ie hie id f h1 h2
    have hc := composeFarInfo_again _ _ _ h2
    simp only [h1, Option.getD_some, hg, h2, hc]
  have hdp : t'.dp = t.dp := by
    rw [Q.frame]
    show { t.dp with far := writes (farWrites t.sess.getFar l) t.dp.far } = t.dp
    rw [hw, hsz, writes_again, ← hsz]
  refine ⟨t', e, hdp, fun i => ?_, ?_⟩
  · by_cases hi : ∃ ie ∈ l, ie.farId = some i
    · obtain ⟨ie, hie, hid⟩ := hi
      obtain ⟨id, f, h1, h2, h3⟩ := ho ie hie
      rw [hid] at h1; cases h1
      have hg := hget ie hie i f hid h2
      have h4 := Q.set ie hie i f hid (by rw [hg]; exact composeFarInfo_again _ _ _ h2)
      rw [h4, hg, hf, P.set ie hie i f hid h2]
    · exact Q.keep i (fun ie hie h => hi ⟨ie, hie, h⟩)
  · have h1 := Q.frame
    have h2 : ({ t.dp with far := writes (farWrites t.sess.getFar l) t.dp.far } : BpfObjects) = t.dp := by
      have := congrArg HS.dp h1
      exact this.symm.trans hdp
    rw [h2] at h1
    exact h1

theorem qer_again {l : List QerIE} {s s' t : HS} (hn : (l.map (·.qerId)).Nodup) (ho : QersOk s l) (P : QerPass l s s')
    (hf : ∀ i, t.sess.qers.get? i = s'.sess.qers.get? i) (hd : t.dp.qer.size = s'.dp.qer.size) :
    ∃ t', Act.each updateQer l t = (t', .ok ()) ∧ (∀ i, t'.sess.qers.get? i = t.sess.qers.get? i) ∧
      t' = { t with sess := { t.sess with qers := t'.sess.qers }, dp := { t.dp with qer := t'.dp.qer } } ∧
      t'.dp.qer.size = t.dp.qer.size ∧ ∀ i, t'.dp.qer.val i = s'.dp.qer.val i ∨ t'.dp.qer.val i = t.dp.qer.val i := by
  have hget : ∀ ie ∈ l, ∀ id, ie.qerId = some id → t.sess.getQer id = { s.sess.getQer id with info := mergeQer (s.sess.getQer id).info ie } := by
    intro ie hie id h1
    unfold Session.getQer
    rw [hf, P.set ie hie id _ h1 rfl]; rfl
  have hsz : s'.dp.qer = writes (qerWrites s.sess.getQer l) s.dp.qer := by rw [P.frame]
  have hsize : t.dp.qer.size = s.dp.qer.size := by rw [hd, hsz, writes_size]
  have ot : QersOk t l := by
    intro ie hie
    obtain ⟨id, f, h1, h2, h3⟩ := ho ie hie
    have hg := hget ie hie id h1
    exact ⟨id, _, h1, rfl, by rw [hg, hsize]; exact h3⟩
  obtain ⟨t', e, Q⟩ := qer_pass l t hn ot
  have hw : qerWrites t.sess.getQer l = qerWrites s.sess.getQer l := by
    unfold qerWrites
    apply List.map_congr_left
    intro ie hie
    obtain ⟨id, f, h1, h2, h3⟩ := ho ie hie
    have hg := hget ie hie id h1
    simp only [h1, Option.getD_some, hg, mergeQer_again]
  have hdq : t'.dp.qer = writes (qerWrites s.sess.getQer l) t.dp.qer := by
    rw [Q.frame]
    show writes (qerWrites t.sess.getQer l) t.dp.qer = _
    rw [hw]
  refine ⟨t', e, fun i => ?_, ?_, ?_, fun i => ?_⟩
  · by_cases hi : ∃ ie ∈ l, ie.qerId = some i
    · obtain ⟨ie, hie, hid⟩ := hi
      have hg := hget ie hie i hid
      have h4 := Q.set ie hie i _ hid rfl
      rw [h4, hg, hf, P.set ie hie i _ hid rfl, mergeQer_again]
    · exact Q.keep i (fun ie hie h => hi ⟨ie, hie, h⟩)
  · have h1 := Q.frame
    have h2 : writes (qerWrites t.sess.getQer l) t.dp.qer = t'.dp.qer := by rw [hdq, hw]
    rw [h2] at h1
    exact h1
  · rw [hdq, writes_size]
  · rw [hdq]
    rcases writes_val (qerWrites s.sess.getQer l) t.dp.qer s.dp.qer i with ⟨-, h⟩ | ⟨-, h⟩
    · exact Or.inl (by rw [h, hsz])
    · exact Or.inr (h _)

theorem setRemote_again {s : Session} (x : Option (Option U64)) {t : Session} (h : s.remoteSEID = (t.setRemote x).remoteSEID) : s.setRemote x = s := by
  rcases x with _ | _ | c
  · rfl
  · rfl
  · have h : s.remoteSEID = c := h
    subst h; rfl

theorem updatesOnly_body {r : ModReq} (hu : r.updatesOnly) (ue : Bool) (ord : Orders) (s : HS) {s1 s2 : HS}
    (e1 : Act.each updateFar r.updateFar s = (s1, .ok ())) (e2 : Act.each updateQer r.updateQer s1 = (s2, .ok ())) : modifyBody ue ord r s = (s2, .ok ()) := by
  unfold modifyBody
  rw [hu.createFar, hu.removeFar, hu.createQer, hu.removeQer, hu.createUrr, hu.updateUrr, hu.removeUrr, hu.createPdr, hu.updatePdr, hu.removePdr]
  simp only [Act.each, bind, Act.bind, pure, Act.pure, e1, e2]

/-- **C103, updates**: a modification request that only updates FARs and QERs (each at most once), as a handover or a change of the bit rate does, was accepted and
arrives again, with any packets processed in between. It is answered exactly like the first time and nothing changes: all sessions have the same rules, the forwarding
plane has the same rules (at most the timers of the rate limiter start again), and the counted volumes are kept. -/
theorem C103_updates_once_partial {n n' : Node} {a : Addr} {r : ModReq} {ord ord' : Orders} {resp : Resp} {dp1 : BpfObjects} (hu : r.updatesOnly)
    (h1 : n.step (.modify a r ord) = (n', .reply resp)) (hacc : resp.cause = 1) (ht : TrafficEffect n'.dp dp1) :
    ∃ n'', ({ n' with dp := dp1 } : Node).step (.modify a r ord') = (n'', .reply resp) ∧ TrafficEffect n'.dp n''.dp ∧ n''.dp.urr = dp1.urr ∧
      n''.rm = n'.rm ∧ n''.ueip = n'.ueip ∧ (∀ b, (n''.assocs.get? b).isSome = (n'.assocs.get? b).isSome) ∧
      (∀ b s x, n'.session? b s = some x → ∃ y, n''.session? b s = some y ∧ y.same x) ∧ ∀ b s, n'.session? b s = none → n''.session? b s = none := by
  have h1 : n.modify a r ord = (n', .reply resp) := h1
  cases modify_cases n a r ord with
  | refused c x hcc hs he => rw [h1] at he; cases he; rcases hcc with rfl | rfl <;> cases hacc
  | ran as sess hs' res ha hsess hbody hl hrem he =>
    rw [h1] at he
    cases res with
    | panic => cases he
    | err => cases he; cases hacc
    | ok u =>
      cases u
      obtain ⟨s1, s2, s3, s4, s5, s6, s7, s8, s9, s10, s11, p1, p2, p3, p4, p5, p6, p7, p8, p9, p10, p11, p12⟩ := modify_phases hbody
      rw [hu.createFar] at p1; rw [hu.removeFar] at p3; rw [hu.createQer] at p4; rw [hu.removeQer] at p6; rw [hu.createUrr] at p7; rw [hu.updateUrr] at p8
      rw [hu.removeUrr] at p9; rw [hu.createPdr] at p10; rw [hu.updatePdr] at p11; rw [hu.removePdr] at p12
      obtain rfl := (Prod.mk.inj p1).1
      obtain rfl := (Prod.mk.inj p3).1
      obtain rfl := (Prod.mk.inj p4).1
      obtain rfl := (Prod.mk.inj p6).1
      obtain rfl := (Prod.mk.inj p7).1
      obtain rfl := (Prod.mk.inj p8).1
      obtain rfl := (Prod.mk.inj p9).1
      obtain rfl := (Prod.mk.inj p10).1
      obtain rfl := (Prod.mk.inj p11).1
      obtain rfl := (Prod.mk.inj p12).1
      generalize hs0 : n.hs (sess.setRemote r.cpFseid) = s0 at p2
      have oF := far_pass_ok _ _ _ hu.fars p2
      obtain ⟨s2', e2, PF⟩ := far_pass _ _ hu.fars oF
      rw [p2] at e2
      obtain rfl := (Prod.mk.inj e2).1
      have oQ := qer_pass_ok _ _ _ hu.qers p5
      obtain ⟨s5', e5, PQ⟩ := qer_pass _ _ hu.qers oQ
      rw [p5] at e5
      obtain rfl := (Prod.mk.inj e5).1
      have hdp : n'.dp = s5.dp := by cases he; rfl
      have hrm : n'.rm = s5.rm := by cases he; rfl
      have hue : n'.ueip = n.ueip := by cases he; rfl
      have hcf : n'.cfg = n.cfg := by cases he; rfl
      have has : n'.assocs = n.assocs.set a { as with sessions := as.sessions.set r.seid s5.sess } := by cases he; rfl
      have hresp : resp = { type := .modification, seid := s5.sess.remoteSEID, seq := r.seq, cause := causeAccepted,
                            created := createdIEs n.cfg.n3 s5.created, reports := s5.reports } := by cases he; rfl
      have hcr : s5.created = [] := by
        rw [PQ.frame, PF.frame, ← hs0]; rfl
      have hrp : s5.reports = [] := by
        rw [PQ.frame, PF.frame, ← hs0]; rfl
      have hsr : s5.sess.setRemote r.cpFseid = s5.sess := setRemote_again _ hrem
      -- the second time
      have hfar : s5.sess.fars = s2.sess.fars := by rw [PQ.frame]
      have hdf : s5.dp.far = s2.dp.far := by rw [PQ.frame]
      obtain ⟨t1, f1, f2, f3, f4⟩ := far_again (t := ⟨s5.sess, GoMap.empty, s5.rm, dp1, [], []⟩) hu.fars oF PF
        (fun i => by show s5.sess.fars.get? i = _; rw [hfar]) (by show dp1.far = _; rw [ht.far, hdp, hdf])
      have t1q : t1.sess.qers = s5.sess.qers := by rw [f4]
      obtain ⟨t2, g1, g2, g3, g4, g5⟩ := qer_again (t := t1) hu.qers oQ PQ (fun i => by rw [t1q]) (by rw [f2, ← hdp]; exact ht.qerSize)
      have body := updatesOnly_body hu n.ueip ord' _ f1 g1
      have t2s : t2.sess.same s5.sess := by
        refine ⟨?_, ?_, ?_, ?_, ?_, ?_⟩
        · rw [g3, f4]
        · rw [g3, f4]
        · intro i
          have : t2.sess.fars = t1.sess.fars := by rw [g3]
          rw [this]; exact f3 i
        · intro i; rw [g2, t1q]
        · rw [g3, f4]
        · rw [g3, f4]
      have hassoc : ({ n' with dp := dp1 } : Node).assocs.get? a = some { as with sessions := as.sessions.set r.seid s5.sess } := by
        show n'.assocs.get? a = _
        rw [has]; simp [GoMap.get?_set]
      have hget : (as.sessions.set r.seid s5.sess).get? r.seid = some s5.sess := by simp [GoMap.get?_set]
      have hb2 : modifyBody ({ n' with dp := dp1 } : Node).ueip ord' r (({ n' with dp := dp1 } : Node).hs (s5.sess.setRemote r.cpFseid)) = (t2, .ok ()) := by
        rw [hsr]
        show modifyBody n'.ueip ord' r ⟨s5.sess, GoMap.empty, n'.rm, dp1, [], []⟩ = _
        rw [hue, hrm]; exact body
      refine ⟨{ n' with rm := t2.rm, dp := t2.dp, assocs := n'.assocs.set a { as with sessions := (as.sessions.set r.seid s5.sess).set r.seid t2.sess } }, ?_, ?_, ?_, ?_, rfl, ?_, ?_, ?_⟩
      · show ({ n' with dp := dp1 } : Node).modify a r ord' = _
        simp only [Node.modify, hassoc, hget, hb2]
        refine Prod.ext rfl ?_
        show Outcome.reply _ = Outcome.reply _
        rw [hresp, hcf, t2s.remote, hcr, hrp]
        have c2 : t2.created = [] := by rw [g3, f4]
        have r2 : t2.reports = [] := by rw [g3, f4]
        rw [c2, r2]
      · show TrafficEffect n'.dp t2.dp
        rw [g3]
        show TrafficEffect n'.dp { t1.dp with qer := t2.dp.qer }
        rw [f2]
        refine ⟨ht.pdrUl, ht.pdrDl4, ht.pdrDl6, ht.far, ?_, fun i => ?_, ht.urrSize, ht.farIds, ht.qerIds, ht.urrIds⟩
        · show t2.dp.qer.size = _
          rw [g4, f2]; exact ht.qerSize
        · rcases g5 i with h | h
          · show ({ t2.dp.qer.val i with startUL := 0, startDL := 0 } : QerInfo) = _
            rw [h, hdp]
          · show ({ t2.dp.qer.val i with startUL := 0, startDL := 0 } : QerInfo) = _
            rw [h, f2]; exact ht.qerVal i
      · show t2.dp.urr = _
        rw [g3]
        show t1.dp.urr = _
        rw [f2]
      · show t2.rm = _
        rw [g3, f4, hrm]
      · intro b
        show ((n'.assocs.set a _).get? b).isSome = _
        rw [has]
        by_cases hb : b = a
        · subst hb; simp [GoMap.get?_set]
        · simp [GoMap.get?_set, hb]
      · intro b s x hx
        simp only [Node.session?, has, GoMap.get?_set] at hx ⊢
        by_cases hb : b = a
        · subst hb
          by_cases hss : s = r.seid
          · subst hss
            simp [GoMap.get?_set] at hx ⊢
            subst hx
            exact t2s
          · simp [GoMap.get?_set, hss] at hx ⊢
            exact ⟨x, hx, ⟨rfl, rfl, fun _ => rfl, fun _ => rfl, rfl, rfl⟩⟩
        · simp only [if_neg hb] at hx ⊢
          exact ⟨x, hx, ⟨rfl, rfl, fun _ => rfl, fun _ => rfl, rfl, rfl⟩⟩
      · intro b s hx
        simp only [Node.session?, has, GoMap.get?_set] at hx ⊢
        by_cases hb : b = a
        · subst hb
          by_cases hss : s = r.seid
          · subst hss; simp [GoMap.get?_set] at hx
          · simp [GoMap.get?_set, hss] at hx ⊢; exact hx
        · simp only [if_neg hb] at hx ⊢; exact hx

end Eupf
