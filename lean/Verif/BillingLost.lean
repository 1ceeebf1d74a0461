import Verif.BillingLemmas
import Verif.Props.DeletionExact
import Verif.Wire
/-
A URR slot that a lost peer's session leaves behind stays taken: lemmas for C117. Models no code.
-/
namespace Eupf

/-- The view with one more session, that no request is about. -/
def View.plus (view : View) (A : Addr) (g : Session) : View := fun k => if k = some (A, 0) then some g else view k

theorem plus_mono {v w : View} {A : Addr} {g : Session} (h : ∀ k s, v k = some s → w k = some s) : ∀ k s, v.plus A g k = some s → w.plus A g k = some s := by
  intro k s hk
  unfold View.plus at hk ⊢
  split
  · rename_i e; rw [if_pos e] at hk; exact hk
  · rename_i e; rw [if_neg e] at hk; exact h k s hk
theorem plus_upd {v : View} {A : Addr} {g : Session} {k : Option (Addr × U64)} (hk : k ≠ some (A, 0)) (s : Session) : (v.plus A g).upd k s = (v.upd k s).plus A g := by
  funext x; unfold View.plus View.upd
  by_cases h : x = k
  · subst h; rw [if_pos rfl, if_neg hk, if_pos rfl]
  · rw [if_neg h, if_neg h]
theorem plus_del {v : View} {A : Addr} {g : Session} {k : Option (Addr × U64)} (hk : k ≠ some (A, 0)) : (v.plus A g).del k = (v.del k).plus A g := by
  funext x; unfold View.plus View.del
  by_cases h : x = k
  · subst h; rw [if_pos rfl, if_neg hk, if_pos rfl]
  · rw [if_neg h, if_neg h]
theorem plus_at {v : View} {A : Addr} {g : Session} {k : Option (Addr × U64)} (hk : k ≠ some (A, 0)) : v.plus A g k = v k := if_neg hk
theorem plus_self {v : View} {A : Addr} {g : Session} : v.plus A g (some (A, 0)) = some g := if_pos rfl

theorem key_ne {a A : Addr} {s : U64} (h : a ≠ A) : (some (a, s) : Option (Addr × U64)) ≠ some (A, 0) := by rintro h'; cases h'; exact h rfl

/-- Every step with known references by another peer keeps the invariant with the additional session. -/
theorem slots_step_plus {n : Node} {A : Addr} {g : Session} (e : Ev) (h : Slots (n.view.plus A g) n.dp) (hA : e.from ≠ A) (hr : e.refsKnown n) (hc : (n.step e).2 ≠ .crash) :
    Slots ((n.step e).1.view.plus A g) (n.step e).1.dp := by
  have other : e.isNodeMsg = true → Slots ((n.step e).1.view.plus A g) (n.step e).1.dp := by
    intro he
    rcases other_step n e he with h1 | ⟨b, hbn, h1⟩
    · rw [h1]; exact h
    · rw [h1]
      refine h.mono (plus_mono ?_)
      intro k s hk
      cases k with
      | none => cases hk
      | some x =>
        simp only [Node.view, Node.session?, Option.bind_some, GoMap.get?_set] at hk ⊢
        split at hk
        · simp [Assoc.new] at hk
        · exact hk
  cases e with
  | assocSetup => exact other rfl
  | assocSetupResp => exact other rfl
  | assocUpdate => exact other rfl
  | heartbeatReq => exact other rfl
  | heartbeatResp => exact other rfl
  | setConfig => exact h
  | establish addr r =>
    have hA : addr ≠ A := hA
    simp only [Node.step] at *
    cases establish_cases n addr r with
    | refused c hcc he => rw [he]; exact h
    | ran remote a hs res hid hcp ha hbody hl hrem he =>
      rw [he] at hc ⊢
      have hi0 : HSlots (n.view.plus A g) none (n.hs (Session.new (a.nextSessionID + 1) remote)) := by
        exact slots_new h
      have hi := (establishBody_slots (view := n.view.plus A g) (k := none) n.ueip r (fun _ => ⟨id, id⟩)).apply hi0
      rw [hbody] at hi
      cases res with
      | panic => exact absurd rfl hc
      | err =>
        unfold HSlotsX at hi
        rw [plus_upd (by intro h; cases h)] at hi
        refine hi.mono (plus_mono ?_)
        intro k s hk
        cases k with
        | none => cases hk
        | some x =>
          simp only [View.upd, reduceCtorEq, if_false]
          simp only [Node.view, Node.session?, Node.estResult, Option.bind_some, GoMap.get?_set] at hk ⊢
          split at hk
          · rename_i e; rw [e, ha]; exact hk
          · exact hk
      | ok u =>
        cases u
        refine slots_move (addr, a.nextSessionID + 1) hi (plus_at (by intro h; cases h)) ?_
        intro x hx
        obtain ⟨x1, x2⟩ := x
        by_cases e0 : x1 = A
        · subst e0
          refine .inr ⟨fun h => hA (Prod.mk.inj h).1.symm, ?_⟩
          unfold View.plus
          split
          · rfl
          · simp only [Node.view, Node.session?, Node.estResult, Option.bind_some, GoMap.get?_set]
            rw [if_neg (Ne.symm hA)]
        rw [plus_at (key_ne e0), plus_at (key_ne e0)]
        simp only [Node.view, Node.session?, Node.estResult, Option.bind_some, GoMap.get?_set]
        by_cases e : x1 = addr
        · subst e
          simp only [if_true, Option.bind_some, Assoc.bumped, ha]
          by_cases e2 : x2 = a.nextSessionID + 1
          · subst e2; exact Or.inl ⟨rfl, (GoMap.get?_set ..).trans (if_pos rfl)⟩
          · exact Or.inr ⟨fun h => e2 (Prod.mk.inj h).2, (GoMap.get?_set ..).trans (if_neg e2)⟩
        · exact Or.inr ⟨fun h => e (Prod.mk.inj h).1, by rw [if_neg e]⟩
  | modify addr r ord =>
    have hA : addr ≠ A := hA
    simp only [Node.step] at *
    cases modify_cases n addr r ord with
    | refused c x hcc hs he => rw [he]; exact h
    | ran a sess hs res ha hsess hbody hl hrem he =>
      have hv : n.view.plus A g (some (addr, r.seid)) = some sess := by rw [plus_at (key_ne hA)]; simp [Node.view, Node.session?, ha, hsess]
      have hk : RefsKnown r sess := hr sess (by simp [Node.session?, ha, hsess])
      have hk' : RefsKnown r (sess.setRemote r.cpFseid) := by
        unfold Session.setRemote; split
        · exact ⟨hk.1, hk.2, hk.3, hk.4, hk.5, hk.6, hk.7, hk.8, hk.9⟩
        · exact hk
      have hi := modifyBody_slots (view := n.view.plus A g) (k := some (addr, r.seid)) n.ueip ord r
        (sess.setRemote r.cpFseid) hk' (n.hs (sess.setRemote r.cpFseid)) rfl (by
          refine slots_of (s := sess) (by rw [upd_self hv]; exact h) ?_ ?_ ?_ <;>
          · unfold Session.setRemote Node.hs; split <;> rfl) (fun _ _ _ _ h => h) (fun _ _ _ _ h => h) (fun _ _ h => h) (fun _ _ h => h)
      rw [hbody] at hi
      unfold HSlotsX at hi
      rw [plus_upd (key_ne hA)] at hi
      rw [he]
      refine SlotsX.mono hi (plus_mono ?_)
      intro k s hk
      cases k with
      | none => cases hk
      | some x =>
        simp only [View.upd, Option.some.injEq]
        simp only [Node.view, Node.session?, Node.modResult, Option.bind_some, GoMap.get?_set] at hk ⊢
        split at hk
        · rename_i e
          obtain ⟨x1, x2⟩ := x
          simp only at e; subst e
          simp only [Option.bind_some, GoMap.get?_set, Prod.mk.injEq, true_and] at hk ⊢
          split at hk
          · rename_i e2; rw [if_pos e2]; exact hk
          · rename_i e2; rw [if_neg e2, ha]; exact hk
        · rename_i e
          have : x ≠ (addr, r.seid) := by rintro rfl; exact e rfl
          rw [if_neg this]; exact hk
  | delete addr r ord =>
    have hA : addr ≠ A := hA
    simp only [Node.step] at *
    cases delete_cases n addr r ord with
    | refused c hcc hs he => rw [he]; exact h
    | ran a sess hs res ha hsess hbody he =>
      have hv : n.view.plus A g (some (addr, r.seid)) = some sess := by rw [plus_at (key_ne hA)]; simp [Node.view, Node.session?, ha, hsess]
      have hd := deleteBody_slots hv ord (hs0 := n.hs sess) rfl h hbody
      rw [he]
      cases res with
      | err => exact hd.2 (by simp)
      | panic => exact hd.2 (by simp)
      | ok u =>
        cases u
        have hd := hd.1 rfl
        rw [plus_del (key_ne hA)] at hd
        refine hd.mono (plus_mono ?_)
        intro k s hk
        cases k with
        | none => cases hk
        | some x =>
          obtain ⟨x1, x2⟩ := x
          simp only [View.del, Option.some.injEq]
          simp only [Node.view, Node.session?, Node.delResult, Option.bind_some, GoMap.get?_set] at hk ⊢
          split at hk
          · rename_i e; subst e
            simp only [Option.bind_some, GoMap.get?_erase, Prod.mk.injEq, true_and] at hk ⊢
            split at hk
            · cases hk
            · rename_i e2; rw [if_neg e2, ha]; exact hk
          · rename_i e
            have : (x1, x2) ≠ (addr, r.seid) := fun h => e (Prod.mk.inj h).1
            rw [if_neg this]; exact hk
  | peerLost addr ord =>
    have hA : addr ≠ A := hA
    simp only [Node.step, Node.deleteAssociation] at *
    cases ha : n.assocs.get? addr with
    | none => simp only [ha] at hc; exact absurd rfl hc
    | some a =>
      simp only [ha] at hc ⊢
      rcases hd : dropSessions ord (ord.sessions.run a.sessions.entries) n.rm n.dp with ⟨rm, dp, ok⟩
      rw [hd] at hc
      cases ok with
      | false => exact absurd rfl hc
      | true =>
        have := dropSessions_slots ord addr _ (n.view.plus A g) n.rm n.dp
          (((ord.sessions.perm a.sessions.entries).map Prod.fst).nodup_iff.2 a.sessions.nodup) (by
            intro e he
            have := (a.sessions.mem_entries_iff e.1 e.2).1 ((ord.sessions.perm _).mem_iff.1 he)
            rw [plus_at (key_ne hA)]
            simp [Node.view, Node.session?, ha, this]) h rm dp hd
        refine this.mono ?_
        intro k s hk
        by_cases hkA : k = some (A, 0)
        · subst hkA
          rw [plus_self] at hk
          rw [if_neg, plus_self]
          · exact hk
          · rintro ⟨y, _, h2⟩; exact key_ne hA h2.symm
        rw [plus_at hkA] at hk ⊢
        cases k with
        | none => cases hk
        | some x =>
          obtain ⟨x1, x2⟩ := x
          simp only [Node.view, Node.session?, Option.bind_some, GoMap.get?_erase] at hk ⊢
          split at hk
          · cases hk
          · rename_i e
            have : ¬ ∃ e ∈ ord.sessions.run a.sessions.entries, (some (x1, x2) : Option (Addr × U64)) = some (addr, e.1) := by
              rintro ⟨y, _, h2⟩
              simp only [Option.some.injEq, Prod.mk.injEq] at h2
              exact e h2.1
            rw [if_neg this]; exact hk

/-- Traffic keeps it. -/
theorem slots_traffic_plus {n : Node} {A : Addr} {g : Session} {dp : BpfObjects} (h : Slots (n.view.plus A g) n.dp) (t : TrafficEffect n.dp dp) :
    Slots (({ n with dp := dp } : Node).view.plus A g) dp := h.traffic t

/-- **What a lost peer leaves behind.** Its sessions' URR slots stay taken. -/
theorem lost_plus {n : Node} {a : Addr} {s : U64} {x : Session} {ord : Orders} (S : Slots n.view n.dp) (hx : n.session? a s = some x)
    (hc : (n.step (.peerLost a ord)).2 ≠ .crash) (A : Addr) :
    Slots ((n.step (.peerLost a ord)).1.view.plus A { Session.new 0 0 with urrs := x.urrs }) (n.step (.peerLost a ord)).1.dp := by
  have S' := slots_step (.peerLost a ord) S (by trivial) hc
  obtain ⟨k1, k2, -⟩ := C45_keeps n a ord
  have hgone : ∀ s', (n.step (.peerLost a ord)).1.session? a s' = none := by
    intro s'
    show (n.deleteAssociation a ord).1.session? a s' = none
    have hc : (n.deleteAssociation a ord).2 ≠ .crash := hc
    unfold Node.deleteAssociation at hc ⊢
    cases ha : n.assocs.get? a with
    | none => simp only [ha] at hc; exact absurd rfl hc
    | some as =>
      simp only [ha] at hc ⊢
      rcases hd : dropSessions ord (ord.sessions.run as.sessions.entries) n.rm n.dp with ⟨rm, dp, ok⟩
      rw [hd] at hc
      cases ok with
      | false => exact absurd rfl hc
      | true => simp only [Node.session?, GoMap.get?_erase, if_true, Option.bind_none]
  have hkeep : ∀ b s' y, (n.step (.peerLost a ord)).1.session? b s' = some y → b ≠ a ∧ n.session? b s' = some y := by
    intro b s' y hy
    have hb : b ≠ a := by rintro rfl; rw [hgone] at hy; cases hy
    refine ⟨hb, ?_⟩
    have hy : (n.deleteAssociation a ord).1.session? b s' = some y := hy
    unfold Node.deleteAssociation at hy
    cases ha : n.assocs.get? a with
    | none => simp only [ha] at hy; exact hy
    | some as =>
      simp only [ha] at hy
      rcases hd : dropSessions ord (ord.sessions.run as.sessions.entries) n.rm n.dp with ⟨rm, dp, ok⟩
      rw [hd] at hy
      cases ok with
      | false => exact hy
      | true =>
        simp only [Node.session?, GoMap.get?_erase] at hy ⊢
        rw [if_neg hb] at hy; exact hy
  generalize (n.step (.peerLost a ord)).1 = n' at S' k1 k2 hkeep hgone ⊢
  refine ⟨S'.far.mono ?_, S'.qer.mono ?_, ?_⟩
  · rintro ⟨k, i⟩ y hy
    by_cases hk : k = some (A, 0)
    · subst hk; simp [ownFar, View.plus, Session.new] at hy
    · simp only [ownFar] at hy ⊢; rw [plus_at hk] at hy; exact hy
  · rintro ⟨k, i⟩ y hy
    by_cases hk : k = some (A, 0)
    · subst hk; simp [ownQer, View.plus, Session.new] at hy
    · simp only [ownQer] at hy ⊢; rw [plus_at hk] at hy; exact hy
  · rw [k1, k2]
    have hview : ∀ k y, n'.view k = some y → k ≠ some (a, s) ∧ n.view k = some y := by
      intro k y hy
      cases k with
      | none => cases hy
      | some b =>
        obtain ⟨h1, h2⟩ := hkeep b.1 b.2 y hy
        exact ⟨by rintro h; cases h; exact h1 rfl, h2⟩
    refine S.urr.rename (fun k : Owner => if k.1 = some (A, 0) then (some (a, s), k.2) else k) ?_ ?_
    · rintro ⟨k1, i1⟩ ⟨k2, i2⟩ y z h1 h2 h3
      simp only [ownUrr, View.plus] at h1 h2 h3
      by_cases e1 : k1 = some (A, 0) <;> by_cases e2 : k2 = some (A, 0)
      · rw [if_pos e1, if_pos e2] at h3; rw [e1, e2]; simpa using h3
      · rw [if_pos e1, if_neg e2] at h3
        rw [if_neg e2] at h2
        cases hz : n'.view k2 with
        | none => rw [hz] at h2; cases h2
        | some w => exact absurd (Prod.mk.inj h3).1.symm (hview _ _ hz).1
      · rw [if_neg e1, if_pos e2] at h3
        rw [if_neg e1] at h1
        cases hz : n'.view k1 with
        | none => rw [hz] at h1; cases h1
        | some w => exact absurd (Prod.mk.inj h3).1 (hview _ _ hz).1
      · rw [if_neg e1, if_neg e2] at h3; exact h3
    · rintro ⟨k, i⟩ y h1
      simp only [ownUrr, View.plus] at h1 ⊢
      by_cases e1 : k = some (A, 0)
      · rw [if_pos e1] at h1
        rw [if_pos e1]
        simp only
        have : n.view (some (a, s)) = some x := hx
        rw [this]; exact h1
      · rw [if_neg e1] at h1
        rw [if_neg e1]
        simp only
        cases hz : n'.view k with
        | none => rw [hz] at h1; cases h1
        | some w => rw [(hview _ _ hz).2]; rw [hz] at h1; exact h1

/-! ### reports -/

/-- Where the reports of a response come from. -/
theorem report_cases {n : Node} {e : Ev} {resp : Resp} (hr : (n.step e).2 = .reply resp) :
    resp.reports = [] ∨
    (∃ a r ord sess hs res, e = .modify a r ord ∧ n.session? a r.seid = some sess ∧ modifyBody n.ueip ord r (n.hs (sess.setRemote r.cpFseid)) = (hs, res) ∧
      resp.reports = hs.reports) ∨
    (∃ a r ord sess hs, e = .delete a r ord ∧ n.session? a r.seid = some sess ∧ deleteBody ord sess (n.hs sess) = (hs, .ok ()) ∧ resp.reports = hs.reports) := by
  cases e with
  | establish a r =>
    have hr : (n.establish a r).2 = .reply resp := hr
    cases establish_cases n a r with
    | refused c hcc he => rw [he] at hr; cases hr; exact .inl rfl
    | ran remote as hs res hid hcp ha hbody hl hrem he =>
      rw [he] at hr
      cases res <;> simp only [Node.estResult] at hr <;> cases hr <;> exact .inl rfl
  | modify a r ord =>
    have hr : (n.modify a r ord).2 = .reply resp := hr
    cases modify_cases n a r ord with
    | refused c x hcc hs he => rw [he] at hr; cases hr; exact .inl rfl
    | ran as sess hs res ha hsess hbody hl hrem he =>
      rw [he] at hr
      cases res <;> simp only [Node.modResult] at hr <;> cases hr
      · exact .inr (.inl ⟨a, r, ord, sess, hs, _, rfl, by simp [Node.session?, ha, hsess], hbody, rfl⟩)
      · exact .inl rfl
  | delete a r ord =>
    have hr : (n.delete a r ord).2 = .reply resp := hr
    cases delete_cases n a r ord with
    | refused c hcc hs he => rw [he] at hr; cases hr; exact .inl rfl
    | ran as sess hs res ha hsess hbody he =>
      rw [he] at hr
      cases res <;> simp only [Node.delResult] at hr <;> cases hr
      exact .inr (.inr ⟨a, r, ord, sess, hs, rfl, by simp [Node.session?, ha, hsess], hbody, rfl⟩)
  | assocSetup a s i r =>
    have hr : (n.assocSetup a s i r).2 = .reply resp := hr
    unfold Node.assocSetup at hr
    repeat' split at hr
    all_goals (cases hr; exact .inl rfl)
  | assocSetupResp a i c f =>
    have hr : (n.assocSetupResp a i c f).2 = .reply resp := hr
    unfold Node.assocSetupResp at hr
    repeat' split at hr
    all_goals (cases hr)
  | assocUpdate a s i =>
    have hr : (n.assocUpdate a s i).2 = .reply resp := hr
    unfold Node.assocUpdate at hr
    repeat' split at hr
    all_goals (cases hr; exact .inl rfl)
  | heartbeatReq a s r =>
    have hr : (n.heartbeatReq s r).2 = .reply resp := hr
    unfold Node.heartbeatReq at hr
    repeat' split at hr
    all_goals (cases hr)
    exact .inl rfl
  | heartbeatResp a s r =>
    have hr : (n.heartbeatResp r).2 = .reply resp := hr
    unfold Node.heartbeatResp at hr
    repeat' split at hr
    all_goals (cases hr)
  | peerLost a ord =>
    have hr : (n.deleteAssociation a ord).2 = .reply resp := hr
    unfold Node.deleteAssociation at hr
    repeat' split at hr
    all_goals (cases hr)
  | setConfig => cases hr

/-- **As long as slot 0 is not a live URR's, no report says anything.** -/
theorem quiet_reports {n : Node} (B : BillNode n) {A : Addr} {g : Session} (S : Slots (n.view.plus A g) n.dp) {i : U32} {u : SUrr} (hu : g.urrs.get? i = some u) (h0 : u.gid = 0)
    {e : Ev} (hA : e.from ≠ A) (hk : e.refsKnown n) {resp : Resp} (hr : (n.step e).2 = .reply resp) : resp.reports.filter UsageReport.nonzero = [] := by
  have start : ∀ c x, NoInfo x → (c = true → n.dp.urr.val 0 = {}) → Bill true c (n.hs x) := fun c x hx hc =>
    ⟨hx, B.bill.2, fun _ => Nat.zero_le _, fun _ h => absurd rfl h, fun h => ⟨hc h, rfl⟩⟩
  -- the additional session's slot, exactly
  have S' : SlotsX (.stillUrr (some (A, 0)) i (n.dp.urr.val 0)) (n.view.plus A g) n.dp := by
    refine ⟨S.far, ⟨S.qer.size, S.qer.excl, fun k g v h => ⟨(S.qer.ok k g v h).1, (S.qer.ok k g v h).2.1, trivial⟩⟩, ⟨S.urr.size, S.urr.excl, ?_⟩⟩
    intro k g' v h
    refine ⟨(S.urr.ok k g' v h).1, (S.urr.ok k g' v h).2.1, ?_⟩
    rintro rfl
    have : ownUrr (n.view.plus A g) (some (A, 0), i) = some (u.gid, u.info) := by simp only [ownUrr]; rw [plus_self, Option.bind_some, hu]; rfl
    rw [this] at h; cases h; rw [h0]
  have after : ∀ {v : View} {dp : BpfObjects}, SlotsX (.stillUrr (some (A, 0)) i (n.dp.urr.val 0)) (v.plus A g) dp → dp.urr.val 0 = n.dp.urr.val 0 := by
    intro v dp h
    have : ownUrr (v.plus A g) (some (A, 0), i) = some (u.gid, u.info) := by simp only [ownUrr]; rw [plus_self, Option.bind_some, hu]; rfl
    have := (h.urr.ok _ _ _ this).2.2 rfl
    rwa [h0] at this
  have fin : ∀ {b : HS}, Bill true false b → (n.dp.urr.val 0 = {} → Bill true true b) → b.dp.urr.val 0 = n.dp.urr.val 0 → b.reports.filter UsageReport.nonzero = [] := by
    intro b h1 h2 h3
    by_cases hz : n.dp.urr.val 0 = {}
    · exact ((h2 hz).mute rfl).2
    · exact Classical.byContradiction fun hne => hz (h3.symm.trans (h1.spent rfl hne))
  rcases report_cases hr with h | ⟨a, r, ord, sess, hs, res, rfl, hx, hbody, h⟩ | ⟨a, r, ord, sess, hs, rfl, hx, hbody, h⟩
  · rw [h]; rfl
  · rw [h]
    have hA : a ≠ A := hA
    have hv : n.view.plus A g (some (a, r.seid)) = some sess := by rw [plus_at (key_ne hA)]; exact hx
    have hk : RefsKnown r sess := hk sess hx
    have hk' : RefsKnown r (sess.setRemote r.cpFseid) := by
      unfold Session.setRemote; split
      · exact ⟨hk.1, hk.2, hk.3, hk.4, hk.5, hk.6, hk.7, hk.8, hk.9⟩
      · exact hk
    have hi := modifyBody_slots (c := .stillUrr (some (A, 0)) i (n.dp.urr.val 0)) (view := n.view.plus A g) (k := some (a, r.seid)) n.ueip ord r
      (sess.setRemote r.cpFseid) hk' (n.hs (sess.setRemote r.cpFseid)) rfl (by
        refine slots_of (s := sess) (by rw [upd_self hv]; exact S') ?_ ?_ ?_ <;>
        · unfold Session.setRemote Node.hs; split <;> rfl)
      (fun _ _ _ _ h => h) (fun _ _ _ _ h => h) (by intro j _ h; exact key_ne hA (congrArg Prod.fst h)) (by intro j _ h; exact key_ne hA (congrArg Prod.fst h))
    have nb := bill_step.remote sess r.cpFseid (B.bill.1 a r.seid sess hx)
    have b1 := (bill_mod (b := true) (c := false) n.ueip ord r).apply (start false _ nb (by intro h; cases h))
    have b2 : n.dp.urr.val 0 = {} → _ := fun hz => (bill_mod (b := true) (c := true) n.ueip ord r).apply (start true _ nb (fun _ => hz))
    rw [hbody] at hi b1 b2
    unfold HSlotsX at hi
    rw [plus_upd (key_ne hA)] at hi
    exact fin b1 b2 (after hi)
  · rw [h]
    have hA : a ≠ A := hA
    have hv : n.view.plus A g (some (a, r.seid)) = some sess := by rw [plus_at (key_ne hA)]; exact hx
    have hd := (deleteBody_slots hv ord (hs0 := n.hs sess) rfl S' hbody).1 rfl
    rw [plus_del (key_ne hA)] at hd
    have nb := B.bill.1 a r.seid sess hx
    have b1 := (bill_del (b := true) (c := false) ord sess).apply (start false _ nb (by intro h; cases h))
    have b2 : n.dp.urr.val 0 = {} → _ := fun hz => (bill_del (b := true) (c := true) ord sess).apply (start true _ nb (fun _ => hz))
    rw [hbody] at b1 b2
    exact fin b1 b2 (after hd)

end Eupf
