import Verif.CutLemmas
import Verif.KeyGuard
import Verif.SlotNode
import Verif.Props.Slots
/- What holds of the tables at every moment of a request. Models no code. -/
namespace Eupf
open Act

theorem pres_all {I : HS → Prop} {l : List Piece} (h : ∀ m ∈ l, Pres I m) : Pres I (Act.all l) := Pres.each (l := l) (f := fun m => m) h

/-- The tables at a moment are those after some pieces, but for what packets do. -/
theorem moment_cut {n : Node} {e : Ev} {s : HS} {l : List Piece} (hj : n.job e = some (s, l)) {b : BpfObjects} (hb : n.moment e b) :
    ∃ l1 l2, l = l1 ++ l2 ∧ TrafficEffect (Act.all l1 s).1.dp b := by
  unfold Node.moment at hb
  rw [hj] at hb
  obtain ⟨l', t, r, hp, rfl⟩ := hb
  obtain ⟨l1, l2, t0, e1, -, -, e2, al⟩ := hp.without (job_blind hj)
  exact ⟨l1, l2, e1, by rw [e2]; exact al.dp⟩

/-- After some pieces of a deletion. -/
theorem del_cut_slots {c : SlotCmp} {view : View} {k : Option (Addr × U64)} {sess : Session} (hv : view k = some sess) (ord : Orders) {s : HS}
    (h : SlotsX c view s.dp) {l1 l2 : List Piece} (hl : delPieces ord sess = l1 ++ l2) :
    ∃ x, SlotsX c (view.upd k x) (Act.all l1 s).1.dp := by
  have h0 : SlotsX c (view.upd k sess) s.dp := by rw [upd_self hv]; exact h
  have hp : ∀ l : List (U32 × SPdr), Pres (fun s : HS => SlotsX c (view.upd k sess) s.dp) (Act.all (l.map (fun e => deletePdr ord e.2))) := by
    intro l
    rw [Act.all_map]
    apply Pres.each; intro e _
    apply deletePdr_pres
    · apply pres_of; intro s h
      obtain ⟨h1, h2⟩ := deletePdrEntry_part e.2 s
      exact slots_pdr h h1.far h1.qer h1.urr h1.farIds h1.qerIds h1.urrIds
    · apply pres_of; intro s h; obtain ⟨c, e⟩ := releaseTeids_frame ord s; rw [e]; exact h
  unfold delPieces at hl
  rcases cut_append hl with ⟨c, hc⟩ | ⟨m1, rfl, h1⟩
  · obtain ⟨l', -, rfl⟩ := cut_map hc
    exact ⟨sess, (hp l').apply h0⟩
  have q1 := (hp (ord.pdrs.run sess.pdrs.entries)).apply h0
  rcases e1 : Act.all ((ord.pdrs.run sess.pdrs.entries).map (fun e => deletePdr ord e.2)) s with ⟨s1, r1⟩
  rw [e1] at q1
  by_cases hr : r1 = .ok ()
  swap
  · rw [Act.all_failed e1 hr]; exact ⟨sess, q1⟩
  subst hr
  rw [all_after e1]
  rcases cut_append h1 with ⟨c, hc⟩ | ⟨m2, rfl, h2⟩
  · obtain ⟨l', hp, rfl⟩ := cut_map hc
    rw [Act.all_map]
    obtain ⟨s2, x2, e2, i2, -⟩ := dropFars (m := dropFar) (fun _ _ _ => rfl) l' sess s1
      ((each_perm_nodup ord.fars sess.fars).sublist (hp.sublist.map _)) (fun e he => mem_run_get _ _ e (hp.subset he)) q1
    exact ⟨x2, by rw [e2]; exact i2⟩
  obtain ⟨s2, x2, e2, i2, q2, u2, -⟩ := dropFars (m := dropFar) (fun _ _ _ => rfl) (ord.fars.run sess.fars.entries) sess s1
    (each_perm_nodup _ _) (fun e he => mem_run_get _ _ e he) q1
  rw [← Act.all_map] at e2
  rw [all_after e2]
  rcases cut_append h2 with ⟨c, hc⟩ | ⟨m3, rfl, h3⟩
  · obtain ⟨l', hp, rfl⟩ := cut_map hc
    rw [Act.all_map]
    obtain ⟨s3, x3, e3, i3, -⟩ := dropQers (m := dropQer) (fun _ _ _ => rfl) l' x2 s2
      ((each_perm_nodup ord.qers sess.qers).sublist (hp.sublist.map _)) (fun e he => by rw [q2]; exact mem_run_get _ _ e (hp.subset he)) i2
    exact ⟨x3, by rw [e3]; exact i3⟩
  obtain ⟨s3, x3, e3, i3, f3, u3, -⟩ := dropQers (m := dropQer) (fun _ _ _ => rfl) (ord.qers.run sess.qers.entries) x2 s2
    (each_perm_nodup _ _) (fun e he => by rw [q2]; exact mem_run_get _ _ e he) i2
  rw [← Act.all_map] at e3
  rw [all_after e3]
  obtain ⟨l', hp, rfl⟩ := cut_map h3
  rw [Act.all_map]
  obtain ⟨s4, x4, e4, i4, -⟩ := dropUrrs l' x3 s3 ((each_perm_nodup ord.urrs sess.urrs).sublist (hp.sublist.map _))
    (fun e he => by rw [u3, u2]; exact mem_run_get _ _ e (hp.subset he)) i3
  exact ⟨x4, by rw [e4]; exact i4⟩

/-- After some pieces of dropping a session of a lost peer. -/
theorem drop_cut_slots {c : SlotCmp} {view : View} {k : Option (Addr × U64)} {sess : Session} (hv : view k = some sess) (ord : Orders) {s : HS}
    (h : SlotsX c view s.dp) {l1 l2 : List Piece} (hl : dropPieces ord sess = l1 ++ l2) :
    ∃ x, SlotsX c (view.upd k x) (Act.all l1 s).1.dp := by
  have h0 : SlotsX c (view.upd k sess) s.dp := by rw [upd_self hv]; exact h
  unfold dropPieces at hl
  cases l1 with
  | nil => exact ⟨sess, h0⟩
  | cons m l1 =>
    simp only [List.cons_append, List.cons.injEq] at hl
    obtain ⟨rfl, hl⟩ := hl
    have hen : enter sess s = (⟨sess, GoMap.empty, s.rm, s.dp, [], []⟩, .ok ()) := rfl
    rw [Act.all_cons_ok _ hen]
    have q1 : SlotsX c (view.upd k sess) (⟨sess, GoMap.empty, s.rm, s.dp, [], []⟩ : HS).dp := h0
    generalize (⟨sess, GoMap.empty, s.rm, s.dp, [], []⟩ : HS) = s1 at q1 ⊢
    rcases cut_append hl with ⟨c, hc⟩ | ⟨m2, rfl, h2⟩
    · obtain ⟨l', hp, rfl⟩ := cut_map hc
      rw [Act.all_map]
      obtain ⟨s2, x2, e2, i2, -⟩ := dropFars (m := fun e => Act.ignore (dropFar e)) (fun _ _ h => ignore_eq h) l' sess s1
        ((each_perm_nodup ord.fars sess.fars).sublist (hp.sublist.map _)) (fun e he => mem_run_get _ _ e (hp.subset he)) q1
      exact ⟨x2, by rw [e2]; exact i2⟩
    obtain ⟨s2, x2, e2, i2, q2, u2, -⟩ := dropFars (m := fun e => Act.ignore (dropFar e)) (fun _ _ h => ignore_eq h) (ord.fars.run sess.fars.entries) sess s1
      (each_perm_nodup _ _) (fun e he => mem_run_get _ _ e he) q1
    rw [← Act.all_map] at e2
    rw [all_after e2]
    rcases cut_append h2 with ⟨c, hc⟩ | ⟨m3, rfl, h3⟩
    · obtain ⟨l', hp, rfl⟩ := cut_map hc
      rw [Act.all_map]
      obtain ⟨s3, x3, e3, i3, -⟩ := dropQers (m := fun e => Act.ignore (dropQer e)) (fun _ _ h => ignore_eq h) l' x2 s2
        ((each_perm_nodup ord.qers sess.qers).sublist (hp.sublist.map _)) (fun e he => by rw [q2]; exact mem_run_get _ _ e (hp.subset he)) i2
      exact ⟨x3, by rw [e3]; exact i3⟩
    obtain ⟨s3, x3, e3, i3, f3, u3, -⟩ := dropQers (m := fun e => Act.ignore (dropQer e)) (fun _ _ h => ignore_eq h) (ord.qers.run sess.qers.entries) x2 s2
      (each_perm_nodup _ _) (fun e he => by rw [q2]; exact mem_run_get _ _ e he) i2
    rw [← Act.all_map] at e3
    rw [all_after e3]
    obtain ⟨l', hp, rfl⟩ := cut_map h3
    refine ⟨x3, ?_⟩
    have hp : Pres (fun s : HS => SlotsX c (view.upd k x3) s.dp) (Act.all (l'.map (fun e => Act.ignore (deletePdr ord e.2)))) := by
      rw [Act.all_map]
      apply Pres.each; intro e _
      apply Act.Pres.ignore
      apply deletePdr_pres
      · apply pres_of; intro s h
        obtain ⟨h1, h2⟩ := deletePdrEntry_part e.2 s
        exact slots_pdr h h1.far h1.qer h1.urr h1.farIds h1.qerIds h1.urrIds
      · apply pres_of; intro s h; obtain ⟨c, e⟩ := releaseTeids_frame ord s; rw [e]; exact h
    exact hp.apply i3

/-- After some pieces of dropping the sessions of a lost peer. -/
theorem lost_cut_slots {c : SlotCmp} (ord : Orders) (addr : Addr) : ∀ (l : List (U64 × Session)) (view : View) (s : HS), (l.map Prod.fst).Nodup →
    (∀ e ∈ l, view (some (addr, e.1)) = some e.2) → SlotsX c view s.dp → ∀ l1 l2, l.flatMap (fun e => dropPieces ord e.2) = l1 ++ l2 →
    ∃ view', SlotsX c view' (Act.all l1 s).1.dp ∧ ∀ x, (∀ t, x ≠ some (addr, t)) → view' x = view x
  | [], view, s, _, _, h, l1, l2, hl => by
    simp only [List.flatMap_nil] at hl
    obtain ⟨rfl, rfl⟩ := List.append_eq_nil_iff.1 hl.symm
    exact ⟨view, h, fun _ _ => rfl⟩
  | (seid, sess) :: l, view, s, hn, hv, h, l1, l2, hl => by
    simp only [List.map_cons, List.nodup_cons] at hn
    rw [List.flatMap_cons] at hl
    have hv0 := hv (seid, sess) (by simp)
    rcases cut_append hl with ⟨c, hc⟩ | ⟨m1, rfl, h1⟩
    · obtain ⟨x, hx⟩ := drop_cut_slots hv0 ord h hc
      refine ⟨_, hx, ?_⟩
      intro y hy
      simp only [View.upd, if_neg (hy seid)]
    · have hd := deleteSessionBody_slots hv0 ord (hs0 := ⟨sess, GoMap.empty, s.rm, s.dp, [], []⟩) h
      rw [← drop_pieces] at hd
      rcases e1 : Act.all (dropPieces ord sess) s with ⟨s1, r1⟩
      simp only [e1] at hd
      have away : ∀ x : Option (Addr × U64), (∀ t, x ≠ some (addr, t)) → (view.del (some (addr, seid))) x = view x := by
        intro x hx; simp only [View.del, if_neg (hx seid)]
      by_cases hr : r1 = .ok ()
      · subst hr
        rw [all_after e1]
        obtain ⟨view', v1, v2⟩ := lost_cut_slots ord addr l (view.del (some (addr, seid))) s1 hn.2 (by
          intro e he
          have hne : (some (addr, e.1) : Option (Addr × U64)) ≠ some (addr, seid) := by
            intro h2; simp only [Option.some.injEq, Prod.mk.injEq, true_and] at h2
            exact hn.1 (List.mem_map.2 ⟨e, he, h2⟩)
          simp only [View.del, if_neg hne]
          exact hv e (by simp [he])) hd m1 l2 h1
        exact ⟨view', v1, fun x hx => (v2 x hx).trans (away x hx)⟩
      · rw [Act.all_failed e1 hr]
        exact ⟨_, hd, away⟩

/-- After some pieces of an event that is not about session `(a, s)` the slots are owned as they are said to be, with this session as it is
said to be. -/
theorem pieces_slots {c : SlotCmp} {n : Node} {e : Ev} {V : View} (h : SlotsX c V n.dp) (hr : e.refsKnown n) {a : Addr} {s : U64} (hab : ¬ e.about a s) (hfx : ∀ o, ¬ c.fix o ∧ ¬ c.ufix o)
    (hV : ∀ x, x ≠ some (a, s) → V x = n.view x) {s0 : HS} {l1 l2 : List Piece} (hj : n.job e = some (s0, l1 ++ l2)) :
    ∃ view', SlotsX c view' (Act.all l1 s0).1.dp ∧ view' (some (a, s)) = V (some (a, s)) := by
  cases e with
  | establish addr r =>
    simp only [Node.job] at hj
    cases hv : validateRequest r.nodeId r.cpFseid with
    | none => rw [hv] at hj; cases hj
    | some remote =>
      cases ha : n.assocs.get? addr with
      | none => rw [hv, ha] at hj; cases hj
      | some as =>
        rw [hv, ha] at hj
        simp only [Option.some.injEq, Prod.mk.injEq] at hj
        obtain ⟨rfl, hl⟩ := hj
        obtain ⟨r', -, e1, -⟩ := est_cut hl (n.hs (Session.new (as.nextSessionID + 1) remote))
        rw [e1]
        exact ⟨_, (establishBody_slots (view := V) (k := none) n.ueip r' hfx).apply (slots_new h), rfl⟩
  | modify addr r ord =>
    simp only [Node.job] at hj
    cases ha : n.assocs.get? addr with
    | none => rw [ha] at hj; cases hj
    | some as =>
      cases hs : as.sessions.get? r.seid with
      | none => rw [ha] at hj; simp only [Option.bind_some, hs] at hj; cases hj
      | some sess =>
        rw [ha] at hj
        simp only [Option.bind_some, hs, Option.some.injEq, Prod.mk.injEq] at hj
        obtain ⟨rfl, hl⟩ := hj
        have hv : V (some (addr, r.seid)) = some sess := by
            rw [hV _ (by intro h; cases h; exact hab ⟨rfl, rfl⟩)]; simp [Node.view, Node.session?, ha, hs]
        have hk : RefsKnown r sess := hr sess (by simp [Node.session?, ha, hs])
        have hk' : RefsKnown r (sess.setRemote r.cpFseid) := by
          unfold Session.setRemote; split
          · exact ⟨hk.1, hk.2, hk.3, hk.4, hk.5, hk.6, hk.7, hk.8, hk.9⟩
          · exact hk
        obtain ⟨r', cut, e1, -⟩ := mod_cut hl (n.hs (sess.setRemote r.cpFseid))
        rw [e1]
        refine ⟨_, modifyBody_slots (view := V) (k := some (addr, r.seid)) n.ueip ord r' (sess.setRemote r.cpFseid) (cut.refsKnown hk')
          (n.hs (sess.setRemote r.cpFseid)) rfl ?_ (fun _ _ _ _ => (hfx _).1) (fun _ _ _ _ => (hfx _).1) (fun _ _ => (hfx _).2) (fun _ _ => (hfx _).2), ?_⟩
        · refine slots_of (s := sess) (by rw [upd_self hv]; exact h) ?_ ?_ ?_ <;>
          · unfold Session.setRemote Node.hs; split <;> rfl
        · have hne : (some (a, s) : Option (Addr × U64)) ≠ some (addr, r.seid) := by
            intro h; cases h; exact hab ⟨rfl, rfl⟩
          simp only [View.upd, if_neg hne]
  | delete addr r ord =>
    simp only [Node.job] at hj
    cases ha : n.assocs.get? addr with
    | none => rw [ha] at hj; cases hj
    | some as =>
      cases hs : as.sessions.get? r.seid with
      | none => rw [ha] at hj; simp only [Option.bind_some, hs] at hj; cases hj
      | some sess =>
        rw [ha] at hj
        simp only [Option.bind_some, hs, Option.some.injEq, Prod.mk.injEq] at hj
        obtain ⟨rfl, hl⟩ := hj
        have hv : V (some (addr, r.seid)) = some sess := by
            rw [hV _ (by intro h; cases h; exact hab ⟨rfl, rfl⟩)]; simp [Node.view, Node.session?, ha, hs]
        obtain ⟨x, hx⟩ := del_cut_slots hv ord (s := n.hs sess) h hl
        refine ⟨_, hx, ?_⟩
        have hne : (some (a, s) : Option (Addr × U64)) ≠ some (addr, r.seid) := by
          intro h; cases h; exact hab ⟨rfl, rfl⟩
        simp only [View.upd, if_neg hne]
  | peerLost addr ord =>
    simp only [Node.job] at hj
    cases ha : n.assocs.get? addr with
    | none => rw [ha] at hj; cases hj
    | some as =>
      rw [ha] at hj
      simp only [Option.some.injEq, Prod.mk.injEq] at hj
      obtain ⟨rfl, hl⟩ := hj
      have hne : addr ≠ a := hab
      obtain ⟨v, v1, v2⟩ := lost_cut_slots ord addr (ord.sessions.run as.sessions.entries) V (n.hs Session.nil)
        (((ord.sessions.perm as.sessions.entries).map Prod.fst).nodup_iff.2 as.sessions.nodup) (by
          intro e he
          have := (as.sessions.mem_entries_iff e.1 e.2).1 ((ord.sessions.perm _).mem_iff.1 he)
          rw [hV _ (by intro h; cases h; exact hne rfl)]
          simp [Node.view, Node.session?, ha, this]) h l1 l2 hl
      refine ⟨v, v1, (v2 _ ?_).trans rfl⟩
      intro t h; cases h; exact hne rfl
  | assocSetup => cases hj
  | assocSetupResp => cases hj
  | assocUpdate => cases hj
  | heartbeatReq => cases hj
  | heartbeatResp => cases hj
  | setConfig => cases hj


/-- **At every moment of an event that is not about session `(a, s)`** the slots are owned as they are said to be, with this session as it is. -/
theorem moment_slots {n : Node} {e : Ev} (h : Slots n.view n.dp) (hr : e.refsKnown n) {a : Addr} {s : U64} (hab : ¬ e.about a s) {b : BpfObjects}
    (hb : n.moment e b) : ∃ view', Slots view' b ∧ view' (some (a, s)) = n.session? a s := by
  cases hj : n.job e with
  | none =>
    unfold Node.moment at hb
    rw [hj] at hb
    exact ⟨_, h.traffic hb, rfl⟩
  | some x =>
    obtain ⟨s0, l⟩ := x
    obtain ⟨l1, l2, rfl, ht⟩ := moment_cut hj hb
    suffices hh : ∃ view', Slots view' (Act.all l1 s0).1.dp ∧ view' (some (a, s)) = n.session? a s by
      obtain ⟨v, h1, h2⟩ := hh
      exact ⟨v, h1.traffic ht, h2⟩
    exact pieces_slots h hr hab (fun _ => ⟨id, id⟩) (fun _ _ => rfl) hj

end Eupf
