import Verif.OwnLemmas
import Verif.Props.ExactPackets
import Verif.Props.Slots
/-
C99: user traffic is handled by the rules of the session it belongs to.
-/
namespace Eupf
open Act

/-- an establishment -/
theorem own_est_body {ue : Bool} {r : EstReq} {s0 hs : HS} (hbody : establishBody ue r s0 = (hs, .ok ())) (h0 : ∀ i, s0.sess.pdrs.get? i = none)
    (hnd : (r.createFar.map (·.farId.getD 0)).Nodup) (hnq : (r.createQer.map (·.qerId)).Nodup)
    (hn : ∀ ie ∈ r.createPdr, (∃ i, ie.farId = some i ∧ ∃ c ∈ r.createFar, c.farId.getD 0 = i) ∧ ∃ i, ie.qerId = some i ∧ ∃ c ∈ r.createQer, c.qerId = some i) :
    ∀ i p, hs.sess.pdrs.get? i = some p → hs.sess.hasFarSlot p.info.farId ∧ hs.sess.hasQerSlot p.info.qerId := by
  unfold establishBody at hbody
  obtain ⟨_, x0, e0, b1⟩ := bind_ok hbody
  obtain rfl := display_ok e0
  obtain ⟨_, s1, e1, b2⟩ := bind_ok b1
  obtain ⟨_, s2, e2, b3⟩ := bind_ok b2
  obtain ⟨_, s3, e3, e4⟩ := bind_ok b3
  have hp3 : ∀ i, s3.sess.pdrs.get? i = none := by
    let I : HS → Prop := fun s => ∀ i, s.sess.pdrs.get? i = none
    have hI : ∀ {s s' : HS}, RuleFrame s s' → I s → I s' := fun hf hi i => by rw [hf.pdrs]; exact hi i
    have i1 := pres_each_ok (I := I) (fun _ _ => pres_of fun _ h => hI (createFar_rf ..) h) e1 h0
    have i2 := pres_each_ok (I := I) (fun _ _ => pres_of fun _ h => hI (createQer_rf ..) h) e2 i1
    exact pres_each_ok (I := I) (fun _ _ => pres_of fun _ h => hI (createUrr_rf ..) h) e3 i2
  have hf3 : ∀ c ∈ r.createFar, ∃ g, FarAt (c.farId.getD 0) g s3 := by
    intro c hc
    obtain ⟨g, hg⟩ := farsAt_created _ e1 hnd c hc
    exact ⟨g, pres_each_ok (I := FarAt _ g) (fun x _ => farAt_createUrr x) e3 (pres_each_ok (I := FarAt _ g) (fun x _ => farAt_createQer x) e2 hg)⟩
  have hq3 : ∀ c ∈ r.createQer, ∀ id, c.qerId = some id → ∃ g, QerAt id g s3 := by
    intro c hc id hid
    obtain ⟨g, hg⟩ := qersAt_created _ e2 hnq c hc id hid
    exact ⟨g, pres_each_ok (I := QerAt _ g) (fun x _ => qerAt_createUrr x) e3 hg⟩
  have hsame : RecFQ (fun F Q => F = s3.sess.fars ∧ Q = s3.sess.qers) hs := pres_each_ok (fun x _ => createPdr_rec ue x) e4 ⟨rfl, rfl⟩
  have pf := (points_creates (S := s3.sess.hasFarSlot) refFar (D := fun _ => False) _ e4 (fun ie hie => by
    obtain ⟨⟨i, a1, c, a2, a3⟩, -⟩ := hn ie hie
    obtain ⟨g, hg⟩ := hf3 c a2
    rw [a3] at hg
    exact ⟨i, a1, by rw [hg.has.2]; exact hg.has.1⟩) (fun i p hp => by rw [hp3] at hp; cases hp)).1
  have pq := (points_creates (S := s3.sess.hasQerSlot) refQer (D := fun _ => False) _ e4 (fun ie hie => by
    obtain ⟨-, i, a1, c, a2, a3⟩ := hn ie hie
    obtain ⟨g, hg⟩ := hq3 c a2 i a3
    exact ⟨i, a1, by rw [hg.has.2]; exact hg.has.1⟩) (fun i p hp => by rw [hp3] at hp; cases hp)).1
  intro i p hp
  refine ⟨?_, ?_⟩
  · have := pf i p hp id
    unfold Session.hasFarSlot at this ⊢
    rw [hsame.1]; exact this
  · have := pq i p hp id
    unfold Session.hasQerSlot at this ⊢
    rw [hsame.2]; exact this

/-- a modification -/
theorem own_mod_body {ue : Bool} {ord : Orders} {r : ModReq} {s0 hs : HS} (hbody : modifyBody ue ord r s0 = (hs, .ok ()))
    (hor : r.orderly s0.sess) (hnew : NewIds r.createFar r.createQer r.createUrr s0.sess) (hn : r.namesOwn s0.sess)
    (h0 : ∀ i p, s0.sess.pdrs.get? i = some p → s0.sess.hasFarSlot p.info.farId ∧ s0.sess.hasQerSlot p.info.qerId) :
    ∀ i p, hs.sess.pdrs.get? i = some p → hs.sess.hasFarSlot p.info.farId ∧ hs.sess.hasQerSlot p.info.qerId := by
  obtain ⟨s1, s2, s3, s4, s5, s6, s7, s8, s9, s10, s11, e1, e2, e3, e4, e5, e6, e7, e8, e9, e10, e11, e12⟩ := modify_phases hbody
  -- PDRs are the same until the PDR phases
  have hp9 : s9.sess.pdrs = s0.sess.pdrs := by
    let I : HS → Prop := fun s => s.sess.pdrs = s0.sess.pdrs
    have hI : ∀ {s s' : HS}, RuleFrame s s' → I s → I s' := fun hf hi => hf.pdrs.trans hi
    have i1 := pres_each_ok (I := I) (fun _ _ => pres_of fun _ h => hI (createFar_rf ..) h) e1 rfl
    have i2 := pres_each_ok (I := I) (fun _ _ => pres_of fun _ h => hI (updateFar_rf ..) h) e2 i1
    have i3 := pres_each_ok (I := I) (fun _ _ => pres_of fun _ h => hI (removeFar_rf ..) h) e3 i2
    have i4 := pres_each_ok (I := I) (fun _ _ => pres_of fun _ h => hI (createQer_rf ..) h) e4 i3
    have i5 := pres_each_ok (I := I) (fun _ _ => pres_of fun _ h => hI (updateQer_rf ..) h) e5 i4
    have i6 := pres_each_ok (I := I) (fun _ _ => pres_of fun _ h => hI (removeQer_rf ..) h) e6 i5
    have i7 := pres_each_ok (I := I) (fun _ _ => pres_of fun _ h => hI (createUrr_rf ..) h) e7 i6
    have i8 := pres_each_ok (I := I) (fun _ _ => pres_of fun _ h => hI (updateUrr_rf ..) h) e8 i7
    exact pres_each_ok (I := I) (fun _ _ => pres_of fun _ h => hI (removeUrr_rf ..) h) e9 i8
  -- FARs
  have lateF : ∀ {j g}, (∀ d ∈ r.removeFar, d.getD 0 ≠ j) → FarAt j g s1 → FarAt j g s9 := by
    intro j g hd h1
    have h2 := pres_each_ok (I := FarAt j g) (fun x _ => farAt_update x) e2 h1
    have h3 := pres_each_ok (I := FarAt j g) (fun x hx => farAt_remove (hd x hx)) e3 h2
    have h4 := pres_each_ok (I := FarAt j g) (fun x _ => farAt_createQer x) e4 h3
    have h5 := pres_each_ok (I := FarAt j g) (fun x _ => farAt_updateQer x) e5 h4
    have h6 := pres_each_ok (I := FarAt j g) (fun x _ => farAt_removeQer x) e6 h5
    have h7 := pres_each_ok (I := FarAt j g) (fun x _ => farAt_createUrr x) e7 h6
    have h8 := pres_each_ok (I := FarAt j g) (fun x _ => farAt_updateUrr x) e8 h7
    exact pres_each_ok (I := FarAt j g) (fun x _ => farAt_removeUrr x) e9 h8
  have oldF : ∀ {j f}, s0.sess.fars.get? j = some f → (∀ d ∈ r.removeFar, d.getD 0 ≠ j) → FarAt j f.gid s9 := by
    intro j f hf hd
    refine lateF hd (pres_each_ok (I := FarAt j f.gid) (fun x hx => farAt_create ?_) e1 (by simp [FarAt, hf]))
    rintro rfl
    rw [hnew.farNew x hx] at hf; cases hf
  have stayF : ∀ {i}, r.farStays s0.sess i → s9.sess.hasFarSlot (s9.sess.getFar i).gid := by
    rintro i ⟨h1 | ⟨c, hc, rfl⟩, h2⟩
    · obtain ⟨f, hf⟩ := Option.isSome_iff_exists.1 h1
      have := oldF hf h2
      rw [this.has.2]; exact this.has.1
    · obtain ⟨g, hg⟩ := farsAt_created _ e1 hnew.far c hc
      have := lateF h2 hg
      rw [this.has.2]; exact this.has.1
  -- QERs
  have lateQ : ∀ {j g}, some j ∉ r.removeQer → QerAt j g s4 → QerAt j g s9 := by
    intro j g hd h4
    have h5 := pres_each_ok (I := QerAt j g) (fun x _ => qerAt_update x) e5 h4
    have h6 := pres_each_ok (I := QerAt j g) (fun x hx => qerAt_remove (fun e => hd (e ▸ hx))) e6 h5
    have h7 := pres_each_ok (I := QerAt j g) (fun x _ => qerAt_createUrr x) e7 h6
    have h8 := pres_each_ok (I := QerAt j g) (fun x _ => qerAt_updateUrr x) e8 h7
    exact pres_each_ok (I := QerAt j g) (fun x _ => qerAt_removeUrr x) e9 h8
  have oldQ : ∀ {j f}, s0.sess.qers.get? j = some f → some j ∉ r.removeQer → QerAt j f.gid s9 := by
    intro j f hf hd
    have h1 := pres_each_ok (I := QerAt j f.gid) (fun x _ => qerAt_createFar x) e1 (by simp [QerAt, hf])
    have h2 := pres_each_ok (I := QerAt j f.gid) (fun x _ => qerAt_updateFar x) e2 h1
    have h3 := pres_each_ok (I := QerAt j f.gid) (fun x _ => qerAt_removeFar x) e3 h2
    refine lateQ hd (pres_each_ok (I := QerAt j f.gid) (fun x hx => qerAt_create ?_) e4 h3)
    intro hj
    rw [hnew.qerNew x hx j hj] at hf; cases hf
  have stayQ : ∀ {i}, r.qerStays s0.sess i → s9.sess.hasQerSlot (s9.sess.getQer i).gid := by
    rintro i ⟨h1 | ⟨c, hc, hid⟩, h2⟩
    · obtain ⟨f, hf⟩ := Option.isSome_iff_exists.1 h1
      have := oldQ hf h2
      rw [this.has.2]; exact this.has.1
    · obtain ⟨g, hg⟩ := qersAt_created _ e4 hnew.qer c hc i hid
      have := lateQ h2 hg
      rw [this.has.2]; exact this.has.1
  -- PDRs
  have hex10 : ∀ ie ∈ r.updatePdr, ∀ id, ie.pdrId = some id → (s10.sess.pdrs.get? (id.zeroExtend 32)).isSome := by
    intro ie hie id hid
    obtain ⟨i, p, h1, h2, -⟩ := hor.upd ie hie
    rw [hid] at h1; cases h1
    rw [creates_pdrs_keep _ e10, hp9, h2]; rfl
    rintro ie' hie' i hi hc
    rw [← hc, hor.new ie' hie' i hi] at h2; cases h2
  have same : RecFQ (fun F Q => F = s9.sess.fars ∧ Q = s9.sess.qers) hs := by
    have a10 := pres_each_ok (fun x _ => createPdr_rec ue x) e10 (show RecFQ (fun F Q => F = s9.sess.fars ∧ Q = s9.sess.qers) s9 from ⟨rfl, rfl⟩)
    have a11 := pres_each_ok (fun x _ => updatePdr_rec ue x) e11 a10
    exact pres_each_ok (fun x _ => removePdr_rec ord x) e12 a11
  have finF : Points s9.sess.hasFarSlot (·.farId) (fun _ => False) hs.sess := by
    obtain ⟨p10, q10⟩ := points_creates (S := s9.sess.hasFarSlot) refFar
      (D := fun i => (∃ d ∈ r.removePdr, BitVec.zeroExtend 32 (d.getD 0) = i) ∨ ∃ ie ∈ r.updatePdr, ∃ id, ie.pdrId = some id ∧ id.zeroExtend 32 = i ∧ ie.farId.isSome)
      _ e10 (fun ie hie => by
        obtain ⟨⟨i, a1, a2⟩, -⟩ := hn.create ie hie
        exact ⟨i, a1, stayF a2⟩) (by
        intro i p hp hD
        rw [hp9] at hp
        obtain ⟨⟨j, f, hj, hg⟩, -⟩ := h0 i p hp
        by_cases hd : ∃ d ∈ r.removeFar, d.getD 0 = j
        · obtain ⟨d, hd1, rfl⟩ := hd
          exact absurd (hn.remFar d hd1 f hj i p hp hg.symm) hD
        · have := oldF hj (fun d hd1 hd2 => hd ⟨d, hd1, hd2⟩)
          have h1 := this.has.1
          rw [hg] at h1; exact h1)
    obtain ⟨p11, -⟩ := points_updates (S := s9.sess.hasFarSlot) refFar _ e11 (fun ie hie i hi => by
      rw [q10]; exact stayF ((hn.update ie hie).1 i hi)) hex10 p10
    exact points_removes _ e12 p11
  have finQ : Points s9.sess.hasQerSlot (·.qerId) (fun _ => False) hs.sess := by
    obtain ⟨p10, q10⟩ := points_creates (S := s9.sess.hasQerSlot) refQer
      (D := fun i => (∃ d ∈ r.removePdr, BitVec.zeroExtend 32 (d.getD 0) = i) ∨ ∃ ie ∈ r.updatePdr, ∃ id, ie.pdrId = some id ∧ id.zeroExtend 32 = i ∧ ie.qerId.isSome)
      _ e10 (fun ie hie => by
        obtain ⟨-, i, a1, a2⟩ := hn.create ie hie
        exact ⟨i, a1, stayQ a2⟩) (by
        intro i p hp hD
        rw [hp9] at hp
        obtain ⟨-, j, f, hj, hg⟩ := h0 i p hp
        by_cases hd : some j ∈ r.removeQer
        · exact absurd (hn.remQer j hd f hj i p hp hg.symm) hD
        · have := oldQ hj hd
          have h1 := this.has.1
          rw [hg] at h1; exact h1)
    obtain ⟨p11, -⟩ := points_updates (S := s9.sess.hasQerSlot) refQer _ e11 (fun ie hie i hi => by
      rw [q10]; exact stayQ ((hn.update ie hie).2 i hi)) hex10 p10
    exact points_removes _ e12 p11
  intro i p hp
  have g1 : s9.sess.hasFarSlot p.info.farId := finF i p hp id
  have g2 : s9.sess.hasQerSlot p.info.qerId := finQ i p hp id
  unfold Session.hasFarSlot at g1 ⊢
  unfold Session.hasQerSlot at g2 ⊢
  rw [same.1, same.2]
  exact ⟨g1, g2⟩

/-- the invariant of clean histories -/
theorem ownRules_hist {cfg : NodeCfg} {rm : Option ResourceManager} {pz fz qz uz : U32} (hfz : 0 < fz.toNat) (hqz : 0 < qz.toNat)
    (huz : 0 < uz.toNat) {h : List (Ev × Outcome)} {n : Node} (H : HistP Clean (Node.init cfg rm (BpfObjects.load pz fz qz uz)) h n) : OwnRules n := by
  induction H with
  | init => intro a s x i p hx; simp [Node.session?, Node.init] at hx
  | traffic _ _ ih => exact ih
  | @step h n e H ho hc ih =>
    have other : (∀ a s x, (n.step e).1.session? a s = some x → n.session? a s = some x) → OwnRules (n.step e).1 :=
      fun hh a s x i p hx hp => ih a s x i p (hh a s x hx) hp
    have msg : e.isNodeMsg = true → OwnRules (n.step e).1 := by
      intro he
      apply other
      intro a s x hx
      rcases other_step n e he with h1 | ⟨b, hbn, h1⟩
      · rw [h1] at hx; exact hx
      · rw [h1] at hx
        simp only [Node.session?, GoMap.get?_set] at hx
        split at hx
        · simp [Assoc.new] at hx
        · exact hx
    cases e with
    | assocSetup => exact msg rfl
    | assocSetupResp => exact msg rfl
    | assocUpdate => exact msg rfl
    | heartbeatReq => exact msg rfl
    | heartbeatResp => exact msg rfl
    | setConfig => exact other fun _ _ _ h => h
    | peerLost addr ord =>
      apply other
      intro a s x hx
      have ha : (n.assocs.get? addr).isSome := by
        cases ha : n.assocs.get? addr with
        | none => exfalso; apply hc; simp only [Node.step, Node.deleteAssociation, ha]
        | some _ => rfl
      obtain ⟨-, -, g1, g2, -⟩ := C45_peer_lost hfz hqz huz H.hist ha (n' := (n.step (.peerLost addr ord)).1)
        (o := (n.step (.peerLost addr ord)).2) rfl hc
      by_cases hb : a = addr
      · subst hb; rw [g1] at hx; cases hx
      · rw [← g2 a s hb]; exact hx
    | delete addr r ord =>
      apply other
      intro a s x hx
      by_cases hk : (a, s) = (addr, r.seid)
      · cases hk
        have hst : n.step (.delete addr r ord) = n.delete addr r ord := rfl
        rw [hst] at hx
        cases delete_cases n addr r ord with
        | refused c hcc hs he => rw [he] at hx; exact hx
        | ran as y hs res ha hsess hbody he =>
          have hdel := ho.orderly.deleted addr r ord rfl
          have hc' : (n.delete addr r ord).2 ≠ .crash := hc
          have hdel' : (n.delete addr r ord).2 ≠ .silent := hdel
          rw [he] at hx hc' hdel'
          cases res with
          | err => exact absurd rfl hdel'
          | panic => exact absurd rfl hc'
          | ok _ => simp [Node.delResult, Node.session?] at hx
      · have := (C05_isolation n addr a s).2.2 r ord hk
        have hst : n.step (.delete addr r ord) = n.delete addr r ord := rfl
        rw [hst] at hx
        rw [← hx]; exact this.symm
    | establish addr r =>
      have hst : n.step (.establish addr r) = n.establish addr r := rfl
      cases establish_cases n addr r with
      | refused c hcc he => rw [hst, he]; exact ih
      | ran remote a hs res hid hcp ha hbody hl hrem he =>
        have hans := ho.orderly.answered
        have hc' := hc
        rw [hst, he] at hans hc'
        cases res with
        | err => exact absurd rfl (hans _ rfl)
        | panic => exact absurd rfl hc'
        | ok _ =>
          intro a' s' x i p hx hp
          by_cases hk : (a', s') = (addr, a.nextSessionID + 1)
          · cases hk
            rw [hst, he] at hx
            have : x = hs.sess := by simp [Node.estResult, Node.session?, Assoc.bumped] at hx; exact hx.symm
            subst this
            obtain ⟨hnew, -⟩ := ho.tidy.est addr r rfl
            exact own_est_body hbody (fun i => by simp [Node.hs, Session.new]) hnew.far hnew.qer (ho.own.estab addr r rfl) i p hp
          · have := (C05_isolation n addr a' s').1 r (fun as has => by rw [ha] at has; cases has; exact hk)
            exact ih a' s' x i p (by rw [← hx, hst]; exact this.symm) hp
    | modify addr r ord =>
      have hst : n.step (.modify addr r ord) = n.modify addr r ord := rfl
      cases modify_cases n addr r ord with
      | refused c x hcc hs he => rw [hst, he]; exact ih
      | ran a x hs res ha hsess hbody hl hrem he =>
        have hx0 : n.session? addr r.seid = some x := by simp [Node.session?, ha, hsess]
        have hans := ho.orderly.answered
        have hc' := hc
        rw [hst, he] at hans hc'
        cases res with
        | err => exact absurd rfl (hans _ rfl)
        | panic => exact absurd rfl hc'
        | ok _ =>
          intro a' s' y i p hx hp
          by_cases hk : (a', s') = (addr, r.seid)
          · cases hk
            rw [hst, he] at hx
            have : y = hs.sess := by simp [Node.modResult, Node.session?] at hx; exact hx.symm
            subst this
            have hrem0 : (x.setRemote r.cpFseid).pdrs = x.pdrs ∧ (x.setRemote r.cpFseid).fars = x.fars ∧ (x.setRemote r.cpFseid).qers = x.qers ∧
                (x.setRemote r.cpFseid).urrs = x.urrs := by
              unfold Session.setRemote; split <;> exact ⟨rfl, rfl, rfl, rfl⟩
            obtain ⟨q1, q2, q3, q4⟩ := hrem0
            have o1 := ho.orderly.modif addr r ord x rfl hx0
            have o2 := ho.tidy.modif addr r ord x rfl hx0
            have o3 := ho.own.mods addr r ord x rfl hx0
            have o4 := fun i p hp => ih addr r.seid x i p hx0 hp
            refine own_mod_body hbody (s0 := n.hs (x.setRemote r.cpFseid)) ?_ ?_ ?_ ?_ i p hp
            · refine ⟨o1.ids, ?_, o1.kept, ?_, o1.choose⟩
              · simp only [Node.hs, q1]; exact o1.new
              · simp only [Node.hs, q1]; exact o1.upd
            · refine ⟨o2.far, ?_, o2.qer, ?_, o2.urr, ?_⟩
              · simp only [Node.hs, q2]; exact o2.farNew
              · simp only [Node.hs, q3]; exact o2.qerNew
              · simp only [Node.hs, q4]; exact o2.urrNew
            · refine ⟨?_, ?_, ?_, ?_⟩
              · simp only [Node.hs, ModReq.farStays, ModReq.qerStays, q2, q3]; exact o3.create
              · simp only [Node.hs, ModReq.farStays, ModReq.qerStays, q2, q3]; exact o3.update
              · simp only [Node.hs, q1, q2]; exact o3.remFar
              · simp only [Node.hs, q1, q3]; exact o3.remQer
            · simp only [Node.hs, Session.hasFarSlot, Session.hasQerSlot, q1, q2, q3]; exact o4
          · have := (C05_isolation n addr a' s').2.1 r ord hk
            exact ih a' s' y i p (by rw [← hx, hst]; exact this.symm) hp

/-- **C99.** After a clean history, every PDR of a live session points to the FAR slot of a FAR of this session and to the QER slot of a QER
of this session, no rule of another session is in these slots, and the tables hold there what the session says. -/
theorem C99_own_rules_partial {cfg : NodeCfg} {rm : Option ResourceManager} {pz fz qz uz : U32} (hfz : 0 < fz.toNat) (hqz : 0 < qz.toNat)
    (huz : 0 < uz.toNat) {h : List (Ev × Outcome)} {n : Node} (H : HistP Clean (Node.init cfg rm (BpfObjects.load pz fz qz uz)) h n)
    {a : Addr} {s : U64} {x : Session} (hx : n.session? a s = some x) {i : U32} {p : SPdr} (hp : x.pdrs.get? i = some p) :
    ∃ j f k q, x.fars.get? j = some f ∧ x.qers.get? k = some q ∧ p.info.farId = f.gid ∧ p.info.qerId = q.gid ∧
      n.dp.far.lookup p.info.farId = some f.info ∧
      (∃ e, n.dp.qer.lookup p.info.qerId = some e ∧ e.gateUL = q.info.gateUL ∧ e.gateDL = q.info.gateDL ∧ e.qfi = q.info.qfi ∧
        e.mbrUL = q.info.mbrUL ∧ e.mbrDL = q.info.mbrDL) ∧
      ∀ b t y, n.session? b t = some y → (y.hasFarSlot p.info.farId ∨ y.hasQerSlot p.info.qerId) → b = a ∧ t = s := by
  obtain ⟨⟨j, f, hf, hg⟩, k, q, hq, hgq⟩ := ownRules_hist hfz hqz huz H a s x i p hx hp
  have G := (H.mono fun n e (h : Clean n e) => h.tidy.known).good fun _ _ h => h
  obtain ⟨c1, -⟩ := C09_agrees_partial G hx j
  obtain ⟨-, c2⟩ := C09_agrees_partial G hx k
  refine ⟨j, f, k, q, hf, hq, hg.symm, hgq.symm, by rw [← hg]; exact c1 f hf, by rw [← hgq]; exact c2 q hq, ?_⟩
  rintro b t y hy (⟨j', f', hf', hg'⟩ | ⟨k', q', hq', hgq'⟩)
  · obtain ⟨d1, -⟩ := C08_exclusive_partial G hx hy j j'
    obtain ⟨e1, e2, -⟩ := d1 f f' hf hf' (by rw [hg, hg'])
    exact ⟨e1.symm, e2.symm⟩
  · obtain ⟨-, d1, -⟩ := C08_exclusive_partial G hx hy k k'
    obtain ⟨e1, e2, -⟩ := d1 q q' hq hq' (by rw [hgq, hgq'])
    exact ⟨e1.symm, e2.symm⟩

/-- **C99 in packets.** After a clean history user traffic is only sent if a live session says so: the session has a PDR whose TEID or UE
address the frame has and whose filter it matches, and the FAR and QER of the session which the PDR uses say "forward" and have the gate
for this direction open. -/
theorem C99_sent_partial {cfg : NodeCfg} {rm : Option ResourceManager} {pz fz qz uz : U32} (hfz : 0 < fz.toNat) (hqz : 0 < qz.toNat)
    (huz : 0 < uz.toNat) {h : List (Ev × Outcome)} {n : Node} (H : HistP Clean (Node.init cfg rm (BpfObjects.load pz fz qz uz)) h n)
    (hb : attempts h < 2 ^ 64 - 2) (e : Env) (s : PS) (hdp : s.dp = n.dp) {s' : PS} {act : XAction} (hrun : runPacket e s = (s', .ok act))
    (hs : act.sent = true) (hecho : ¬ IsGtpMsg e s.frame 1) :
    ∃ a sd x i p j f k q, n.session? a sd = some x ∧ x.pdrs.get? i = some p ∧ x.fars.get? j = some f ∧ x.qers.get? k = some q ∧
      FrameFor e s.frame p.key ∧ p.info.fitsFrame p.key s.frame ∧ p.info.farId = f.gid ∧ p.info.qerId = q.gid ∧
      f.info.action.getLsbD 1 = true ∧ q.info.openFor p.key := by
  obtain ⟨a, sd, i, p, far, qer, ⟨x, hx, hp⟩, p2, p3, p4, p5, p6, p7⟩ :=
    C98_sent_partial hfz hqz huz (H.mono fun n e (h : Clean n e) => h.orderly) hb e s hdp hrun hs hecho
  obtain ⟨j, f, k, q, g1, g2, g3, g4, g5, ⟨en, g6, g7, g8, -⟩, -⟩ := C99_own_rules_partial hfz hqz huz H hx hp
  rw [g5] at p4; cases p4
  rw [g6] at p6; cases p6
  refine ⟨a, sd, x, i, p, j, f, k, q, hx, hp, g1, g2, p2, p3, g3, g4, p5, ?_⟩
  cases hk : p.key <;> rw [hk] at p7 <;> simp only [QerInfo.openFor] at p7 ⊢
  · rw [← g7]; exact p7
  · rw [← g8]; exact p7
  · rw [← g8]; exact p7

end Eupf
