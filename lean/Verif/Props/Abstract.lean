import Verif.AbstractLemmas
import Verif.Props.OwnRules
/-
C100: the UPF does what it was told, no more and no less (records).
-/
namespace Eupf
open Act

theorem ASession.createPdr_fars (L) (a : ASession) (ie) : (a.createPdr L ie).fars = a.fars := rfl
theorem ASession.createPdr_qers (L) (a : ASession) (ie) : (a.createPdr L ie).qers = a.qers := rfl
theorem ASession.updatePdr_fars (a : ASession) (ie) : (a.updatePdr ie).fars = a.fars := rfl
theorem ASession.updatePdr_qers (a : ASession) (ie) : (a.updatePdr ie).qers = a.qers := rfl
theorem ASession.removePdr_fars (a : ASession) (d) : (a.removePdr d).fars = a.fars := rfl
theorem ASession.removePdr_qers (a : ASession) (d) : (a.removePdr d).qers = a.qers := rfl

theorem sim_final {a : ASession} {x X : Session} (h : PdrSim X (fun _ => False) (fun _ => False) a x) (hF : x.fars = X.fars) (hQ : x.qers = X.qers) (i : U32) :
    Both (APdr.Is x) (a.pdrs i) (x.pdrs.get? i) := by
  refine (h i).mono ?_
  rintro ap p - - ⟨h1, h2, h3, h4, h5⟩
  obtain ⟨f, f1, f2⟩ := Option.map_eq_some_iff.1 (h4 id)
  obtain ⟨q, q1, q2⟩ := Option.map_eq_some_iff.1 (h5 id)
  exact ⟨h1, h2, h3, ⟨f, by rw [hF]; exact f1, f2⟩, q, by rw [hQ]; exact q1, q2⟩

theorem ids_nodup {ue : Bool} {l : List PdrIE} {s s' : HS} (h : Act.each (createPdr ue) l s = (s', .ok ())) (hnd : (l.map (·.pdrId)).Nodup) :
    (l.map (fun ie => ie.pdrId.getD 0)).Nodup := by
  have hsome : ∀ ie ∈ l, ie.pdrId.isSome := by
    clear hnd
    induction l generalizing s with
    | nil => intro ie h; cases h
    | cons x l ih =>
      obtain ⟨s1, h1, h2⟩ := each_cons_ok h
      intro ie hie
      rcases List.mem_cons.1 hie with rfl | hie
      · obtain ⟨id, _, _, e1, -⟩ := createPdr_ok h1
        rw [e1]; rfl
      · exact ih h2 ie hie
  clear h
  induction l with
  | nil => exact List.nodup_nil
  | cons x l ih =>
    rw [List.map_cons, List.nodup_cons] at hnd ⊢
    refine ⟨fun hm => hnd.1 ?_, ih hnd.2 fun ie hie => hsome ie (List.mem_cons_of_mem _ hie)⟩
    obtain ⟨y, hy, he⟩ := List.mem_map.1 hm
    refine List.mem_map.2 ⟨y, hy, ?_⟩
    obtain ⟨i, hi⟩ := Option.isSome_iff_exists.1 (hsome x (by simp))
    obtain ⟨j, hj⟩ := Option.isSome_iff_exists.1 (hsome y (List.mem_cons_of_mem _ hy))
    simp only [hi, hj, Option.getD_some] at he
    rw [hi, hj, he]

/-- an establishment -/
theorem said_est_body {ue : Bool} {r : EstReq} {s0 hs : HS} (n3 : Ip4) (hbody : establishBody ue r s0 = (hs, .ok ())) (h0 : ∀ i, s0.sess.pdrs.get? i = none)
    (hf0 : ∀ i, s0.sess.fars.get? i = none) (hq0 : ∀ i, s0.sess.qers.get? i = none) (hc0 : s0.created = [])
    (hids : (r.createPdr.map (·.pdrId)).Nodup)
    (hnd : (r.createFar.map (·.farId.getD 0)).Nodup) (hnq : (r.createQer.map (·.qerId)).Nodup)
    (hn : ∀ ie ∈ r.createPdr, (∃ i, ie.farId = some i ∧ ∃ c ∈ r.createFar, c.farId.getD 0 = i) ∧ ∃ i, ie.qerId = some i ∧ ∃ c ∈ r.createQer, c.qerId = some i) :
    (ASession.established r (createdIEs n3 hs.created)).Is hs.sess := by
  unfold establishBody at hbody
  obtain ⟨_, x0, e0, b1⟩ := bind_ok hbody
  obtain rfl := display_ok e0
  obtain ⟨_, s1, e1, b2⟩ := bind_ok b1
  obtain ⟨_, s2, e2, b3⟩ := bind_ok b2
  obtain ⟨_, s3, e3, e4⟩ := bind_ok b3
  obtain ⟨hp3, hc3⟩ : (∀ i, s3.sess.pdrs.get? i = none) ∧ s3.created = [] := by
    let I : HS → Prop := fun s => (∀ i, s.sess.pdrs.get? i = none) ∧ s.created = []
    have hI : ∀ {s s' : HS}, RuleFrame s s' → I s → I s' := fun hf hi => ⟨fun i => by rw [hf.pdrs]; exact hi.1 i, by rw [hf.created]; exact hi.2⟩
    have i1 := pres_each_ok (I := I) (fun _ _ => pres_of fun _ h => hI (createFar_rf ..) h) e1 ⟨h0, hc0⟩
    have i2 := pres_each_ok (I := I) (fun _ _ => pres_of fun _ h => hI (createQer_rf ..) h) e2 i1
    exact pres_each_ok (I := I) (fun _ _ => pres_of fun _ h => hI (createUrr_rf ..) h) e3 i2
  have hf3 : ∀ c ∈ r.createFar, (s3.sess.fars.get? (c.farId.getD 0)).isSome := by
    intro c hc
    obtain ⟨g, hg⟩ := farsAt_created _ e1 hnd c hc
    have := pres_each_ok (I := FarAt _ g) (fun x _ => farAt_createUrr x) e3 (pres_each_ok (I := FarAt _ g) (fun x _ => farAt_createQer x) e2 hg)
    obtain ⟨f, f1, -⟩ := Option.map_eq_some_iff.1 this
    rw [f1]; rfl
  have hq3 : ∀ c ∈ r.createQer, ∀ id, c.qerId = some id → (s3.sess.qers.get? id).isSome := by
    intro c hc id hid
    obtain ⟨g, hg⟩ := qersAt_created _ e2 hnq c hc id hid
    have := pres_each_ok (I := QerAt _ g) (fun x _ => qerAt_createUrr x) e3 hg
    obtain ⟨f, f1, -⟩ := Option.map_eq_some_iff.1 this
    rw [f1]; rfl
  have hsame : RecFQ (fun F Q => F = s3.sess.fars ∧ Q = s3.sess.qers) hs := pres_each_ok (fun x _ => createPdr_rec ue x) e4 ⟨rfl, rfl⟩
  have f0 : SimFQ {} x0 := ⟨fun i => by rw [hf0]; trivial, fun i => by rw [hq0]; trivial⟩
  have f3 := sim_urrs (fun R x => createUrr_rec (R := R) x) e3 (sim_createQers e2 (sim_createFars e1 f0))
  obtain ⟨ps, c1, c2⟩ := creates_created _ e4
  rw [hc3, List.nil_append] at c1
  have hrep := rep_all (n3 := n3) hs.created (by rw [c1, c2]; exact ids_nodup e4 hids)
  have hpdr : PdrSim s3.sess (fun _ => False) (fun _ => False) (ASession.established r (createdIEs n3 hs.created)) hs.sess := by
    refine sim_createPdrs _ e4 hrep (fun ie hie => ?_) rfl rfl ?_
    · obtain ⟨⟨i, a1, c, a2, a3⟩, j, b1, d, b2, b3⟩ := hn ie hie
      exact ⟨⟨i, a1, by rw [← a3]; exact hf3 c a2⟩, j, b1, hq3 d b2 j b3⟩
    · intro i
      rw [foldl_same (π := ASession.pdrs) ASession.createQer_pdrs, foldl_same (π := ASession.pdrs) ASession.createFar_pdrs, hp3]; trivial
  refine ⟨fun i => ?_, fun i => ?_, sim_final hpdr hsame.1 hsame.2⟩
  · unfold ASession.established
    rw [foldl_same (π := ASession.fars) (ASession.createPdr_fars _), hsame.1]; exact f3.fars i
  · unfold ASession.established
    rw [foldl_same (π := ASession.qers) (ASession.createPdr_qers _), hsame.2]; exact f3.qers i

/-- a modification -/
theorem said_mod_body {ue : Bool} {ord : Orders} {r : ModReq} {s0 hs : HS} {a : ASession} (n3 : Ip4) (hbody : modifyBody ue ord r s0 = (hs, .ok ()))
    (hc0 : s0.created = []) (hkn : RefsKnown r s0.sess) (hor : r.orderly s0.sess) (hnew : NewIds r.createFar r.createQer r.createUrr s0.sess)
    (hn : r.namesOwn s0.sess) (h0 : a.Is s0.sess) : (a.modified r (createdIEs n3 hs.created)).Is hs.sess := by
  obtain ⟨s1, s2, s3, s4, s5, s6, s7, s8, s9, s10, s11, e1, e2, e3, e4, e5, e6, e7, e8, e9, e10, e11, e12⟩ := modify_phases hbody
  obtain ⟨hp9, hc9⟩ : s9.sess.pdrs = s0.sess.pdrs ∧ s9.created = [] := by
    let I : HS → Prop := fun s => s.sess.pdrs = s0.sess.pdrs ∧ s.created = []
    have hI : ∀ {s s' : HS}, RuleFrame s s' → I s → I s' := fun hf hi => ⟨hf.pdrs.trans hi.1, hf.created.trans hi.2⟩
    have i1 := pres_each_ok (I := I) (fun _ _ => pres_of fun _ h => hI (createFar_rf ..) h) e1 ⟨rfl, hc0⟩
    have i2 := pres_each_ok (I := I) (fun _ _ => pres_of fun _ h => hI (updateFar_rf ..) h) e2 i1
    have i3 := pres_each_ok (I := I) (fun _ _ => pres_of fun _ h => hI (removeFar_rf ..) h) e3 i2
    have i4 := pres_each_ok (I := I) (fun _ _ => pres_of fun _ h => hI (createQer_rf ..) h) e4 i3
    have i5 := pres_each_ok (I := I) (fun _ _ => pres_of fun _ h => hI (updateQer_rf ..) h) e5 i4
    have i6 := pres_each_ok (I := I) (fun _ _ => pres_of fun _ h => hI (removeQer_rf ..) h) e6 i5
    have i7 := pres_each_ok (I := I) (fun _ _ => pres_of fun _ h => hI (createUrr_rf ..) h) e7 i6
    have i8 := pres_each_ok (I := I) (fun _ _ => pres_of fun _ h => hI (updateUrr_rf ..) h) e8 i7
    exact pres_each_ok (I := I) (fun _ _ => pres_of fun _ h => hI (removeUrr_rf ..) h) e9 i8
  -- FARs
  have lateF : ∀ {j g}, (∀ d ∈ r.removeFar, d.getD 0 ≠ j) → FarAt j g s1 → FarAt j g s9 := by
    intro j g hd h1
    have h2 := pres_each_ok (I := FarAt j g) (fun x _ => farAt_update x) e2 h1
    have h3 := pres_each_ok (I := FarAt j g) (fun x hx => farAt_remove (hd x hx)) e3 h2
    have h4 := pres_each_ok (I := FarAt j g) (fun x _ => farAt_createQer x) e4 h3
    have h5 := pres_each_ok (I := FarAt j g) (fun x _ => farAt_updateQer x) e5 h4
    have h6 := pres_each_ok (I := FarAt j g) (fun x _ => farAt_removeQer x) e6 h5
    have h7 := pres_each_ok (I := FarAt j g) (fun x _ => farAt_createUrr x) e7 h6
    have h8 := pres_each_ok (I := FarAt j g) (fun x _ => farAt_updateUrr x) e8 h7
    exact pres_each_ok (I := FarAt j g) (fun x _ => farAt_removeUrr x) e9 h8
  have oldF : ∀ {j f}, s0.sess.fars.get? j = some f → (∀ d ∈ r.removeFar, d.getD 0 ≠ j) → FarAt j f.gid s9 := by
    intro j f hf hd
    refine lateF hd (pres_each_ok (I := FarAt j f.gid) (fun x hx => farAt_create ?_) e1 (by simp [FarAt, hf]))
    rintro rfl
    rw [hnew.farNew x hx] at hf; cases hf
  have atF : ∀ {i g}, FarAt i g s9 → (s9.sess.fars.get? i).isSome := by
    intro i g h
    obtain ⟨f, f1, -⟩ := Option.map_eq_some_iff.1 h
    rw [f1]; rfl
  have stayF : ∀ {i}, r.farStays s0.sess i → (s9.sess.fars.get? i).isSome := by
    rintro i ⟨h1 | ⟨c, hc, rfl⟩, h2⟩
    · obtain ⟨f, hf⟩ := Option.isSome_iff_exists.1 h1
      exact atF (oldF hf h2)
    · obtain ⟨g, hg⟩ := farsAt_created _ e1 hnew.far c hc
      exact atF (lateF h2 hg)
  -- QERs
  have lateQ : ∀ {j g}, some j ∉ r.removeQer → QerAt j g s4 → QerAt j g s9 := by
    intro j g hd h4
    have h5 := pres_each_ok (I := QerAt j g) (fun x _ => qerAt_update x) e5 h4
    have h6 := pres_each_ok (I := QerAt j g) (fun x hx => qerAt_remove (fun e => hd (e ▸ hx))) e6 h5
    have h7 := pres_each_ok (I := QerAt j g) (fun x _ => qerAt_createUrr x) e7 h6
    have h8 := pres_each_ok (I := QerAt j g) (fun x _ => qerAt_updateUrr x) e8 h7
    exact pres_each_ok (I := QerAt j g) (fun x _ => qerAt_removeUrr x) e9 h8
  have oldQ : ∀ {j f}, s0.sess.qers.get? j = some f → some j ∉ r.removeQer → QerAt j f.gid s9 := by
    intro j f hf hd
    have h1 := pres_each_ok (I := QerAt j f.gid) (fun x _ => qerAt_createFar x) e1 (by simp [QerAt, hf])
    have h2 := pres_each_ok (I := QerAt j f.gid) (fun x _ => qerAt_updateFar x) e2 h1
    have h3 := pres_each_ok (I := QerAt j f.gid) (fun x _ => qerAt_removeFar x) e3 h2
    refine lateQ hd (pres_each_ok (I := QerAt j f.gid) (fun x hx => qerAt_create ?_) e4 h3)
    intro hj
    rw [hnew.qerNew x hx j hj] at hf; cases hf
  have atQ : ∀ {i g}, QerAt i g s9 → (s9.sess.qers.get? i).isSome := by
    intro i g h
    obtain ⟨f, f1, -⟩ := Option.map_eq_some_iff.1 h
    rw [f1]; rfl
  have stayQ : ∀ {i}, r.qerStays s0.sess i → (s9.sess.qers.get? i).isSome := by
    rintro i ⟨h1 | ⟨c, hc, hid⟩, h2⟩
    · obtain ⟨f, hf⟩ := Option.isSome_iff_exists.1 h1
      exact atQ (oldQ hf h2)
    · obtain ⟨g, hg⟩ := qersAt_created _ e4 hnew.qer c hc i hid
      exact atQ (lateQ h2 hg)
  -- the rules
  have f9 := sim_rules (a := a) ⟨h0.fars, h0.qers⟩ hkn.updFar hkn.updQer e1 e2 e3 e4 e5 e6 e7 e8 e9
  have ha9 : (r.removeQer.foldl ASession.removeQer (r.updateQer.foldl ASession.updateQer (r.createQer.foldl ASession.createQer
      (r.removeFar.foldl ASession.removeFar (r.updateFar.foldl ASession.updateFar (r.createFar.foldl ASession.createFar a)))))).pdrs = a.pdrs := by
    rw [foldl_same (π := ASession.pdrs) ASession.removeQer_pdrs, foldl_same (π := ASession.pdrs) ASession.updateQer_pdrs,
      foldl_same (π := ASession.pdrs) ASession.createQer_pdrs, foldl_same (π := ASession.pdrs) ASession.removeFar_pdrs,
      foldl_same (π := ASession.pdrs) ASession.updateFar_pdrs, foldl_same (π := ASession.pdrs) ASession.createFar_pdrs]
  unfold ASession.modified
  simp only []
  generalize (r.removeQer.foldl ASession.removeQer (r.updateQer.foldl ASession.updateQer (r.createQer.foldl ASession.createQer
      (r.removeFar.foldl ASession.removeFar (r.updateFar.foldl ASession.updateFar (r.createFar.foldl ASession.createFar a)))))) = a9 at f9 ha9 ⊢
  -- the PDRs
  have r10 := pres_each_ok (fun x _ => createPdr_rec ue x) e10 (show RecFQ (fun F Q => F = s9.sess.fars ∧ Q = s9.sess.qers) s9 from ⟨rfl, rfl⟩)
  have r11 := pres_each_ok (fun x _ => updatePdr_rec ue x) e11 r10
  have r12 : RecFQ (fun F Q => F = s9.sess.fars ∧ Q = s9.sess.qers) hs := pres_each_ok (fun x _ => removePdr_rec ord x) e12 r11
  have hc10 : hs.created = s10.created :=
    pres_each_ok (I := fun s => s.created = s10.created) (fun x _ => removePdr_created ord x) e12
      (pres_each_ok (I := fun s => s.created = s10.created) (fun x _ => updatePdr_created ue x) e11 rfl)
  obtain ⟨ps, c1, c2⟩ := creates_created _ e10
  rw [hc9, List.nil_append] at c1
  have hrep := rep_all (n3 := n3) s10.created (by rw [c1, c2]; exact ids_nodup e10 hor.ids)
  rw [hc10]
  have g9 : PdrSim s9.sess (r.rehomes (·.farId)) (r.rehomes (·.qerId)) a9 s9.sess := by
    intro i
    rw [ha9, hp9]
    refine (h0.pdrs i).mono ?_
    rintro ap p - hp ⟨k1, k2, k3, ⟨f, f1, f2⟩, q, q1, q2⟩
    refine ⟨k1, k2, k3, fun hD => ?_, fun hD => ?_⟩
    · rw [← f2]
      refine oldF f1 ?_
      rintro d hd he
      exact hD (hn.remFar d hd f (by rw [he]; exact f1) i p hp f2.symm)
    · rw [← q2]
      refine oldQ q1 ?_
      intro hd
      exact hD (hn.remQer _ hd q q1 i p hp q2.symm)
  have g10 : PdrSim s9.sess (r.rehomes (·.farId)) (r.rehomes (·.qerId)) (r.createPdr.foldl (ASession.createPdr (createdIEs n3 s10.created)) a9) s10.sess := by
    refine sim_createPdrs _ e10 hrep (fun ie hie => ?_) rfl rfl g9
    obtain ⟨⟨i, a1, a2⟩, j, b1, b2⟩ := hn.create ie hie
    exact ⟨⟨i, a1, stayF a2⟩, j, b1, stayQ b2⟩
  generalize ha10 : r.createPdr.foldl (ASession.createPdr (createdIEs n3 s10.created)) a9 = a10 at g10 ⊢
  have f10 : a10.fars = a9.fars ∧ a10.qers = a9.qers := by
    rw [← ha10]
    exact ⟨foldl_same (π := ASession.fars) (ASession.createPdr_fars _) _ _, foldl_same (π := ASession.qers) (ASession.createPdr_qers _) _ _⟩
  have g11 : PdrSim s9.sess (fun i => ∃ d ∈ r.removePdr, BitVec.zeroExtend 32 (d.getD 0) = i) (fun i => ∃ d ∈ r.removePdr, BitVec.zeroExtend 32 (d.getD 0) = i)
      (r.updatePdr.foldl ASession.updatePdr a10) s11.sess := by
    refine sim_updatePdrs _ e11 (fun ie hie => ?_) (fun ie hie => ⟨fun i hi => stayF ((hn.update ie hie).1 i hi), fun i hi => stayQ ((hn.update ie hie).2 i hi)⟩)
      r10.1 r10.2 g10
    obtain ⟨i, p, u1, u2, u3, u4, u5⟩ := hor.upd ie hie
    have hp10 : s10.sess.pdrs.get? (i.zeroExtend 32) = some p := by
      rw [creates_pdrs_keep _ e10, hp9, u2]
      rintro ie' hie' i hi hc
      rw [← hc, hor.new ie' hie' i hi] at u2; cases u2
    have hb := g10 (i.zeroExtend 32)
    rw [hp10] at hb
    obtain ⟨ap, ha, k1, -, k3, -⟩ := both_some' hb
    exact ⟨i, ap, u1, ha, by rw [← k1]; exact u3, by rw [← k3]; exact u4, u5⟩
  have g12 := sim_removePdrs _ e12 g11
  refine ⟨fun i => ?_, fun i => ?_, sim_final g12 r12.1 r12.2⟩
  · rw [foldl_same (π := ASession.fars) ASession.removePdr_fars, foldl_same (π := ASession.fars) ASession.updatePdr_fars, f10.1, r12.1]; exact f9.fars i
  · rw [foldl_same (π := ASession.qers) ASession.removePdr_qers, foldl_same (π := ASession.qers) ASession.updatePdr_qers, f10.2, r12.2]; exact f9.qers i

theorem said_other {e : Ev} {o : Outcome} {h : List (Ev × Outcome)} (he : e.isNodeMsg = true ∨ ∃ u, e = .setConfig u) (b : Addr) (s : U64) :
    said ((e, o) :: h) b s = said h b s := by
  rcases he with he | ⟨u, rfl⟩
  · cases e <;> first | rfl | cases he
  · rfl

/-- **C100 (records).** After a clean history the sessions which the UPF has are exactly those that were told to it, and each has exactly the
FARs, QERs and PDRs that were told, with the parameters last told. -/
theorem C100_said_partial {cfg : NodeCfg} {rm : Option ResourceManager} {pz fz qz uz : U32} (hfz : 0 < fz.toNat) (hqz : 0 < qz.toNat)
    (huz : 0 < uz.toNat) {h : List (Ev × Outcome)} {n : Node} (H : HistP Clean (Node.init cfg rm (BpfObjects.load pz fz qz uz)) h n) (a : Addr) (s : U64) :
    Both ASession.Is (said h a s) (n.session? a s) := by
  induction H generalizing a s with
  | init => simp [said, Node.session?, Node.init, Both]
  | traffic _ _ ih => exact ih a s
  | @step h n e H ho hc ih =>
    have msg : e.isNodeMsg = true → Both ASession.Is (said ((e, (n.step e).2) :: h) a s) ((n.step e).1.session? a s) := by
      intro he
      rw [said_other (.inl he), (C05_association_messages n a s e he).1]; exact ih a s
    cases e with
    | assocSetup => exact msg rfl
    | assocSetupResp => exact msg rfl
    | assocUpdate => exact msg rfl
    | heartbeatReq => exact msg rfl
    | heartbeatResp => exact msg rfl
    | setConfig u => exact ih a s
    | peerLost addr ord =>
      have ha : (n.assocs.get? addr).isSome := by
        cases ha : n.assocs.get? addr with
        | none => exfalso; apply hc; simp only [Node.step, Node.deleteAssociation, ha]
        | some _ => rfl
      obtain ⟨-, -, g1, g2, -⟩ := C45_peer_lost hfz hqz huz H.hist ha (n' := (n.step (.peerLost addr ord)).1)
        (o := (n.step (.peerLost addr ord)).2) rfl hc
      have hs : ∀ o, said ((.peerLost addr ord, o) :: h) a s = if a = addr then none else said h a s := by intro o; cases o <;> rfl
      rw [hs]
      split
      · rename_i hb; subst hb; rw [g1]; trivial
      · rename_i hb; rw [g2 a s hb]; exact ih a s
    | delete addr r ord =>
      have hs : ∀ resp, said ((.delete addr r ord, .reply resp) :: h) a s = if resp.cause = 1 ∧ a = addr ∧ s = r.seid then none else said h a s := fun _ => rfl
      have hst : n.step (.delete addr r ord) = n.delete addr r ord := rfl
      have hiso : (a, s) ≠ (addr, r.seid) → (n.delete addr r ord).1.session? a s = n.session? a s := (C05_isolation n addr a s).2.2 r ord
      have hdel : (n.delete addr r ord).2 ≠ .silent := ho.orderly.deleted addr r ord rfl
      have hc' : (n.delete addr r ord).2 ≠ .crash := hc
      rw [hst]
      cases delete_cases n addr r ord with
      | refused c hcc hsn he =>
        rw [he, hs, if_neg (by rintro ⟨h1, -⟩; rcases hcc with rfl | rfl <;> cases h1)]; exact ih a s
      | ran as y hs' res ha hsess hbody he =>
        rw [he] at hc' hdel hiso ⊢
        cases res with
        | err => exact absurd rfl hdel
        | panic => exact absurd rfl hc'
        | ok _ =>
          simp only [Node.delResult] at hiso ⊢
          rw [hs]
          split
          · rename_i hk; obtain ⟨-, rfl, rfl⟩ := hk
            simp [Node.session?, Both]
          · rename_i hk
            rw [hiso (fun e => hk ⟨rfl, congrArg Prod.fst e, congrArg Prod.snd e⟩)]; exact ih a s
    | establish addr r =>
      have hs : ∀ resp, said ((.establish addr r, .reply resp) :: h) a s =
        if resp.cause = 1 ∧ a = addr ∧ resp.fseid = some s then some (ASession.established r resp.created) else said h a s := fun _ => rfl
      have hst : n.step (.establish addr r) = n.establish addr r := rfl
      have hans := ho.orderly.answered
      have hc' := hc
      rw [hst] at hans hc' ⊢
      cases establish_cases n addr r with
      | refused c hcc he =>
        rw [he, hs, if_neg (by rintro ⟨h1, -⟩; rcases hcc with rfl | rfl <;> cases h1)]; exact ih a s
      | ran remote as hs' res hid hcp ha hbody hl hrem he =>
        have hiso := (C05_isolation n addr a s).1 r
        rw [hst] at hiso
        rw [he] at hans hc' hiso ⊢
        cases res with
        | err => exact absurd rfl (hans _ rfl)
        | panic => exact absurd rfl hc'
        | ok _ =>
          simp only [Node.estResult] at hiso ⊢
          rw [hs]
          split
          · rename_i hk; obtain ⟨-, rfl, hk⟩ := hk
            simp only [Option.some.injEq] at hk
            subst hk
            obtain ⟨hnew, -⟩ := ho.tidy.est a r rfl
            have := said_est_body n.cfg.n3 hbody (fun i => by simp [Node.hs, Session.new]) (fun i => by simp [Node.hs, Session.new])
              (fun i => by simp [Node.hs, Session.new]) rfl (ho.orderly.est a r rfl) hnew.far hnew.qer (ho.own.estab a r rfl)
            simpa [Node.session?, Assoc.bumped, Both] using this
          · rename_i hk
            rw [hiso (fun b hb e => ?_)]; · exact ih a s
            rw [ha] at hb; cases hb
            exact hk ⟨rfl, congrArg Prod.fst e, by rw [show s = _ from congrArg Prod.snd e]⟩
    | modify addr r ord =>
      have hs : ∀ resp, said ((.modify addr r ord, .reply resp) :: h) a s =
        if resp.cause = 1 ∧ a = addr ∧ s = r.seid then (said h a s).map (·.modified r resp.created) else said h a s := fun _ => rfl
      have hst : n.step (.modify addr r ord) = n.modify addr r ord := rfl
      have hans := ho.orderly.answered
      have hc' := hc
      rw [hst] at hans hc' ⊢
      cases modify_cases n addr r ord with
      | refused c x hcc _ he =>
        rw [he, hs, if_neg (by rintro ⟨h1, -⟩; rcases hcc with rfl | rfl <;> cases h1)]; exact ih a s
      | ran as x hs' res ha hsess hbody hl hrem he =>
        have hx0 : n.session? addr r.seid = some x := by simp [Node.session?, ha, hsess]
        have hiso := (C05_isolation n addr a s).2.1 r ord
        rw [hst] at hiso
        rw [he] at hans hc' hiso ⊢
        cases res with
        | err => exact absurd rfl (hans _ rfl)
        | panic => exact absurd rfl hc'
        | ok _ =>
          simp only [Node.modResult] at hiso ⊢
          rw [hs]
          split
          · rename_i hk; obtain ⟨-, rfl, rfl⟩ := hk
            have hrem0 : (x.setRemote r.cpFseid).pdrs = x.pdrs ∧ (x.setRemote r.cpFseid).fars = x.fars ∧ (x.setRemote r.cpFseid).qers = x.qers ∧
                (x.setRemote r.cpFseid).urrs = x.urrs := by
              unfold Session.setRemote; split <;> exact ⟨rfl, rfl, rfl, rfl⟩
            obtain ⟨q1, q2, q3, q4⟩ := hrem0
            have o1 := ho.orderly.modif a r ord x rfl hx0
            have o2 := ho.tidy.modif a r ord x rfl hx0
            have o3 := ho.own.mods a r ord x rfl hx0
            have o4 := ho.tidy.known
            have o5 : RefsKnown r x := o4 x hx0
            have hb := ih a r.seid
            rw [hx0] at hb
            obtain ⟨A, hA, hI⟩ := both_some' hb
            rw [hA]
            have := said_mod_body (a := A) n.cfg.n3 hbody rfl (by
              refine ⟨?_, ?_, o5.remFarOnce, ?_, ?_, o5.remQerOnce, ?_, ?_, o5.remUrrOnce⟩ <;> simp only [Node.hs, q2, q3, q4]
              · exact o5.updFar
              · exact o5.remFar
              · exact o5.updQer
              · exact o5.remQer
              · exact o5.updUrr
              · exact o5.remUrr) (by
              refine ⟨o1.ids, ?_, o1.kept, ?_, o1.choose⟩
              · simp only [Node.hs, q1]; exact o1.new
              · simp only [Node.hs, q1]; exact o1.upd) (by
              refine ⟨o2.far, ?_, o2.qer, ?_, o2.urr, ?_⟩
              · simp only [Node.hs, q2]; exact o2.farNew
              · simp only [Node.hs, q3]; exact o2.qerNew
              · simp only [Node.hs, q4]; exact o2.urrNew) (by
              refine ⟨?_, ?_, ?_, ?_⟩
              · simp only [Node.hs, ModReq.farStays, ModReq.qerStays, q2, q3]; exact o3.create
              · simp only [Node.hs, ModReq.farStays, ModReq.qerStays, q2, q3]; exact o3.update
              · simp only [Node.hs, q1, q2]; exact o3.remFar
              · simp only [Node.hs, q1, q3]; exact o3.remQer) (by
              refine ⟨?_, ?_, ?_⟩
              · simp only [Node.hs, q2]; exact hI.fars
              · simp only [Node.hs, q3]; exact hI.qers
              · intro i
                simp only [Node.hs, q1]
                exact (hI.pdrs i).mono fun ap p _ _ h => ⟨h.key, h.ohr, h.sdf, by rw [q2]; exact h.far, by rw [q3]; exact h.qer⟩)
            simpa [Node.session?, Both] using this
          · rename_i hk
            rw [hiso (fun e => hk ⟨rfl, congrArg Prod.fst e, congrArg Prod.snd e⟩)]; exact ih a s

end Eupf
