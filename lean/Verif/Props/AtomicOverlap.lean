import Verif.Spec.Overlap
import Verif.Props.AtomicModify
/-
C114: packets whose look-ups happen at successive moments of a request.
-/
namespace Eupf
open Act

theorem Prog.failed_done {l : List Piece} {s : HS} {l' : List Piece} {t : HS} {r : Res Unit} (h : Prog l s l' t r) : r ≠ .ok () → l' = [] := by
  induction h with
  | start => exact fun h => absurd rfl h
  | piece _ _ _ => exact fun h => absurd rfl h
  | failed _ _ _ _ => exact fun _ => rfl
  | packets _ _ ih => exact ih

/-- what comes after a moment is after the start -/
theorem Prog.then {l : List Piece} {s : HS} {l1 : List Piece} {t1 : HS} {r1 : Res Unit} (h : Prog l s l1 t1 r1) {l2 : List Piece} {t2 : HS} {r2 : Res Unit}
    (h2 : Prog l1 t1 l2 t2 r2) : ∃ r, Prog l s l2 t2 r := by
  have ok_of : ∀ {m : Piece} {l' : List Piece} {t : HS} {r : Res Unit}, Prog l s (m :: l') t r → Prog l s (m :: l') t (.ok ()) := by
    intro m l' t r hp
    by_cases hr : r = .ok ()
    · rw [hr] at hp; exact hp
    · cases hp.failed_done hr
  induction h2 with
  | start => exact ⟨r1, h⟩
  | piece _ hm ih => obtain ⟨r, hp⟩ := ih; exact ⟨_, .piece (ok_of hp) hm⟩
  | failed _ hm hr ih => obtain ⟨r, hp⟩ := ih; exact ⟨_, .failed (ok_of hp) hm hr⟩
  | packets _ ht ih => obtain ⟨r, hp⟩ := ih; exact ⟨r, .packets hp ht⟩

theorem SameRules.refl (b : BpfObjects) : SameRules b b := ⟨rfl, rfl, fun _ => rfl⟩
theorem SameRules.trans {a b c : BpfObjects} (h : SameRules a b) (k : SameRules b c) : SameRules a c :=
  ⟨k.far.trans h.far, k.qer.1.trans h.qer.1, fun i => (k.qer.2 i).trans (h.qer.2 i)⟩
theorem SameRules.symm {a b : BpfObjects} (h : SameRules a b) : SameRules b a := ⟨h.far.symm, h.qer.1.symm, fun i => (h.qer.2 i).symm⟩

/-- pieces that keep FARs and QERs -/
theorem Prog.rules {l : List Piece} {s : HS} (hk : ∀ m ∈ l, KeepsRules m) {l' : List Piece} {t : HS} {r : Res Unit} (h : Prog l s l' t r) :
    SameRules s.dp t.dp ∧ ∀ m ∈ l', m ∈ l := by
  induction h with
  | start => exact ⟨.refl _, fun _ h => h⟩
  | @piece m l' t t' _ hm ih =>
    have k := hk m (ih.2 m (by simp)) t
    rw [hm] at k
    exact ⟨ih.1.trans (SameRules.of k.1 k.2 (.refl _)), fun x hx => ih.2 x (by simp [hx])⟩
  | @failed m l' t t' r _ hm hr ih =>
    have k := hk m (ih.2 m (by simp)) t
    rw [hm] at k
    exact ⟨ih.1.trans (SameRules.of k.1 k.2 (.refl _)), fun x hx => (by cases hx)⟩
  | packets _ ht ih => exact ⟨ih.1.trans (.traffic ht), ih.2⟩

theorem Node.moments.each {n : Node} {e : Ev} {b1 b2 b3 : BpfObjects} (h : n.moments e b1 b2 b3) : n.moment e b1 ∧ n.moment e b2 ∧ n.moment e b3 := by
  unfold Node.moments at h
  unfold Node.moment
  cases hj : n.job e with
  | none => rw [hj] at h; exact ⟨h.1, h.1.trans' h.2.1, (h.1.trans' h.2.1).trans' h.2.2⟩
  | some x =>
    obtain ⟨s, l⟩ := x
    rw [hj] at h
    obtain ⟨l1, t1, r1, l2, t2, r2, l3, t3, r3, p1, p2, p3, rfl, rfl, rfl⟩ := h
    obtain ⟨r, q⟩ := p1.then p2
    obtain ⟨r', q'⟩ := q.then p3
    exact ⟨⟨_, _, _, p1, rfl⟩, ⟨_, _, _, q, rfl⟩, ⟨_, _, _, q', rfl⟩⟩

/-- first pieces that keep the PDRs, then pieces that keep FARs and QERs: at the first of three moments the PDRs are still those before, or from then on
FARs and QERs are those after -/
theorem rules_first3 {n : Node} {e : Ev} {s : HS} {A B : List Piece} (hj : n.job e = some (s, A ++ B)) (hA : ∀ m ∈ A, KeepsPdrs m)
    (hB : ∀ m ∈ B, KeepsRules m) {b1 b2 b3 : BpfObjects} (hm : n.moments e b1 b2 b3) :
    SamePdrs n.dp b1 ∨ (SameRules b1 b2 ∧ SameRules b1 b3) := by
  have hb := hm.each.1
  unfold Node.moments at hm
  rw [hj] at hm
  obtain ⟨l1, t1, r1, l2, t2, r2, l3, t3, r3, p1, p2, p3, rfl, rfl, rfl⟩ := hm
  obtain ⟨c1, c2, t0, e1, e2, e3, e4, al⟩ := p1.without (job_blind hj)
  rcases cut_append e1 with ⟨c, hc⟩ | ⟨c, rfl, hc⟩
  · left
    rw [← (job_dp hj).2]
    have := keepsPdrs_all (l := c1) (fun m hm => hA m (by rw [hc]; simp [hm])) s
    rw [e4] at this
    exact this.trans (.traffic al.dp)
  · right
    have hl1 : ∀ m ∈ l1, KeepsRules m := by
      intro m hm
      by_cases hr : r1 = .ok ()
      · rw [← e2 hr] at hm; exact hB m (by rw [hc]; simp [hm])
      · rw [e3 hr] at hm; cases hm
    obtain ⟨q1, q2⟩ := p2.rules hl1
    obtain ⟨q3, -⟩ := p3.rules (fun m hm => hl1 m (q2 m hm))
    exact ⟨q1, q1.trans q3⟩

/-- establishments: at the first look-up the PDRs are those before, or the rules change no more -/
theorem est_overlap {n : Node} {a : Addr} {r : EstReq} {b1 b2 b3 : BpfObjects} (hm : n.moments (.establish a r) b1 b2 b3) :
    SamePdrs n.dp b1 ∨ (SameRules b1 b2 ∧ SameRules b1 b3) := by
  cases hj : n.job (.establish a r) with
  | none =>
    unfold Node.moments at hm
    rw [hj] at hm
    exact .inl (.traffic hm.1)
  | some x =>
    obtain ⟨s, l⟩ := x
    have hl : l = (r.createPdr.map displayPdr ++ (r.createFar.map createFar ++ (r.createQer.map createQer ++ r.createUrr.map createUrr))) ++ r.createPdr.map (createPdr n.ueip) := by
      simp only [Node.job] at hj
      split at hj
      · cases hj; simp [estPieces]
      · cases hj
    subst hl
    exact rules_first3 hj (mem_app_imp (mem_map_imp keepsPdrs_display) (mem_app_imp (mem_map_imp fun x => keepsPdrs_rf (createFar_rf x))
      (mem_app_imp (mem_map_imp fun x => keepsPdrs_rf (createQer_rf x)) (mem_map_imp fun x => keepsPdrs_rf (createUrr_rf x)))))
      (mem_map_imp fun x => keepsRules_apart (apart_create _ x)) hm

/-- modifications -/
theorem mod_overlap {n : Node} {a : Addr} {r : ModReq} {ord : Orders} {b1 b2 b3 : BpfObjects} (hm : n.moments (.modify a r ord) b1 b2 b3) :
    SamePdrs n.dp b1 ∨ (SameRules b1 b2 ∧ SameRules b1 b3) := by
  cases hj : n.job (.modify a r ord) with
  | none =>
    unfold Node.moments at hm
    rw [hj] at hm
    exact .inl (.traffic hm.1)
  | some x =>
    obtain ⟨s, l⟩ := x
    have hl : l = (r.createPdr.map displayPdr ++ (r.updatePdr.map displayPdr ++ (r.createFar.map createFar ++ (r.updateFar.map updateFar ++
        (r.removeFar.map removeFar ++ (r.createQer.map createQer ++ (r.updateQer.map updateQer ++ (r.removeQer.map removeQer ++
        (r.createUrr.map createUrr ++ (r.updateUrr.map updateUrr ++ r.removeUrr.map removeUrr)))))))))) ++
        (r.createPdr.map (createPdr n.ueip) ++ (r.updatePdr.map (updatePdr n.ueip) ++ r.removePdr.map (removePdr ord))) := by
      simp only [Node.job] at hj
      split at hj
      · cases hj; simp [modPieces]
      · cases hj
    subst hl
    refine rules_first3 hj ?_ ?_ hm
    · exact mem_app_imp (mem_map_imp keepsPdrs_display) (mem_app_imp (mem_map_imp keepsPdrs_display)
        (mem_app_imp (mem_map_imp fun x => keepsPdrs_rf (createFar_rf x)) (mem_app_imp (mem_map_imp fun x => keepsPdrs_rf (updateFar_rf x))
        (mem_app_imp (mem_map_imp fun x => keepsPdrs_rf (removeFar_rf x)) (mem_app_imp (mem_map_imp fun x => keepsPdrs_rf (createQer_rf x))
        (mem_app_imp (mem_map_imp fun x => keepsPdrs_rf (updateQer_rf x)) (mem_app_imp (mem_map_imp fun x => keepsPdrs_rf (removeQer_rf x))
        (mem_app_imp (mem_map_imp fun x => keepsPdrs_rf (createUrr_rf x)) (mem_app_imp (mem_map_imp fun x => keepsPdrs_rf (updateUrr_rf x))
        (mem_map_imp fun x => keepsPdrs_rf (removeUrr_rf x)))))))))))
    · exact mem_app_imp (mem_map_imp fun x => keepsRules_apart (apart_create _ x)) (mem_app_imp (mem_map_imp fun x => keepsRules_apart (apart_update _ x))
        (mem_map_imp fun x => keepsRules_apart (apart_remove _ x)))

theorem SameFate.trans {e : Env} {f : List U8} {b c d : BpfObjects} (h : SameFate e f b c) (k : SameFate e f c d) : SameFate e f b d := fun st rt =>
  ⟨(h st rt).1.trans (k st rt).1, fun hn => ((h st rt).2 hn).trans ((k st rt).2 (by rw [← (h st rt).1]; exact hn))⟩

theorem timedAs_traffic (b c : BpfObjects) : TrafficEffect b (b.timedAs c) := ⟨rfl, rfl, rfl, rfl, rfl, fun _ => rfl, rfl, rfl, rfl, rfl⟩

theorem Node.moment.traffic {n : Node} {e : Ev} {b c : BpfObjects} (h : n.moment e b) (ht : TrafficEffect b c) : n.moment e c := by
  unfold Node.moment at h ⊢
  cases hj : n.job e with
  | none => rw [hj] at h; exact h.trans' ht
  | some x =>
    obtain ⟨s, l⟩ := x
    rw [hj] at h
    obtain ⟨l', t, r, hp, rfl⟩ := h
    exact ⟨_, _, _, .packets hp ht, rfl⟩

theorem lookups_entry (b1 b2 b3 : BpfObjects) (K : PdrKey) : (lookups b1 b2 b3).entry? K = b1.entry? K := by cases K <;> rfl

/-- if the rules are the same at the three moments, one moment would do -/
theorem overlap_same {n : Node} {ev : Ev} {b1 b2 b3 : BpfObjects} (hm : n.moment ev b1) (h2 : SameRules b1 b2) (h3 : SameRules b1 b3) {e : Env} {f : List U8}
    (hp : ¬ PingsUpf e f) : n.moment ev (b1.timedAs (lookups b1 b2 b3)) ∧ SameFate e f (lookups b1 b2 b3) (b1.timedAs (lookups b1 b2 b3)) := by
  refine ⟨hm.traffic (timedAs_traffic _ _), AlikeFor.fate ?_ hp⟩
  intro K hf
  refine ⟨by rw [timedAs_entry, lookups_entry], fun r _ => ⟨?_, ?_⟩⟩
  · show b2.far.lookup _ = b1.far.lookup _
    rw [h2.far]
  · exact (h3.lookups r.qer).2

/-- every slot is what it was or empty -/
structure Emptied (d b : BpfObjects) : Prop where
  farSize : b.far.size = d.far.size
  far : ∀ g, b.far.val g = d.far.val g ∨ b.far.val g = {}
  qerSize : b.qer.size = d.qer.size
  qer : ∀ g, (b.qer.val g).same (d.qer.val g) ∨ (b.qer.val g).same {}

theorem Emptied.of {d b c : BpfObjects} (h : Emptied d b) (h1 : c.far = b.far) (h2 : c.qer = b.qer) : Emptied d c := by
  constructor
  · rw [h1]; exact h.farSize
  · rw [h1]; exact h.far
  · rw [h2]; exact h.qerSize
  · rw [h2]; exact h.qer

theorem emptied_dropFar (d : BpfObjects) (x : U32 × SFar) : Pres (fun s : HS => Emptied d s.dp) (dropFar x) := pres_of fun s h => (by
  have key : Emptied d (s.dp.deleteFar x.2.gid).1 := by
    unfold BpfObjects.deleteFar ArrMap.update
    simp only
    split
    · rename_i w hw
      split at hw
      · cases hw
        refine ⟨h.farSize, fun g => ?_, h.qerSize, h.qer⟩
        show (if g = x.2.gid then _ else _) = _ ∨ (if g = x.2.gid then _ else _) = _
        split
        · exact .inr rfl
        · exact h.far g
      · cases hw
    · exact h.of rfl rfl
  unfold dropFar
  rcases hd : s.dp.deleteFar x.2.gid with ⟨dp, b⟩
  rw [hd] at key
  cases b <;> exact key)

theorem emptied_dropQer (d : BpfObjects) (x : U32 × SQer) : Pres (fun s : HS => Emptied d s.dp) (dropQer x) := pres_of fun s h => (by
  have key : Emptied d (s.dp.deleteQer x.2.gid).1 := by
    unfold BpfObjects.deleteQer ArrMap.update
    simp only
    split
    · rename_i w hw
      split at hw
      · cases hw
        refine ⟨h.farSize, h.far, h.qerSize, fun g => ?_⟩
        show QerInfo.same (if g = x.2.gid then _ else _) _ ∨ QerInfo.same (if g = x.2.gid then _ else _) _
        split
        · exact .inr rfl
        · exact h.qer g
      · cases hw
    · exact h.of rfl rfl
  unfold dropQer
  rcases hd : s.dp.deleteQer x.2.gid with ⟨dp, b⟩
  rw [hd] at key
  cases b <;> exact key)

theorem Emptied.traffic {d b c : BpfObjects} (h : Emptied d b) (ht : TrafficEffect b c) : Emptied d c := by
  refine ⟨by rw [ht.far]; exact h.farSize, by rw [ht.far]; exact h.far, ht.qerSize.trans h.qerSize, fun g => ?_⟩
  rcases h.qer g with h | h
  · exact .inl ((ht.qerVal g).trans h)
  · exact .inr ((ht.qerVal g).trans h)

/-- at every moment of a deletion -/
theorem del_slots {n : Node} {a : Addr} {r : DelReq} {ord : Orders} {b : BpfObjects} (hb : n.moment (.delete a r ord) b) : Emptied n.dp b := by
  have h0 : Emptied n.dp n.dp := ⟨rfl, fun _ => .inl rfl, rfl, fun _ => .inl rfl⟩
  cases hj : n.job (.delete a r ord) with
  | none =>
    unfold Node.moment at hb
    rw [hj] at hb
    exact h0.traffic hb
  | some x =>
    obtain ⟨s, l⟩ := x
    obtain ⟨x, rfl⟩ : ∃ x, l = delPieces ord x := by
      simp only [Node.job] at hj
      split at hj
      · cases hj; exact ⟨_, rfl⟩
      · cases hj
    obtain ⟨-, d2⟩ := job_dp hj
    obtain ⟨l1, l2, hcut, ht⟩ := moment_cut hj hb
    have hP : ∀ m ∈ delPieces ord x, Pres (fun s : HS => Emptied n.dp s.dp) m :=
      mem_app_imp (P := fun m => Pres (fun s : HS => Emptied n.dp s.dp) m) (mem_map_imp fun y => pres_of fun s h => (by
          have A := apart_of (apart_delete ord y.2) s
          exact h.of A.far A.qer))
        (mem_app_imp (mem_map_imp fun x => emptied_dropFar _ x) (mem_app_imp (mem_map_imp fun x => emptied_dropQer _ x)
        (mem_map_imp fun x => pres_of fun s h => (by
          rw [(dropUrr_dp x s).1]
          have fr := deleteUrr_frame s.dp x.2.gid
          rcases hd : s.dp.deleteUrr x.2.gid with ⟨dp, b⟩
          rw [hd] at fr
          obtain ⟨_, _, rfl⟩ := fr
          exact h.of rfl rfl))))
    have : Emptied n.dp (Act.all l1 s).1.dp := (pres_all fun m hm => hP m (by rw [hcut]; simp [hm])).apply (s := s) (show Emptied n.dp s.dp by rw [d2]; exact h0)
    exact this.traffic ht

theorem lookup_timed {c d : BpfObjects} {g : U32} (hz : c.qer.size = d.qer.size) (h : (c.qer.val g).same (d.qer.val g)) :
    c.qer.lookup g = (d.timedAs c).qer.lookup g := by
  unfold ArrMap.lookup
  show _ = if g.toNat < d.qer.size.toNat then _ else _
  rw [hz]
  split
  · show some (c.qer.val g) = some { d.qer.val g with startUL := (c.qer.val g).startUL, startDL := (c.qer.val g).startDL }
    simp only [QerInfo.same, QerInfo.mk.injEq] at h
    obtain ⟨g1, g2, g3, g4, g5, -⟩ := h
    congr 1
    simp only
    rw [← g1, ← g2, ← g3, ← g4, ← g5]
  · rfl

section
variable {cfg : NodeCfg} {rm : Option ResourceManager} {pz fz qz uz : U32} (hfz : 0 < fz.toNat) (hqz : 0 < qz.toNat)
    (huz : 0 < uz.toNat) {h : List (Ev × Outcome)} {n : Node} (H : HistI Clean (Node.init cfg rm (BpfObjects.load pz fz qz uz)) h n)
include hfz hqz huz H

/-- **C114, establishment.** The look-ups of PDR, FAR and QER happen at three successive moments of an establishment: still the packet meets the fate it meets before
the establishment, or the fate it meets after it. -/
theorem C114_establish_partial {a : Addr} {r : EstReq} (hcl : Clean n (.establish a r)) (hc : (n.step (.establish a r)).2 ≠ .crash)
    (hb : attempts h < 2 ^ 64 - 2) {b1 b2 b3 : BpfObjects} (hm : n.moments (.establish a r) b1 b2 b3) {e : Env} {f : List U8} (hp : ¬ PingsUpf e f) :
    SameFate e f (lookups b1 b2 b3) (n.dp.timedAs (lookups b1 b2 b3)) ∨ SameFate e f (lookups b1 b2 b3) ((n.step (.establish a r)).1.dp.timedAs (lookups b1 b2 b3)) := by
  obtain ⟨m1, m2, m3⟩ := hm.each
  rcases est_overlap hm with hs | ⟨h2, h3⟩
  · left
    by_cases hf : ∃ K, FrameFor e f K
    · obtain ⟨K, hf⟩ := hf
      obtain ⟨h', H', he⟩ := C106_interleaved H
      have hb' : attempts h' < 2 ^ 64 - 2 := by rw [← attempts_plainly h', he, attempts_plainly]; exact hb
      have G := C106_as_a_whole (H'.mono fun n e (h : Clean n e) => h.tidy.known)
      refine (alike_owner hfz hqz huz H' hb' hf (by rw [lookups_entry]; exact entry?_same hs K) fun a' s' x i p hx _ _ => ?_).fate hp
      exact ⟨(moment_rules G hx hcl.tidy.known (fun h => h) m2).1, (moment_rules G hx hcl.tidy.known (fun h => h) m3).2⟩
    · exact (alike_foreign (fun K hK => hf ⟨K, hK⟩) _ _).fate hp
  · obtain ⟨k1, k2⟩ := overlap_same m1 h2 h3 hp
    exact (C110_establish_partial hfz hqz huz H hcl hc hb k1 hp).imp k2.trans k2.trans

omit hfz hqz huz in
/-- At a moment of such a modification the slots of its session are those of a session between the old and the new one. -/
theorem mod_at {a : Addr} {r : ModReq} {ord : Orders} (hcl : Clean n (.modify a r ord)) (hc : (n.step (.modify a r ord)).2 ≠ .crash)
    (hadd : r.onlyAdds) (hon : r.updatesOnce) {b : BpfObjects} (hm : n.moment (.modify a r ord) b) {x y : Session} (hx : n.session? a r.seid = some x)
    (hy : (n.step (.modify a r ord)).1.session? a r.seid = some y) :
    ∃ y', Between x y' y ∧ (∀ j f, y'.fars.get? j = some f → b.far.lookup f.gid = some f.info) ∧
      (∀ j q, y'.qers.get? j = some q → ∃ k, b.qer.lookup q.gid = some k ∧ k.gateUL = q.info.gateUL ∧ k.gateDL = q.info.gateDL ∧
        k.qfi = q.info.qfi ∧ k.mbrUL = q.info.mbrUL ∧ k.mbrDL = q.info.mbrDL) := by
  obtain ⟨h', H', he⟩ := C106_interleaved H
  obtain ⟨r', cut, hcl', hc', hte⟩ := C111_modify_partial hcl hc hadd hm
  have H2 := HistP.traffic (HistP.step (.modify a r' ord) H' hcl' hc') hte
  obtain ⟨t, bd, hy1⟩ := mod_done hcl.orderly hc hx
  rw [hy] at hy1
  obtain rfl := Option.some.inj hy1
  obtain ⟨t', bd', hyy⟩ := mod_done hcl'.orderly hc' (r := r') (x := x) (by rw [cut.seid]; exact hx)
  rw [cut.cpFseid] at bd'
  have hbt : Between x t'.sess t.sess := by
    obtain ⟨z1, z2, z3, z4⟩ := setRemote_four x r.cpFseid
    have ho := hcl.orderly.modif a r ord x rfl hx
    have hn := hcl.tidy.modif a r ord x rfl hx
    have := between_of cut bd bd' (by
      refine ⟨ho.ids, ?_, ho.kept, ?_, ho.choose⟩
      · show ∀ ie ∈ r.createPdr, ∀ i, ie.pdrId = some i → (x.setRemote r.cpFseid).pdrs.get? (i.zeroExtend 32) = none
        rw [z1]; exact ho.new
      · show ∀ ie ∈ r.updatePdr, ∃ i p, ie.pdrId = some i ∧ (x.setRemote r.cpFseid).pdrs.get? (i.zeroExtend 32) = some p ∧ _
        rw [z1]; exact ho.upd) hadd hon (by
      refine ⟨hn.far, ?_, hn.qer, ?_, hn.urr, ?_⟩
      · show ∀ c ∈ r.createFar, (x.setRemote r.cpFseid).fars.get? _ = none
        rw [z2]; exact hn.farNew
      · show ∀ c ∈ r.createQer, ∀ j, c.qerId = some j → (x.setRemote r.cpFseid).qers.get? _ = none
        rw [z3]; exact hn.qerNew
      · show ∀ j, some j ∈ r.createUrr → (x.setRemote r.cpFseid).urrs.get? _ = none
        rw [z4]; exact hn.urrNew)
    obtain ⟨k1, k2, k3, k4⟩ := this
    have hs0 : (n.hs (x.setRemote r.cpFseid)).sess = x.setRemote r.cpFseid := rfl
    rw [hs0] at k1 k2 k3 k4
    exact ⟨by rw [z2] at k1; exact k1, by rw [z3] at k2; exact k2, by rw [z1] at k3; exact k3, by rw [z1] at k4; exact k4⟩
  have hy2 : ({ (n.step (.modify a r' ord)).1 with dp := b } : Node).session? a r'.seid = some t'.sess := hyy
  have hdp : ({ (n.step (.modify a r' ord)).1 with dp := b } : Node).dp = b := rfl
  generalize ({ (n.step (.modify a r' ord)).1 with dp := b } : Node) = m at H2 hy2 hdp
  subst hdp
  have G := (H2.mono fun n e (h : Clean n e) => h.tidy.known).good fun _ _ h => h
  exact ⟨t'.sess, hbt, fun j f hj => (C09_agrees_partial G hy2 j).1 f hj, fun j q hj => (C09_agrees_partial G hy2 j).2 q hj⟩

/-- **C114, modification.** The look-ups of PDR, FAR and QER happen at three successive moments of a modification as in C112: still the packet meets the fate it
meets before the modification or the fate it meets after it. -/
theorem C114_modify_partial {a : Addr} {r : ModReq} {ord : Orders} (hcl : Clean n (.modify a r ord)) (hc : (n.step (.modify a r ord)).2 ≠ .crash)
    (hb : attempts h < 2 ^ 64 - 2) (hadd : r.onlyAdds) (hon : r.updatesOnce) {b1 b2 b3 : BpfObjects} (hm : n.moments (.modify a r ord) b1 b2 b3) {e : Env} {f : List U8}
    (hp : ¬ PingsUpf e f)
    (hone : ∀ x y i p, n.session? a r.seid = some x → (n.step (.modify a r ord)).1.session? a r.seid = some y → x.pdrs.get? i = some p → FrameFor e f p.key →
      x.changesOne y i) :
    SameFate e f (lookups b1 b2 b3) (n.dp.timedAs (lookups b1 b2 b3)) ∨ SameFate e f (lookups b1 b2 b3) ((n.step (.modify a r ord)).1.dp.timedAs (lookups b1 b2 b3)) := by
  obtain ⟨m1, m2, m3⟩ := hm.each
  rcases mod_overlap hm with hs | ⟨h2, h3⟩
  swap
  · obtain ⟨k1, k2⟩ := overlap_same m1 h2 h3 hp
    exact (C112_modify_partial hfz hqz huz H hcl hc hb hadd hon k1 hp hone).imp k2.trans k2.trans
  by_cases hf : ∃ K, FrameFor e f K
  swap
  · exact .inl ((alike_foreign (fun K hK => hf ⟨K, hK⟩) _ _).fate hp)
  obtain ⟨K, hf⟩ := hf
  obtain ⟨h', H', he⟩ := C106_interleaved H
  have hb' : attempts h' < 2 ^ 64 - 2 := by rw [← attempts_plainly h', he, attempts_plainly]; exact hb
  have H1 := HistP.step (.modify a r ord) H' hcl hc
  have hb1 : attempts ((Ev.modify a r ord, (n.step (.modify a r ord)).2) :: h') < 2 ^ 64 - 2 := hb'
  have hent : (lookups b1 b2 b3).entry? K = n.dp.entry? K := by rw [lookups_entry]; exact entry?_same hs K
  obtain ⟨ex, ap⟩ := exactS_hist hfz hqz huz (H'.mono fun n e (h : Clean n e) => h.orderly) hb'
  have G := C106_as_a_whole (H'.mono fun n e (h : Clean n e) => h.tidy.known)
  by_cases hown : ∃ x i p, n.session? a r.seid = some x ∧ x.pdrs.get? i = some p ∧ p.key = K
  swap
  · -- the PDR is not of this session
    left
    refine (alike_owner hfz hqz huz H' hb' hf hent fun a' s' x i p hx hpi hk => ?_).fate hp
    have hne : ¬ Ev.about a' s' (.modify a r ord) := by
      rintro ⟨rfl, rfl⟩
      exact hown ⟨x, i, p, hx, hpi, hk⟩
    exact ⟨(moment_rules G hx hcl.tidy.known hne m2).1, (moment_rules G hx hcl.tidy.known hne m3).2⟩
  obtain ⟨x, i, p, hx, hxi, rfl⟩ := hown
  obtain ⟨t, -, hy⟩ := mod_done hcl.orderly hc hx
  obtain ⟨y2, bt2, sl2, -⟩ := mod_at H hcl hc hadd hon m2 hx hy
  obtain ⟨y3, bt3, -, sl3⟩ := mod_at H hcl hc hadd hon m3 hx hy
  obtain ⟨j0, f0, k0, q0, o1, o2, o3, o4, -⟩ := C99_own_rules_partial hfz hqz huz H' hx hxi
  obtain ⟨f1, u1, u2, u3⟩ := bt2.far j0 f0 o1
  obtain ⟨q1, v1, v2, v3⟩ := bt3.qer k0 q0 o2
  have w2 := sl2 j0 f1 u1
  obtain ⟨q2, w3, d1, d2, d3, d4, d5⟩ := sl3 k0 q1 v1
  have l1 := ex.live a r.seid i p ⟨x, hx, hxi⟩
  -- tables of a node with a clean history that has the PDR, FAR and QER looked up
  have same : ∀ {h0 : List (Ev × Outcome)} {m : Node} (H0 : HistP Clean (Node.init cfg rm (BpfObjects.load pz fz qz uz)) h0 m) (hb0 : attempts h0 < 2 ^ 64 - 2) {z : Session},
      m.session? a r.seid = some z → z.pdrs.get? i = some p → z.fars.get? j0 = some f1 → z.qers.get? k0 = some q1 →
      SameFate e f (lookups b1 b2 b3) (m.dp.timedAs (lookups b1 b2 b3)) := by
    intro h0 m H0 hb0 z hz g1 g2 g3
    obtain ⟨ex0, -⟩ := exactS_hist hfz hqz huz (H0.mono fun n e (h : Clean n e) => h.orderly) hb0
    have l2 := ex0.live a r.seid i p ⟨z, hz, g1⟩
    have G0 := (H0.mono fun n e (h : Clean n e) => h.tidy.known).good fun _ _ h => h
    have c2 := (C09_agrees_partial G0 hz j0).1 f1 g2
    obtain ⟨q3, c3, t1, t2, t3, t4, t5⟩ := (C09_agrees_partial G0 hz k0).2 q1 g3
    refine AlikeFor.fate (alikeFor_key hf (by rw [timedAs_entry, hent, l1, l2]) fun ru hr => ?_) hp
    obtain rfl := frameRule_store (hent.trans l1) hf hr
    refine ⟨?_, ?_⟩
    · show b2.far.lookup p.info.farId = m.dp.far.lookup p.info.farId
      rw [o3, ← u2, w2, c2]
    · show b3.qer.lookup p.info.qerId = (m.dp.timedAs (lookups b1 b2 b3)).qer.lookup p.info.qerId
      rw [o4, ← v2, w3]
      unfold ArrMap.lookup at w3 c3 ⊢
      split at w3
      · cases w3
        split at c3
        · rename_i hlt
          cases c3
          show _ = if q1.gid.toNat < m.dp.qer.size.toNat then _ else _
          rw [if_pos hlt]
          show some (b3.qer.val q1.gid) = some { m.dp.qer.val q1.gid with startUL := (b3.qer.val q1.gid).startUL, startDL := (b3.qer.val q1.gid).startDL }
          congr 1
          simp only
          rw [t1, t2, t3, t4, t5, ← d1, ← d2, ← d3, ← d4, ← d5]
        · cases c3
      · cases w3
  have before : f1 = f0 → q1 = q0 → SameFate e f (lookups b1 b2 b3) (n.dp.timedAs (lookups b1 b2 b3)) := fun hf1 hq1 =>
    same H' hb' hx hxi (by rw [hf1]; exact o1) (by rw [hq1]; exact o2)
  have after := same H1 hb1 hy
  rcases hone x t.sess i p hx hy hxi hf p j0 f0 k0 q0 hxi o1 o3.symm o2 o4.symm with ⟨c1, c2⟩ | ⟨c1, c2⟩ | ⟨c1, c2⟩
  · have hff : f1 = f0 := by rcases u3 with u3 | u3; exact u3; rw [c2] at u3; exact (Option.some.inj u3).symm
    rcases v3 with v3 | v3
    · exact .inl (before hff v3)
    · exact .inr (after c1 (by rw [hff]; exact c2) v3)
  · have hqq : q1 = q0 := by rcases v3 with v3 | v3; exact v3; rw [c2] at v3; exact (Option.some.inj v3).symm
    rcases u3 with u3 | u3
    · exact .inl (before u3 hqq)
    · exact .inr (after c1 u3 (by rw [hqq]; exact c2))
  · have hff : f1 = f0 := by rcases u3 with u3 | u3; exact u3; rw [c1] at u3; exact (Option.some.inj u3).symm
    have hqq : q1 = q0 := by rcases v3 with v3 | v3; exact v3; rw [c2] at v3; exact (Option.some.inj v3).symm
    exact .inl (before hff hqq)

/-- **C114, one kind of rules.** In particular if the Update IEs of the modification are all for FARs, all for QERs, or all for PDRs: then this holds for all packets. -/
theorem C114_one_kind_partial {a : Addr} {r : ModReq} {ord : Orders} (hcl : Clean n (.modify a r ord)) (hc : (n.step (.modify a r ord)).2 ≠ .crash)
    (hb : attempts h < 2 ^ 64 - 2) (hadd : r.onlyAdds) (hon : r.updatesOnce)
    (hkind : (r.updateQer = [] ∧ r.updatePdr = []) ∨ (r.updateFar = [] ∧ r.updatePdr = []) ∨ (r.updateFar = [] ∧ r.updateQer = []))
    {b1 b2 b3 : BpfObjects} (hm : n.moments (.modify a r ord) b1 b2 b3) {e : Env} {f : List U8} (hp : ¬ PingsUpf e f) :
    SameFate e f (lookups b1 b2 b3) (n.dp.timedAs (lookups b1 b2 b3)) ∨ SameFate e f (lookups b1 b2 b3) ((n.step (.modify a r ord)).1.dp.timedAs (lookups b1 b2 b3)) :=
  C114_modify_partial hfz hqz huz H hcl hc hb hadd hon hm hp (changes_one_kind hcl hc hadd hkind)

/-- **C114, deletion.** The look-ups of PDR, FAR and QER happen at three successive moments of a deletion: the packet meets the fate it meets before the deletion, or
the fate it meets after it, or it is dropped, or it meets the fate it would meet before the deletion if all QERs were empty (gates open, no limits, QFI 0). -/
theorem C114_delete_partial {a : Addr} {r : DelReq} {ord : Orders} (hcl : Clean n (.delete a r ord))
    (hb : attempts h < 2 ^ 64 - 2) {b1 b2 b3 : BpfObjects} (hm : n.moments (.delete a r ord) b1 b2 b3) {e : Env} {f : List U8} (hp : ¬ PingsUpf e f) :
    SameFate e f (lookups b1 b2 b3) (n.dp.timedAs (lookups b1 b2 b3)) ∨
    SameFate e f (lookups b1 b2 b3) ((n.step (.delete a r ord)).1.dp.timedAs (lookups b1 b2 b3)) ∨
    (∀ st rt, ∃ s', runPacket e ⟨f, lookups b1 b2 b3, st, rt⟩ = (s', .ok .drop) ∧ s'.frame = f) ∨
    SameFate e f (lookups b1 b2 b3) (n.dp.noQers.timedAs (lookups b1 b2 b3)) := by
  obtain ⟨m1, m2, m3⟩ := hm.each
  by_cases hf : ∃ K, FrameFor e f K
  swap
  · exact .inl ((alike_foreign (fun K hK => hf ⟨K, hK⟩) _ _).fate hp)
  obtain ⟨K, hf⟩ := hf
  rcases del_entries m1 K with h1 | ⟨h1, h2⟩
  swap
  · exact .inr (.inl ((alike_gone hf (by rw [lookups_entry]; exact h1) h2).fate hp))
  have hent : (lookups b1 b2 b3).entry? K = n.dp.entry? K := by rw [lookups_entry]; exact h1
  obtain ⟨h', H', he⟩ := C106_interleaved H
  have hb' : attempts h' < 2 ^ 64 - 2 := by rw [← attempts_plainly h', he, attempts_plainly]; exact hb
  have G := C106_as_a_whole (H'.mono fun n e (h : Clean n e) => h.tidy.known)
  by_cases hown : ∃ x i p, n.session? a r.seid = some x ∧ x.pdrs.get? i = some p ∧ p.key = K
  swap
  · left
    refine (alike_owner hfz hqz huz H' hb' hf hent fun a' s' x i p hx hpi hk => ?_).fate hp
    have hne : ¬ Ev.about a' s' (.delete a r ord) := by
      rintro ⟨rfl, rfl⟩
      exact hown ⟨x, i, p, hx, hpi, hk⟩
    exact ⟨(moment_rules G hx hcl.tidy.known hne m2).1, (moment_rules G hx hcl.tidy.known hne m3).2⟩
  obtain ⟨x, i, p, hx, hxi, rfl⟩ := hown
  obtain ⟨ex, -⟩ := exactS_hist hfz hqz huz (H'.mono fun n e (h : Clean n e) => h.orderly) hb'
  have l1 := ex.live a r.seid i p ⟨x, hx, hxi⟩
  have d2 := del_slots m2
  have d3 := del_slots m3
  have far2 : b2.far.lookup p.info.farId = n.dp.far.lookup p.info.farId ∨ b2.far.val p.info.farId = {} := by
    rcases d2.far p.info.farId with h | h
    · left; unfold ArrMap.lookup; rw [d2.farSize, h]
    · exact .inr h
  rcases far2 with hF | hF
  · by_cases hq : (b3.qer.val p.info.qerId).same (n.dp.qer.val p.info.qerId)
    · left
      refine (alikeFor_key hf (by rw [timedAs_entry]; exact hent) fun ru hr => ?_).fate hp
      obtain rfl := frameRule_store (hent.trans l1) hf hr
      exact ⟨hF, lookup_timed d3.qerSize hq⟩
    · right; right; right
      refine (alikeFor_key hf (by rw [timedAs_entry]; exact hent) fun ru hr => ?_).fate hp
      obtain rfl := frameRule_store (hent.trans l1) hf hr
      exact ⟨hF, lookup_timed (d := n.dp.noQers) (c := lookups b1 b2 b3) d3.qerSize ((d3.qer p.info.qerId).resolve_left hq)⟩
  · by_cases hr : frameRule (lookups b1 b2 b3) f p.key = none
    · left
      exact (alikeFor_key hf (by rw [timedAs_entry]; exact hent) fun ru hr' => by rw [hr] at hr'; cases hr').fate hp
    · right; right; left
      intro st rt
      obtain ⟨ru, hr⟩ := Option.ne_none_iff_exists'.1 hr
      obtain rfl := frameRule_store (hent.trans l1) hf hr
      have no : ∀ far : FarInfo, (lookups b1 b2 b3).far.lookup p.info.rule.far = some far → far.action.getLsbD 1 ≠ true := by
        intro far hfar
        have hfar : b2.far.lookup p.info.farId = some far := hfar
        unfold ArrMap.lookup at hfar
        split at hfar
        · rw [hF] at hfar; cases hfar; decide
        · cases hfar
      have := C26_not_permitted_dropped e ⟨f, lookups b1 b2 b3, st, rt⟩ p.info.rule (by
        generalize p.key = K at hf hr
        cases K with
        | ul t => exact .inl ⟨hf.1, hr, fun ⟨far, qer, w⟩ => no far w.hasFar w.forw⟩
        | dl4 ip => exact .inr (.inl ⟨hf.1, hr, fun ⟨far, qer, w⟩ => no far w.hasFar w.forw⟩)
        | dl6 ip => exact .inr (.inr ⟨hf.1, hr, fun ⟨far, qer, w⟩ => no far w.hasFar w.forw⟩))
      obtain ⟨s', w1, w2, -⟩ := this
      exact ⟨s', w1, w2⟩

end
end Eupf
