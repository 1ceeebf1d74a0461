import Verif.MomentSlots
import Verif.CapacityLemmas
/-
C109: the order in which a request writes the tables.
-/
namespace Eupf
open Act

/-- The piece writes no PDR table. -/
def KeepsPdrs (m : Piece) : Prop := ∀ s, SamePdrs s.dp (m s).1.dp
/-- The piece writes neither FARs nor QERs. -/
def KeepsRules (m : Piece) : Prop := ∀ s, (m s).1.dp.far = s.dp.far ∧ (m s).1.dp.qer = s.dp.qer

theorem SamePdrs.refl (b : BpfObjects) : SamePdrs b b := ⟨rfl, rfl, rfl⟩
theorem SamePdrs.trans {a b c : BpfObjects} (h : SamePdrs a b) (k : SamePdrs b c) : SamePdrs a c := ⟨k.ul.trans h.ul, k.dl4.trans h.dl4, k.dl6.trans h.dl6⟩
theorem SamePdrs.symm {a b : BpfObjects} (h : SamePdrs a b) : SamePdrs b a := ⟨h.ul.symm, h.dl4.symm, h.dl6.symm⟩
theorem SamePdrs.traffic {a b : BpfObjects} (h : TrafficEffect a b) : SamePdrs a b := ⟨h.pdrUl, h.pdrDl4, h.pdrDl6⟩
theorem SameRules.traffic {a b : BpfObjects} (h : TrafficEffect a b) : SameRules a b := ⟨h.far, h.qerSize, h.qerVal⟩
theorem SameRules.of {a b c : BpfObjects} (h1 : b.far = a.far) (h2 : b.qer = a.qer) (h : SameRules b c) : SameRules a c :=
  ⟨h.far.trans h1, by rw [← h2]; exact h.qer⟩

theorem keepsPdrs_all {l : List Piece} (h : ∀ m ∈ l, KeepsPdrs m) : KeepsPdrs (Act.all l) := by
  intro s
  exact (pres_all (I := fun t => SamePdrs s.dp t.dp) fun m hm => pres_of fun t ht => ht.trans (h m hm t)).apply (.refl _)
theorem keepsRules_all {l : List Piece} (h : ∀ m ∈ l, KeepsRules m) : KeepsRules (Act.all l) := by
  intro s
  exact (pres_all (I := fun t => t.dp.far = s.dp.far ∧ t.dp.qer = s.dp.qer) fun m hm =>
    pres_of fun t ht => (by obtain ⟨h1, h2⟩ := h m hm t; exact ⟨h1.trans ht.1, h2.trans ht.2⟩)).apply ⟨rfl, rfl⟩

theorem keepsPdrs_rf {m : Piece} (h : ∀ s, RuleFrame s (m s).1) : KeepsPdrs m := fun s => ⟨(h s).ul, (h s).dl4, (h s).dl6⟩
theorem keepsRules_apart {m : Piece} (h : ∀ s0, Pres (Apart s0) m) : KeepsRules m := fun s => ⟨(apart_of h s).far, (apart_of h s).qer⟩
theorem keepsPdrs_display (ie : PdrIE) : KeepsPdrs (displayPdr ie) := fun s => by rw [displayPdr_same]; exact .refl _

/-- The tables after all pieces. -/
theorem job_dp {n : Node} {e : Ev} {s : HS} {l : List Piece} (hj : n.job e = some (s, l)) : (n.step e).1.dp = (Act.all l s).1.dp ∧ s.dp = n.dp := by
  rw [step_pieces hj]
  cases e with
  | establish addr r =>
    simp only [Node.job] at hj
    cases hv : validateRequest r.nodeId r.cpFseid with
    | none => rw [hv] at hj; cases hj
    | some remote =>
      cases ha : n.assocs.get? addr with
      | none => rw [hv, ha] at hj; cases hj
      | some as =>
        rw [hv, ha] at hj
        cases hj
        have hc := (validateRequest_some hv).2
        refine ⟨?_, rfl⟩
        simp only [Node.conclude, hc, ha]
        split <;> rfl
  | modify addr r ord =>
    simp only [Node.job] at hj
    cases ha : n.assocs.get? addr with
    | none => rw [ha] at hj; cases hj
    | some as =>
      cases hs : as.sessions.get? r.seid with
      | none => rw [ha] at hj; simp only [Option.bind_some, hs] at hj; cases hj
      | some sess =>
        rw [ha] at hj
        simp only [Option.bind_some, hs] at hj
        cases hj
        refine ⟨?_, rfl⟩
        simp only [Node.conclude, ha]
  | delete addr r ord =>
    simp only [Node.job] at hj
    cases ha : n.assocs.get? addr with
    | none => rw [ha] at hj; cases hj
    | some as =>
      cases hs : as.sessions.get? r.seid with
      | none => rw [ha] at hj; simp only [Option.bind_some, hs] at hj; cases hj
      | some sess =>
        rw [ha] at hj
        simp only [Option.bind_some, hs] at hj
        cases hj
        refine ⟨?_, rfl⟩
        simp only [Node.conclude, ha, hs]
        split <;> rfl
  | peerLost addr ord =>
    simp only [Node.job] at hj
    cases ha : n.assocs.get? addr with
    | none => rw [ha] at hj; cases hj
    | some as =>
      rw [ha] at hj
      cases hj
      refine ⟨?_, rfl⟩
      simp only [Node.conclude]
      split <;> rfl
  | _ => cases hj

/-- First pieces that keep the PDRs, then pieces that keep FARs and QERs. -/
theorem rules_first {n : Node} {e : Ev} {s : HS} {A B : List Piece} (hj : n.job e = some (s, A ++ B)) (hA : ∀ m ∈ A, KeepsPdrs m)
    (hB : ∀ m ∈ B, KeepsRules m) {b : BpfObjects} (hb : n.moment e b) : SamePdrs n.dp b ∨ SameRules (n.step e).1.dp b := by
  obtain ⟨d1, d2⟩ := job_dp hj
  obtain ⟨l1, l2, h, ht⟩ := moment_cut hj hb
  rcases cut_append h with ⟨c, hc⟩ | ⟨c, rfl, hc⟩
  · left
    rw [← d2]
    exact (keepsPdrs_all (l := l1) (fun m hm => hA m (by rw [hc]; simp [hm])) s).trans (.traffic ht)
  · right
    rw [d1]
    refine SameRules.of ?_ ?_ (.traffic ht) <;> rcases hr : Act.all A s with ⟨t, r⟩
    all_goals
      by_cases hok : r = .ok ()
      · subst hok
        rw [all_after hr, all_after hr]
        have k1 := keepsRules_all (l := c) (fun m hm => hB m (by rw [hc]; simp [hm])) t
        have k2 := keepsRules_all hB t
        first | exact k1.1.trans k2.1.symm | exact k1.2.trans k2.2.symm
      · rw [Act.all_failed hr hok, Act.all_failed hr hok]

/-- First pieces that keep FARs and QERs, then pieces that keep the PDRs. -/
theorem pdrs_first {n : Node} {e : Ev} {s : HS} {A B : List Piece} (hj : n.job e = some (s, A ++ B)) (hA : ∀ m ∈ A, KeepsRules m)
    (hB : ∀ m ∈ B, KeepsPdrs m) {b : BpfObjects} (hb : n.moment e b) : SameRules n.dp b ∨ SamePdrs (n.step e).1.dp b := by
  obtain ⟨d1, d2⟩ := job_dp hj
  obtain ⟨l1, l2, h, ht⟩ := moment_cut hj hb
  rcases cut_append h with ⟨c, hc⟩ | ⟨c, rfl, hc⟩
  · left
    rw [← d2]
    obtain ⟨k1, k2⟩ := keepsRules_all (l := l1) (fun m hm => hA m (by rw [hc]; simp [hm])) s
    exact SameRules.of k1 k2 (.traffic ht)
  · right
    rw [d1]
    refine SamePdrs.trans ?_ (.traffic ht)
    rcases hr : Act.all A s with ⟨t, r⟩
    by_cases hok : r = .ok ()
    · subst hok
      rw [all_after hr, all_after hr]
      exact (keepsPdrs_all hB t).symm.trans (keepsPdrs_all (l := c) (fun m hm => hB m (by rw [hc]; simp [hm])) t)
    · rw [Act.all_failed hr hok, Act.all_failed hr hok]
      exact .refl _

theorem mem_map_imp {α : Type} {f : α → Piece} {l : List α} {P : Piece → Prop} (h : ∀ x, P (f x)) : ∀ m ∈ l.map f, P m := by
  intro m hm
  obtain ⟨x, -, rfl⟩ := List.mem_map.1 hm
  exact h x
theorem mem_app_imp {l l' : List Piece} {P : Piece → Prop} (h : ∀ m ∈ l, P m) (h' : ∀ m ∈ l', P m) : ∀ m ∈ l ++ l', P m := by
  intro m hm
  rcases List.mem_append.1 hm with h1 | h1
  · exact h m h1
  · exact h' m h1

/-- **C109, establishment.** At every moment of an establishment the PDRs are those before it, or FARs and QERs are already those after it. -/
theorem C109_establish {n : Node} {a : Addr} {r : EstReq} {b : BpfObjects} (hb : n.moment (.establish a r) b) :
    SamePdrs n.dp b ∨ SameRules (n.step (.establish a r)).1.dp b := by
  cases hj : n.job (.establish a r) with
  | none =>
    unfold Node.moment at hb
    rw [hj] at hb
    exact .inl (.traffic hb)
  | some x =>
    obtain ⟨s, l⟩ := x
    have hl : l = (r.createPdr.map displayPdr ++ (r.createFar.map createFar ++ (r.createQer.map createQer ++ r.createUrr.map createUrr))) ++ r.createPdr.map (createPdr n.ueip) := by
      simp only [Node.job] at hj
      split at hj
      · cases hj; simp [estPieces]
      · cases hj
    subst hl
    exact rules_first hj (mem_app_imp (mem_map_imp keepsPdrs_display) (mem_app_imp (mem_map_imp fun x => keepsPdrs_rf (createFar_rf x))
      (mem_app_imp (mem_map_imp fun x => keepsPdrs_rf (createQer_rf x)) (mem_map_imp fun x => keepsPdrs_rf (createUrr_rf x)))))
      (mem_map_imp fun x => keepsRules_apart (apart_create _ x)) hb

/-- **C109, modification.** The same of modifications. -/
theorem C109_modify {n : Node} {a : Addr} {r : ModReq} {ord : Orders} {b : BpfObjects} (hb : n.moment (.modify a r ord) b) :
    SamePdrs n.dp b ∨ SameRules (n.step (.modify a r ord)).1.dp b := by
  cases hj : n.job (.modify a r ord) with
  | none =>
    unfold Node.moment at hb
    rw [hj] at hb
    exact .inl (.traffic hb)
  | some x =>
    obtain ⟨s, l⟩ := x
    have hl : l = (r.createPdr.map displayPdr ++ (r.updatePdr.map displayPdr ++ (r.createFar.map createFar ++ (r.updateFar.map updateFar ++
        (r.removeFar.map removeFar ++ (r.createQer.map createQer ++ (r.updateQer.map updateQer ++ (r.removeQer.map removeQer ++
        (r.createUrr.map createUrr ++ (r.updateUrr.map updateUrr ++ r.removeUrr.map removeUrr)))))))))) ++
        (r.createPdr.map (createPdr n.ueip) ++ (r.updatePdr.map (updatePdr n.ueip) ++ r.removePdr.map (removePdr ord))) := by
      simp only [Node.job] at hj
      split at hj
      · cases hj; simp [modPieces]
      · cases hj
    subst hl
    refine rules_first hj ?_ ?_ hb
    · exact mem_app_imp (mem_map_imp keepsPdrs_display) (mem_app_imp (mem_map_imp keepsPdrs_display)
        (mem_app_imp (mem_map_imp fun x => keepsPdrs_rf (createFar_rf x)) (mem_app_imp (mem_map_imp fun x => keepsPdrs_rf (updateFar_rf x))
        (mem_app_imp (mem_map_imp fun x => keepsPdrs_rf (removeFar_rf x)) (mem_app_imp (mem_map_imp fun x => keepsPdrs_rf (createQer_rf x))
        (mem_app_imp (mem_map_imp fun x => keepsPdrs_rf (updateQer_rf x)) (mem_app_imp (mem_map_imp fun x => keepsPdrs_rf (removeQer_rf x))
        (mem_app_imp (mem_map_imp fun x => keepsPdrs_rf (createUrr_rf x)) (mem_app_imp (mem_map_imp fun x => keepsPdrs_rf (updateUrr_rf x))
        (mem_map_imp fun x => keepsPdrs_rf (removeUrr_rf x)))))))))))
    · exact mem_app_imp (mem_map_imp fun x => keepsRules_apart (apart_create _ x)) (mem_app_imp (mem_map_imp fun x => keepsRules_apart (apart_update _ x))
        (mem_map_imp fun x => keepsRules_apart (apart_remove _ x)))

/-- **C109, deletion.** At every moment of a deletion FARs and QERs are those before it, or the PDRs are already those after it. -/
theorem C109_delete {n : Node} {a : Addr} {r : DelReq} {ord : Orders} {b : BpfObjects} (hb : n.moment (.delete a r ord) b) :
    SameRules n.dp b ∨ SamePdrs (n.step (.delete a r ord)).1.dp b := by
  cases hj : n.job (.delete a r ord) with
  | none =>
    unfold Node.moment at hb
    rw [hj] at hb
    exact .inl (.traffic hb)
  | some x =>
    obtain ⟨s, l⟩ := x
    obtain ⟨x, rfl⟩ : ∃ x, l = delPieces ord x := by
      simp only [Node.job] at hj
      split at hj
      · cases hj; exact ⟨_, rfl⟩
      · cases hj
    exact pdrs_first hj (mem_map_imp fun x => keepsRules_apart (apart_delete ord x.2)) (mem_app_imp (mem_map_imp fun x => keepsPdrs_rf (dropFar_rf x))
      (mem_app_imp (mem_map_imp fun x => keepsPdrs_rf (dropQer_rf x)) (mem_map_imp fun x => keepsPdrs_rf (dropUrr_rf x)))) hb

/-- Tables of a request that is refused. -/
theorem job_none_dp {n : Node} {e : Ev} (hj : n.job e = none) : (n.step e).1.dp = n.dp := by
  cases e with
  | establish addr r =>
    simp only [Node.job] at hj
    simp only [Node.step, Node.establish]
    cases hv : validateRequest r.nodeId r.cpFseid with
    | none => rfl
    | some remote =>
      cases ha : n.assocs.get? addr with
      | none => rfl
      | some as => rw [hv, ha] at hj; cases hj
  | modify addr r ord =>
    simp only [Node.job] at hj
    simp only [Node.step, Node.modify]
    cases ha : n.assocs.get? addr with
    | none => rfl
    | some as =>
      cases hs : as.sessions.get? r.seid with
      | none => simp only [hs]
      | some x => rw [ha] at hj; simp only [Option.bind_some, hs] at hj; cases hj
  | delete addr r ord =>
    simp only [Node.job] at hj
    simp only [Node.step, Node.delete]
    cases ha : n.assocs.get? addr with
    | none => rfl
    | some as =>
      cases hs : as.sessions.get? r.seid with
      | none => simp only [hs]
      | some x => rw [ha] at hj; simp only [Option.bind_some, hs] at hj; cases hj
  | peerLost addr ord =>
    simp only [Node.job] at hj
    simp only [Node.step, Node.deleteAssociation]
    cases ha : n.assocs.get? addr with
    | none => rfl
    | some as => rw [ha] at hj; cases hj
  | setConfig u => rfl
  | assocSetup x y z w => exact (C05_association_messages n 0 0 _ rfl).2.1
  | assocSetupResp x y z w => exact (C05_association_messages n 0 0 _ rfl).2.1
  | assocUpdate x y z => exact (C05_association_messages n 0 0 _ rfl).2.1
  | heartbeatReq x y z => exact (C05_association_messages n 0 0 _ rfl).2.1
  | heartbeatResp x y z => exact (C05_association_messages n 0 0 _ rfl).2.1

/-- **C109, as a shorter request.** At every moment of an establishment the tables are those after the establishment with some of the same IEs: a
first part of them, in the order Create FAR, Create QER, Create URR, Create PDR. -/
theorem C109_shorter_establishment {n : Node} {a : Addr} {r : EstReq} {b : BpfObjects} (hb : n.moment (.establish a r) b) :
    ∃ r', r'.Cut r ∧ TrafficEffect (n.step (.establish a r')).1.dp b := by
  cases hj : n.job (.establish a r) with
  | none =>
    refine ⟨r, by constructor <;> simp, ?_⟩
    unfold Node.moment at hb
    rw [hj] at hb
    rw [job_none_dp hj]; exact hb
  | some x =>
    obtain ⟨s, l⟩ := x
    obtain ⟨l1, l2, rfl, ht⟩ := moment_cut hj hb
    simp only [Node.job] at hj
    cases hv : validateRequest r.nodeId r.cpFseid with
    | none => rw [hv] at hj; cases hj
    | some remote =>
      cases ha : n.assocs.get? a with
      | none => rw [hv, ha] at hj; cases hj
      | some as =>
        rw [hv, ha] at hj
        simp only [Option.some.injEq, Prod.mk.injEq] at hj
        obtain ⟨rfl, hl⟩ := hj
        obtain ⟨r', cut, e1, -⟩ := est_cut hl (n.hs (Session.new (as.nextSessionID + 1) remote))
        refine ⟨r', cut, ?_⟩
        have hj' : n.job (.establish a r') = some (n.hs (Session.new (as.nextSessionID + 1) remote), estPieces n.ueip r') := by
          simp only [Node.job]
          rw [cut.nodeId, cut.cpFseid, hv, ha]
        rw [(job_dp hj').1, ← establish_pieces, ← e1]
        exact ht

/-- **C109, as a shorter request.** At every moment of a modification the tables are those after the modification with a first part of its IEs, in the
order Create, Update, Remove FAR; Create, Update, Remove QER; Create, Update, Remove URR; Create, Update, Remove PDR. -/
theorem C109_shorter_modification {n : Node} {a : Addr} {r : ModReq} {ord : Orders} {b : BpfObjects} (hb : n.moment (.modify a r ord) b) :
    ∃ r', r'.Cut r ∧ TrafficEffect (n.step (.modify a r' ord)).1.dp b := by
  cases hj : n.job (.modify a r ord) with
  | none =>
    refine ⟨r, by constructor <;> simp, ?_⟩
    unfold Node.moment at hb
    rw [hj] at hb
    rw [job_none_dp hj]; exact hb
  | some x =>
    obtain ⟨s, l⟩ := x
    obtain ⟨l1, l2, rfl, ht⟩ := moment_cut hj hb
    simp only [Node.job] at hj
    cases ha : n.assocs.get? a with
    | none => rw [ha] at hj; cases hj
    | some as =>
      cases hs : as.sessions.get? r.seid with
      | none => rw [ha] at hj; simp only [Option.bind_some, hs] at hj; cases hj
      | some sess =>
        rw [ha] at hj
        simp only [Option.bind_some, hs, Option.some.injEq, Prod.mk.injEq] at hj
        obtain ⟨rfl, hl⟩ := hj
        obtain ⟨r', cut, e1, -⟩ := mod_cut hl (n.hs (sess.setRemote r.cpFseid))
        refine ⟨r', cut, ?_⟩
        have hj' : n.job (.modify a r' ord) = some (n.hs (sess.setRemote r.cpFseid), modPieces n.ueip ord r') := by
          simp only [Node.job]
          rw [cut.seid, cut.cpFseid, ha]
          simp only [Option.bind_some, hs]
        rw [(job_dp hj').1, ← modify_pieces, ← e1]
        exact ht

end Eupf
