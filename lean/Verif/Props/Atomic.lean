import Verif.Xdp.Fate
import Verif.Props.WriteOrder
import Verif.Props.Overlap
/-
C110: as far as a packet can tell, establishments and deletions take effect at once.
-/
namespace Eupf
open Act

/-- A frame has one match key. -/
theorem FrameFor.unique {e : Env} {f : List U8} {K L : PdrKey} (h : FrameFor e f K) (h' : FrameFor e f L) : K = L := by
  have x46 : IsDown4 e f → IsDown6 f → False := fun h h' => by
    have := h.ip.type.symm.trans h'.ip.type
    revert this; decide
  have x6 : ∀ {t}, IsGtpMsg e f t → IsDown6 f → False := fun h h' => by
    have := h.gtpu.ip.type.symm.trans h'.ip.type
    revert this; decide
  cases K <;> cases L <;> obtain ⟨h1, rfl⟩ := h <;> obtain ⟨h2, rfl⟩ := h'
  · rfl
  · exact absurd h1.gtpu h2.notGtpu
  · exact (x6 h1 h2).elim
  · exact absurd h2.gtpu h1.notGtpu
  · rfl
  · exact (x46 h1 h2).elim
  · exact (x6 h2 h1).elim
  · exact (x46 h2 h1).elim
  · rfl

/-- the rule of a frame under an entry stored for one PDR is the PDR's -/
theorem frameRule_store {b : BpfObjects} {p : PdrInfo} {K : PdrKey} (he : b.entry? K = some (pdrToStore none p)) {e : Env} {f : List U8}
    (hf : FrameFor e f K) {r : Rule} (hr : frameRule b f K = some r) : r = p.rule := by
  by_cases hfit : p.fitsFrame K f
  · rw [frameRule_fits he hf.keyOf hfit] at hr; cases hr; rfl
  · rw [frameRule_unfit (p := p) _ hf.keyOf hfit] at hr
    · cases hr
    · intro m; rw [he, classify_store]; unfold PdrInfo.says; cases p.sdf <;> rfl

theorem frameRule_none {b : BpfObjects} {K : PdrKey} (he : b.entry? K = none) {e : Env} {f : List U8} (hf : FrameFor e f K) : frameRule b f K = none := by
  cases K with
  | ul t => obtain ⟨-, rfl⟩ := hf; have h : b.pdrUl.lookup (gtpTeid f) = none := he; simp only [frameRule, ulRule, h]
  | dl4 t => obtain ⟨-, rfl⟩ := hf; have h : b.pdrDl4.lookup (be32 f 30) = none := he; simp only [frameRule, dlRule4, h, classify]
  | dl6 t => obtain ⟨-, rfl⟩ := hf; have h : b.pdrDl6.lookup (be128 (slice f 38 16)) = none := he; simp only [frameRule, dlRule6, h, classify]

theorem timedAs_entry (d b : BpfObjects) (K : PdrKey) : (d.timedAs b).entry? K = d.entry? K := by cases K <;> rfl

/-- the same FARs and QERs up to timers -/
theorem SameRules.lookups {d b : BpfObjects} (h : SameRules d b) (g : U32) : b.far.lookup g = (d.timedAs b).far.lookup g ∧ b.qer.lookup g = (d.timedAs b).qer.lookup g := by
  refine ⟨by rw [h.far]; rfl, ?_⟩
  unfold ArrMap.lookup
  show _ = if g.toNat < d.qer.size.toNat then _ else _
  rw [h.qer.1]
  split
  · have := h.qer.2 g
    show some (b.qer.val g) = some { d.qer.val g with startUL := (b.qer.val g).startUL, startDL := (b.qer.val g).startDL }
    simp only [QerInfo.mk.injEq] at this
    obtain ⟨g1, g2, g3, g4, g5, -⟩ := this
    congr 1
    simp only
    rw [← g1, ← g2, ← g3, ← g4, ← g5]
  · rfl

/-- alike for the only key of the frame -/
theorem alikeFor_key {e : Env} {f : List U8} {K : PdrKey} (hf : FrameFor e f K) {b c : BpfObjects} (h1 : b.entry? K = c.entry? K)
    (h2 : ∀ r, frameRule b f K = some r → b.far.lookup r.far = c.far.lookup r.far ∧ b.qer.lookup r.qer = c.qer.lookup r.qer) : AlikeFor e f b c := by
  intro L hL
  obtain rfl := hL.unique hf
  exact ⟨h1, h2⟩

/-- the entry of the frame's key is the node's, and so are FARs and QERs -/
theorem alike_rules {e : Env} {f : List U8} {K : PdrKey} (hf : FrameFor e f K) {b d : BpfObjects} (h1 : b.entry? K = d.entry? K) (h2 : SameRules d b) :
    AlikeFor e f b (d.timedAs b) :=
  alikeFor_key hf (by rw [timedAs_entry]; exact h1) fun r _ => ⟨(h2.lookups r.far).1, (h2.lookups r.qer).2⟩

theorem alike_gone {e : Env} {f : List U8} {K : PdrKey} (hf : FrameFor e f K) {b d : BpfObjects} (h1 : b.entry? K = none) (h2 : d.entry? K = none) :
    AlikeFor e f b (d.timedAs b) :=
  alikeFor_key hf (by rw [timedAs_entry, h1, h2]) fun r hr => by rw [frameRule_none h1 hf] at hr; cases hr

/-- no frame of a key is alike for all tables -/
theorem alike_foreign {e : Env} {f : List U8} (hf : ∀ K, ¬ FrameFor e f K) (b c : BpfObjects) : AlikeFor e f b c := fun K h => absurd h (hf K)

section
variable {cfg : NodeCfg} {rm : Option ResourceManager} {pz fz qz uz : U32} (hfz : 0 < fz.toNat) (hqz : 0 < qz.toNat)
    (huz : 0 < uz.toNat) {h : List (Ev × Outcome)} {n : Node} (H : HistP Clean (Node.init cfg rm (BpfObjects.load pz fz qz uz)) h n)
    (hb : attempts h < 2 ^ 64 - 2)
include hfz hqz huz H hb

/-- The entry of the frame's key is the node's, and the slots of every session that has a PDR with the key are what the session says. -/
theorem alike_owner {e : Env} {f : List U8} {K : PdrKey} (hf : FrameFor e f K) {b : BpfObjects} (h1 : b.entry? K = n.dp.entry? K)
    (hs : ∀ a s x i p, n.session? a s = some x → x.pdrs.get? i = some p → p.key = K →
      (∀ i fi, x.fars.get? i = some fi → b.far.lookup fi.gid = some fi.info) ∧
      (∀ i qi, x.qers.get? i = some qi → ∃ k, b.qer.lookup qi.gid = some k ∧ k.gateUL = qi.info.gateUL ∧ k.gateDL = qi.info.gateDL ∧
      k.qfi = qi.info.qfi ∧ k.mbrUL = qi.info.mbrUL ∧ k.mbrDL = qi.info.mbrDL)) : AlikeFor e f b (n.dp.timedAs b) := by
  obtain ⟨ex, -⟩ := exactS_hist hfz hqz huz (H.mono fun n e (h : Clean n e) => h.orderly) hb
  by_cases hn : n.dp.entry? K = none
  · exact alike_gone hf (h1.trans hn) hn
  have ⟨a, s, i, p, ⟨x, hx, hp⟩, hk⟩ : ∃ a s i p, n.hasPdr a s i p ∧ p.key = K := by
    refine Classical.byContradiction fun hno => hn (ex.only K fun a s i p hp hk => hno ⟨a, s, i, p, hp, hk⟩)
  have hl := ex.live a s i p ⟨x, hx, hp⟩
  rw [hk] at hl
  obtain ⟨j, fi, k, qi, g1, g2, g3, g4, g5, ⟨q, g6, q1, q2, q3, q4, q5⟩, -⟩ := C99_own_rules_partial hfz hqz huz H hx hp
  obtain ⟨s1, s2⟩ := hs a s x i p hx hp hk
  refine alikeFor_key hf (by rw [timedAs_entry]; exact h1) fun r hr => ?_
  obtain rfl := frameRule_store (h1.trans hl) hf hr
  refine ⟨?_, ?_⟩
  · show b.far.lookup p.info.farId = n.dp.far.lookup p.info.farId
    rw [g5, g3]; exact s1 j fi g1
  · show b.qer.lookup p.info.qerId = (n.dp.timedAs b).qer.lookup p.info.qerId
    obtain ⟨q', t1, r1, r2, r3, r4, r5⟩ := s2 k qi g2
    rw [← g4] at t1
    rw [t1]
    unfold ArrMap.lookup at g6 t1 ⊢
    split at g6
    · rename_i hlt
      show _ = if p.info.qerId.toNat < n.dp.qer.size.toNat then _ else _
      rw [if_pos hlt]
      cases g6
      split at t1
      · cases t1
        show some (b.qer.val p.info.qerId) = some { n.dp.qer.val p.info.qerId with startUL := (b.qer.val p.info.qerId).startUL, startDL := (b.qer.val p.info.qerId).startDL }
        congr 1
        simp only
        rw [q1, q2, q3, q4, q5, ← r1, ← r2, ← r3, ← r4, ← r5]
      · cases t1
    · cases g6

/-- The entry is the node's, and the event is about no session with the key. -/
theorem alike_before {e : Env} {f : List U8} {K : PdrKey} (hf : FrameFor e f K) {ev : Ev} (hr : ev.refsKnown n) {b : BpfObjects} (hm : n.moment ev b)
    (h1 : b.entry? K = n.dp.entry? K) (hab : ∀ a s x i p, n.session? a s = some x → x.pdrs.get? i = some p → p.key = K → ¬ ev.about a s) :
    AlikeFor e f b (n.dp.timedAs b) :=
  alike_owner hfz hqz huz H hb hf h1 fun a s x i p hx hp hk =>
    moment_rules (C106_as_a_whole (H.mono fun n e (h : Clean n e) => h.tidy.known)) hx hr (hab a s x i p hx hp hk) hm

end

theorem entry?_same {b c : BpfObjects} (h : SamePdrs b c) (K : PdrKey) : c.entry? K = b.entry? K := entry_pdr h.ul h.dl4 h.dl6 K

/-- At every moment of an orderly establishment each PDR entry is what it was before or what it is after. -/
theorem est_entries {n : Node} (h : ExactS n) {addr : Addr} {r : EstReq} (ho : Orderly n (.establish addr r))
    (hfresh : ∀ as, n.assocs.get? addr = some as → n.session? addr (as.nextSessionID + 1) = none) (hc : (n.step (.establish addr r)).2 ≠ .crash)
    {b : BpfObjects} (hb : n.moment (.establish addr r) b) (K : PdrKey) :
    b.entry? K = n.dp.entry? K ∨ b.entry? K = (n.step (.establish addr r)).1.dp.entry? K := by
  cases hj : n.job (.establish addr r) with
  | none =>
    unfold Node.moment at hb
    rw [hj] at hb
    exact .inl (entry?_traffic hb K)
  | some x =>
    obtain ⟨s, l⟩ := x
    obtain ⟨remote, as, hv, ha, hj'⟩ : ∃ remote as, validateRequest r.nodeId r.cpFseid = some remote ∧ n.assocs.get? addr = some as ∧
        some (n.hs (Session.new (as.nextSessionID + 1) remote), estPieces n.ueip r) = some (s, l) := by
      simp only [Node.job] at hj
      split at hj
      · rename_i remote as hv ha; exact ⟨remote, as, hv, ha, hj⟩
      · cases hj
    cases hj'
    have hcp := (validateRequest_some hv).2
    obtain ⟨d1, -⟩ := job_dp hj
    have hst := step_pieces hj
    have hans := ho.answered
    have hfr := ho.fresh
    have hap := ho.apart
    have hnd := ho.est addr r rfl
    rcases hall : Act.all (estPieces n.ueip r) (n.hs (Session.new (as.nextSessionID + 1) remote)) with ⟨t9, res⟩
    rw [hall] at hst d1
    have hres : res = .ok () := by
      cases res with
      | ok u => rfl
      | err =>
        refine absurd rfl (hans { type := .establishment, seid := remote, seq := r.seq, cause := causeRuleFailure } ?_)
        rw [hst]; simp only [Node.conclude, hcp, ha]
      | panic => refine absurd ?_ hc; rw [hst]; simp only [Node.conclude, hcp, ha]
    subst hres
    have hse : (n.step (.establish addr r)).1.session? addr (as.nextSessionID + 1) = some t9.sess := by
      rw [hst]; simp [Node.conclude, hcp, ha, Node.session?]
    have hno : ∀ i p, ¬ n.hasPdr addr (as.nextSessionID + 1) i p := by
      rintro i p ⟨x, hx, -⟩
      rw [hfresh as ha] at hx; cases hx
    clear hst
    rw [d1]
    obtain ⟨l1, l2, hcut, ht⟩ := moment_cut hj hb
    rw [entry?_traffic ht K]
    have hl : estPieces n.ueip r = (r.createPdr.map displayPdr ++ (r.createFar.map createFar ++ (r.createQer.map createQer ++ r.createUrr.map createUrr))) ++
        r.createPdr.map (createPdr n.ueip) := by simp [estPieces]
    have hA : ∀ m ∈ (r.createPdr.map displayPdr ++ (r.createFar.map createFar ++ (r.createQer.map createQer ++ r.createUrr.map createUrr))), ∀ s, RuleFrame s (m s).1 :=
      mem_app_imp (P := fun m => ∀ s, RuleFrame s (m s).1) (mem_map_imp fun x s => by rw [displayPdr_same]; exact .refl _) (mem_app_imp (mem_map_imp fun x => createFar_rf x)
        (mem_app_imp (mem_map_imp fun x => createQer_rf x) (mem_map_imp fun x => createUrr_rf x)))
    rw [hl] at hcut hall
    generalize r.createPdr.map displayPdr ++ (r.createFar.map createFar ++ (r.createQer.map createQer ++ r.createUrr.map createUrr)) = A at hcut hall hA
    have hs0 : (n.hs (Session.new (as.nextSessionID + 1) remote)).dp = n.dp := rfl
    let I : HS → Prop := fun s => Own n.dp.entry? s ∧ ∀ i, s.sess.pdrs.get? i = none
    have i0 : I (n.hs (Session.new (as.nextSessionID + 1) remote)) :=
      ⟨⟨fun i p hp => by simp [Node.hs, Session.new] at hp, fun k _ => rfl⟩, fun i => by simp [Node.hs, Session.new]⟩
    rcases cut_append hcut with ⟨c, hcA⟩ | ⟨c, rfl, hcB⟩
    · left
      exact entry?_same (keepsPdrs_all (l := l1) (fun m hm => keepsPdrs_rf (hA m (by rw [hcA]; simp [hm]))) _) K
    · rcases hr : Act.all A (n.hs (Session.new (as.nextSessionID + 1) remote)) with ⟨t, res⟩
      have hres : res = .ok () := by
        refine Classical.byContradiction fun hn => ?_
        rw [Act.all_failed hr hn] at hall
        cases hall; exact hn rfl
      subst hres
      rw [all_after hr] at hall ⊢
      obtain ⟨hIo, hIn⟩ : I t := by
        have := (pres_all (I := I) fun m hm => pres_of fun s hi => (⟨hi.1.frame (hA m hm s), fun i => by rw [(hA m hm s).pdrs]; exact hi.2 i⟩ : I (m s).1)).apply i0
        rw [hr] at this; exact this
      clear hcut hb ht hr i0 hA
      obtain ⟨la, lb, hab, rfl, rfl⟩ := List.map_eq_append_iff.1 hcB
      rw [Act.all_map] at hall ⊢
      rw [hab] at hall hnd
      rw [List.map_append, List.nodup_append] at hnd
      obtain ⟨hnd1, hnd2, hnd3⟩ := hnd
      obtain ⟨ta, e1, e2⟩ := each_append_ok la hall
      rw [e1]
      have new : ∀ j q, ta.sess.pdrs.get? j = some q → ∃ ie ∈ la, ∃ i, ie.pdrId = some i ∧ i.zeroExtend 32 = j := by
        intro j q hq
        refine Classical.byContradiction fun hno => ?_
        rw [creates_pdrs_keep _ e1 (j := j), hIn] at hq
        · cases hq
        · rintro ie hie i hi hc
          exact hno ⟨ie, hie, i, hi, hc⟩
      have kept : ∀ j q, ta.sess.pdrs.get? j = some q → t9.sess.pdrs.get? j = some q := by
        intro j q hq
        obtain ⟨ie, hie, i, hi, rfl⟩ := new j q hq
        rw [creates_pdrs_keep _ e2, hq]
        intro ie' hie' i' hi' hc
        exact hnd3 _ (List.mem_map_of_mem hie) _ (List.mem_map_of_mem hie') (by rw [hi, hi', zext_inj hc])
      have hO : ∀ j p, t9.sess.pdrs.get? j = some p → n.dp.entry? p.key = none := fun j p hp =>
        h.only p.key fun b' t' j' q hq => hfr addr (as.nextSessionID + 1) j p ⟨_, hse, hp⟩ (fun q => hno j q) b' t' j' q hq
      have hinj : ∀ i j p q, t9.sess.pdrs.get? i = some p → t9.sess.pdrs.get? j = some q → p.key = q.key → i = j := fun i j p q hp hq hk =>
        (hap.keys _ _ _ _ _ _ _ _ ⟨_, hse, hp⟩ ⟨_, hse, hq⟩ hk).2.2
      have oa : Own n.dp.entry? ta := own_creates _ e1 hnd1 (fun ie _ i _ => hIn _) (fun j p hp _ => hO j p (kept j p hp))
        (fun i j p q hp hq hk => hinj i j p q (kept i p hp) (kept j q hq) hk) hIo
      have o9 : Own n.dp.entry? t9 := by
        refine own_creates (la ++ lb) hall ?_ (fun ie _ i _ => hIn _) (fun j p hp _ => hO j p hp) hinj hIo
        rw [List.map_append, List.nodup_append]; exact ⟨hnd1, hnd2, hnd3⟩
      by_cases hK : ∃ i p, ta.sess.pdrs.get? i = some p ∧ p.key = K
      · right
        obtain ⟨i, p, hp, rfl⟩ := hK
        rw [oa.own i p hp, o9.own i p (kept i p hp)]
      · left
        exact oa.rest K fun i p hp hk => hK ⟨i, p, hp, hk⟩

/-- A PDR that is deleted leaves an entry alone or removes it. -/
theorem deletePdr_entry (ord : Orders) (p : SPdr) (s : HS) (K : PdrKey) :
    (deletePdr ord p s).1.dp.entry? K = s.dp.entry? K ∨ (deletePdr ord p s).1.dp.entry? K = none := by
  obtain ⟨rm, e⟩ := deletePdr_dp ord p s
  rw [e]
  show (deletePdrEntry p s).1.dp.entry? K = _ ∨ (deletePdrEntry p s).1.dp.entry? K = none
  cases deletePdrEntry_cases p s with
  | gone dp c e1 e2 e3 e4 =>
    rw [e1]
    show dp.entry? K = _ ∨ dp.entry? K = none
    rw [e3]
    split
    · exact .inr rfl
    · exact .inl rfl
  | absent e1 e2 => rw [e1]; exact .inl rfl
  | skipped e1 => rw [e1]; exact .inl rfl

/-- At every moment of a deletion each PDR entry is what it was before, or there is none any more. -/
theorem del_entries {n : Node} {addr : Addr} {r : DelReq} {ord : Orders} {b : BpfObjects} (hb : n.moment (.delete addr r ord) b) (K : PdrKey) :
    b.entry? K = n.dp.entry? K ∨ (b.entry? K = none ∧ (n.step (.delete addr r ord)).1.dp.entry? K = none) := by
  cases hj : n.job (.delete addr r ord) with
  | none =>
    unfold Node.moment at hb
    rw [hj] at hb
    exact .inl (entry?_traffic hb K)
  | some x =>
    obtain ⟨s, l⟩ := x
    obtain ⟨x, rfl⟩ : ∃ x, l = delPieces ord x := by
      simp only [Node.job] at hj
      split at hj
      · cases hj; exact ⟨_, rfl⟩
      · cases hj
    obtain ⟨d1, d2⟩ := job_dp hj
    obtain ⟨l1, l2, hcut, ht⟩ := moment_cut hj hb
    rw [entry?_traffic ht K, d1, ← d2, hcut]
    have hP : ∀ m ∈ delPieces ord x, ∀ t, (m t).1.dp.entry? K = t.dp.entry? K ∨ (m t).1.dp.entry? K = none :=
      mem_app_imp (P := fun m => ∀ t, (m t).1.dp.entry? K = t.dp.entry? K ∨ (m t).1.dp.entry? K = none) (mem_map_imp fun x t => deletePdr_entry ord x.2 t K)
        (mem_app_imp (mem_map_imp fun x t => .inl ((dropFar_rf x t).entry K)) (mem_app_imp (mem_map_imp fun x t => .inl ((dropQer_rf x t).entry K))
        (mem_map_imp fun x t => .inl ((dropUrr_rf x t).entry K))))
    rw [hcut] at hP
    have none_stays : ∀ l : List Piece, (∀ m ∈ l, m ∈ l1 ++ l2) → ∀ t : HS, t.dp.entry? K = none → (Act.all l t).1.dp.entry? K = none := fun l hl t h0 =>
      (pres_all (I := fun t => t.dp.entry? K = none) fun m hm => pres_of fun t h => (by rcases hP m (hl m hm) t with h1 | h1; exact h1.trans h; exact h1)).apply h0
    have h1 : (Act.all l1 s).1.dp.entry? K = s.dp.entry? K ∨ (Act.all l1 s).1.dp.entry? K = none :=
      (pres_all (I := fun t => t.dp.entry? K = s.dp.entry? K ∨ t.dp.entry? K = none) fun m hm => pres_of fun t h => (by
        rcases hP m (by simp [hm]) t with h1 | h1
        · rw [h1]; exact h
        · exact .inr h1)).apply (s := s) (.inl rfl)
    refine h1.imp id fun h1 => ⟨h1, ?_⟩
    rcases hr : Act.all l1 s with ⟨t, res⟩
    rw [hr] at h1
    by_cases hok : res = .ok ()
    · subst hok
      rw [all_after hr]
      exact none_stays l2 (fun m hm => by simp [hm]) t h1
    · rw [Act.all_failed hr hok]; exact h1

/-- After an orderly deletion the session is gone. -/
theorem delete_absent {n : Node} {addr : Addr} {r : DelReq} {ord : Orders} (ho : Orderly n (.delete addr r ord))
    (hc : (n.step (.delete addr r ord)).2 ≠ .crash) : (n.step (.delete addr r ord)).1.session? addr r.seid = none := by
  have hdel := ho.deleted addr r ord rfl
  generalize hst : n.step (.delete addr r ord) = st at *
  have hst' : n.delete addr r ord = st := hst
  cases delete_cases n addr r ord with
  | refused c hcc hs he => rw [he] at hst'; subst hst'; exact hs
  | ran a sess hs res ha hsess hbody he =>
    rw [he] at hst'
    cases res with
    | ok u => subst hst'; simp [Node.delResult, Node.session?]
    | err => subst hst'; exact absurd rfl hdel
    | panic => subst hst'; exact absurd rfl hc

section
variable {cfg : NodeCfg} {rm : Option ResourceManager} {pz fz qz uz : U32} (hfz : 0 < fz.toNat) (hqz : 0 < qz.toNat)
    (huz : 0 < uz.toNat) {h : List (Ev × Outcome)} {n : Node} (H : HistI Clean (Node.init cfg rm (BpfObjects.load pz fz qz uz)) h n)
include hfz hqz huz H

/-- **C110, establishment.** After every history as in C99, at every moment of a further such establishment, a packet meets the fate it meets before
the establishment, or the fate it meets after it (with the rate limiters' timers as they are). Not for pings of the UPF itself. -/
theorem C110_establish_partial {a : Addr} {r : EstReq} (hcl : Clean n (.establish a r)) (hc : (n.step (.establish a r)).2 ≠ .crash)
    (hb : attempts h < 2 ^ 64 - 2) {b : BpfObjects} (hm : n.moment (.establish a r) b) {e : Env} {f : List U8} (hp : ¬ PingsUpf e f) :
    SameFate e f b (n.dp.timedAs b) ∨ SameFate e f b ((n.step (.establish a r)).1.dp.timedAs b) := by
  obtain ⟨h', H', he⟩ := C106_interleaved H
  have hb' : attempts h' < 2 ^ 64 - 2 := by rw [← attempts_plainly h', he, attempts_plainly]; exact hb
  by_cases hf : ∃ K, FrameFor e f K
  · obtain ⟨K, hf⟩ := hf
    obtain ⟨ex, -⟩ := exactS_hist hfz hqz huz (H'.mono fun n e (h : Clean n e) => h.orderly) hb'
    have before : b.entry? K = n.dp.entry? K → SameFate e f b (n.dp.timedAs b) := fun h1 =>
      (alike_before hfz hqz huz H' hb' hf hcl.tidy.known hm h1 fun _ _ _ _ _ _ _ _ h => h).fate hp
    rcases C109_establish hm with h1 | h1
    · exact .inl (before (entry?_same h1 K))
    · rcases est_entries ex hcl.orderly (fun as has => Classical.byContradiction fun hne => (linv_hist H'.hist hb').fresh hb' hne as has rfl) hc hm K with h2 | h2
      · exact .inl (before h2)
      · exact .inr ((alike_rules hf h2 h1).fate hp)
  · exact .inl ((alike_foreign (fun K hK => hf ⟨K, hK⟩) _ _).fate hp)

/-- **C110, deletion.** The same of deletions. -/
theorem C110_delete_partial {a : Addr} {r : DelReq} {ord : Orders} (hcl : Clean n (.delete a r ord)) (hc : (n.step (.delete a r ord)).2 ≠ .crash)
    (hb : attempts h < 2 ^ 64 - 2) {b : BpfObjects} (hm : n.moment (.delete a r ord) b) {e : Env} {f : List U8} (hp : ¬ PingsUpf e f) :
    SameFate e f b (n.dp.timedAs b) ∨ SameFate e f b ((n.step (.delete a r ord)).1.dp.timedAs b) := by
  obtain ⟨h', H', he⟩ := C106_interleaved H
  have hb' : attempts h' < 2 ^ 64 - 2 := by rw [← attempts_plainly h', he, attempts_plainly]; exact hb
  by_cases hf : ∃ K, FrameFor e f K
  · obtain ⟨K, hf⟩ := hf
    rcases C109_delete hm with h1 | h1
    · rcases del_entries hm K with h2 | ⟨h2, h3⟩
      · exact .inl ((alike_rules hf h2 h1).fate hp)
      · exact .inr ((alike_gone hf h2 h3).fate hp)
    · have H2 := HistP.step (.delete a r ord) H' hcl hc
      have hb2 : attempts ((Ev.delete a r ord, (n.step (.delete a r ord)).2) :: h') < 2 ^ 64 - 2 := hb'
      right
      refine (alike_owner hfz hqz huz H2 hb2 hf (entry?_same h1 K) ?_).fate hp
      intro a' s' x i p hx hp' hk
      have hne : (a', s') ≠ (a, r.seid) := by
        rintro ⟨⟩
        rw [delete_absent hcl.orderly hc] at hx; cases hx
      have hx' : n.session? a' s' = some x := by rw [← (C05_isolation n a a' s').2.2 r ord hne]; exact hx
      exact moment_rules (C106_as_a_whole (H'.mono fun n e (h : Clean n e) => h.tidy.known)) hx' hcl.tidy.known (fun ⟨q1, q2⟩ => hne (by rw [q1, q2])) hm
  · exact .inl ((alike_foreign (fun K hK => hf ⟨K, hK⟩) _ _).fate hp)

end

end Eupf
