import Verif.Props.Accounting
/-
C60: TEIDs nobody configured.
-/
namespace Eupf
open Act

/-! ### specification -/

/-- A Create/Update PDR that gives TEID `t` explicitly. -/
def PdrIE.givesTeid (ie : PdrIE) (t : U32) : Prop :=
  ∃ pdi f, ie.pdi = some pdi ∧ pdi.fteid = some (some f) ∧ f.ch = false ∧ f.teid = t
/-- A message that gives TEID `t` to a PDR. -/
def Ev.givesTeid (t : U32) : Ev → Prop
  | .establish _ r => ∃ ie ∈ r.createPdr, ie.givesTeid t
  | .modify _ r _ => ∃ ie ∈ r.createPdr ++ r.updatePdr, ie.givesTeid t
  | _ => False
/-- `t` is in the pool: free or handed out. -/
def InPool (rm : Option ResourceManager) (t : U32) : Prop :=
  ∃ r, rm = some r ∧ (t ∈ r.fteidm.freeTEIDs ∨ ∃ k m i, r.fteidm.busyTEIDs.get? k = some m ∧ m.get? i = some t)

/-! ### pools -/

theorem allocTeid_pool {seid : U64} {pdr : U32} {rm : Option ResourceManager} {t : U32} (h : ¬ InPool rm t) :
    ¬ InPool (allocTeid seid pdr rm).1 t ∧ (allocTeid seid pdr rm).2 ≠ some t := by
  unfold allocTeid
  cases rm with
  | none => exact ⟨h, by simp⟩
  | some r =>
    simp only [FTEIDM.allocate]
    split
    · exact ⟨h, by simp⟩
    · rename_i x rest hfree
      have hx : x ≠ t := by rintro rfl; exact h ⟨r, rfl, .inl (by rw [hfree]; simp)⟩
      refine ⟨?_, by simpa using hx⟩
      rintro ⟨r', e, h'⟩
      cases e
      rcases h' with h' | ⟨k, m, i, h1, h2⟩
      · exact h ⟨r, rfl, .inl (by rw [hfree]; exact List.mem_cons_of_mem _ h')⟩
      · simp only [GoMap.get?_set] at h1
        split at h1
        · cases h1
          cases hb : r.fteidm.busyTEIDs.get? seid with
          | none =>
            rw [hb] at h2
            simp only [GoMap.get?_set, GoMap.get?_empty] at h2
            split at h2
            · cases h2; exact hx rfl
            · cases h2
          | some pm =>
            rw [hb] at h2
            simp only [GoMap.get?_set] at h2
            split at h2
            · cases h2; exact hx rfl
            · exact h ⟨r, rfl, .inr ⟨_, _, _, hb, h2⟩⟩
        · exact h ⟨r, rfl, .inr ⟨_, _, _, h1, h2⟩⟩

theorem release_pool {ord : Shuffle (U32 × U32)} {k : U64} {r : ResourceManager} {ip : IPAM} {t : U32} (h : ¬ InPool (some r) t) :
    ¬ InPool (some ⟨ip, r.fteidm.release ord k⟩) t := by
  rintro ⟨r', e, h'⟩
  cases e
  unfold FTEIDM.release at h'
  cases hb : r.fteidm.busyTEIDs.get? k with
  | none => rw [hb] at h'; exact h ⟨r, rfl, h'⟩
  | some pm =>
    rw [hb] at h'
    rcases h' with h' | ⟨k', m, i, h1, h2⟩
    · rcases List.mem_append.1 h' with h' | h'
      · exact h ⟨r, rfl, .inl h'⟩
      · obtain ⟨⟨i, x⟩, hm, rfl⟩ := List.mem_map.1 h'
        exact h ⟨r, rfl, .inr ⟨k, pm, i, hb, (pm.mem_entries_iff i x).1 ((ord.perm _).mem_iff.1 hm)⟩⟩
    · simp only [GoMap.get?_erase] at h1
      split at h1
      · cases h1
      · exact h ⟨r, rfl, .inr ⟨_, _, _, h1, h2⟩⟩

/-! ### bodies -/

abbrev NTS (t : U32) (s : Session) : Prop := ∀ i p, s.pdrs.get? i = some p → p.teid ≠ t
abbrev NTG (t : U32) (rm : Option ResourceManager) (dp : BpfObjects) : Prop := dp.entry? (.ul t) = none ∧ ¬ InPool rm t
/-- invariant of bodies: also nothing in the TEID cache -/
def NT (t : U32) (s : HS) : Prop := HI (NTS t) (NTG t) s ∧ ∀ c v, s.cache.get? c = some v → v ≠ t

variable {t : U32}

theorem nt_frame {s s' : HS} (h : RuleFrame s s') (hs : NT t s) : NT t s' :=
  ⟨⟨fun i p hp => hs.1.1 i p (by rw [← h.pdrs]; exact hp), by rw [h.entry]; exact hs.1.2.1, by rw [h.rm]; exact hs.1.2.2⟩,
   fun c v hv => hs.2 c v (by rw [← h.cache]; exact hv)⟩

theorem nt_fteid {f : Fteid} (hf : ¬ (f.ch = false ∧ f.teid = t)) (p : SPdr) {s : HS} (h : NT t s) :
    NT t (pdrFteid f p s).1 ∧ ∀ p', (pdrFteid f p s).2 = .ok p' → p'.teid ≠ t := by
  unfold pdrFteid
  split
  · split
    · rename_i v hv
      refine ⟨h, ?_⟩
      rintro p' e; cases e
      obtain ⟨c, _, hc⟩ := Option.bind_eq_some_iff.1 hv
      exact h.2 c v hc
    · have hal := allocTeid_pool (seid := s.sess.remoteSEID) (pdr := p.pdrId) h.1.2.2
      rcases hx : allocTeid s.sess.remoteSEID p.pdrId s.rm with ⟨rm, r⟩
      rw [hx] at hal
      cases r with
      | none => exact ⟨⟨⟨h.1.1, h.1.2.1, hal.1⟩, h.2⟩, by rintro p' e; cases e⟩
      | some v =>
        have hv : v ≠ t := fun e => hal.2 (by rw [e])
        simp only []
        cases f.chooseId with
        | none => exact ⟨⟨⟨h.1.1, h.1.2.1, hal.1⟩, h.2⟩, by rintro p' e; cases e; exact hv⟩
        | some c =>
          refine ⟨⟨⟨h.1.1, h.1.2.1, hal.1⟩, ?_⟩, by rintro p' e; cases e; exact hv⟩
          intro c' v' hc
          simp only [GoMap.get?_set] at hc
          split at hc
          · cases hc; exact hv
          · exact h.2 _ _ hc
  · rename_i hch
    refine ⟨h, ?_⟩
    rintro p' e; cases e
    intro e2; exact hf ⟨by simpa using hch, e2⟩

theorem allocIp_pool {seid : U64} {rm : Option ResourceManager} (h : ¬ InPool rm t) : ¬ InPool (allocIp seid rm).1 t := by
  unfold allocIp
  cases rm with
  | none => exact h
  | some r => rintro ⟨r', e, h'⟩; cases e; exact h ⟨r, rfl, h'⟩

theorem nt_ueip (ue : Bool) (u : UeIp) (p : SPdr) {s : HS} (h : NT t s) :
    NT t (pdrUeIp ue u p s).1 ∧ ∀ p', (pdrUeIp ue u p s).2 = .ok p' → p'.teid = p.teid := by
  have key : ∀ r : Option ResourceManager × Option Ip4 × Bool, ¬ InPool r.1 t →
      let m : HS × Res SPdr := match r.2.1, u.ipv6 with
        | some ip, _ => ({ s with rm := r.1 }, .ok { p with ipv4 := some ip, allocated := r.2.2 })
        | none, some ip6 => ({ s with rm := r.1 }, .ok { p with ipv6 := some ip6, allocated := r.2.2 })
        | none, none => ({ s with rm := r.1 }, .err)
      NT t m.1 ∧ ∀ p', m.2 = .ok p' → p'.teid = p.teid := by
    intro r hr
    have hn : NT t { s with rm := r.1 } := ⟨⟨h.1.1, h.1.2.1, hr⟩, h.2⟩
    simp only []
    split
    · exact ⟨hn, by rintro p' e; cases e; rfl⟩
    · exact ⟨hn, by rintro p' e; cases e; rfl⟩
    · exact ⟨hn, by rintro p' e; cases e⟩
  unfold pdrUeIp
  apply key
  split
  · have := allocIp_pool (seid := s.sess.remoteSEID) h.1.2.2
    split <;> (rename_i e; rw [e] at this; exact this)
  · exact h.1.2.2

theorem nt_extract {ue : Bool} {ie : PdrIE} (hie : ¬ ie.givesTeid t) {p : SPdr} (hp : p.teid ≠ t) {s : HS} (h : NT t s) :
    NT t (extractPdr ue ie p s).1 ∧ ∀ p', (extractPdr ue ie p s).2 = .ok p' → p'.teid ≠ t := by
  unfold extractPdr
  simp only []
  split
  · exact ⟨h, by rintro p' e; cases e⟩
  · rename_i pdi hpdi
    split
    · exact ⟨h, by rintro p' e; cases e⟩
    · split
      · exact ⟨h, by rintro p' e; cases e⟩
      · rename_i f hf
        exact nt_fteid (fun ⟨h1, h2⟩ => hie ⟨pdi, f, hpdi, hf, h1, h2⟩) _ h
      · split
        · exact ⟨h, by rintro p' e; cases e⟩
        · rename_i info _ _ _ _ u _
          obtain ⟨h1, h2⟩ := nt_ueip ue u { p with info := info } h
          exact ⟨h1, fun p' e => by rw [h2 p' e]; exact hp⟩
        · exact ⟨h, by rintro p' e; cases e; exact hp⟩

theorem nt_apply {p : SPdr} (hp : p.teid ≠ t) : Pres (NT t) (applyPdr p) := by
  apply pres_of; intro s h
  rcases applyPdr_entries p s with ⟨dp, e, hk⟩ | e
  · rw [e]
    refine ⟨⟨h.1.1, ?_, h.1.2.2⟩, h.2⟩
    show dp.entry? (.ul t) = none
    rw [hk, if_neg]
    · exact h.1.2.1
    · unfold SPdr.key; split
      · exact PdrKey.noConfusion
      · exact PdrKey.noConfusion
      · intro e; cases e; exact hp rfl
  · rw [e]; exact h

theorem nt_put (i : U32) {p : SPdr} (hp : p.teid ≠ t) {s : HS} (h : NT t s) : NT t { s with sess := s.sess.putPdr i p } := by
  refine ⟨⟨?_, h.1.2⟩, h.2⟩
  intro j q hq
  simp only [Session.putPdr, GoMap.get?_set] at hq
  split at hq
  · cases hq; exact hp
  · exact h.1.1 j q hq

/-- The first step of a sequence also tells about its result. -/
theorem pres_bind_ok {I : HS → Prop} {α β : Type} {m : Act HS α} {f : α → Act HS β} {Q : α → Prop}
    (hm : ∀ s, I s → I (m s).1 ∧ ∀ a, (m s).2 = .ok a → Q a) (hf : ∀ a, Q a → Pres I (f a)) : Pres I (m >>= f) := by
  apply pres_of; intro s h
  obtain ⟨h1, h2⟩ := hm s h
  simp only [Act.bind_def, Act.bind]
  rcases hx : m s with ⟨s1, r⟩
  rw [hx] at h1 h2
  cases r with
  | ok a => exact (hf a (h2 a rfl)).apply h1
  | err => exact h1
  | panic => exact h1

theorem nt_create {ue : Bool} {ie : PdrIE} (ht : t ≠ 0) (hie : ¬ ie.givesTeid t) : Pres (NT t) (createPdr ue ie) := by
  unfold createPdr
  cases ie.pdrId with
  | none => exact Pres.fail
  | some id =>
    refine pres_bind_ok (Q := fun p => p.teid ≠ t) (fun s h => nt_extract hie (p := { pdrId := id.zeroExtend 32 }) (Ne.symm ht) h) fun p hp => ?_
    exact Pres.bind (Pres.modify fun _ h => nt_put _ hp h) fun _ => Pres.bind (nt_apply hp) fun _ => Pres.modify fun _ h => h

theorem nt_update {ue : Bool} {ie : PdrIE} (ht : t ≠ 0) (hie : ¬ ie.givesTeid t) : Pres (NT t) (updatePdr ue ie) := by
  unfold updatePdr
  cases ie.pdrId with
  | none => exact Pres.fail
  | some id =>
    apply pres_of; intro s h
    have hp : (s.sess.getPdr (id.zeroExtend 32)).teid ≠ t := by
      unfold Session.getPdr
      cases hg : s.sess.pdrs.get? (id.zeroExtend 32) with
      | none => exact Ne.symm ht
      | some p => exact h.1.1 _ p hg
    have : Pres (NT t) (do
        let p ← extractPdr ue ie (s.sess.getPdr (id.zeroExtend 32))
        Act.modify (fun s => { s with sess := s.sess.putPdr (id.zeroExtend 32) p })
        applyPdr p : Act HS Unit) :=
      pres_bind_ok (Q := fun p => p.teid ≠ t) (fun s h => nt_extract hie hp h) fun p hp =>
        Pres.bind (Pres.modify fun _ h => nt_put _ hp h) fun _ => nt_apply hp
    exact this.apply h

theorem nt_release (ord : Orders) : Pres (NT t) (releaseTeids ord) := by
  apply pres_of; intro s h
  unfold releaseTeids
  split
  · exact h
  · rename_i r hr
    exact ⟨⟨h.1.1, h.1.2.1, release_pool (by rw [← hr]; exact h.1.2.2)⟩, h.2⟩

theorem nt_delete (ht : t ≠ 0) (ord : Orders) (p : SPdr) : Pres (NT t) (deletePdr ord p) := by
  apply deletePdr_pres _ (nt_release ord)
  apply pres_of; intro s h
  cases deletePdrEntry_cases p s with
  | gone dp c hd _ hdp hc =>
    rw [hd]
    refine ⟨⟨h.1.1, ?_, h.1.2.2⟩, ?_⟩
    · show dp.entry? (.ul t) = none
      rw [hdp]; split
      · rfl
      · exact h.1.2.1
    · rcases hc with ⟨rfl, _⟩ | ⟨_, rfl, _⟩
      · exact h.2
      · intro c v hv
        simp only [GoMap.get?_set] at hv
        split at hv
        · cases hv; exact Ne.symm ht
        · exact h.2 c v hv
  | absent hd _ => rw [hd]; exact h
  | skipped hd _ _ => rw [hd]; exact h

theorem nt_remove (ht : t ≠ 0) (ord : Orders) (id) : Pres (NT t) (removePdr ord id) := by
  refine Pres.bind Pres.get fun s => ?_
  simp only []
  split
  · exact Pres.pure
  · refine Pres.bind (Pres.modify fun s h => ?_) fun _ => nt_delete ht _ _
    refine ⟨⟨?_, h.1.2⟩, h.2⟩
    intro j q hq
    simp only [Session.removePdr, GoMap.get?_erase] at hq
    split at hq
    · cases hq
    · exact h.1.1 j q hq

theorem nt_keeps {α : Type} {m : Act HS α} (h : Pres (NT t) m) : Keeps (NTS t) (NTG t) m := fun _ hc hs =>
  (h.apply ⟨hs, fun c v hv => by rw [hc] at hv; simp at hv⟩).1

theorem nt_keep (ht : t ≠ 0) : BodiesKeep (fun e => ¬ e.givesTeid t) (NTS t) (NTG t) where
  new _ _ := fun i p hp => by simp [Session.new] at hp
  remote s x h := by cases x with
    | none => exact h
    | some y => cases y <;> exact h
  est _ _ hP _ := nt_keeps (establishBody_rf nt_frame (fun ie hie => nt_create ht fun h => hP ⟨ie, hie, h⟩))
  mod _ _ _ hP _ := nt_keeps (modifyBody_rf nt_frame
    (fun ie hie => nt_create ht fun h => hP ⟨ie, List.mem_append_left _ hie, h⟩)
    (fun ie hie => nt_update ht fun h => hP ⟨ie, List.mem_append_right _ hie, h⟩) (fun _ _ => nt_remove ht _ _))
  del _ _ _ := nt_keeps (deleteBody_rf nt_frame (fun _ _ => nt_delete ht _ _))
  dels _ _ _ := nt_keeps (deleteSessionBody_rf nt_frame (fun _ _ => nt_delete ht _ _))
  rel o k rm dp h := by
    refine ⟨h.1, ?_⟩
    cases rm with
    | none => exact h.2
    | some r => exact release_pool h.2
  traffic _ _ _ h tr := ⟨by rw [entry_pdr tr.pdrUl tr.pdrDl4 tr.pdrDl6]; exact h.1, h.2⟩

/-- **C60.** A TEID that is not 0, not in the pool the node was started with and not given by any Create/Update PDR in the history is unknown to the
forwarding plane: a G-PDU with this TEID is passed to the kernel as it is, and no table (so no volume, no rate limiter) changes. -/
theorem C60_never_configured {cfg : NodeCfg} {rm : Option ResourceManager} {dp : BpfObjects} (h0 : ∀ k, dp.entry? k = none)
    (ht : t ≠ 0) (hpool : ¬ InPool rm t) {h : List (Ev × Outcome)} {n : Node} (H : Hist (Node.init cfg rm dp) h n)
    (hP : ∀ x ∈ h, ¬ x.1.givesTeid t) (e : Env) (s : PS) (hdp : s.dp = n.dp) (hm : IsGtpMsg e s.frame 255) (hteid : gtpTeid s.frame = t) :
    ∃ s', runPacket e s = (s', .ok .pass) ∧ s'.frame = s.frame ∧ s'.dp = s.dp := by
  have inv := ni_hist (nt_keep ht) ⟨h0 _, hpool⟩ H hP
  exact C25_unknown_teid e s hm (by rw [hteid, hdp]; exact inv.2.1)

/-- **C60, with the pool as configured**: `range` TEIDs from 1. -/
theorem C60_outside_pool {cfg : NodeCfg} {ips : List Ip4} {range : U32} {dp : BpfObjects} (h0 : ∀ k, dp.entry? k = none)
    (ht : range.toNat < t.toNat) {h : List (Ev × Outcome)} {n : Node} (H : Hist (Node.init cfg (some (newResourceManager ips range)) dp) h n)
    (hP : ∀ x ∈ h, ¬ x.1.givesTeid t) (e : Env) (s : PS) (hdp : s.dp = n.dp) (hm : IsGtpMsg e s.frame 255) (hteid : gtpTeid s.frame = t) :
    ∃ s', runPacket e s = (s', .ok .pass) ∧ s'.frame = s.frame ∧ s'.dp = s.dp := by
  refine C60_never_configured h0 ?_ ?_ H hP e s hdp hm hteid
  · rintro rfl; simp at ht
  · rintro ⟨r, e, h⟩
    cases e
    rcases h with h | ⟨k, m, i, h1, _⟩
    · have := (mem_teidPool range t).1 h; omega
    · simp [newResourceManager] at h1

/-- The history of `Demo.evs` (pool 1..8, three sessions with chosen TEIDs) meets the hypotheses for the TEID of `DemoDp.upUnknown`. -/
example : ∃ n h, Hist Demo.n0 h n ∧ h.length = 6 ∧ (∀ x ∈ h, ¬ x.1.givesTeid (gtpTeid DemoDp.upUnknown)) ∧
    (8 : U32).toNat < (gtpTeid DemoDp.upUnknown).toNat ∧ (n.dp.entry? (.ul 2)).isSome := by
  refine ⟨Demo.nEnd, Demo.n0.observed Demo.evs, hist_run_init _ (by decide +kernel), by decide +kernel, ?_, by decide +kernel, by decide +kernel⟩
  intro x hx
  have hx : x.1 ∈ Demo.evs := by
    unfold Node.observed at hx
    exact (List.of_mem_zip (List.mem_reverse.1 hx)).1
  simp only [Demo.evs, List.mem_cons, List.not_mem_nil, or_false] at hx
  have key : ∀ cp, ¬ ∃ ie ∈ (Demo.est cp).createPdr, ie.givesTeid (gtpTeid DemoDp.upUnknown) := by
    rintro cp ⟨ie, hie, pdi, f, h1, h2, h3, _⟩
    simp only [Demo.est, List.mem_cons, List.not_mem_nil, or_false] at hie
    rcases hie with rfl | rfl
    · cases h1; cases h2; cases h3
    · cases h1; cases h2
  rcases hx with h | h | h | h | h | h <;> rw [h] <;> first | exact key _ | exact id

end Eupf
