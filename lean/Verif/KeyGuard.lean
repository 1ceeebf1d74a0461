import Verif.Spec.Footprint
import Verif.PdrTables
import Verif.DeleteLemmas
import Verif.Props.Ledger
/- Messages that do not name a match key leave its entry alone. Models no code. -/
namespace Eupf
open Act

theorem HistP.hist {P : Node → Ev → Prop} {n0 n : Node} {h} (H : HistP P n0 h n) : Hist n0 h n := by
  induction H with
  | init => exact .init
  | step e _ _ hc ih => exact .step e ih hc
  | traffic _ t ih => exact .traffic ih t

theorem HistP.mono {P Q : Node → Ev → Prop} (hPQ : ∀ n e, P n e → Q n e) {n0 n : Node} {h} (H : HistP P n0 h n) : HistP Q n0 h n := by
  induction H with
  | init => exact .init
  | step e _ hp hc ih => exact .step e ih (hPQ _ _ hp) hc
  | traffic _ t ih => exact .traffic ih t

theorem HistP.append {P : Node → Ev → Prop} {n0 n1 n2 : Node} {h1 h2} (H1 : HistP P n0 h1 n1) (H2 : HistP P n1 h2 n2) : HistP P n0 (h2 ++ h1) n2 := by
  induction H2 with
  | init => exact H1
  | step e _ hp hc ih => exact .step e ih hp hc
  | traffic _ t ih => exact .traffic ih t

theorem HistP.good {P : Node → Ev → Prop} (hP : ∀ n e, P n e → e.refsKnown n) {n0 n : Node} {h} (H : HistP P n0 h n) : GoodReach n0 n := by
  induction H with
  | init => exact .init
  | step e _ hp hc ih => exact .step e ih (hP _ _ hp) hc
  | traffic _ t ih => exact .traffic ih t

theorem Hist.append {n0 n1 n2 : Node} {h1 h2} (H1 : Hist n0 h1 n1) (H2 : Hist n1 h2 n2) : Hist n0 (h2 ++ h1) n2 := by
  induction H2 with
  | init => exact H1
  | step e _ hc ih => exact .step e ih hc
  | traffic _ t ih => exact .traffic ih t

theorem attempts_append (h2 h1 : List (Ev × Outcome)) : attempts (h2 ++ h1) = attempts h2 + attempts h1 := by
  simp [attempts]

/-! ### bodies -/

/-- no record (with an id in `D`) has the key, and its entry is `e0` -/
structure KB (K : PdrKey) (D : U32 → Prop) (e0 : Option PdrEntry) (s : HS) : Prop where
  ent : s.dp.entry? K = e0
  recs : ∀ i p, D i → s.sess.pdrs.get? i = some p → p.key ≠ K

/-- and the key cannot be handed out -/
structure KF (K : PdrKey) (D : U32 → Prop) (e0 : Option PdrEntry) (s : HS) : Prop extends KB K D e0 s where
  free : ¬ K.freeIn s.rm
  cache : ∀ c v, s.cache.get? c = some v → .ul v ≠ K

section
variable {K : PdrKey} {D : U32 → Prop} {e0 : Option PdrEntry}

theorem kb_frame {s s' : HS} (h : RuleFrame s s') (hs : KB K D e0 s) : KB K D e0 s' :=
  ⟨by rw [h.entry]; exact hs.ent, fun i p hd hp => hs.recs i p hd (by rw [← h.pdrs]; exact hp)⟩
theorem kf_frame {s s' : HS} (h : RuleFrame s s') (hs : KF K D e0 s) : KF K D e0 s' :=
  ⟨kb_frame h hs.toKB, by rw [h.rm]; exact hs.free, fun c v hv => hs.cache c v (by rw [← h.cache]; exact hv)⟩

theorem allocTeid_free {seid : U64} {pdr : U32} {rm : Option ResourceManager} (h : ¬ K.freeIn rm) :
    ¬ K.freeIn (allocTeid seid pdr rm).1 ∧ ∀ t, (allocTeid seid pdr rm).2 = some t → .ul t ≠ K := by
  unfold allocTeid
  cases rm with
  | none => exact ⟨h, by intro t ht; cases ht⟩
  | some r =>
    simp only [FTEIDM.allocate]
    split
    · exact ⟨h, by intro t ht; cases ht⟩
    · rename_i x rest hfree
      have hf : freeTeids (some r) = x :: rest := hfree
      cases K with
      | ul t =>
        have h' : t ∉ x :: rest := by rw [← hf]; exact h
        rw [List.mem_cons, not_or] at h'
        refine ⟨h'.2, ?_⟩
        rintro t' ht e; cases ht; cases e; exact h'.1 rfl
      | dl4 ip => exact ⟨h, by rintro t' ht e; cases e⟩
      | dl6 ip => exact ⟨h, by rintro t' ht e; cases e⟩

theorem allocIp_free {seid : U64} {rm : Option ResourceManager} (h : ¬ K.freeIn rm) :
    ¬ K.freeIn (allocIp seid rm).1 ∧ ∀ t, (allocIp seid rm).2 = some t → .dl4 t ≠ K := by
  unfold allocIp
  cases rm with
  | none => exact ⟨h, by intro t ht; cases ht⟩
  | some r =>
    simp only [IPAM.allocate]
    split
    · exact ⟨h, by intro t ht; cases ht⟩
    · rename_i x rest hfree
      have hf : freeIps (some r) = x :: rest := hfree
      cases K with
      | dl4 t =>
        have h' : t ∉ x :: rest := by rw [← hf]; exact h
        rw [List.mem_cons, not_or] at h'
        refine ⟨h'.2, ?_⟩
        rintro t' ht e; cases ht; cases e; exact h'.1 rfl
      | ul ip => exact ⟨h, by rintro t' ht e; cases e⟩
      | dl6 ip => exact ⟨h, by rintro t' ht e; cases e⟩

/-- the key of a record with a new TEID -/
theorem key_teid {p p' : SPdr} (h4 : p'.ipv4 = p.ipv4) (h6 : p'.ipv6 = p.ipv6) (hp : p.key ≠ K) (ht : .ul p'.teid ≠ K) : p'.key ≠ K := by
  unfold SPdr.key at hp ⊢
  rw [h4, h6]
  cases h4 : p.ipv4 with
  | some ip => rw [h4] at hp; exact hp
  | none => cases h6 : p.ipv6 with
    | some ip => rw [h4, h6] at hp; exact hp
    | none => exact ht

theorem kf_fteid {f : Fteid} (hf : ∀ t, f.ch = false → f.teid = t → .ul t ≠ K) {p : SPdr} (hp : p.key ≠ K) {s : HS} (h : KF K D e0 s) :
    KF K D e0 (pdrFteid f p s).1 ∧ ∀ p', (pdrFteid f p s).2 = .ok p' → p'.key ≠ K := by
  unfold pdrFteid
  split
  · split
    · rename_i v hv
      refine ⟨h, ?_⟩
      rintro p' e; cases e
      obtain ⟨c, _, hc⟩ := Option.bind_eq_some_iff.1 hv
      exact key_teid (p := p) rfl rfl hp (h.cache c v hc)
    · have hal := allocTeid_free (seid := s.sess.remoteSEID) (pdr := p.pdrId) h.free
      rcases hx : allocTeid s.sess.remoteSEID p.pdrId s.rm with ⟨rm, r⟩
      rw [hx] at hal
      cases r with
      | none => exact ⟨⟨⟨h.ent, h.recs⟩, hal.1, h.cache⟩, by rintro p' e; cases e⟩
      | some v =>
        have hv := hal.2 v rfl
        simp only []
        cases f.chooseId with
        | none => exact ⟨⟨⟨h.ent, h.recs⟩, hal.1, h.cache⟩, by rintro p' e; cases e; exact key_teid (p := p) rfl rfl hp hv⟩
        | some c =>
          refine ⟨⟨⟨h.ent, h.recs⟩, hal.1, ?_⟩, by rintro p' e; cases e; exact key_teid (p := p) rfl rfl hp hv⟩
          intro c' v' hc
          simp only [GoMap.get?_set] at hc
          split at hc
          · cases hc; exact hv
          · exact h.cache _ _ hc
  · rename_i hch
    refine ⟨h, ?_⟩
    rintro p' e; cases e
    exact key_teid (p := p) rfl rfl hp (hf _ (by simpa using hch) rfl)

theorem kf_ueip (ue : Bool) {u : UeIp} (h4 : ∀ ip, u.ipv4 = some ip → .dl4 ip ≠ K) (h6 : ∀ ip, u.ipv4 = none → u.ipv6 = some ip → .dl6 ip ≠ K)
    {p : SPdr} (hp : p.key ≠ K) {s : HS} (h : KF K D e0 s) :
    KF K D e0 (pdrUeIp ue u p s).1 ∧ ∀ p', (pdrUeIp ue u p s).2 = .ok p' → p'.key ≠ K := by
  have key : ∀ r : Option ResourceManager × Option Ip4 × Bool, ¬ K.freeIn r.1 → (∀ ip, r.2.1 = some ip → .dl4 ip ≠ K) → (r.2.1 = none → u.ipv4 = none) →
      let m : HS × Res SPdr := match r.2.1, u.ipv6 with
        | some ip, _ => ({ s with rm := r.1 }, .ok { p with ipv4 := some ip, allocated := r.2.2 })
        | none, some ip6 => ({ s with rm := r.1 }, .ok { p with ipv6 := some ip6, allocated := r.2.2 })
        | none, none => ({ s with rm := r.1 }, .err)
      KF K D e0 m.1 ∧ ∀ p', m.2 = .ok p' → p'.key ≠ K := by
    intro r hr hip hnone
    have hn : KF K D e0 { s with rm := r.1 } := ⟨⟨h.ent, h.recs⟩, hr, h.cache⟩
    simp only []
    split
    · rename_i ip hi
      refine ⟨hn, ?_⟩
      rintro p' e; cases e
      exact hip _ hi
    · rename_i ip6 hi hi6
      refine ⟨hn, ?_⟩
      rintro p' e; cases e
      unfold SPdr.key at hp ⊢
      cases h4 : p.ipv4 with
      | some ip => rw [h4] at hp; simpa [h4] using hp
      | none => simpa [h4] using h6 _ (hnone hi) hi6
    · exact ⟨hn, by rintro p' e; cases e⟩
  unfold pdrUeIp
  apply key
  · split
    · have := (allocIp_free (seid := s.sess.remoteSEID) h.free).1
      split <;> (rename_i e; rw [e] at this; exact this)
    · exact h.free
  · split
    · have := (allocIp_free (seid := s.sess.remoteSEID) h.free).2
      split
      · rename_i e; rw [e] at this
        intro i hi; cases hi; exact this _ rfl
      · intro i hi; exact h4 _ hi
    · intro i hi; exact h4 _ hi
  · split
    · split
      · intro h; cases h
      · exact id
    · exact id

theorem kf_extract {ue : Bool} {ie : PdrIE} (hie : ¬ ie.names K) {p : SPdr} (hp : p.key ≠ K) {s : HS} (h : KF K D e0 s) :
    KF K D e0 (extractPdr ue ie p s).1 ∧ ∀ p', (extractPdr ue ie p s).2 = .ok p' → p'.key ≠ K := by
  unfold extractPdr
  simp only []
  split
  · exact ⟨h, by rintro p' e; cases e⟩
  · rename_i pdi hpdi
    split
    · exact ⟨h, by rintro p' e; cases e⟩
    · rename_i info _
      have hp' : ({ p with info := info } : SPdr).key ≠ K := hp
      split
      · exact ⟨h, by rintro p' e; cases e⟩
      · rename_i f hf
        refine kf_fteid ?_ hp' h
        rintro t h1 h2 rfl
        exact hie ⟨pdi, f, hpdi, hf, h1, h2⟩
      · rename_i hnf
        split
        · exact ⟨h, by rintro p' e; cases e⟩
        · rename_i u hu
          refine kf_ueip ue ?_ ?_ hp' h
          · rintro ip h1 rfl; exact hie ⟨pdi, u, hpdi, hnf, hu, h1⟩
          · rintro ip h0 h1 rfl; exact hie ⟨pdi, u, hpdi, hnf, hu, h0, h1⟩
        · exact ⟨h, by rintro p' e; cases e; exact hp'⟩

theorem kf_apply {p : SPdr} (hp : p.key ≠ K) : Pres (KF K D e0) (applyPdr p) := by
  apply pres_of; intro s h
  rcases applyPdr_entries p s with ⟨dp, e, hk⟩ | e
  · rw [e]
    refine ⟨⟨?_, h.recs⟩, h.free, h.cache⟩
    show dp.entry? K = e0
    rw [hk, if_neg (fun e => hp e.symm)]; exact h.ent
  · rw [e]; exact h

theorem kf_put (i : U32) {p : SPdr} (hp : p.key ≠ K) {s : HS} (h : KF K D e0 s) : KF K D e0 { s with sess := s.sess.putPdr i p } := by
  refine ⟨⟨h.ent, ?_⟩, h.free, h.cache⟩
  intro j q hd hq
  simp only [Session.putPdr, GoMap.get?_set] at hq
  split at hq
  · cases hq; exact hp
  · exact h.recs j q hd hq

theorem kf_bind_ok {α β : Type} {m : Act HS α} {f : α → Act HS β} {Q : α → Prop}
    (hm : ∀ s, KF K D e0 s → KF K D e0 (m s).1 ∧ ∀ a, (m s).2 = .ok a → Q a) (hf : ∀ a, Q a → Pres (KF K D e0) (f a)) : Pres (KF K D e0) (m >>= f) := by
  apply pres_of; intro s h
  obtain ⟨h1, h2⟩ := hm s h
  simp only [Act.bind_def, Act.bind]
  rcases hx : m s with ⟨s1, r⟩
  rw [hx] at h1 h2
  cases r with
  | ok a => exact (hf a (h2 a rfl)).apply h1
  | err => exact h1
  | panic => exact h1

theorem kf_create {ue : Bool} {ie : PdrIE} (hK : K ≠ .ul 0) (hie : ¬ ie.names K) : Pres (KF K D e0) (createPdr ue ie) := by
  unfold createPdr
  cases ie.pdrId with
  | none => exact Pres.fail
  | some id =>
    refine kf_bind_ok (Q := fun p => p.key ≠ K) (fun s h => kf_extract hie (p := { pdrId := id.zeroExtend 32 }) (Ne.symm hK) h) fun p hp => ?_
    exact Pres.bind (Pres.modify fun _ h => kf_put _ hp h) fun _ => Pres.bind (kf_apply hp) fun _ =>
      Pres.modify fun _ h => ⟨⟨h.ent, h.recs⟩, h.free, h.cache⟩

theorem kf_update {ue : Bool} {ie : PdrIE} (hD : ∀ i, ie.pdrId = some i → D (i.zeroExtend 32)) (hK : K ≠ .ul 0) (hie : ¬ ie.names K) : Pres (KF K D e0) (updatePdr ue ie) := by
  unfold updatePdr
  cases hid : ie.pdrId with
  | none => exact Pres.fail
  | some id =>
    apply pres_of; intro s h
    have hp : (s.sess.getPdr (id.zeroExtend 32)).key ≠ K := by
      unfold Session.getPdr
      cases hg : s.sess.pdrs.get? (id.zeroExtend 32) with
      | none => exact Ne.symm hK
      | some p => exact h.recs _ p (hD _ hid) hg
    have : Pres (KF K D e0) (do
        let p ← extractPdr ue ie (s.sess.getPdr (id.zeroExtend 32))
        Act.modify (fun s => { s with sess := s.sess.putPdr (id.zeroExtend 32) p })
        applyPdr p : Act HS Unit) :=
      kf_bind_ok (Q := fun p => p.key ≠ K) (fun s h => kf_extract hie hp h) fun p hp =>
        Pres.bind (Pres.modify fun _ h => kf_put _ hp h) fun _ => kf_apply hp
    exact this.apply h

theorem kb_delete (ord : Orders) {p : SPdr} (hp : p.key ≠ K) : Pres (KB K D e0) (deletePdr ord p) := by
  apply deletePdr_pres
  · apply pres_of; intro s h
    cases deletePdrEntry_cases p s with
    | gone dp c hd _ hdp hc =>
      rw [hd]
      exact ⟨by show dp.entry? K = e0; rw [hdp, if_neg (fun e => hp e.symm)]; exact h.ent, h.recs⟩
    | absent hd _ => rw [hd]; exact h
    | skipped hd _ _ => rw [hd]; exact h
  · apply pres_of; intro s h
    unfold releaseTeids
    split <;> exact ⟨h.ent, h.recs⟩

theorem kb_remove (ord : Orders) {id : Option U16} (hD : D (BitVec.zeroExtend 32 (id.getD 0))) : Pres (KB K D e0) (removePdr ord id) := by
  apply pres_of; intro s h
  unfold removePdr
  simp only [Act.bind_def, Act.bind, Act.get]
  cases hp : s.sess.pdrs.get? (BitVec.zeroExtend 32 (id.getD 0)) with
  | none => exact h
  | some p =>
    simp only [Act.modify]
    refine (kb_delete ord (h.recs _ p hD hp)).apply ⟨h.ent, ?_⟩
    intro j q hd hq
    simp only [Session.removePdr, GoMap.get?_erase] at hq
    split at hq
    · cases hq
    · exact h.recs j q hd hq

theorem act_bind_assoc {α β γ : Type} (m : Act HS α) (f : α → Act HS β) (g : β → Act HS γ) : (m >>= f) >>= g = m >>= fun a => f a >>= g := by
  funext s
  simp only [Act.bind_def, Act.bind]
  rcases m s with ⟨s', r⟩
  cases r <;> rfl

theorem modifyBody_split (ue : Bool) (ord : Orders) (r : ModReq) :
    modifyBody ue ord r = (modifyBody ue ord { r with removePdr := [] } >>= fun _ => Act.each (removePdr ord) r.removePdr) := by
  unfold modifyBody
  simp only [act_bind_assoc]
  rfl

theorem kb_modify {ue : Bool} {ord : Orders} {r : ModReq} (hDu : ∀ ie ∈ r.updatePdr, ∀ i, ie.pdrId = some i → D (i.zeroExtend 32))
    (hDr : ∀ id ∈ r.removePdr, D (BitVec.zeroExtend 32 (id.getD 0))) (hK : K ≠ .ul 0) (hn : ∀ ie ∈ r.createPdr ++ r.updatePdr, ¬ ie.names K) {s : HS}
    (h : KF K D e0 s) : KB K D e0 (modifyBody ue ord r s).1 := by
  have h1 : Pres (KF K D e0) (modifyBody ue ord { r with removePdr := [] }) := modifyBody_rf kf_frame
    (fun ie hie => kf_create hK (hn ie (List.mem_append_left _ hie))) (fun ie hie => kf_update (hDu ie hie) hK (hn ie (List.mem_append_right _ hie)))
    (fun _ hh => by cases hh)
  have h2 := h1.apply h
  rw [modifyBody_split]
  simp only [Act.bind_def, Act.bind]
  rcases hx : modifyBody ue ord { r with removePdr := [] } s with ⟨s1, res⟩
  rw [hx] at h2
  cases res with
  | ok _ => exact (Pres.each fun x hx => kb_remove ord (hDr x hx)).apply h2.toKB
  | err => exact h2.toKB
  | panic => exact h2.toKB

/-! the same for messages that do not ask for a key of this kind, whatever is free -/

theorem kb_extract {ue : Bool} {ie : PdrIE} (hie : ¬ ie.names K) (hask : ¬ ie.asksFor K) {p : SPdr} (hp : p.key ≠ K) {s : HS} (h : KB K D e0 s) :
    KB K D e0 (extractPdr ue ie p s).1 ∧ ∀ p', (extractPdr ue ie p s).2 = .ok p' → p'.key ≠ K := by
  unfold extractPdr
  simp only []
  split
  · exact ⟨h, by rintro p' e; cases e⟩
  · rename_i pdi hpdi
    split
    · exact ⟨h, by rintro p' e; cases e⟩
    · rename_i info _
      have hp' : ({ p with info := info } : SPdr).key ≠ K := hp
      split
      · exact ⟨h, by rintro p' e; cases e⟩
      · rename_i f hf
        have hasks : f.ch = true → ∀ t, .ul t ≠ K := by
          rintro hch t rfl
          refine hask ?_
          show ie.asksTeid ≠ none
          obtain ⟨pf, pu, ps⟩ := pdi
          simp only at hf
          subst hf
          simp [PdrIE.asksTeid, hpdi, hch]
        unfold pdrFteid
        split
        · rename_i hch
          split
          · exact ⟨h, by rintro p' e; cases e; exact key_teid (p := { p with info := info }) rfl rfl hp' (hasks hch _)⟩
          · rcases hx : allocTeid s.sess.remoteSEID p.pdrId s.rm with ⟨rm, r⟩
            cases r with
            | none => exact ⟨⟨h.ent, h.recs⟩, by rintro p' e; cases e⟩
            | some v =>
              simp only []
              cases f.chooseId with
              | none => exact ⟨⟨h.ent, h.recs⟩, by rintro p' e; cases e; exact key_teid (p := { p with info := info }) rfl rfl hp' (hasks hch _)⟩
              | some c => exact ⟨⟨h.ent, h.recs⟩, by rintro p' e; cases e; exact key_teid (p := { p with info := info }) rfl rfl hp' (hasks hch _)⟩
        · rename_i hch
          refine ⟨h, ?_⟩
          rintro p' e; cases e
          refine key_teid (p := { p with info := info }) rfl rfl hp' ?_
          intro ht
          exact hie (by rw [← ht]; exact ⟨pdi, f, hpdi, hf, by simpa using hch, rfl⟩)
      · rename_i hnf
        split
        · exact ⟨h, by rintro p' e; cases e⟩
        · rename_i u hu
          have hasks : u.chv4 = true → ∀ ip, .dl4 ip ≠ K := by
            rintro hch ip rfl
            refine hask ?_
            show ie.asksIp = true
            obtain ⟨pf, pu, ps⟩ := pdi
            simp only at hnf hu
            subst hnf hu
            simp [PdrIE.asksIp, hpdi, hch]
          have h4 : ∀ ip, u.ipv4 = some ip → .dl4 ip ≠ K := by rintro ip h1 rfl; exact hie ⟨pdi, u, hpdi, hnf, hu, h1⟩
          have h6 : ∀ ip, u.ipv4 = none → u.ipv6 = some ip → .dl6 ip ≠ K := by rintro ip h0 h1 rfl; exact hie ⟨pdi, u, hpdi, hnf, hu, h0, h1⟩
          have key : ∀ r : Option ResourceManager × Option Ip4 × Bool, (∀ ip, r.2.1 = some ip → .dl4 ip ≠ K) → (r.2.1 = none → u.ipv4 = none) →
              let m : HS × Res SPdr := match r.2.1, u.ipv6 with
                | some ip, _ => ({ s with rm := r.1 }, .ok { p with info := info, ipv4 := some ip, allocated := r.2.2 })
                | none, some ip6 => ({ s with rm := r.1 }, .ok { p with info := info, ipv6 := some ip6, allocated := r.2.2 })
                | none, none => ({ s with rm := r.1 }, .err)
              KB K D e0 m.1 ∧ ∀ p', m.2 = .ok p' → p'.key ≠ K := by
            intro r hip hnone
            have hn : KB K D e0 { s with rm := r.1 } := ⟨h.ent, h.recs⟩
            simp only []
            split
            · rename_i ip hi
              refine ⟨hn, ?_⟩
              rintro p' e; cases e
              exact hip _ hi
            · rename_i ip6 hi hi6
              refine ⟨hn, ?_⟩
              rintro p' e; cases e
              unfold SPdr.key at hp ⊢
              cases h4 : p.ipv4 with
              | some ip => rw [h4] at hp; simpa [h4] using hp
              | none => simpa [h4] using h6 _ (hnone hi) hi6
            · exact ⟨hn, by rintro p' e; cases e⟩
          unfold pdrUeIp
          apply key
          · split
            · rename_i hch
              intro ip _
              exact hasks (by simp at hch; exact hch.2) ip
            · exact h4
          · split
            · split
              · intro h; cases h
              · exact id
            · exact id
        · exact ⟨h, by rintro p' e; cases e; exact hp'⟩

theorem kb_apply {p : SPdr} (hp : p.key ≠ K) : Pres (KB K D e0) (applyPdr p) := by
  apply pres_of; intro s h
  rcases applyPdr_entries p s with ⟨dp, e, hk⟩ | e
  · rw [e]
    refine ⟨?_, h.recs⟩
    show dp.entry? K = e0
    rw [hk, if_neg (fun e => hp e.symm)]; exact h.ent
  · rw [e]; exact h

theorem kb_put (i : U32) {p : SPdr} (hp : p.key ≠ K) {s : HS} (h : KB K D e0 s) : KB K D e0 { s with sess := s.sess.putPdr i p } := by
  refine ⟨h.ent, ?_⟩
  intro j q hd hq
  simp only [Session.putPdr, GoMap.get?_set] at hq
  split at hq
  · cases hq; exact hp
  · exact h.recs j q hd hq

theorem kb_bind_ok {α β : Type} {m : Act HS α} {f : α → Act HS β} {Q : α → Prop}
    (hm : ∀ s, KB K D e0 s → KB K D e0 (m s).1 ∧ ∀ a, (m s).2 = .ok a → Q a) (hf : ∀ a, Q a → Pres (KB K D e0) (f a)) : Pres (KB K D e0) (m >>= f) := by
  apply pres_of; intro s h
  obtain ⟨h1, h2⟩ := hm s h
  simp only [Act.bind_def, Act.bind]
  rcases hx : m s with ⟨s1, r⟩
  rw [hx] at h1 h2
  cases r with
  | ok a => exact (hf a (h2 a rfl)).apply h1
  | err => exact h1
  | panic => exact h1

theorem kb_create {ue : Bool} {ie : PdrIE} (hK : K ≠ .ul 0) (hie : ¬ ie.names K) (hask : ¬ ie.asksFor K) : Pres (KB K D e0) (createPdr ue ie) := by
  unfold createPdr
  cases ie.pdrId with
  | none => exact Pres.fail
  | some id =>
    refine kb_bind_ok (Q := fun p => p.key ≠ K) (fun s h => kb_extract hie hask (p := { pdrId := id.zeroExtend 32 }) (Ne.symm hK) h) fun p hp => ?_
    exact Pres.bind (Pres.modify fun _ h => kb_put _ hp h) fun _ => Pres.bind (kb_apply hp) fun _ =>
      Pres.modify fun _ h => ⟨h.ent, h.recs⟩

theorem kb_update {ue : Bool} {ie : PdrIE} (hD : ∀ i, ie.pdrId = some i → D (i.zeroExtend 32)) (hK : K ≠ .ul 0) (hie : ¬ ie.names K)
    (hask : ¬ ie.asksFor K) : Pres (KB K D e0) (updatePdr ue ie) := by
  unfold updatePdr
  cases hid : ie.pdrId with
  | none => exact Pres.fail
  | some id =>
    apply pres_of; intro s h
    have hp : (s.sess.getPdr (id.zeroExtend 32)).key ≠ K := by
      unfold Session.getPdr
      cases hg : s.sess.pdrs.get? (id.zeroExtend 32) with
      | none => exact Ne.symm hK
      | some p => exact h.recs _ p (hD _ hid) hg
    have : Pres (KB K D e0) (do
        let p ← extractPdr ue ie (s.sess.getPdr (id.zeroExtend 32))
        Act.modify (fun s => { s with sess := s.sess.putPdr (id.zeroExtend 32) p })
        applyPdr p : Act HS Unit) :=
      kb_bind_ok (Q := fun p => p.key ≠ K) (fun s h => kb_extract hie hask hp h) fun p hp =>
        Pres.bind (Pres.modify fun _ h => kb_put _ hp h) fun _ => kb_apply hp
    exact this.apply h

theorem kb_modify' {ue : Bool} {ord : Orders} {r : ModReq} (hDu : ∀ ie ∈ r.updatePdr, ∀ i, ie.pdrId = some i → D (i.zeroExtend 32))
    (hDr : ∀ id ∈ r.removePdr, D (BitVec.zeroExtend 32 (id.getD 0))) (hK : K ≠ .ul 0) (hn : ∀ ie ∈ r.createPdr ++ r.updatePdr, ¬ ie.names K)
    (ha : ∀ ie ∈ r.createPdr ++ r.updatePdr, ¬ ie.asksFor K) {s : HS}
    (h : KB K D e0 s) : KB K D e0 (modifyBody ue ord r s).1 :=
  (modifyBody_rf kb_frame
    (fun ie hie => kb_create hK (hn ie (List.mem_append_left _ hie)) (ha ie (List.mem_append_left _ hie)))
    (fun ie hie => kb_update (hDu ie hie) hK (hn ie (List.mem_append_right _ hie)) (ha ie (List.mem_append_right _ hie)))
    (fun _ hh => kb_remove ord (hDr _ hh))).apply h

theorem kb_dropSessions (ord : Orders) : ∀ (l : List (U64 × Session)) (rm : Option ResourceManager) (dp : BpfObjects),
    (∀ e ∈ l, ∀ i p, e.2.pdrs.get? i = some p → p.key ≠ K) → dp.entry? K = e0 →
    ∀ rm' dp' b, dropSessions ord l rm dp = (rm', dp', b) → dp'.entry? K = e0
  | [], rm, dp, _, h, rm', dp', b, hd => by cases hd; exact h
  | (seid, sess) :: l, rm, dp, hs, h, rm', dp', b, hd => by
    unfold dropSessions at hd
    have hrec := hs (seid, sess) (by simp)
    have h1 : KB K (fun _ => True) e0 (deleteSessionBody ord sess ⟨sess, GoMap.empty, rm, dp, [], []⟩).1 :=
      (deleteSessionBody_rf kb_frame fun e he => kb_delete ord (hrec e.1 e.2 ((sess.pdrs.mem_entries_iff e.1 e.2).1 he))).apply ⟨h, fun i p _ => hrec i p⟩
    simp only at hd
    split at hd
    · cases hd; exact h1.ent
    · exact kb_dropSessions ord l _ _ (fun e he => hs e (by simp [he])) h1.ent _ _ _ hd

end

/-! ### the node -/

/-- One event that is not about session `s` of `a`, does not name `K`, does not ask for a key of this kind while `K` is free, and finds `K`
not used by another session: the entry of `K` and the session stay, and no other session gets `K`. -/
theorem guard_step' {n : Node} {a : Addr} {s : U64} {K : PdrKey} (hK : K ≠ .ul 0) (e : Ev)
    (hfresh : ∀ as, n.assocs.get? a = some as → s ≠ as.nextSessionID + 1)
    (hab : ¬ e.about a s) (hnm : ¬ e.names K) (hfree : e.asksFor K → ¬ K.freeIn n.rm) (hoth : ¬ n.usedElsewhere a s K) :
    (n.step e).1.dp.entry? K = n.dp.entry? K ∧ (n.step e).1.session? a s = n.session? a s ∧ ¬ (n.step e).1.usedElsewhere a s K := by
  have avoid : ∀ a' s' x, (a', s') ≠ (a, s) → n.session? a' s' = some x → ∀ i p, x.pdrs.get? i = some p → p.key ≠ K := by
    intro a' s' x hne hx i p hp hk
    exact hoth ⟨a', s', x, i, p, hne, hx, hp, hk⟩
  have other : e.isNodeMsg = true → (n.step e).1.dp.entry? K = n.dp.entry? K ∧ (n.step e).1.session? a s = n.session? a s ∧
      ¬ (n.step e).1.usedElsewhere a s K := by
    intro he
    rcases other_step n e he with h1 | ⟨b, hbn, h1⟩
    · rw [h1]; exact ⟨rfl, rfl, hoth⟩
    · rw [h1]
      have hs : ∀ a' s', ({ n with assocs := n.assocs.set b Assoc.new } : Node).session? a' s' = n.session? a' s' := by
        intro a' s'
        simp only [Node.session?, GoMap.get?_set]
        split
        · subst a'; simp [hbn, Assoc.new]
        · rfl
      refine ⟨rfl, hs _ _, ?_⟩
      rintro ⟨a', s', x, i, p, hne, hx, hp⟩
      rw [hs] at hx
      exact hoth ⟨a', s', x, i, p, hne, hx, hp⟩
  -- a session other than `(a, s)` is stored
  have store : ∀ (addr : Addr) (as : Assoc) (k : U64) (y : Session) (m : U64) (q : U32) (rm dp), n.assocs.get? addr = some as →
      (addr, k) ≠ (a, s) → (∀ i p, y.pdrs.get? i = some p → p.key ≠ K) → dp.entry? K = n.dp.entry? K →
      let n' : Node := { n with rm := rm, dp := dp, assocs := n.assocs.set addr ⟨m, q, as.sessions.set k y⟩ }
      n'.dp.entry? K = n.dp.entry? K ∧ n'.session? a s = n.session? a s ∧ ¬ n'.usedElsewhere a s K := by
    intro addr as k y m q rm dp ha hne hy hg n'
    have hsess : ∀ a' s', n'.session? a' s' = if a' = addr ∧ s' = k then some y else n.session? a' s' := by
      intro a' s'
      simp only [n', Node.session?, GoMap.get?_set]
      by_cases h1 : a' = addr
      · subst h1
        simp only [if_true, Option.bind_some, GoMap.get?_set, ha, true_and]
      · simp [h1]
    refine ⟨hg, ?_, ?_⟩
    · rw [hsess, if_neg]; rintro ⟨rfl, rfl⟩; exact hne rfl
    · rintro ⟨a', s', x, i, p, hne', hx, hp, hk⟩
      rw [hsess] at hx
      split at hx
      · cases hx; exact hy i p hp hk
      · exact hoth ⟨a', s', x, i, p, hne', hx, hp, hk⟩
  have keep : ∀ (addr : Addr) (as : Assoc) (m : U64) (q : U32) (rm dp), n.assocs.get? addr = some as → dp.entry? K = n.dp.entry? K →
      let n' : Node := { n with rm := rm, dp := dp, assocs := n.assocs.set addr ⟨m, q, as.sessions⟩ }
      n'.dp.entry? K = n.dp.entry? K ∧ n'.session? a s = n.session? a s ∧ ¬ n'.usedElsewhere a s K := by
    intro addr as m q rm dp ha hg n'
    have hsess : ∀ a' s', n'.session? a' s' = n.session? a' s' := by
      intro a' s'
      simp only [n', Node.session?, GoMap.get?_set]
      by_cases h1 : a' = addr
      · subst h1; simp [ha]
      · simp [h1]
    refine ⟨hg, hsess _ _, ?_⟩
    rintro ⟨a', s', x, i, p, hne', hx, hp, hk⟩
    rw [hsess] at hx
    exact hoth ⟨a', s', x, i, p, hne', hx, hp, hk⟩
  cases e with
  | assocSetup => exact other rfl
  | assocSetupResp => exact other rfl
  | assocUpdate => exact other rfl
  | heartbeatReq => exact other rfl
  | heartbeatResp => exact other rfl
  | setConfig => exact ⟨rfl, rfl, hoth⟩
  | establish addr r =>
    simp only [Node.step]
    cases establish_cases n addr r with
    | refused c hcc he => rw [he]; exact ⟨rfl, rfl, hoth⟩
    | ran remote as hs res hid hcp ha hbody hl hrem he =>
      rw [he]
      have hb : KB K (fun _ => True) (n.dp.entry? K) (n.hs (Session.new (as.nextSessionID + 1) remote)) :=
        ⟨rfl, fun i p _ hp => by simp [Node.hs, Session.new] at hp⟩
      have h1 : KB K (fun _ => True) (n.dp.entry? K) (establishBody n.ueip r (n.hs (Session.new (as.nextSessionID + 1) remote))).1 := by
        by_cases hq : Ev.asksFor K (.establish addr r)
        · have h0 : KF K (fun _ => True) (n.dp.entry? K) (n.hs (Session.new (as.nextSessionID + 1) remote)) :=
            ⟨hb, hfree hq, fun c v hv => by simp [Node.hs] at hv⟩
          exact ((establishBody_rf (ue := n.ueip) kf_frame (fun ie hie => kf_create hK fun h => hnm ⟨ie, hie, h⟩)).apply h0).toKB
        · exact (establishBody_rf (ue := n.ueip) kb_frame (fun ie hie => kb_create hK (fun h => hnm ⟨ie, hie, h⟩) fun h => hq ⟨ie, hie, h⟩)).apply hb
      rw [hbody] at h1
      cases res with
      | ok _ =>
        refine store addr as _ _ _ _ _ _ ha ?_ (fun i p => h1.recs i p trivial) h1.ent
        rintro h; cases h; exact hfresh as ha rfl
      | err => exact keep addr as _ _ _ _ ha h1.ent
      | panic => exact keep addr as _ _ _ _ ha h1.ent
  | modify addr r ord =>
    simp only [Node.step]
    cases modify_cases n addr r ord with
    | refused c x hcc hs he => rw [he]; exact ⟨rfl, rfl, hoth⟩
    | ran as sess hs res ha hsess hbody hl hrem he =>
      rw [he]
      have hne : (addr, r.seid) ≠ (a, s) := by
        intro h; cases h; exact hab ⟨rfl, rfl⟩
      have hb : KB K (fun _ => True) (n.dp.entry? K) (n.hs (sess.setRemote r.cpFseid)) := by
        refine ⟨rfl, fun i p _ hp => ?_⟩
        refine avoid addr r.seid sess hne (by simp [Node.session?, ha, hsess]) i p ?_
        have : (sess.setRemote r.cpFseid).pdrs = sess.pdrs := by unfold Session.setRemote; split <;> rfl
        rw [← this]; exact hp
      have h1 : KB K (fun _ => True) (n.dp.entry? K) (modifyBody n.ueip ord r (n.hs (sess.setRemote r.cpFseid))).1 := by
        by_cases hq : Ev.asksFor K (.modify addr r ord)
        · exact kb_modify (fun _ _ _ _ => trivial) (fun _ _ => trivial) hK (fun ie hie h => hnm ⟨ie, hie, h⟩)
            ⟨hb, hfree hq, fun c v hv => by simp [Node.hs] at hv⟩
        · exact kb_modify' (fun _ _ _ _ => trivial) (fun _ _ => trivial) hK (fun ie hie h => hnm ⟨ie, hie, h⟩) (fun ie hie h => hq ⟨ie, hie, h⟩) hb
      rw [hbody] at h1
      exact store addr as _ _ _ _ _ _ ha hne (fun i p => h1.recs i p trivial) h1.ent
  | delete addr r ord =>
    simp only [Node.step]
    cases delete_cases n addr r ord with
    | refused c hcc hs he => rw [he]; exact ⟨rfl, rfl, hoth⟩
    | ran as sess hs res ha hsess hbody he =>
      rw [he]
      have hne : (addr, r.seid) ≠ (a, s) := by
        intro h; cases h; exact hab ⟨rfl, rfl⟩
      have hav := avoid addr r.seid sess hne (by simp [Node.session?, ha, hsess])
      have h1 : KB K (fun _ => True) (n.dp.entry? K) (deleteBody ord sess (n.hs sess)).1 :=
        (deleteBody_rf kb_frame fun e he => kb_delete ord (hav e.1 e.2 ((sess.pdrs.mem_entries_iff e.1 e.2).1 he))).apply ⟨rfl, fun i p _ => hav i p⟩
      rw [hbody] at h1
      cases res with
      | ok _ =>
        have hsess' : ∀ a' s' x, (n.delResult addr r ord as sess hs (.ok ())).1.session? a' s' = some x → n.session? a' s' = some x := by
          intro a' s' x hx
          simp only [Node.delResult, Node.session?, GoMap.get?_set] at hx
          split at hx
          · simp only [Option.bind_some, GoMap.get?_erase] at hx
            split at hx
            · cases hx
            · subst a'; simp [Node.session?, ha, hx]
          · exact hx
        refine ⟨h1.ent, ?_, ?_⟩
        · simp only [Node.delResult, Node.session?, GoMap.get?_set]
          by_cases h2 : a = addr
          · subst h2
            simp only [if_true, Option.bind_some, GoMap.get?_erase, ha]
            rw [if_neg]; rintro rfl; exact hne rfl
          · simp [h2]
        · rintro ⟨a', s', x, i, p, hne', hx, hp, hk⟩
          exact hoth ⟨a', s', x, i, p, hne', hsess' _ _ _ hx, hp, hk⟩
      | err => exact ⟨h1.ent, rfl, hoth⟩
      | panic => exact ⟨h1.ent, rfl, hoth⟩
  | peerLost addr ord =>
    simp only [Node.step, Node.deleteAssociation]
    have hne : addr ≠ a := hab
    cases ha : n.assocs.get? addr with
    | none => exact ⟨rfl, rfl, hoth⟩
    | some as =>
      simp only
      rcases hd : dropSessions ord (ord.sessions.run as.sessions.entries) n.rm n.dp with ⟨rm, dp, b⟩
      have h1 := kb_dropSessions (K := K) (e0 := n.dp.entry? K) ord _ n.rm n.dp (by
        intro e he
        have := (as.sessions.mem_entries_iff e.1 e.2).1 ((ord.sessions.perm _).mem_iff.1 he)
        exact avoid addr e.1 e.2 (fun h => hne (by cases h; rfl)) (by simp [Node.session?, ha, this])) rfl _ _ _ hd
      cases b with
      | false => exact ⟨h1, rfl, hoth⟩
      | true =>
        refine ⟨h1, ?_, ?_⟩
        · simp only [Node.session?, GoMap.get?_erase]
          rw [if_neg (fun h => hne h.symm)]
        · rintro ⟨a', s', x, i, p, hne', hx, hp, hk⟩
          refine hoth ⟨a', s', x, i, p, hne', ?_, hp, hk⟩
          simp only [Node.session?, GoMap.get?_erase] at hx
          split at hx
          · cases hx
          · exact hx

theorem LInv.fresh {h : List (Ev × Outcome)} {n : Node} (L : LInv h n) (hb : attempts h < 2 ^ 64 - 2) {a : Addr} {s : U64}
    (hs : n.session? a s ≠ none) : ∀ as, n.assocs.get? a = some as → s ≠ as.nextSessionID + 1 := by
  rintro as ha rfl
  have h1 := L.next a as ha
  have h2 := L.keys a as _ ha (by simpa [Node.session?, ha] using hs)
  rw [BitVec.toNat_add] at h2
  have : (1#64).toNat = 1 := rfl
  omega

theorem guard_step {n : Node} {a : Addr} {s : U64} {K : PdrKey} (hK : K ≠ .ul 0) (e : Ev)
    (hfresh : ∀ as, n.assocs.get? a = some as → s ≠ as.nextSessionID + 1)
    (hab : ¬ e.about a s) (hnm : ¬ e.names K) (hfree : ¬ K.freeIn n.rm) (hoth : ¬ n.usedElsewhere a s K) :
    (n.step e).1.dp.entry? K = n.dp.entry? K ∧ (n.step e).1.session? a s = n.session? a s ∧ ¬ (n.step e).1.usedElsewhere a s K :=
  guard_step' hK e hfresh hab hnm (fun _ => hfree) hoth

/-- Over a history. -/
theorem guard_hist {cfg : NodeCfg} {rm : Option ResourceManager} {dp : BpfObjects} {h1 : List (Ev × Outcome)} {n1 : Node}
    (H1 : Hist (Node.init cfg rm dp) h1 n1) {a : Addr} {s : U64} {x : Session} (hx : n1.session? a s = some x) {K : PdrKey} (hK : K ≠ .ul 0)
    (hoth : ¬ n1.usedElsewhere a s K) {P : Node → Ev → Prop} (hP : ∀ n e, P n e → ¬ e.about a s ∧ ¬ e.names K ∧ ¬ K.freeIn n.rm)
    {h2 : List (Ev × Outcome)} {n2 : Node} (H2 : HistP P n1 h2 n2) (hb : attempts (h2 ++ h1) < 2 ^ 64 - 2) :
    n2.dp.entry? K = n1.dp.entry? K ∧ n2.session? a s = some x ∧ ¬ n2.usedElsewhere a s K := by
  induction H2 with
  | init => exact ⟨rfl, hx, hoth⟩
  | @step h n e H hp hc ih =>
    have hb' : attempts (h ++ h1) < 2 ^ 64 - 2 := by
      have := attempts_cons (e, (n.step e).2) (h ++ h1)
      rw [List.cons_append] at hb; omega
    obtain ⟨i1, i2, i3⟩ := ih hb'
    obtain ⟨p1, p2, p3⟩ := hP _ _ hp
    have L := linv_hist (H1.append H.hist) hb'
    obtain ⟨j1, j2, j3⟩ := guard_step hK e (L.fresh hb' (by rw [i2]; simp)) p1 p2 p3 i3
    exact ⟨j1.trans i1, j2.trans i2, j3⟩
  | @traffic h n dp' H t ih =>
    obtain ⟨i1, i2, i3⟩ := ih hb
    exact ⟨by rw [← i1]; exact entry_pdr t.pdrUl t.pdrDl4 t.pdrDl6 K, i2, i3⟩

end Eupf
