import Verif.Props.NeverConfigured
import Verif.Props.Chosen
/-
C14: TEIDs of live sessions. C15, last part: addresses come back.
-/
namespace Eupf
open Act

/-! ### specification -/

/-- an uplink PDR whose TEID the node chose -/
def SPdr.chosen (p : SPdr) : Prop := p.allocated = true ∧ p.key = .ul p.teid

/-- CP SEIDs given in the establishment requests of a history -/
def cpSeids : List (Ev × Outcome) → List U64
  | [] => []
  | (.establish _ r, _) :: h => match r.cpFseid with
    | some (some c) => c :: cpSeids h
    | _ => cpSeids h
  | _ :: h => cpSeids h

/-- The peers give all sessions different CP SEIDs and do not change them, do not remove single PDRs or replace a chosen TEID by a given one, and
no deletion of a session is left unanswered or names a SEID (of this node) that is also a CP SEID. -/
structure Disciplined (h : List (Ev × Outcome)) : Prop where
  cp : (cpSeids h).Nodup
  mod : ∀ a r o out, (Ev.modify a r o, out) ∈ h → (∀ c, r.cpFseid ≠ some (some c)) ∧ r.removePdr = [] ∧ ∀ ie ∈ r.updatePdr, ∀ t, ¬ ie.givesTeid t
  del : ∀ a r o out, (Ev.delete a r o, out) ∈ h → out ≠ .silent ∧ r.seid ∉ cpSeids h

theorem Disciplined.tail {x : Ev × Outcome} {h} (d : Disciplined (x :: h)) : Disciplined h := by
  have sub : ∀ c ∈ cpSeids h, c ∈ cpSeids (x :: h) := by
    intro c hc
    obtain ⟨e, o⟩ := x
    cases e with
    | establish a r =>
      simp only [cpSeids]
      split
      · exact List.mem_cons_of_mem _ hc
      · exact hc
    | _ => exact hc
  refine ⟨?_, fun a r o out hm => d.mod a r o out (List.mem_cons_of_mem _ hm), fun a r o out hm => ?_⟩
  · have := d.cp
    obtain ⟨e, o⟩ := x
    cases e with
    | establish a r =>
      simp only [cpSeids] at this
      split at this
      · exact (List.nodup_cons.1 this).2
      · exact this
    | _ => exact this
  · obtain ⟨h1, h2⟩ := d.del a r o out (List.mem_cons_of_mem _ hm)
    exact ⟨h1, fun hc => h2 (sub _ hc)⟩

/-! ### calls on the pool -/

/-- TEID `t` is handed out under SEID `k` -/
def Held (rm : Option ResourceManager) (k : U64) (t : U32) : Prop :=
  ∃ r m i, rm = some r ∧ r.fteidm.busyTEIDs.get? k = some m ∧ m.get? i = some t

theorem allocTeid_held {R : U64} {i : U32} {rm rm' : Option ResourceManager} {t : U32} (h : allocTeid R i rm = (rm', some t)) :
    ∀ k u, Held rm' k u → Held rm k u ∨ (k = R ∧ u = t) := by
  unfold allocTeid at h
  cases rm with
  | none => cases h
  | some r =>
    simp only [FTEIDM.allocate] at h
    split at h
    · cases h
    · cases h
      rintro k u ⟨r', m, j, e, h1, h2⟩
      cases e
      simp only [GoMap.get?_set] at h1
      split at h1
      · subst k
        cases h1
        cases hb : r.fteidm.busyTEIDs.get? R with
        | none =>
          rw [hb] at h2
          simp only [GoMap.get?_set, GoMap.get?_empty] at h2
          split at h2
          · cases h2; exact .inr ⟨rfl, rfl⟩
          · cases h2
        | some pm =>
          rw [hb] at h2
          simp only [GoMap.get?_set] at h2
          split at h2
          · cases h2; exact .inr ⟨rfl, rfl⟩
          · exact .inl ⟨r, pm, j, rfl, hb, h2⟩
      · exact .inl ⟨r, m, j, rfl, h1, h2⟩

theorem release_held {o : Shuffle (U32 × U32)} {R : U64} {r : ResourceManager} {ip : IPAM} :
    (∀ t ∈ freeTeids (some ⟨ip, r.fteidm.release o R⟩), t ∈ freeTeids (some r) ∨ Held (some r) R t) ∧
    (∀ k u, Held (some ⟨ip, r.fteidm.release o R⟩) k u → Held (some r) k u) := by
  unfold FTEIDM.release
  cases hb : r.fteidm.busyTEIDs.get? R with
  | none =>
    refine ⟨fun t ht => .inl ht, ?_⟩
    rintro k u ⟨r', m, j, e, h1, h2⟩
    cases e
    exact ⟨r, m, j, rfl, h1, h2⟩
  | some pm =>
    constructor
    · intro t ht
      rcases List.mem_append.1 ht with ht | ht
      · exact .inl ht
      · obtain ⟨⟨i, x⟩, hm, rfl⟩ := List.mem_map.1 ht
        exact .inr ⟨r, pm, i, rfl, hb, (pm.mem_entries_iff i x).1 ((o.perm _).mem_iff.1 hm)⟩
    · rintro k u ⟨r', m, j, e, h1, h2⟩
      cases e
      simp only [GoMap.get?_erase] at h1
      split at h1
      · cases h1
      · exact ⟨r, m, j, rfl, h1, h2⟩

/-- What the pool guarantees in every history. -/
structure PoolFacts (rm : Option ResourceManager) : Prop where
  nodup : (freeTeids rm).Nodup
  disj : ∀ k t, Held rm k t → t ∉ freeTeids rm
  inj : ∀ k k' t, Held rm k t → Held rm k' t → k = k'

theorem pool_facts {cfg : NodeCfg} {ips : List Ip4} {range : U32} {dp : BpfObjects} {h : List (Ev × Outcome)} {n : Node}
    (H : Hist (Node.init cfg (some (newResourceManager ips range)) dp) h n) : PoolFacts n.rm := by
  have inv := (ni_hist (pool_keep (teidInv_keeps range)) (fun r hr => by cases hr; exact ⟨[], TeidInv.init ips range⟩) H (fun _ _ => trivial)).2
  cases hrm : n.rm with
  | none => exact ⟨List.nodup_nil, fun k t ⟨_, _, _, e, _⟩ => (by cases e), fun _ _ _ ⟨_, _, _, e, _⟩ => (by cases e)⟩
  | some r =>
    obtain ⟨out, ho⟩ := inv r hrm
    have mem : ∀ {k t}, Held (some r) k t → ∃ p, ⟨k, p, t⟩ ∈ out := by
      rintro k t ⟨r', m, i, e, h1, h2⟩; cases e; exact ⟨i, (ho.busy k m h1).2 i t h2⟩
    refine ⟨ho.freeNodup, ?_, ?_⟩
    · intro k t hh hf
      obtain ⟨p, hp⟩ := mem hh
      exact ho.disj t hf (List.mem_map.2 ⟨_, hp, rfl⟩)
    · intro k k' t h1 h2
      obtain ⟨p, hp⟩ := mem h1
      obtain ⟨p', hp'⟩ := mem h2
      have nd := ho.outNodup
      by_cases e : (⟨k, p, t⟩ : Grant) = ⟨k', p', t⟩
      · cases e; rfl
      · have pw : out.Pairwise (fun a b => a.teid ≠ b.teid) := by
          have := nd; unfold List.Nodup at this; rw [List.pairwise_map] at this; exact this
        exact absurd rfl (pairwise_mem (R := fun a b : Grant => a.teid ≠ b.teid) (fun _ _ h => Ne.symm h) pw (a := ⟨k, p, t⟩) (b := ⟨k', p', t⟩) hp hp' e)

/-! ### bodies that create and update -/

/-- State of an establishment or modification of a session with CP SEID `R`, started with pools `rm0`; `Old` are the session's TEIDs before:
the TEIDs `pre` were taken from the pool. -/
def CB (R : U64) (Old : U32 → Prop) (rm0 : Option ResourceManager) (s : HS) : Prop :=
  s.sess.remoteSEID = R ∧ ∃ pre, freeTeids rm0 = pre ++ freeTeids s.rm ∧ (∀ k u, Held s.rm k u → Held rm0 k u ∨ (k = R ∧ u ∈ pre)) ∧
    (∀ i p, s.sess.pdrs.get? i = some p → p.chosen → Old p.teid ∨ p.teid ∈ pre) ∧ ∀ c v, s.cache.get? c = some v → v ∈ pre

section
variable {R : U64} {Old : U32 → Prop} {rm0 : Option ResourceManager}

theorem cb_frame {s s' : HS} (h : RuleFrame s s') (hs : CB R Old rm0 s) : CB R Old rm0 s' := by
  obtain ⟨h0, pre, h1, h2, h3, h4⟩ := hs
  exact ⟨h.remote.trans h0, pre, by rw [h.rm]; exact h1, by rw [h.rm]; exact h2, by rw [h.pdrs]; exact h3, by rw [h.cache]; exact h4⟩

/-- the record that `extractPdr` makes is good: chosen TEIDs are the session's -/
def CBRec (Old : U32 → Prop) (rm0 : Option ResourceManager) (s : HS) (p : SPdr) : Prop :=
  p.chosen → Old p.teid ∨ ∃ pre, freeTeids rm0 = pre ++ freeTeids s.rm ∧ p.teid ∈ pre

/-- TEIDs of `CB` are determined by the pool -/
theorem cb_pre {s : HS} {pre pre' : List U32} (h : freeTeids rm0 = pre ++ freeTeids s.rm) (h' : freeTeids rm0 = pre' ++ freeTeids s.rm) : pre = pre' :=
  List.append_cancel_right (h.symm.trans h')

theorem cb_extract {ue : Bool} {ie : PdrIE} {p : SPdr} {s s1 : HS} {res : Res SPdr} (hs : CB R Old rm0 s) (hp : CBRec Old rm0 s p)
    (hie : p.allocated = true → ∀ t, ¬ ie.givesTeid t) (h : extractPdr ue ie p s = (s1, res)) :
    CB R Old rm0 s1 ∧ ∀ q, res = .ok q → CBRec Old rm0 s1 q := by
  obtain ⟨h0, pre, h1, h2, h3, h4⟩ := hs
  have same : CB R Old rm0 s := ⟨h0, pre, h1, h2, h3, h4⟩
  unfold extractPdr at h
  simp only [] at h
  split at h
  · cases h; exact ⟨same, by rintro q e; cases e⟩
  · rename_i pdi hpdi
    split at h
    · cases h; exact ⟨same, by rintro q e; cases e⟩
    · rename_i info _
      split at h
      · cases h; exact ⟨same, by rintro q e; cases e⟩
      · rename_i f hf
        unfold pdrFteid at h
        split at h
        · split at h
          · rename_i t ht
            cases h
            obtain ⟨c, _, hc⟩ := Option.bind_eq_some_iff.1 ht
            exact ⟨same, by rintro q e; cases e; exact fun _ => .inr ⟨pre, h1, h4 c t hc⟩⟩
          · rcases hal : allocTeid s.sess.remoteSEID p.pdrId s.rm with ⟨rm, _ | t⟩
            · rw [hal] at h
              have hrm : rm = s.rm := by
                unfold allocTeid at hal
                cases hr : s.rm with
                | none => rw [hr] at hal; cases hal; rfl
                | some r =>
                  rw [hr] at hal
                  simp only [FTEIDM.allocate] at hal
                  split at hal
                  · cases hal; rfl
                  · cases hal
              cases h
              rw [hrm]
              exact ⟨same, by rintro q e; cases e⟩
            · rw [hal] at h
              have f1 := (allocTeid_takes hal).1
              have f2 := allocTeid_held hal
              have base : ∀ (cache : GoMap U8 U32), (∀ c v, cache.get? c = some v → v ∈ pre ++ [t]) → CB R Old rm0 { s with rm := rm, cache := cache } := by
                intro cache hc
                refine ⟨h0, pre ++ [t], by rw [h1, f1]; simp, ?_, ?_, hc⟩
                · intro k u hu
                  rcases f2 k u hu with hu | ⟨rfl, rfl⟩
                  · rcases h2 k u hu with hu | ⟨e1, e2⟩
                    · exact .inl hu
                    · exact .inr ⟨e1, List.mem_append_left _ e2⟩
                  · exact .inr ⟨h0, by simp⟩
                · intro i q hq hch
                  rcases h3 i q hq hch with h | h
                  · exact .inl h
                  · exact .inr (List.mem_append_left _ h)
              have rec' : ∀ (cache : GoMap U8 U32) (q : SPdr), q.teid = t → CBRec Old rm0 { s with rm := rm, cache := cache } q := by
                intro cache q hq _
                exact .inr ⟨pre ++ [t], by rw [h1, f1]; simp, by rw [hq]; simp⟩
              have h4' : ∀ c v, s.cache.get? c = some v → v ∈ pre ++ [t] := fun c v hc => List.mem_append_left _ (h4 c v hc)
              simp only [] at h
              cases hcid : f.chooseId with
              | none =>
                rw [hcid] at h; cases h
                exact ⟨base s.cache h4', by rintro q e; cases e; exact rec' s.cache _ rfl⟩
              | some c =>
                rw [hcid] at h; cases h
                refine ⟨base (s.cache.set c t) ?_, by rintro q e; cases e; exact rec' (s.cache.set c t) _ rfl⟩
                intro c' v hc
                simp only [GoMap.get?_set] at hc
                split at hc
                · cases hc; simp
                · exact h4' c' v hc
        · rename_i hch
          cases h
          refine ⟨same, ?_⟩
          rintro q e; cases e
          rintro ⟨hal, _⟩
          exact absurd ⟨pdi, f, hpdi, hf, by simpa using hch, rfl⟩ (hie hal f.teid)
      · split at h
        · cases h; exact ⟨same, by rintro q e; cases e⟩
        · rename_i u _
          have fin : ∀ (rm : Option ResourceManager) (q : SPdr), freeTeids rm = freeTeids s.rm → (∀ k u, Held rm k u → Held s.rm k u) →
              CB R Old rm0 { s with rm := rm } := by
            intro rm q e1 e2
            exact ⟨h0, pre, by rw [h1]; simp [e1], fun k u hu => h2 k u (e2 k u hu), h3, h4⟩
          unfold pdrUeIp at h
          simp only [] at h
          have hk : ∀ q : SPdr, (∃ ip, q.ipv4 = some ip) ∨ (∃ ip, q.ipv6 = some ip) → ¬ q.chosen := by
            rintro q (⟨ip, e⟩ | ⟨ip, e⟩) ⟨_, h⟩
            · unfold SPdr.key at h; rw [e] at h; cases h
            · unfold SPdr.key at h; rw [e] at h; cases h4 : q.ipv4 <;> rw [h4] at h <;> cases h
          have hal : ∃ rm : Option ResourceManager, s1 = { s with rm := rm } ∧ freeTeids rm = freeTeids s.rm ∧ ∀ k u, Held rm k u → Held s.rm k u := by
            have h' := congrArg Prod.fst h
            have hstep : ∀ r : Option ResourceManager × Option Ip4 × Bool,
                (r.1 = s.rm ∨ ∃ ip, allocIp s.sess.remoteSEID s.rm = (r.1, some ip)) →
                freeTeids r.1 = freeTeids s.rm ∧ ∀ k u, Held r.1 k u → Held s.rm k u := by
              rintro ⟨rm, b⟩ (e | ⟨ip, e⟩)
              · simp only at e; rw [e]; exact ⟨rfl, fun _ _ h => h⟩
              · simp only at e
                unfold allocIp at e
                cases hr : s.rm with
                | none => rw [hr] at e; cases e
                | some r =>
                  rw [hr] at e
                  obtain ⟨hr1, -⟩ := Prod.mk.inj e
                  rw [← hr1]
                  exact ⟨rfl, by rintro k u ⟨r', m, j, e, h1, h2⟩; cases e; exact ⟨r, m, j, rfl, h1, h2⟩⟩
            refine ⟨s1.rm, ?_, ?_⟩
            · have := pdrUeIp_frame ue u { p with info := info } s
              obtain ⟨rm, e⟩ := this
              unfold pdrUeIp at e
              simp only [] at e
              have e' := h'.symm.trans e
              rw [show s1 = _ from e']
            · by_cases hb : (ue && u.chv4) = true
              · simp only [if_pos hb] at h'
                rcases allocIp_cases s.sess.remoteSEID s.rm with ⟨rm', ip, e, _, _⟩ | ⟨e, _⟩
                · have := hstep (rm', some ip, true) (.inr ⟨ip, e⟩)
                  simp only [e] at h'
                  rw [← h']; exact this
                · simp only [e] at h'
                  split at h' <;> (rw [← h']; exact ⟨rfl, fun _ _ h => h⟩)
              · simp only [if_neg hb] at h'
                split at h' <;> (rw [← h']; exact ⟨rfl, fun _ _ h => h⟩)
          obtain ⟨rm, e, e1, e2⟩ := hal
          refine ⟨by rw [e]; exact fin rm p e1 e2, ?_⟩
          rintro q rfl hch
          exfalso
          split at h
          · rename_i ip _ _ _
            have := congrArg Prod.snd h
            cases this
            exact hk _ (.inl ⟨_, rfl⟩) hch
          · have := congrArg Prod.snd h
            cases this
            exact hk _ (.inr ⟨_, rfl⟩) hch
          · cases congrArg Prod.snd h
        · cases h
          refine ⟨same, ?_⟩
          rintro q e; cases e
          intro hch
          exact hp ⟨hch.1, by have := hch.2; exact this⟩

theorem cb_put {s : HS} {p : SPdr} (i : U32) (hs : CB R Old rm0 s) (hp : CBRec Old rm0 s p) : CB R Old rm0 { s with sess := s.sess.putPdr i p } := by
  obtain ⟨h0, pre, h1, h2, h3, h4⟩ := hs
  refine ⟨h0, pre, h1, h2, ?_, h4⟩
  intro j q hq hch
  simp only [Session.putPdr, GoMap.get?_set] at hq
  split at hq
  · cases hq
    rcases hp hch with h | ⟨pre', e, h⟩
    · exact .inl h
    · rw [cb_pre h1 e]; exact .inr h
  · exact h3 j q hq hch

theorem cb_apply (p : SPdr) {s : HS} (hs : CB R Old rm0 s) : CB R Old rm0 (applyPdr p s).1 := by
  obtain ⟨dp, e⟩ := applyPdr_frame p s
  rw [e]
  obtain ⟨h0, pre, h1, h2, h3, h4⟩ := hs
  exact ⟨h0, pre, h1, h2, h3, h4⟩

theorem cb_create (ue ie) : Pres (CB R Old rm0) (createPdr ue ie) := by
  apply pres_of; intro s hs
  unfold createPdr
  cases ie.pdrId with
  | none => exact hs
  | some id =>
    simp only [Act.bind_def, Act.bind]
    rcases hx : extractPdr ue ie { pdrId := id.zeroExtend 32 } s with ⟨s1, res⟩
    have := cb_extract hs (by rintro ⟨h, _⟩; cases h) (by intro h; cases h) hx
    cases res with
    | err => exact this.1
    | panic => exact this.1
    | ok p =>
      simp only [Act.modify]
      have h1 := cb_apply p (cb_put p.pdrId this.1 (this.2 p rfl))
      rcases ha : applyPdr p { s1 with sess := s1.sess.putPdr p.pdrId p } with ⟨s2, r2⟩
      rw [ha] at h1
      cases r2 <;> exact h1

theorem cb_update {ue ie} (hie : ∀ t, ¬ ie.givesTeid t) : Pres (CB R Old rm0) (updatePdr ue ie) := by
  apply pres_of; intro s hs
  unfold updatePdr
  cases ie.pdrId with
  | none => exact hs
  | some id =>
    simp only [Act.bind_def, Act.bind, Act.get]
    rcases hx : extractPdr ue ie (s.sess.getPdr (id.zeroExtend 32)) s with ⟨s1, res⟩
    have hrec : CBRec Old rm0 s (s.sess.getPdr (id.zeroExtend 32)) := by
      intro hch
      unfold Session.getPdr at hch ⊢
      obtain ⟨h0, pre, h1, h2, h3, h4⟩ := hs
      cases hg : s.sess.pdrs.get? (id.zeroExtend 32) with
      | none => rw [hg] at hch; cases hch.1
      | some p =>
        rw [hg] at hch
        rcases h3 _ p hg hch with h | h
        · exact .inl h
        · exact .inr ⟨pre, h1, h⟩
    have := cb_extract hs hrec (fun _ => hie) hx
    cases res with
    | err => exact this.1
    | panic => exact this.1
    | ok p => exact cb_apply p (cb_put _ this.1 (this.2 p rfl))
end

/-! ### bodies that delete -/

/-- State of the deletion of sessions with CP SEIDs `RS`, started with pools `rm0`. -/
def DB (RS : U64 → Prop) (rm0 rm : Option ResourceManager) : Prop :=
  (∀ t ∈ freeTeids rm, t ∈ freeTeids rm0 ∨ ∃ k, RS k ∧ Held rm0 k t) ∧ ∀ k u, Held rm k u → Held rm0 k u

theorem db_release {RS : U64 → Prop} {rm0 : Option ResourceManager} {r : ResourceManager} {ip : IPAM} {o R} (hR : RS R) (h : DB RS rm0 (some r)) :
    DB RS rm0 (some ⟨ip, r.fteidm.release o R⟩) := by
  obtain ⟨h1, h2⟩ := release_held (o := o) (R := R) (r := r) (ip := ip)
  refine ⟨?_, fun k u hu => h.2 k u (h2 k u hu)⟩
  intro t ht
  rcases h1 t ht with ht | ht
  · exact h.1 t ht
  · exact .inr ⟨R, hR, h.2 _ _ ht⟩

theorem db_delete {RS : U64 → Prop} {rm0 : Option ResourceManager} (ord p) :
    Pres (fun s => RS s.sess.remoteSEID ∧ DB RS rm0 s.rm) (deletePdr ord p) := by
  refine deletePdr_pres (pres_of fun s h => ?_) (pres_of fun s h => ?_)
  · obtain ⟨_, _, e⟩ := deletePdrEntry_frame p s; rw [e]; exact h
  · unfold releaseTeids
    split
    · exact h
    · rename_i r hr
      rw [hr] at h
      exact ⟨h.1, db_release h.1 h.2⟩

theorem db_dels {RS : U64 → Prop} {rm0 : Option ResourceManager} (ord : Orders) : ∀ (l : List (U64 × Session)) (rm dp rm' dp' b),
    (∀ e ∈ l, RS e.2.remoteSEID) → DB RS rm0 rm → dropSessions ord l rm dp = (rm', dp', b) → DB RS rm0 rm'
  | [], rm, dp, rm', dp', b, _, h, hd => by cases hd; exact h
  | (seid, sess) :: l, rm, dp, rm', dp', b, hl, h, hd => by
    unfold dropSessions at hd
    have h1 := (deleteSessionBody_rf (I := fun s => RS s.sess.remoteSEID ∧ DB RS rm0 s.rm) (ord := ord) (sess := sess)
      (fun h hs => by rw [h.remote, h.rm]; exact hs) (fun _ _ => db_delete _ _)).apply
      (s := ⟨sess, GoMap.empty, rm, dp, [], []⟩) ⟨hl _ List.mem_cons_self, h⟩
    simp only [] at hd
    split at hd
    · cases hd; exact h1.2
    · exact db_dels ord l _ _ _ _ _ (fun e he => hl e (List.mem_cons_of_mem _ he)) h1.2 hd

/-! ### histories -/

/-- Invariant of disciplined histories. -/
structure DInv (U : List U64) (n : Node) : Prop where
  keys : ∀ k t, Held n.rm k t → k ∈ U
  remote : ∀ a s x, n.session? a s = some x → x.remoteSEID ∈ U
  uniq : ∀ a s x a' s' x', n.session? a s = some x → n.session? a' s' = some x' → x.remoteSEID = x'.remoteSEID → a = a' ∧ s = s'
  own : ∀ a s x i p, n.session? a s = some x → x.pdrs.get? i = some p → p.chosen →
    p.teid ∉ freeTeids n.rm ∧ ∀ k, Held n.rm k p.teid → k = x.remoteSEID
  dist : ∀ a s x a' s' x' i p i' p', n.session? a s = some x → n.session? a' s' = some x' → x.pdrs.get? i = some p → x'.pdrs.get? i' = some p' →
    p.chosen → p'.chosen → p.teid = p'.teid → a = a' ∧ s = s'

/-- storing the session `y` that an establishment or modification made -/
theorem dinv_store {U : List U64} {n : Node} (F : PoolFacts n.rm) (D : DInv U n) {addr : Addr} {seid : U64} {y : Session} {rm : Option ResourceManager}
    {n' : Node} {Old : U32 → Prop} {hs : HS} (hb : CB y.remoteSEID Old n.rm hs) (hsess : hs.sess = y) (hrm : hs.rm = rm) (hn : n'.rm = rm)
    (hU : y.remoteSEID ∈ U)
    (hnew : ∀ a s x, n.session? a s = some x → ¬ (a = addr ∧ s = seid) → x.remoteSEID ≠ y.remoteSEID)
    (hold : ∀ t, Old t → ∃ x i p, n.session? addr seid = some x ∧ x.remoteSEID = y.remoteSEID ∧ x.pdrs.get? i = some p ∧ p.chosen ∧ p.teid = t)
    (hss : ∀ a s, n'.session? a s = if a = addr ∧ s = seid then some y else n.session? a s) : DInv U n' := by
  obtain ⟨-, pre, h1, h2, h3, -⟩ := hb
  rw [hrm] at h1 h2
  rw [hsess] at h3
  have preNot : ∀ t ∈ pre, t ∉ freeTeids rm := by
    have := F.nodup
    rw [h1] at this
    intro t ht hf
    exact (List.nodup_append.1 this).2.2 t ht t hf rfl
  have preFree : ∀ t ∈ pre, t ∈ freeTeids n.rm := by intro t ht; rw [h1]; exact List.mem_append_left _ ht
  have sub : ∀ t ∈ freeTeids rm, t ∈ freeTeids n.rm := by intro t ht; rw [h1]; exact List.mem_append_right _ ht
  have other : ∀ a s, n'.session? a s = some y ∧ (a = addr ∧ s = seid) ∨ n'.session? a s = n.session? a s ∧ ¬ (a = addr ∧ s = seid) := by
    intro a s; rw [hss]; by_cases h : a = addr ∧ s = seid
    · rw [if_pos h]; exact .inl ⟨rfl, h⟩
    · rw [if_neg h]; exact .inr ⟨rfl, h⟩
  -- TEIDs of other sessions are not the new session's
  have cross : ∀ a s x i p i' p', n.session? a s = some x → ¬ (a = addr ∧ s = seid) → x.pdrs.get? i = some p → p.chosen → y.pdrs.get? i' = some p' → p'.chosen →
      p.teid ≠ p'.teid := by
    intro a s x i p i' p' hx hne hp hc hp' hc' e
    rcases h3 i' p' hp' hc' with ho | ho
    · obtain ⟨z, j, q, hz, _, hq, hcq, hqt⟩ := hold _ ho
      exact hne (D.dist _ _ _ _ _ _ _ _ _ _ hx hz hp hq hc hcq (e.trans hqt.symm))
    · exact (D.own _ _ _ _ _ hx hp hc).1 (by rw [e]; exact preFree _ ho)
  refine ⟨?_, ?_, ?_, ?_, ?_⟩
  · rw [hn]; intro k t hk
    rcases h2 k t hk with h | ⟨rfl, _⟩
    · exact D.keys k t h
    · exact hU
  · intro a s x hx
    rcases other a s with ⟨e, _⟩ | ⟨e, _⟩
    · rw [e] at hx; cases hx; exact hU
    · rw [e] at hx; exact D.remote a s x hx
  · intro a s x a' s' x' hx hx' e
    rcases other a s with ⟨e1, g1⟩ | ⟨e1, g1⟩ <;> rcases other a' s' with ⟨e2, g2⟩ | ⟨e2, g2⟩
    · exact ⟨g1.1.trans g2.1.symm, g1.2.trans g2.2.symm⟩
    · rw [e1] at hx; rw [e2] at hx'; cases hx; exact absurd e.symm (hnew _ _ _ hx' g2)
    · rw [e1] at hx; rw [e2] at hx'; cases hx'; exact absurd e (hnew _ _ _ hx g1)
    · rw [e1] at hx; rw [e2] at hx'; exact D.uniq _ _ _ _ _ _ hx hx' e
  · rw [hn]
    intro a s x i p hx hp hc
    rcases other a s with ⟨e1, g1⟩ | ⟨e1, g1⟩
    · rw [e1] at hx; cases hx
      rcases h3 i p hp hc with ho | ho
      · obtain ⟨z, j, q, hz, hr, hq, hcq, hqt⟩ := hold _ ho
        have := D.own _ _ _ _ _ hz hq hcq
        rw [hqt] at this
        refine ⟨fun hf => this.1 (sub _ hf), ?_⟩
        intro k hk
        rcases h2 k _ hk with hk | ⟨hk, _⟩
        · exact (this.2 k hk).trans hr
        · exact hk
      · refine ⟨preNot _ ho, ?_⟩
        intro k hk
        rcases h2 k _ hk with hk | ⟨hk, _⟩
        · exact absurd (preFree _ ho) (F.disj _ _ hk)
        · exact hk
    · rw [e1] at hx
      have := D.own _ _ _ _ _ hx hp hc
      refine ⟨fun hf => this.1 (sub _ hf), ?_⟩
      intro k hk
      rcases h2 k _ hk with hk | ⟨_, hk⟩
      · exact this.2 k hk
      · exact absurd (preFree _ hk) this.1
  · intro a s x a' s' x' i p i' p' hx hx' hp hp' hc hc' e
    rcases other a s with ⟨e1, g1⟩ | ⟨e1, g1⟩ <;> rcases other a' s' with ⟨e2, g2⟩ | ⟨e2, g2⟩
    · exact ⟨g1.1.trans g2.1.symm, g1.2.trans g2.2.symm⟩
    · rw [e1] at hx; rw [e2] at hx'; cases hx; exact absurd e.symm (cross _ _ _ _ _ _ _ hx' g2 hp' hc' hp hc)
    · rw [e1] at hx; rw [e2] at hx'; cases hx'; exact absurd e (cross _ _ _ _ _ _ _ hx g1 hp hc hp' hc')
    · rw [e1] at hx; rw [e2] at hx'; exact D.dist _ _ _ _ _ _ _ _ _ _ hx hx' hp hp' hc hc' e

/-- dropping sessions whose CP SEIDs are `RS` -/
theorem dinv_drop {U : List U64} {n n' : Node} {RS : U64 → Prop} (D : DInv U n) (hdb : DB RS n.rm n'.rm)
    (hss : ∀ a s x, n'.session? a s = some x → n.session? a s = some x ∧ ¬ RS x.remoteSEID) : DInv U n' := by
  refine ⟨fun k t h => D.keys k t (hdb.2 k t h), fun a s x h => D.remote a s x (hss a s x h).1,
    fun a s x a' s' x' h h' => D.uniq a s x a' s' x' (hss _ _ _ h).1 (hss _ _ _ h').1, ?_,
    fun a s x a' s' x' i p i' p' h h' => D.dist a s x a' s' x' i p i' p' (hss _ _ _ h).1 (hss _ _ _ h').1⟩
  intro a s x i p hx hp hc
  obtain ⟨hx, hr⟩ := hss a s x hx
  obtain ⟨o1, o2⟩ := D.own a s x i p hx hp hc
  refine ⟨?_, fun k hk => o2 k (hdb.2 _ _ hk)⟩
  intro hf
  rcases hdb.1 _ hf with h | ⟨k, hk, hh⟩
  · exact o1 h
  · rw [o2 k hh] at hk; exact hr hk

theorem DInv.mono {U U' : List U64} {n : Node} (D : DInv U n) (h : ∀ c ∈ U, c ∈ U') : DInv U' n :=
  ⟨fun k t hk => h _ (D.keys k t hk), fun a s x hx => h _ (D.remote a s x hx), D.uniq, D.own, D.dist⟩

/-- only the pools (not at all) and the sessions matter -/
theorem DInv.congr {U : List U64} {n n' : Node} (D : DInv U n) (hrm : n'.rm = n.rm) (hs : ∀ a s, n'.session? a s = n.session? a s) : DInv U n' := by
  refine ⟨by rw [hrm]; exact D.keys, ?_, ?_, ?_, ?_⟩
  · intro a s x hx; rw [hs] at hx; exact D.remote a s x hx
  · intro a s x a' s' x' hx hx'; rw [hs] at hx hx'; exact D.uniq a s x a' s' x' hx hx'
  · intro a s x i p hx; rw [hs] at hx; rw [hrm]; exact D.own a s x i p hx
  · intro a s x a' s' x' i p i' p' hx hx'; rw [hs] at hx hx'; exact D.dist a s x a' s' x' i p i' p' hx hx'

theorem session_set (n : Node) (addr : Addr) (a : Assoc) (ha : n.assocs.get? addr = some a) (m : U64) (q : U32) (k : U64) (y : Session)
    (rm : Option ResourceManager) (dp : BpfObjects) (b : Addr) (s : U64) :
    ({ n with rm := rm, dp := dp, assocs := n.assocs.set addr ⟨m, q, a.sessions.set k y⟩ } : Node).session? b s =
      if b = addr ∧ s = k then some y else n.session? b s := by
  simp only [Node.session?, GoMap.get?_set]
  by_cases hb : b = addr
  · subst hb
    simp only [if_true, Option.bind_some, GoMap.get?_set, ha, true_and]
  · rw [if_neg hb, if_neg (fun h => hb h.1)]

theorem dinv_hist {cfg : NodeCfg} {ips : List Ip4} {range : U32} {dp : BpfObjects} {h : List (Ev × Outcome)} {n : Node}
    (H : Hist (Node.init cfg (some (newResourceManager ips range)) dp) h n) : Disciplined h → DInv (cpSeids h) n := by
  induction H with
  | init =>
    intro _
    have hno : ∀ a s, (Node.init cfg (some (newResourceManager ips range)) dp).session? a s = none := by
      intro a s; simp [Node.session?, Node.init]
    refine ⟨?_, ?_, ?_, ?_, ?_⟩
    · rintro k t ⟨r, m, i, e, h1, _⟩; cases e; simp [newResourceManager] at h1
    · intro a s x hx; rw [hno] at hx; cases hx
    · intro a s x a' s' x' hx; rw [hno] at hx; cases hx
    · intro a s x i p hx; rw [hno] at hx; cases hx
    · intro a s x a' s' x' i p i' p' hx; rw [hno] at hx; cases hx
  | traffic _ _ ih => intro d; exact (ih d).congr rfl (fun _ _ => rfl)
  | @step h n e H hc ih =>
    intro d
    have D := ih d.tail
    have F := pool_facts H
    have other : e.isNodeMsg = true → DInv (cpSeids h) (n.step e).1 := by
      intro he
      rcases other_step n e he with h1 | ⟨b, hbn, h1⟩
      · rw [h1]; exact D
      · rw [h1]
        refine D.congr rfl ?_
        intro a s
        simp only [Node.session?, GoMap.get?_set]
        split
        · subst a; rw [hbn]; simp [Assoc.new]
        · rfl
    cases e with
    | assocSetup => exact other rfl
    | assocSetupResp => exact other rfl
    | assocUpdate => exact other rfl
    | heartbeatReq => exact other rfl
    | heartbeatResp => exact other rfl
    | setConfig => exact D.congr rfl (fun _ _ => rfl)
    | establish addr r =>
      have mono : ∀ c ∈ cpSeids h, c ∈ cpSeids ((Ev.establish addr r, (n.step (.establish addr r)).2) :: h) := by
        intro c hc; simp only [cpSeids]; split
        · exact List.mem_cons_of_mem _ hc
        · exact hc
      simp only [Node.step] at hc mono ⊢
      cases establish_cases n addr r with
      | refused c hcc he => rw [he] at mono ⊢; exact D.mono mono
      | ran remote a hs res hid hcp ha hbody hl hrem he =>
        have hnew : remote ∉ cpSeids h := by
          have := d.cp
          simp only [cpSeids, hcp] at this
          exact (List.nodup_cons.1 this).1
        have hin : remote ∈ cpSeids ((Ev.establish addr r, (n.establish addr r).2) :: h) := by
          simp only [cpSeids, hcp]; exact List.mem_cons_self
        have cb := (establishBody_rf (I := CB remote (fun _ => False) n.rm) (ue := n.ueip) (r := r) cb_frame (fun _ _ => cb_create _ _)).apply
          (s := n.hs (Session.new (a.nextSessionID + 1) remote))
          ⟨rfl, [], rfl, fun _ _ h => .inl h, fun i p hp => by simp [Node.hs, Session.new] at hp, fun c v hv => by simp [Node.hs] at hv⟩
        rw [hbody] at cb
        rw [he] at hin mono hc ⊢
        cases res with
        | panic => exact absurd rfl hc
        | ok _ =>
          exact dinv_store F (D.mono mono) (y := hs.sess) (addr := addr) (seid := a.nextSessionID + 1) (by rw [hrem]; exact cb) rfl rfl rfl
            (by rw [hrem]; exact hin)
            (fun b s x hx _ e => hnew (by rw [← hrem, ← e]; exact D.remote b s x hx)) (Old := fun _ => False) (fun t (h : False) => h.elim)
            (fun b s => session_set n addr a ha _ _ _ hs.sess hs.rm hs.dp b s)
        | err =>
          -- the TEIDs taken are lost
          obtain ⟨_, pre, h1, h2, h3, -⟩ := cb
          have D' := D.mono mono
          refine DInv.congr (n := { n with rm := hs.rm }) ?_ rfl ?_
          · refine ⟨?_, D'.remote, D'.uniq, ?_, D'.dist⟩
            · intro k t hk
              rcases h2 k t hk with hk | ⟨rfl, _⟩
              · exact D'.keys k t hk
              · exact hin
            · intro b s x i p hx hp hch
              obtain ⟨o1, o2⟩ := D'.own b s x i p hx hp hch
              refine ⟨fun hf => o1 (by rw [h1]; exact List.mem_append_right _ hf), ?_⟩
              intro k hk
              rcases h2 k _ hk with hk | ⟨_, hk⟩
              · exact o2 k hk
              · exact absurd (by rw [h1]; exact List.mem_append_left _ hk) o1
          · intro b s
            simp only [Node.estResult, Node.session?, GoMap.get?_set]
            split
            · subst b; simp only [Assoc.bumped, ha]; rfl
            · rfl
    | modify addr r ord =>
      obtain ⟨m1, m2, m3⟩ := d.mod addr r ord _ List.mem_cons_self
      simp only [Node.step] at hc ⊢
      show DInv (cpSeids h) _
      cases modify_cases n addr r ord with
      | refused c x hcc hs he => rw [he]; exact D
      | ran a sess hs res ha hsess hbody hl hrem he =>
        have hset : sess.setRemote r.cpFseid = sess := by
          unfold Session.setRemote
          split
          · rename_i c hc'; exact absurd hc' (m1 c)
          · rfl
        rw [hset] at hbody hrem
        have hx : n.session? addr r.seid = some sess := by simp [Node.session?, ha, hsess]
        let Old : U32 → Prop := fun t => ∃ i p, sess.pdrs.get? i = some p ∧ p.chosen ∧ p.teid = t
        have cb := (modifyBody_rf (I := CB sess.remoteSEID Old n.rm) (ue := n.ueip) (ord := ord) (r := r) cb_frame (fun _ _ => cb_create _ _)
          (fun ie hie => cb_update (m3 ie hie)) (fun id hid => by rw [m2] at hid; cases hid)).apply
          (s := n.hs sess) ⟨rfl, [], rfl, fun _ _ h => .inl h, fun i p hp hch => .inl ⟨i, p, hp, hch, rfl⟩, fun c v hv => by simp [Node.hs] at hv⟩
        rw [hbody] at cb
        rw [he]
        exact dinv_store F D (y := hs.sess) (addr := addr) (seid := r.seid) (by rw [hrem]; exact cb) rfl rfl rfl
          (by rw [hrem]; exact D.remote _ _ _ hx)
          (fun b s x hx' hne e => hne (D.uniq _ _ _ _ _ _ hx' hx (by rw [e, hrem])))
          (Old := Old) (by rintro t ⟨i, p, hp, hch, ht⟩; exact ⟨sess, i, p, hx, hrem.symm, hp, hch, ht⟩)
          (fun b s => session_set n addr a ha _ _ _ hs.sess hs.rm hs.dp b s)
    | delete addr r ord =>
      obtain ⟨d1, d2⟩ := d.del addr r ord _ List.mem_cons_self
      simp only [Node.step] at hc d1 d2 ⊢
      have d2 : r.seid ∉ cpSeids h := d2
      show DInv (cpSeids h) _
      cases delete_cases n addr r ord with
      | refused c hcc hs he => rw [he]; exact D
      | ran a sess hs res ha hsess hbody he =>
        have hx : n.session? addr r.seid = some sess := by simp [Node.session?, ha, hsess]
        have db := (deleteBody_rf (I := fun s => s.sess.remoteSEID = sess.remoteSEID ∧ DB (fun k => k = sess.remoteSEID) n.rm s.rm) (ord := ord) (sess := sess)
          (fun h hs => by rw [h.remote, h.rm]; exact hs) (fun _ _ => db_delete (RS := fun k => k = sess.remoteSEID) _ _)).apply
          (s := n.hs sess) ⟨rfl, fun t ht => .inl ht, fun _ _ h => h⟩
        rw [hbody] at db
        rw [he] at d1 hc ⊢
        cases res with
        | panic => exact absurd rfl hc
        | err => exact absurd rfl d1
        | ok _ =>
          refine dinv_drop (RS := fun k => k = sess.remoteSEID) D ?_ ?_
          · show DB _ n.rm (releaseResources ord r.seid hs.rm)
            cases hr : hs.rm with
            | none => have := db.2; rw [hr] at this; exact this
            | some rr =>
              have := db.2; rw [hr] at this
              obtain ⟨g1, g2⟩ := release_held (o := ord.teids) (R := r.seid) (r := rr) (ip := rr.ipam.release r.seid)
              refine ⟨?_, fun k u hu => this.2 k u (g2 k u hu)⟩
              intro t ht
              rcases g1 t ht with ht | ht
              · exact this.1 t ht
              · exact absurd (D.keys _ _ (this.2 _ _ ht)) d2
          · intro b s x hx'
            simp only [Node.delResult, Node.session?, GoMap.get?_set] at hx'
            have hold : n.session? b s = some x ∧ ¬ (b = addr ∧ s = r.seid) := by
              split at hx'
              · subst b
                simp only [Option.bind_some, GoMap.get?_erase] at hx'
                split at hx'
                · cases hx'
                · rename_i hne; exact ⟨by simp [Node.session?, ha, hx'], fun h => hne h.2⟩
              · rename_i hne; exact ⟨hx', fun h => hne h.1⟩
            exact ⟨hold.1, fun e => hold.2 (D.uniq _ _ _ _ _ _ hold.1 hx e)⟩
    | peerLost addr ord =>
      simp only [Node.step, Node.deleteAssociation] at hc ⊢
      show DInv (cpSeids h) _
      cases ha : n.assocs.get? addr with
      | none => rw [ha] at hc; exact absurd rfl hc
      | some a =>
        simp only [ha] at hc ⊢
        rcases hd : dropSessions ord (ord.sessions.run a.sessions.entries) n.rm n.dp with ⟨rm, dp', b⟩
        have hmem : ∀ e ∈ ord.sessions.run a.sessions.entries, n.session? addr e.1 = some e.2 := by
          intro e he
          have := (a.sessions.mem_entries_iff e.1 e.2).1 ((ord.sessions.perm _).mem_iff.1 he)
          simp [Node.session?, ha, this]
        have db := db_dels (RS := fun k => ∃ s x, n.session? addr s = some x ∧ x.remoteSEID = k) (rm0 := n.rm) ord _ _ _ _ _ _
          (fun e he => ⟨e.1, e.2, hmem e he, rfl⟩) ⟨fun t ht => .inl ht, fun _ _ h => h⟩ hd
        rw [hd] at hc
        cases b with
        | false => exact absurd rfl hc
        | true =>
          refine dinv_drop D db ?_
          intro b s x hx
          simp only [Node.session?, GoMap.get?_erase] at hx
          split at hx
          · cases hx
          · rename_i hne
            refine ⟨hx, ?_⟩
            rintro ⟨s', x', hx', e⟩
            exact hne (D.uniq _ _ _ _ _ _ hx hx' e.symm).1

/-- the TEID the node chose for PDR `i` of the session `s` of peer `a`; absent if there is no such session or PDR or the TEID was not chosen by the node -/
def Node.chosenTeid? (n : Node) (a : Addr) (s : U64) (i : U32) : Option U32 :=
  (n.session? a s).bind fun x => (x.pdrs.get? i).bind fun p => if p.allocated = true ∧ p.key = .ul p.teid then some p.teid else none

theorem chosenTeid?_iff {n : Node} {a : Addr} {s : U64} {i t : U32} :
    n.chosenTeid? a s i = some t ↔ ∃ x p, n.session? a s = some x ∧ x.pdrs.get? i = some p ∧ p.chosen ∧ p.teid = t := by
  unfold Node.chosenTeid? SPdr.chosen
  constructor
  · intro h
    obtain ⟨x, hx, h⟩ := Option.bind_eq_some_iff.1 h
    obtain ⟨p, hp, h⟩ := Option.bind_eq_some_iff.1 h
    split at h
    · rename_i hc; cases h; exact ⟨x, p, hx, hp, hc, rfl⟩
    · cases h
  · rintro ⟨x, p, hx, hp, hc, rfl⟩
    rw [hx, Option.bind_some, hp, Option.bind_some, if_pos hc]

/-- **C14, disciplined histories.** TEIDs chosen for PDRs of different live sessions differ. -/
theorem C14_distinct_partial {cfg : NodeCfg} {ips : List Ip4} {range : U32} {dp : BpfObjects} {h : List (Ev × Outcome)} {n : Node}
    (H : Hist (Node.init cfg (some (newResourceManager ips range)) dp) h n) (d : Disciplined h)
    {a a' : Addr} {s s' : U64} {i i' t t' : U32} (hne : (a, s) ≠ (a', s')) (hp : n.chosenTeid? a s i = some t) (hp' : n.chosenTeid? a' s' i' = some t') :
    t ≠ t' := by
  rintro rfl
  obtain ⟨x, p, hx, hi, hc, ht⟩ := chosenTeid?_iff.1 hp
  obtain ⟨x', p', hx', hi', hc', ht'⟩ := chosenTeid?_iff.1 hp'
  obtain ⟨e1, e2⟩ := (dinv_hist H d).dist _ _ _ _ _ _ _ _ _ _ hx hx' hi hi' hc hc' (ht.trans ht'.symm)
  exact hne (by rw [e1, e2])

namespace Demo
/-- a modification that replaces an FAR -/
def modOk : ModReq := { seid := 2, seq := 8, updateFar := [{ kind := .update, farId := some 1, applyAction := some [1] }] }
/-- two peers, three sessions, a modification, a deletion -/
def evsOk : List Ev :=
  [.assocSetup 1 1 (some (some ())) (some (some ())), .assocSetup 2 1 (some (some ())) (some (some ())), .establish 1 (est 100), .establish 2 (est 200),
   .establish 1 (est 101), .modify 1 modOk default, .delete 1 ⟨3, 9⟩ default]
end Demo

/-- The hypotheses are met by a history in which two sessions with chosen TEIDs are live. -/
example : Hist Demo.n0 (Demo.n0.observed Demo.evsOk) (Demo.n0.run Demo.evsOk).1 ∧ Disciplined (Demo.n0.observed Demo.evsOk) ∧
    (Demo.n0.run Demo.evsOk).1.chosenTeid? 1 2 1 = some 1 ∧ (Demo.n0.run Demo.evsOk).1.chosenTeid? 2 2 1 = some 2 := by
  refine ⟨hist_run_init _ (by decide +kernel), ?_, by decide +kernel, by decide +kernel⟩
  have hl : (Demo.n0.run Demo.evsOk).2.length = 7 := by decide +kernel
  have h7 : (Demo.n0.run Demo.evsOk).2.getLast? ≠ some .silent := by decide +kernel
  unfold Node.observed
  generalize (Demo.n0.run Demo.evsOk).2 = os at hl h7 ⊢
  obtain _ | ⟨o1, _ | ⟨o2, _ | ⟨o3, _ | ⟨o4, _ | ⟨o5, _ | ⟨o6, _ | ⟨o7, _ | ⟨o8, os⟩⟩⟩⟩⟩⟩⟩⟩ := os <;> simp at hl
  simp at h7
  constructor
  · simp [cpSeids, Demo.evsOk, Demo.est]
  · intro a r o out h
    simp [Demo.evsOk] at h
    obtain ⟨⟨_, rfl, _⟩, _⟩ := h
    refine ⟨by simp [Demo.modOk], rfl, by simp [Demo.modOk]⟩
  · intro a r o out h
    simp [Demo.evsOk] at h
    obtain ⟨⟨_, rfl, _⟩, rfl⟩ := h
    refine ⟨h7, by simp [cpSeids, Demo.evsOk, Demo.est]⟩

/-! ### C14 is false in general -/

/-- the request was accepted -/
def Outcome.accepted : Outcome → Bool
  | .reply r => r.cause == causeAccepted
  | _ => false

namespace Demo
/-- a node with two TEIDs -/
def nTwo : Node := Node.init cfg (some (newResourceManager [0x0a2d0001] 2)) (BpfObjects.load 8 4 4 4)
def assoc (a : Addr) : Ev := .assocSetup a 1 (some (some ())) (some (some ()))
/-- a session of uplink PDRs that ask for TEIDs -/
def estPdrs (cp : U64) (l : List PdrIE) : EstReq := { seq := 1, nodeId := some (some ()), cpFseid := some (some cp), createFar := [fwd], createPdr := l }
/-- one of two PDRs is removed, then another session is established -/
def evsRemove : List Ev := [assoc 1, .establish 1 (estPdrs 100 [ch 1 none, ch 2 none]), .modify 1 { seid := 2, seq := 2, removePdr := [some 2] } default,
  .establish 1 (estPdrs 101 [ch 1 none, ch 2 none])]
/-- the SMF's SEID of the first session (3) is this node's SEID of the second one, which is deleted -/
def evsLocal : List Ev := [assoc 1, .establish 1 (estPdrs 3 [ch 1 none]), .establish 1 (estPdrs 100 [ch 1 none]), .delete 1 ⟨3, 3⟩ default,
  .establish 1 (estPdrs 101 [ch 1 none, ch 2 none])]
/-- two SMFs use the same SEID -/
def evsSmfs : List Ev := [assoc 1, assoc 2, .establish 1 (estPdrs 100 [ch 1 none]), .establish 2 (estPdrs 100 [ch 2 none]), .delete 2 ⟨2, 3⟩ default,
  .establish 1 (estPdrs 101 [ch 1 none, ch 2 none])]
/-- a PDR for a UE address -/
def dl (id : U16) (ip : Ip4) : PdrIE := { pdrId := some id, farId := some 1, pdi := some { ueip := some (some { ipv4 := some ip }) } }
/-- a deletion fails half way -/
def evsFail : List Ev := [assoc 1, .establish 1 (estPdrs 100 [dl 3 7, dl 4 7, ch 1 none]), .delete 1 ⟨2, 3⟩ default,
  .establish 1 (estPdrs 101 [ch 1 none, ch 2 none])]
end Demo

/-- **C14 is false: removing one PDR.** After accepted requests only, two live sessions have the same chosen TEID: removing one PDR of a session
put all TEIDs of the session back into the pool. -/
theorem C14_remove_pdr : ∃ h n, Hist Demo.nTwo h n ∧ h.all (fun x => x.2.accepted) = true ∧ n.chosenTeid? 1 2 1 = some 1 ∧ n.chosenTeid? 1 3 2 = some 1 :=
  ⟨Demo.nTwo.observed Demo.evsRemove, (Demo.nTwo.run Demo.evsRemove).1, hist_run_init Demo.evsRemove (by decide +kernel), by decide +kernel, by decide +kernel, by decide +kernel⟩

/-- **C14 is false: deleting a session whose SEID is the SMF's SEID of another one.** -/
theorem C14_local_seid : ∃ h n, Hist Demo.nTwo h n ∧ h.all (fun x => x.2.accepted) = true ∧ n.chosenTeid? 1 2 1 = some 1 ∧ n.chosenTeid? 1 4 2 = some 1 :=
  ⟨Demo.nTwo.observed Demo.evsLocal, (Demo.nTwo.run Demo.evsLocal).1, hist_run_init Demo.evsLocal (by decide +kernel), by decide +kernel, by decide +kernel, by decide +kernel⟩

/-- **C14 is false: two SMFs that use the same SEID.** -/
theorem C14_two_smfs : ∃ h n, Hist Demo.nTwo h n ∧ h.all (fun x => x.2.accepted) = true ∧ n.chosenTeid? 1 2 1 = some 1 ∧ n.chosenTeid? 1 3 2 = some 1 :=
  ⟨Demo.nTwo.observed Demo.evsSmfs, (Demo.nTwo.run Demo.evsSmfs).1, hist_run_init Demo.evsSmfs (by decide +kernel), by decide +kernel, by decide +kernel, by decide +kernel⟩

/-- **C14 is false: a deletion that fails half way** (and is not answered): the session is live, its TEIDs are free. -/
theorem C14_failed_deletion : ∃ h n, Hist Demo.nTwo h n ∧ n.chosenTeid? 1 2 1 = some 1 ∧ n.chosenTeid? 1 3 2 = some 1 :=
  ⟨Demo.nTwo.observed Demo.evsFail, (Demo.nTwo.run Demo.evsFail).1, hist_run_init Demo.evsFail (by decide +kernel), by decide +kernel, by decide +kernel⟩

/-! ### C15: addresses do not come back -/

namespace Demo
/-- a session that asks for an address -/
def estIp (cp : U64) : EstReq := estPdrs cp [{ pdrId := some 1, farId := some 1, pdi := some { ueip := some (some { chv4 := true }) } }]
/-- the only address of the pool is given to a session, which is deleted; another session asks -/
def evsIp : List Ev := [assoc 1, .establish 1 (estIp 100), .delete 1 ⟨2, 3⟩ default]
end Demo

/-- **C15, last part, is false.** The only address of the pool was given to a session (reported to the peer); the session is deleted (accepted) and the
pool is still empty: the next session is refused. -/
theorem C15_address_lost :
    (Demo.nTwo.run Demo.evsIp).2.map Outcome.accepted = [true, true, true] ∧ freeIps Demo.nTwo.rm = [0x0a2d0001] ∧ (Demo.nTwo.run Demo.evsIp).1.session? 1 2 = none ∧
    freeIps (Demo.nTwo.run Demo.evsIp).1.rm = [] ∧
    ((Demo.nTwo.run Demo.evsIp).1.step (.establish 1 (Demo.estIp 101))).2 = .reply { type := .establishment, seid := 101, seq := 1, cause := 73 } := by
  refine ⟨by decide +kernel, by decide +kernel, ?_, by decide +kernel, by decide +kernel⟩
  have : ((Demo.nTwo.run Demo.evsIp).1.session? 1 2).isNone = true := by decide +kernel
  simpa using this

end Eupf
