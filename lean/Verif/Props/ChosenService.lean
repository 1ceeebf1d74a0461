import Verif.Props.EndToEnd
import Verif.Props.TeidDistinct
/-
C90: a tunnel whose TEID the UPF chose.
-/
namespace Eupf
open Act

/-! ### which Create PDRs give a record with an uplink key -/

theorem extract_ul {ue : Bool} {ie : PdrIE} {id : U32} {p : SPdr} {s s1 : HS} {t : U32}
    (h : extractPdr ue ie { pdrId := id } s = (s1, .ok p)) (hk : p.key = .ul t) (ht : t ≠ 0) (hn : ie.asksTeid = none) : ie.names (.ul t) := by
  unfold extractPdr at h
  simp only [] at h
  split at h
  · cases h
  · rename_i pdi hpdi
    split at h
    · cases h
    · rename_i info _
      split at h
      · cases h
      · rename_i f hf
        have asks : ie.asksTeid = if f.ch then some f.chooseId else none := by
          unfold PdrIE.asksTeid; rw [hpdi]; obtain ⟨a, b⟩ := pdi; simp only at hf; rw [hf]
        unfold pdrFteid at h
        split at h
        · rename_i hch; rw [if_pos hch, hn] at asks; cases asks
        · rename_i hch
          cases h
          refine ⟨pdi, f, hpdi, hf, by simpa using hch, ?_⟩
          exact PdrKey.ul.inj hk
      · split at h
        · cases h
        · rename_i u hu
          have key : ∀ r : Option ResourceManager × Option Ip4 × Bool, ∀ q : SPdr,
              (match r.2.1, u.ipv6 with
                | some ip, _ => (({ s with rm := r.1 }, .ok { q with ipv4 := some ip, allocated := r.2.2 }) : HS × Res SPdr)
                | none, some ip6 => ({ s with rm := r.1 }, .ok { q with ipv6 := some ip6, allocated := r.2.2 })
                | none, none => ({ s with rm := r.1 }, .err)) = (s1, .ok p) → False := by
            intro r q he
            split at he
            · cases he; simp [SPdr.key] at hk
            · cases he
              unfold SPdr.key at hk
              cases hq : q.ipv4 <;> simp [hq] at hk
            · cases he
          exact (key _ _ h).elim
        · cases h
          exact absurd (PdrKey.ul.inj hk).symm ht

/-- Later Create PDRs of the request leave the entry of a chosen TEID alone: other CHOOSE IDs get other TEIDs. -/
theorem keep_later {F0 : List U32} {ue : Bool} {t : U32} {i0 : Option U16} {c0 : Option U8} (ht : t ≠ 0) : ∀ (l : List PdrIE) {s s' : HS}
    {seen : List ((Option U16 × Option U8) × U32)}, Seen F0 s seen → ((i0, c0), t) ∈ seen → Act.each (createPdr ue) l s = (s', .ok ()) →
    (∀ x ∈ l, ¬ x.names (.ul t) ∧ ∀ c, c0 = some c → x.asksTeid ≠ some (some c)) → s'.dp.entry? (.ul t) = s.dp.entry? (.ul t)
  | [], s, s', seen, _, _, he, _ => by cases he; rfl
  | x :: l, s, s', seen, h, hm, he, hl => by
    obtain ⟨s1, h1, h2⟩ := each_cons_ok he
    obtain ⟨new, i1, -, -⟩ := seen_step 0 h h1
    rw [keep_later ht l i1 (List.mem_append_left _ hm) h2 fun y hy => hl y (.tail _ hy)]
    obtain ⟨hx1, hx2⟩ := hl x (.head _)
    obtain ⟨id, p, u, hid, hx, -, -, -, -, hent⟩ := createPdr_ok h1
    rw [hent, if_neg]
    intro hk
    have hk := hk.symm
    have pt : p.ipv4 = none → p.ipv6 = none → p.teid = t := by
      intro h4 h6; unfold SPdr.key at hk; rw [h4, h6] at hk; exact PdrKey.ul.inj hk
    cases got hx with
    | shared c ha hc e al h4 h6 =>
      obtain ⟨i, hi⟩ := (h.cache _ _).1 hc
      rw [pt h4 h6] at hi
      by_cases heq : (((i0, c0), t) : (Option U16 × Option U8) × U32) = ((i, some c), t)
      · cases heq; exact hx2 c rfl ha
      · have sym : ∀ x y : (Option U16 × Option U8) × U32, ChooseOk x y → ChooseOk y x := by
          intro x y hxy
          constructor
          · intro e; obtain ⟨e1, e2⟩ := hxy.1 e.symm; exact ⟨e1.symm, by rw [← e1]; exact e2⟩
          · intro ⟨e1, e2⟩; exact (hxy.2 ⟨e1.symm, by rw [← e1]; exact e2⟩).symm
        exact hx2 c ((pairwise_mem sym h.ok hm hi heq).1 rfl).1 ha
    | fresh c ha hmiss hf hi hcache al h4 h6 =>
      refine h.apart _ hm ?_
      rw [hf, pt h4 h6]; exact .head _
    | address ip hn ha hu hf hi hcache al h4 => unfold SPdr.key at hk; rw [h4] at hk; cases hk
    | given hn ha e al => exact hx1 (extract_ul hx hk ht hn)

/-- A Create PDR of an accepted establishment that leaves its TEID to the UPF, where no later Create PDR has the same CHOOSE ID or gives
the TEID reported: the session has the record with this TEID, and it is in effect. -/
theorem establish_chosen {n : Node} {addr : Addr} {r : EstReq} {n' : Node} {resp : Resp} (hpool : (freeTeids n.rm).Nodup)
    (hstep : n.step (.establish addr r) = (n', .reply resp)) (hacc : resp.cause = 1)
    (hnd : (r.createPdr.map (·.pdrId)).Nodup) {l1 l2 : List PdrIE} {ie : PdrIE} (hr : r.createPdr = l1 ++ ie :: l2)
    {co : Option U8} (hask : ie.asksTeid = some co) {i : U16} (hi : ie.pdrId = some i) {t : U32} {n3 : Ip4} (hrep : .fteid i t n3 ∈ resp.created)
    (ht : t ≠ 0) (hl2 : ∀ x ∈ l2, ¬ x.names (.ul t) ∧ ∀ c, co = some c → x.asksTeid ≠ some (some c)) :
    ∃ seid sess p, resp.fseid = some seid ∧ n'.session? addr seid = some sess ∧
      sess.pdrs.get? (i.zeroExtend 32) = some p ∧ PdrGiven ie sess p ∧ p.key = .ul t ∧ p.chosen ∧ InEffect n'.dp p := by
  obtain ⟨seid', sess', c1, c2, c3, -⟩ := C17_created hstep hacc
  obtain ⟨-, -, -, -, c4⟩ := c3 i t n3 hrep
  obtain ⟨p0, c5, c6⟩ := c4 hnd
  obtain ⟨seid, remote, hs', h1, h2, hb, h3, h4, -, -⟩ := establish_accepted hstep hacc
  have : seid' = seid := Option.some.inj (c1.symm.trans h1)
  subst this
  have : sess' = hs'.sess := Option.some.inj (c2.symm.trans h3)
  subst this
  unfold establishBody at hb
  obtain ⟨_, s0, e0, hb⟩ := bind_ok hb
  obtain rfl := display_ok e0
  obtain ⟨_, s1, e1, hb⟩ := bind_ok hb
  obtain ⟨_, s2, e2, hb⟩ := bind_ok hb
  obtain ⟨_, s3, e3, e4⟩ := bind_ok hb
  have fr : s3.cache = GoMap.empty ∧ s3.rm = n.rm := by
    have hI : ∀ {s s' : HS}, RuleFrame s s' → (s.cache = GoMap.empty ∧ s.rm = n.rm) → s'.cache = GoMap.empty ∧ s'.rm = n.rm :=
      fun h h' => ⟨h.cache.trans h'.1, h.rm.trans h'.2⟩
    have f1 := pres_each_ok (fun _ _ => pres_of fun s h => hI (createFar_rf _ s) h) e1 ⟨rfl, rfl⟩
    have f2 := pres_each_ok (fun _ _ => pres_of fun s h => hI (createQer_rf _ s) h) e2 f1
    exact pres_each_ok (fun _ _ => pres_of fun s h => hI (createUrr_rf _ s) h) e3 f2
  rw [hr] at e4 hnd
  obtain ⟨t1, f1, f2⟩ := each_append_ok l1 e4
  obtain ⟨t2, f3, f4⟩ := each_cons_ok f2
  obtain ⟨new1, g1, -, -⟩ := seen_all 0 l1 (seen_init fr.1 (by rw [fr.2]; exact hpool)) f1
  obtain ⟨new2, g2, g3, g4⟩ := seen_step 0 g1 f3
  obtain ⟨id, p, v, hid, hx, hsess, hcr, -, -, hent⟩ := createPdr_ok f3
  have : id = i := by rw [hi] at hid; exact (Option.some.inj hid).symm
  subst this
  simp only [List.map_append, List.map_cons] at hnd
  have hnd2 := (List.nodup_append.1 hnd).2.1
  rw [List.nodup_cons] at hnd2
  obtain ⟨i1, i2, i3, i4⟩ := puts_later (createPdr_puts _) l2 t2 hs' f4 hnd2.2
  have hrec : hs'.sess.pdrs.get? (id.zeroExtend 32) = some p := by
    rw [i2 id ?_, hsess]
    · exact (GoMap.get?_set ..).trans (if_pos rfl)
    · intro y hy he
      exact hnd2.1 (List.mem_map.2 ⟨y, hy, he.trans hid.symm⟩)
  have : p0 = p := Option.some.inj (c5.symm.trans hrec)
  subst this
  have hg : PdrGiven ie hs'.sess p0 := given_of hx _ (by rw [i3, hsess]; rfl) (by rw [i4, hsess]; rfl)
  have hpt : p0.allocated = true ∧ p0.ipv4 = none ∧ p0.ipv6 = none := by
    cases got hx with
    | shared c ha hc e al h4 h6 => exact ⟨al, h4, h6⟩
    | fresh c ha hmiss hf hi hcache al h4 h6 => exact ⟨al, h4, h6⟩
    | address ip hn ha hu hf hi hcache al h4 => rw [hask] at hn; cases hn
    | given hn ha e al => rw [hask] at hn; cases hn
  have hteid : p0.teid = t := by
    have := c6; unfold SPdr.key at this; rw [hpt.2.1, hpt.2.2] at this; exact PdrKey.ul.inj this
  have hch : p0.chosen := ⟨hpt.1, by rw [c6, hteid]⟩
  refine ⟨seid', hs'.sess, p0, h1, h3, hrec, hg, c6, hch, ?_⟩
  have hin : ((ie.pdrId, co), t) ∈ [] ++ new1 ++ new2 := by
    have : new2.map Prod.fst = [(ie.pdrId, co)] := by rw [← g3]; simp [teidAskers, hask]
    obtain ⟨⟨k, t'⟩, rest, e⟩ : ∃ x l, new2 = x :: l := by cases new2 with
      | nil => cases this
      | cons x l => exact ⟨x, l, rfl⟩
    subst e
    simp only [List.map_cons, List.cons.injEq, List.map_eq_nil_iff] at this
    obtain ⟨rfl, rfl⟩ := this
    -- the TEID of the asker is the one of its record
    have ht' : t' = t := by
      rw [hcr, createdIEs_append, reportedTeids_append] at g4
      have g5 := List.append_cancel_left g4
      simp [createdIEs, hpt.1, hpt.2.1, hpt.2.2, reportedTeids, asReported] at g5
      rw [← g5.2, hteid]
    exact List.mem_append_right _ (by rw [ht']; exact .head _)
  rw [h4]
  apply inEffect_of (cur := t1.dp.entry? p0.key)
  rw [c6, keep_later ht l2 g2 hin f4 hl2, hent, c6, if_pos rfl]

/-! ### TEIDs that only the UPF hands out -/

/-- Uplink PDRs of the session with TEID `t` have it from the UPF. -/
abbrev CTS (t : U32) (s : Session) : Prop := ∀ i p, s.pdrs.get? i = some p → p.key = .ul t → p.allocated = true
abbrev CT (t : U32) : HS → Prop := HI (CTS t) (fun _ _ => True)

section
variable {t : U32}

theorem ct_frame {s s' : HS} (h : RuleFrame s s') (hs : CT t s) : CT t s' :=
  ⟨fun i p hp => hs.1 i p (by rw [← h.pdrs]; exact hp), trivial⟩

theorem ct_extract {ue : Bool} {ie : PdrIE} (hie : ¬ ie.givesTeid t) {p : SPdr} (hp : p.key = .ul t → p.allocated = true) (s : HS) :
    ∀ p', (extractPdr ue ie p s).2 = .ok p' → p'.key = .ul t → p'.allocated = true := by
  unfold extractPdr
  simp only []
  split
  · rintro p' e; cases e
  · rename_i pdi hpdi
    split
    · rintro p' e; cases e
    · split
      · rintro p' e; cases e
      · rename_i f hf
        unfold pdrFteid
        split
        · split
          · rintro p' e; cases e; exact fun _ => rfl
          · rename_i info _ _ _ _ _
            rcases hx : allocTeid s.sess.remoteSEID p.pdrId s.rm with ⟨rm, r⟩
            simp only [hx]
            cases r with
            | none => rintro p' e; cases e
            | some v =>
              simp only []
              cases f.chooseId with
              | none => rintro p' e; cases e; exact fun _ => rfl
              | some c => rintro p' e; cases e; exact fun _ => rfl
        · rename_i hch
          rintro p' e; cases e
          intro hk
          exfalso
          refine hie ⟨pdi, f, hpdi, hf, by simpa using hch, ?_⟩
          unfold SPdr.key at hk
          split at hk
          · cases hk
          · cases hk
          · exact PdrKey.ul.inj hk
      · split
        · rintro p' e; cases e
        · rename_i u hu
          rename_i info _ _ _ _
          have key : ∀ r : Option ResourceManager × Option Ip4 × Bool, ∀ q p' : SPdr,
              (match r.2.1, u.ipv6 with
                | some ip, _ => (({ s with rm := r.1 }, .ok { q with ipv4 := some ip, allocated := r.2.2 }) : HS × Res SPdr)
                | none, some ip6 => ({ s with rm := r.1 }, .ok { q with ipv6 := some ip6, allocated := r.2.2 })
                | none, none => ({ s with rm := r.1 }, .err)).2 = .ok p' → p'.key ≠ .ul t := by
            intro r q p' he hk
            split at he
            · cases he; simp [SPdr.key] at hk
            · cases he
              unfold SPdr.key at hk
              cases hq : q.ipv4 <;> simp [hq] at hk
            · cases he
          intro p' e hk
          exact absurd hk (key _ _ p' e)
        · rintro p' e; cases e; exact fun hk => hp hk

theorem ct_put (i : U32) {p : SPdr} (hp : p.key = .ul t → p.allocated = true) {s : HS} (h : CT t s) : CT t { s with sess := s.sess.putPdr i p } := by
  refine ⟨?_, trivial⟩
  intro j q hq
  simp only [Session.putPdr, GoMap.get?_set] at hq
  split at hq
  · cases hq; exact hp
  · exact h.1 j q hq

theorem ct_apply (p : SPdr) : Pres (CT t) (applyPdr p) := by
  apply pres_of; intro s h
  obtain ⟨dp, e⟩ := applyPdr_frame p s
  rw [e]; exact ⟨h.1, trivial⟩

theorem ct_extract_pres {ue : Bool} {ie : PdrIE} {p : SPdr} {s : HS} (h : CT t s) : CT t (extractPdr ue ie p s).1 := by
  obtain ⟨c, rm, e⟩ := extractPdr_frame ue ie p s; rw [e]; exact ⟨h.1, trivial⟩

theorem ct_create {ue : Bool} {ie : PdrIE} (ht : t ≠ 0) (hie : ¬ ie.givesTeid t) : Pres (CT t) (createPdr ue ie) := by
  unfold createPdr
  cases ie.pdrId with
  | none => exact Pres.fail
  | some id =>
    refine pres_bind_ok (Q := fun p => p.key = .ul t → p.allocated = true)
      (fun s h => ⟨ct_extract_pres h, ct_extract (p := { pdrId := id.zeroExtend 32 }) hie (fun hk => absurd (PdrKey.ul.inj hk).symm ht) s⟩) fun p hp => ?_
    exact Pres.bind (Pres.modify fun _ h => ct_put _ hp h) fun _ => Pres.bind (ct_apply p) fun _ => Pres.modify fun _ h => h

theorem ct_update {ue : Bool} {ie : PdrIE} (ht : t ≠ 0) (hie : ¬ ie.givesTeid t) : Pres (CT t) (updatePdr ue ie) := by
  unfold updatePdr
  cases ie.pdrId with
  | none => exact Pres.fail
  | some id =>
    apply pres_of; intro s h
    have hp : (s.sess.getPdr (id.zeroExtend 32)).key = .ul t → (s.sess.getPdr (id.zeroExtend 32)).allocated = true := by
      unfold Session.getPdr
      cases hg : s.sess.pdrs.get? (id.zeroExtend 32) with
      | none => exact fun hk => absurd (PdrKey.ul.inj hk).symm ht
      | some p => exact h.1 _ p hg
    have : Pres (CT t) (do
        let p ← extractPdr ue ie (s.sess.getPdr (id.zeroExtend 32))
        Act.modify (fun s => { s with sess := s.sess.putPdr (id.zeroExtend 32) p })
        applyPdr p : Act HS Unit) :=
      pres_bind_ok (Q := fun p => p.key = .ul t → p.allocated = true) (fun s h => ⟨ct_extract_pres h, ct_extract hie hp s⟩) fun p hp =>
        Pres.bind (Pres.modify fun _ h => ct_put _ hp h) fun _ => ct_apply p
    exact this.apply h

theorem ct_delete (ord : Orders) (p : SPdr) : Pres (CT t) (deletePdr ord p) := by
  refine deletePdr_pres (pres_of fun s h => ?_) (pres_of fun s h => ?_)
  · obtain ⟨_, _, e⟩ := deletePdrEntry_frame p s; rw [e]; exact ⟨h.1, trivial⟩
  · unfold releaseTeids
    split
    · exact h
    · exact ⟨h.1, trivial⟩

theorem ct_remove (ord : Orders) (id) : Pres (CT t) (removePdr ord id) := by
  refine Pres.bind Pres.get fun s => ?_
  simp only []
  split
  · exact Pres.pure
  · refine Pres.bind (Pres.modify fun s h => ?_) fun _ => ct_delete _ _
    refine ⟨?_, trivial⟩
    intro j q hq
    simp only [Session.removePdr, GoMap.get?_erase] at hq
    split at hq
    · cases hq
    · exact h.1 j q hq

theorem ct_keeps {α : Type} {m : Act HS α} (h : Pres (CT t) m) : Keeps (CTS t) (fun _ _ => True) m := fun _ _ hs => h.apply hs

theorem ct_keep (ht : t ≠ 0) : BodiesKeep (fun e => ¬ e.givesTeid t) (CTS t) (fun _ _ => True) where
  new _ _ := fun i p hp => by simp [Session.new] at hp
  remote s x h := by cases x with
    | none => exact h
    | some y => cases y <;> exact h
  est _ _ hP _ := ct_keeps (establishBody_rf ct_frame (fun ie hie => ct_create ht fun h => hP ⟨ie, hie, h⟩))
  mod _ _ _ hP _ := ct_keeps (modifyBody_rf ct_frame
    (fun ie hie => ct_create ht fun h => hP ⟨ie, List.mem_append_left _ hie, h⟩)
    (fun ie hie => ct_update ht fun h => hP ⟨ie, List.mem_append_right _ hie, h⟩) (fun _ _ => ct_remove _ _))
  del _ _ _ := ct_keeps (deleteBody_rf ct_frame (fun _ _ => ct_delete _ _))
  dels _ _ _ := ct_keeps (deleteSessionBody_rf ct_frame (fun _ _ => ct_delete _ _))
  rel _ _ _ _ _ := trivial
  traffic _ _ _ _ _ := trivial
end

/-- free TEIDs are not 0 -/
theorem free_ne_zero {cfg : NodeCfg} {ips : List Ip4} {range : U32} {dp : BpfObjects} {h : List (Ev × Outcome)} {n : Node}
    (H : Hist (Node.init cfg (some (newResourceManager ips range)) dp) h n) {t : U32} (ht : t ∈ freeTeids n.rm) : t ≠ 0 := by
  have inv := (ni_hist (pool_keep (teidInv_keeps range)) (fun r hr => by cases hr; exact ⟨[], TeidInv.init ips range⟩) H (fun _ _ => trivial)).2
  cases hrm : n.rm with
  | none => rw [hrm] at ht; cases ht
  | some r =>
    rw [hrm] at ht
    obtain ⟨out, ho⟩ := inv r hrm
    have := (mem_teidPool _ _).1 (ho.freeRange t ht)
    rintro rfl; simp at this

/-- A free TEID that nobody gave is not used. -/
theorem free_unused {cfg : NodeCfg} {ips : List Ip4} {range : U32} {dp : BpfObjects} {h : List (Ev × Outcome)} {n : Node}
    (H : Hist (Node.init cfg (some (newResourceManager ips range)) dp) h n) (d : Disciplined h) {t : U32} (ht : t ∈ freeTeids n.rm)
    (hg : ∀ x ∈ h, ¬ x.1.names (.ul t)) : ¬ n.used (.ul t) := by
  rintro ⟨a, s, x, i, p, hx, hp, hk⟩
  have inv := ni_hist (ct_keep (free_ne_zero H ht)) trivial H (fun x hx => by
    have := hg x hx
    obtain ⟨e, o⟩ := x
    cases e <;> exact this)
  have hal := inv.1 a s x hx i p hp hk
  have hpt : p.teid = t := by
    unfold SPdr.key at hk
    split at hk
    · cases hk
    · cases hk
    · exact PdrKey.ul.inj hk
  have := ((dinv_hist H d).own a s x i p hx hp ⟨hal, by rw [hk, hpt]⟩).1
  rw [hpt] at this
  exact this ht

theorem Disciplined.right : ∀ {h2 h1 : List (Ev × Outcome)}, Disciplined (h2 ++ h1) → Disciplined h1
  | [], _, d => d
  | _ :: _, _, d => Disciplined.right d.tail

/-- While the session lives, nothing hands out its chosen TEID again. -/
theorem elsewhere_of {cfg : NodeCfg} {ips : List Ip4} {range : U32} {dp : BpfObjects} {h1 : List (Ev × Outcome)} {n1 : Node}
    (H1 : Hist (Node.init cfg (some (newResourceManager ips range)) dp) h1 n1) {a : Addr} {s : U64} {x : Session} (hx : n1.session? a s = some x)
    {t : U32} (ht : t ≠ 0) {i : U32} {p : SPdr} (hp : x.pdrs.get? i = some p) (hk : p.key = .ul t) (hch : p.chosen)
    (hoth : ¬ n1.usedElsewhere a s (.ul t))
    {h2 : List (Ev × Outcome)} {n2 : Node} (H2 : HistP (NotGiving a s (.ul t)) n1 h2 n2) (hb : attempts (h2 ++ h1) < 2 ^ 64 - 2)
    (d : Disciplined (h2 ++ h1)) : HistP (Elsewhere a s (.ul t)) n1 h2 n2 := by
  have hpt : p.teid = t := by have := hch.2; rw [hk] at this; exact (PdrKey.ul.inj this).symm
  induction H2 with
  | init => exact .init
  | @step h n e H hP hc ih =>
    have hb' : attempts (h ++ h1) < 2 ^ 64 - 2 := by
      have := attempts_cons (e, (n.step e).2) (h ++ h1)
      rw [List.cons_append] at hb; omega
    have ih := ih hb' d.tail
    refine .step e ih ⟨hP.known, hP.other, hP.unnamed, ?_⟩ hc
    obtain ⟨-, hs, -⟩ := guard_hist H1 hx (K := .ul t) (by simpa using ht) hoth (P := Elsewhere a s (.ul t)) (fun n e h => ⟨h.other, h.unnamed, h.notFree⟩) ih hb'
    have := ((dinv_hist (H1.append H.hist) d.tail).own a s x i p hs hp hch).1
    rwa [hpt] at this
  | traffic H tr ih => exact .traffic (ih hb d) tr

/-- **C90** (peers as in `Disciplined`; G-PDUs as in `C28_forwarded_partial`). A Session Establishment Request that was accepted asked the UPF to
choose a TEID for uplink G-PDUs (whose payload fits the PDR's SDF filter, if it has one) to be decapsulated and forwarded, with an open gate
and no rate limit. Then after every later history of messages that are not about this session, and packets, every G-PDU with the TEID that
the response reported for this PDR leaves as its payload, routed by the payload's destination - as long as no message of the whole history
gives this TEID to a PDR. -/
theorem C90_chosen_uplink_partial {cfg : NodeCfg} {ips : List Ip4} {range : U32} {p f q u : U32} {h1 : List (Ev × Outcome)} {n1 : Node}
    (H1 : HistP (fun n e => e.refsKnown n) (Node.init cfg (some (newResourceManager ips range)) (BpfObjects.load p f q u)) h1 n1)
    {a : Addr} {r : EstReq} {n2 : Node} {resp : Resp} (hstep : n1.step (.establish a r) = (n2, .reply resp)) (hacc : resp.cause = 1)
    {pie : PdrIE} {fie : FarIE} {qie : QerIE} {co : Option U8} {t : U32} (hask : AsksChosen r pie fie qie co t)
    {i : U16} (hi : pie.pdrId = some i) {n3ip : Ip4} (hrep : .fteid i t n3ip ∈ resp.created)
    (hohr : pie.ohr.getD 0 = 0) (hfar : fie.plain) (hgate : qie.gateUL.getD 0 = 0) (hmbr : qie.mbrUL.getD 0 = 0)
    (hgiven : ∀ x ∈ h1, ¬ x.1.names (.ul t))
    {seid : U64} (hse : resp.fseid = some seid) {h2 : List (Ev × Outcome)} {n3 : Node} (H2 : HistP (NotGiving a seid (.ul t)) n2 h2 n3)
    (hd : Disciplined (h2 ++ (.establish a r, .reply resp) :: h1)) (hb : attempts h2 + attempts h1 + 1 < 2 ^ 64 - 2)
    (e : Env) (s : PS) (hdp : s.dp = n3.dp) (hm : IsGtpMsg e s.frame 255) (hteid : gtpTeid s.frame = t)
    {fl : Flow} (hfl : innerFlow s.frame = some fl) (hfit : pie.fits fl.sat)
    (h34 : l4Off s.frame = 34) {o : Nat} (hpay : PayloadAt s.frame o) (ho : o = gtpOff s.frame + 8 ∨ o = gtpOff s.frame + 16)
    (hin : ((oct s.frame o).toNat / 16 = 4 ∧ o + 20 ≤ s.frame.length) ∨ ((oct s.frame o).toNat / 16 = 6 ∧ o + 40 ≤ s.frame.length))
    (hself : ¬ ((oct s.frame o).toNat / 16 = 4 ∧ oct s.frame (o + 9) = 1 ∧ (be32 s.frame (o + 16) = e.n3Ip ∨ be32 s.frame (o + 16) = e.n9Ip))) :
    ∃ s' fib m ty, runPacket e s = (s', .ok (routeAct e (e.fib fib))) ∧ m.length = 12 ∧ etherTypeOf (s.frame.drop o) = some ty ∧
      s'.frame = m ++ ty ++ s.frame.drop o ∧
      fib.dst = if (oct s.frame o).toNat / 16 = 4 then slice s.frame (o + 16) 4 else slice s.frame (o + 24) 16 := by
  obtain ⟨_, _, -, -, c3, -⟩ := C17_created hstep hacc
  have hfree := (c3 i t n3ip hrep).2.1
  have ht := free_ne_zero H1.hist hfree
  have hused := free_unused H1.hist hd.right.tail hfree hgiven
  obtain ⟨l1, l2, hr, hl2⟩ := hask.pdr
  obtain ⟨seid', sess, pr, hs1, hs2, hrec, hg, hkey, hch, heff⟩ := establish_chosen (C16_pool H1.hist) hstep hacc hask.ids hr hask.asks hi hrep ht hl2
  have : seid' = seid := Option.some.inj (hs1.symm.trans hse)
  subst this
  have Hs : Hist (Node.init cfg (some (newResourceManager ips range)) (BpfObjects.load p f q u)) ((.establish a r, .reply resp) :: h1) n2 := by
    have := Hist.step (.establish a r) H1.hist (by rw [hstep]; simp)
    rwa [hstep] at this
  have hb' : attempts (h2 ++ (Ev.establish a r, Outcome.reply resp) :: h1) < 2 ^ 64 - 2 := by
    rw [attempts_append]
    have : attempts ((Ev.establish a r, Outcome.reply resp) :: h1) = attempts h1 + 1 := by simp [attempts]
    omega
  have H2' := elsewhere_of Hs hs2 ht hrec hkey hch (establish_usedElsewhere hstep hs1 hused) H2 hb' hd
  exact uplink_served hohr hfar hgate hmbr (rule_after H1 hstep hacc (by simpa using ht) hused hask.far hask.qer hs1 hs2 hg hkey heff H2' hb)
    e s hdp hm hteid hfl hfit h34 hpay ho hin hself

end Eupf
