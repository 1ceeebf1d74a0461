import Verif.Spec.Leaks
import Verif.Props.TeidDistinct
import Verif.Props.PeerLoss
import Verif.KeyGuard
/-
Lemmas for C87: the TEID pool along careful histories. Models no code.
-/
namespace Eupf
open Act

/-! ### the pool -/

structure SameT (rm rm' : Option ResourceManager) : Prop where
  free : freeTeids rm' = freeTeids rm
  lent : ∀ k i t, Lent rm' k i t ↔ Lent rm k i t

theorem SameT.refl (rm : Option ResourceManager) : SameT rm rm := ⟨rfl, fun _ _ _ => Iff.rfl⟩
theorem SameT.trans {a b c : Option ResourceManager} (h : SameT a b) (h' : SameT b c) : SameT a c :=
  ⟨h'.free.trans h.free, fun k i t => (h'.lent k i t).trans (h.lent k i t)⟩

theorem allocTeid_lent {R : U64} {i : U32} {rm rm' : Option ResourceManager} {t : U32} (h : allocTeid R i rm = (rm', some t))
    (hn : ∀ u, ¬ Lent rm R i u) : ∀ k j u, Lent rm' k j u ↔ (k = R ∧ j = i ∧ u = t) ∨ Lent rm k j u := by
  unfold allocTeid at h
  cases rm with
  | none => cases h
  | some r =>
    simp only [FTEIDM.allocate] at h
    split at h
    · cases h
    · cases h
      intro k j u
      constructor
      · rintro ⟨r', m, e, h1, h2⟩
        cases e
        simp only [GoMap.get?_set] at h1
        split at h1
        · subst k
          cases h1
          cases hb : r.fteidm.busyTEIDs.get? R with
          | none =>
            rw [hb] at h2
            simp only [GoMap.get?_set, GoMap.get?_empty] at h2
            split at h2
            · rename_i e; cases h2; exact .inl ⟨rfl, e, rfl⟩
            · cases h2
          | some pm =>
            rw [hb] at h2
            simp only [GoMap.get?_set] at h2
            split at h2
            · rename_i e; cases h2; exact .inl ⟨rfl, e, rfl⟩
            · exact .inr ⟨r, pm, rfl, hb, h2⟩
        · exact .inr ⟨r, m, rfl, h1, h2⟩
      · rintro (⟨rfl, rfl, rfl⟩ | ⟨r', m, e, h1, h2⟩)
        · cases hb : r.fteidm.busyTEIDs.get? k with
          | none => exact ⟨_, (GoMap.empty : GoMap U32 U32).set j u, rfl, by simp only [GoMap.get?_set, if_true], by simp⟩
          | some pm => exact ⟨_, pm.set j u, rfl, by simp only [GoMap.get?_set, if_true], by simp⟩
        · cases e
          by_cases hk : k = R
          · subst hk
            have hji : j ≠ i := by rintro rfl; exact hn u ⟨r, m, rfl, h1, h2⟩
            refine ⟨_, m.set i t, rfl, ?_, ?_⟩
            · simp only [GoMap.get?_set, if_true, h1]
            · simp only [GoMap.get?_set, if_neg hji]; exact h2
          · exact ⟨_, m, rfl, by simp only [GoMap.get?_set, if_neg hk]; exact h1, h2⟩

/-- releasing under `R` makes what was lent under `R` free, and keeps everything else -/
theorem release_lent (o : Shuffle (U32 × U32)) (R : U64) (r : ResourceManager) (ip : IPAM) :
    (∀ t, t ∈ freeTeids (some ⟨ip, r.fteidm.release o R⟩) ↔ t ∈ freeTeids (some r) ∨ ∃ i, Lent (some r) R i t) ∧
    (∀ k i t, Lent (some ⟨ip, r.fteidm.release o R⟩) k i t ↔ k ≠ R ∧ Lent (some r) k i t) := by
  unfold FTEIDM.release
  cases hb : r.fteidm.busyTEIDs.get? R with
  | none =>
    have hno : ∀ i t, ¬ Lent (some r) R i t := by rintro i t ⟨r', m, e, h1, _⟩; cases e; rw [hb] at h1; cases h1
    refine ⟨fun t => ⟨.inl, ?_⟩, fun k i t => ⟨?_, ?_⟩⟩
    · rintro (h | ⟨i, h⟩)
      · exact h
      · exact absurd h (hno i t)
    · rintro ⟨r', m, e, h1, h2⟩
      cases e
      have hl : Lent (some r) k i t := ⟨r, m, rfl, h1, h2⟩
      exact ⟨by rintro rfl; exact hno _ _ hl, hl⟩
    · rintro ⟨_, r', m, e, h1, h2⟩; cases e; exact ⟨_, m, rfl, h1, h2⟩
  | some pm =>
    refine ⟨fun t => ?_, fun k i t => ⟨?_, ?_⟩⟩
    · show t ∈ r.fteidm.freeTEIDs ++ _ ↔ _
      rw [List.mem_append]
      refine or_congr Iff.rfl ?_
      rw [List.mem_map]
      constructor
      · rintro ⟨⟨i, x⟩, hm, rfl⟩
        exact ⟨i, r, pm, rfl, hb, (pm.mem_entries_iff i x).1 ((o.perm _).mem_iff.1 hm)⟩
      · rintro ⟨i, r', m, e, h1, h2⟩
        cases e
        rw [hb] at h1; cases h1
        exact ⟨(i, t), (o.perm _).mem_iff.2 ((pm.mem_entries_iff i t).2 h2), rfl⟩
    · rintro ⟨r', m, e, h1, h2⟩
      cases e
      simp only [GoMap.get?_erase] at h1
      split at h1
      · cases h1
      · rename_i hk; exact ⟨hk, r, m, rfl, h1, h2⟩
    · rintro ⟨hk, r', m, e, h1, h2⟩
      cases e
      exact ⟨_, m, rfl, by simp only [GoMap.get?_erase, if_neg hk]; exact h1, h2⟩

theorem allocTeid_none {R : U64} {i : U32} {rm rm' : Option ResourceManager} (h : allocTeid R i rm = (rm', none)) : rm' = rm ∧ freeTeids rm = [] := by
  unfold allocTeid at h
  cases rm with
  | none => cases h; exact ⟨rfl, rfl⟩
  | some r =>
    simp only [FTEIDM.allocate] at h
    split at h
    · rename_i hf; cases h; exact ⟨rfl, hf⟩
    · cases h

theorem allocIp_same (R : U64) (rm : Option ResourceManager) : SameT rm (allocIp R rm).1 := by
  unfold allocIp
  cases rm with
  | none => exact .refl _
  | some r =>
    refine ⟨rfl, fun k i t => ⟨?_, ?_⟩⟩
    · rintro ⟨r', m, e, h1, h2⟩; cases e; exact ⟨r, m, rfl, h1, h2⟩
    · rintro ⟨r', m, e, h1, h2⟩; cases e; exact ⟨_, m, rfl, h1, h2⟩

theorem pdrUeIp_same {ue : Bool} {u : UeIp} {p : SPdr} {s s1 : HS} {res : Res SPdr} (h : pdrUeIp ue u p s = (s1, res)) :
    SameT s.rm s1.rm ∧ ∀ q, res = .ok q → q.teid = p.teid := by
  unfold pdrUeIp at h
  simp only [] at h
  have hrm : SameT s.rm (if (ue && u.chv4) = true then
      match allocIp s.sess.remoteSEID s.rm with
      | (rm, some ip) => (rm, some ip, true)
      | (rm, none) => (rm, u.ipv4, p.allocated)
    else (s.rm, u.ipv4, p.allocated) : Option ResourceManager × Option Ip4 × Bool).1 := by
    have := allocIp_same s.sess.remoteSEID s.rm
    rcases ha : allocIp s.sess.remoteSEID s.rm with ⟨rm, _ | ip⟩ <;> rw [ha] at this <;> split <;>
      first | exact this | exact .refl _
  split at h <;> cases h
  · exact ⟨hrm, by rintro q e; cases e; rfl⟩
  · exact ⟨hrm, by rintro q e; cases e; rfl⟩
  · exact ⟨hrm, by rintro q e; cases e⟩

/-- what extracting a PDR does to the TEIDs -/
theorem extract_teids {ue : Bool} {ie : PdrIE} {p : SPdr} {s s1 : HS} {res : Res SPdr} (h : extractPdr ue ie p s = (s1, res)) :
    (ie.asksTeid = none → SameT s.rm s1.rm) ∧
    ∀ q, res = .ok q → (SameT s.rm s1.rm ∧ (ie.asksTeid = none → q.teid = p.teid ∨ ie.givesTeid q.teid)) ∨
      allocTeid s.sess.remoteSEID p.pdrId s.rm = (s1.rm, some q.teid) := by
  unfold extractPdr at h
  simp only [] at h
  split at h
  · cases h; exact ⟨fun _ => .refl _, by rintro q e; cases e⟩
  · rename_i pdi hpdi
    split at h
    · cases h; exact ⟨fun _ => .refl _, by rintro q e; cases e⟩
    · rename_i info _
      split at h
      · cases h; exact ⟨fun _ => .refl _, by rintro q e; cases e⟩
      · rename_i f hf
        unfold pdrFteid at h
        split at h
        · rename_i hch
          have hask : ie.asksTeid = some f.chooseId := by
            unfold PdrIE.asksTeid
            rw [hpdi]
            obtain ⟨ft, ui, sr⟩ := pdi
            simp only at hf
            subst hf
            simp only [hch, if_true]
          refine ⟨fun hn => (by rw [hask] at hn; cases hn), ?_⟩
          split at h
          · cases h
            rintro q e; cases e
            exact .inl ⟨.refl _, fun hn => (by rw [hask] at hn; cases hn)⟩
          · rcases hal : allocTeid s.sess.remoteSEID p.pdrId s.rm with ⟨rm, _ | t⟩
            · rw [hal] at h; cases h; rintro q e; cases e
            · rw [hal] at h
              cases hcid : f.chooseId with
              | none => rw [hcid] at h; cases h; rintro q e; cases e; exact .inr rfl
              | some c => rw [hcid] at h; cases h; rintro q e; cases e; exact .inr rfl
        · rename_i hch
          cases h
          refine ⟨fun _ => .refl _, ?_⟩
          rintro q e; cases e
          exact .inl ⟨.refl _, fun _ => .inr ⟨pdi, f, hpdi, hf, by simpa using hch, rfl⟩⟩
      · split at h
        · cases h; exact ⟨fun _ => .refl _, by rintro q e; cases e⟩
        · obtain ⟨h1, h2⟩ := pdrUeIp_same h
          exact ⟨fun _ => h1, fun q e => .inl ⟨h1, fun _ => .inl (h2 q e)⟩⟩
        · cases h
          exact ⟨fun _ => .refl _, by rintro q e; cases e; exact .inl ⟨.refl _, fun _ => .inl rfl⟩⟩

/-! ### bodies -/

/-- State of an establishment or modification of the session with CP SEID `R`, started with pools `rm0`: all TEIDs are free or lent, those of the
session to PDRs it has. -/
structure LB (range : U32) (rm0 : Option ResourceManager) (R : U64) (s : HS) : Prop where
  rem : s.sess.remoteSEID = R
  inPool : ∀ t ∈ freeTeids s.rm, t ∈ teidPool range
  lentIn : ∀ k i t, Lent s.rm k i t → t ∈ teidPool range
  cover : ∀ t ∈ teidPool range, t ∈ freeTeids s.rm ∨ ∃ k i, Lent s.rm k i t
  mine : ∀ i t, Lent s.rm R i t → ∃ p, s.sess.pdrs.get? i = some p ∧ p.teid ≠ 0
  others : ∀ k i t, k ≠ R → (Lent s.rm k i t ↔ Lent rm0 k i t)

section
variable {range : U32} {rm0 : Option ResourceManager} {R : U64}

theorem LB.frame {s s' : HS} (h : RuleFrame s s') (hs : LB range rm0 R s) : LB range rm0 R s' :=
  ⟨h.remote.trans hs.rem, by rw [h.rm]; exact hs.inPool, by rw [h.rm]; exact hs.lentIn, by rw [h.rm]; exact hs.cover, by rw [h.rm, h.pdrs]; exact hs.mine,
    by rw [h.rm]; exact hs.others⟩

theorem pool_ne_zero {t : U32} (h : t ∈ teidPool range) : t ≠ 0 := by
  rintro rfl
  have := (mem_teidPool range 0).1 h
  simp at this

/-- a PDR record is put in place, after extracting -/
theorem LB.put {ue : Bool} {ie : PdrIE} {p q : SPdr} {s s1 : HS} (i : U32) (hs : LB range rm0 R s) (h : extractPdr ue ie p s = (s1, .ok q))
    (hnew : (p.pdrId = i ∧ s.sess.pdrs.get? i = none) ∨
      (ie.asksTeid = none ∧ ¬ ie.givesTeid 0 ∧ p = s.sess.getPdr i)) {s' : HS}
    (hr : s'.rm = s1.rm) (hsess : s'.sess = s.sess.putPdr i q) : LB range rm0 R s' := by
  obtain ⟨h1, h2⟩ := extract_teids h
  have hget : ∀ j, s'.sess.pdrs.get? j = if j = i then some q else s.sess.pdrs.get? j := by
    intro j; rw [hsess]; simp only [Session.putPdr, GoMap.get?_set]
  have hrem : s'.sess.remoteSEID = R := by rw [hsess]; exact hs.rem
  have same : SameT s.rm s'.rm → (∀ t, Lent s.rm R i t → q.teid ≠ 0) → LB range rm0 R s' := by
    intro e hq
    refine ⟨hrem, by rw [e.free]; exact hs.inPool, fun k i t h => hs.lentIn k i t ((e.lent k i t).1 h), ?_, ?_, fun k i t hk => (e.lent k i t).trans (hs.others k i t hk)⟩
    · intro t ht
      rw [e.free]
      rcases hs.cover t ht with h | ⟨k, i, h⟩
      · exact .inl h
      · exact .inr ⟨k, i, (e.lent k i t).2 h⟩
    · intro j t hj
      have hj := (e.lent R j t).1 hj
      rw [hget]
      split
      · rename_i e'; subst e'; exact ⟨q, rfl, hq t hj⟩
      · exact hs.mine j t hj
  rcases hnew with ⟨hid, hfresh⟩ | ⟨hask, hgive, hp⟩
  · have hno : ∀ u, ¬ Lent s.rm R i u := by
      intro u hu
      obtain ⟨p', hp', _⟩ := hs.mine i u hu
      rw [hfresh] at hp'; cases hp'
    rcases h2 q rfl with ⟨e, _⟩ | hal
    · exact same (by rw [hr]; exact e) (fun t ht => absurd ht (hno t))
    · rw [hid, hs.rem, ← hr] at hal
      have hl := allocTeid_lent hal hno
      have hf := (allocTeid_takes hal).1
      refine ⟨hrem, fun t ht => hs.inPool t (by rw [hf]; exact List.mem_cons_of_mem _ ht), ?_, ?_, ?_, ?_⟩
      · intro k j t h
        rcases (hl k j t).1 h with ⟨_, _, rfl⟩ | h
        · exact hs.inPool q.teid (by rw [hf]; exact List.mem_cons_self)
        · exact hs.lentIn k j t h
      · intro t ht
        rcases hs.cover t ht with h | ⟨k, j, h⟩
        · rw [hf] at h
          rcases List.mem_cons.1 h with rfl | h
          · exact .inr ⟨R, i, (hl R i q.teid).2 (.inl ⟨rfl, rfl, rfl⟩)⟩
          · exact .inl h
        · exact .inr ⟨k, j, (hl k j t).2 (.inr h)⟩
      · intro j t hj
        rw [hget]
        rcases (hl R j t).1 hj with ⟨_, rfl, rfl⟩ | hj
        · exact ⟨q, by rw [if_pos rfl], pool_ne_zero (hs.inPool q.teid (by rw [hf]; exact List.mem_cons_self))⟩
        · split
          · rename_i e; subst e; exact absurd hj (hno t)
          · exact hs.mine j t hj
      · intro k j t hk
        rw [hl, ← hs.others k j t hk]
        exact ⟨fun h => h.resolve_left (fun h => hk h.1), .inr⟩
  · have e := h1 hask
    refine same (by rw [hr]; exact e) ?_
    intro t ht
    obtain ⟨p', hp', hz⟩ := hs.mine i t ht
    rcases h2 q rfl with ⟨_, h3⟩ | hal
    · rcases h3 hask with h3 | h3
      · rw [h3, hp, Session.getPdr, hp']; exact hz
      · intro h0; rw [h0] at h3; exact hgive h3
    · exfalso
      have f1 := (allocTeid_takes hal).1
      rw [e.free] at f1
      have := congrArg List.length f1
      simp at this

theorem LB.creates {ue : Bool} : ∀ (l : List PdrIE) (s s' : HS), LB range rm0 R s → Act.each (createPdr ue) l s = (s', .ok ()) →
    (l.map (·.pdrId)).Nodup → (∀ ie ∈ l, ∀ id, ie.pdrId = some id → s.sess.pdrs.get? (id.zeroExtend 32) = none) → LB range rm0 R s'
  | [], s, s', hs, h, _, _ => by cases h; exact hs
  | ie :: l, s, s', hs, h, hn, hf => by
    obtain ⟨s1, e1, e2⟩ := each_cons_ok h
    obtain ⟨id, p, t1, hid, hx, hsess, -, hrm, -⟩ := createPdr_ok e1
    have h1 := hs.put (id.zeroExtend 32) hx (.inl ⟨rfl, hf ie List.mem_cons_self id hid⟩) hrm hsess
    rw [List.map_cons, List.nodup_cons] at hn
    refine LB.creates l s1 s' h1 e2 hn.2 ?_
    intro ie' hie' id' hid'
    rw [hsess]
    simp only [Session.putPdr, GoMap.get?_set]
    rw [if_neg ?_]
    · exact hf ie' (List.mem_cons_of_mem _ hie') id' hid'
    · intro e
      have e' : id' = id := by
        have := congrArg BitVec.toNat e
        simp only [BitVec.toNat_setWidth] at this
        have a1 := id.isLt
        have a2 := id'.isLt
        apply BitVec.eq_of_toNat_eq
        omega
      subst e'
      exact hn.1 (List.mem_map.2 ⟨ie', hie', by rw [hid', hid]⟩)

theorem updatePdr_rm {ue : Bool} {ie : PdrIE} {s s' : HS} (h : updatePdr ue ie s = (s', .ok ())) :
    ∃ id p s1, ie.pdrId = some id ∧ extractPdr ue ie (s.sess.getPdr (id.zeroExtend 32)) s = (s1, .ok p) ∧
      s'.sess = s.sess.putPdr (id.zeroExtend 32) p ∧ s'.rm = s1.rm := by
  unfold updatePdr at h
  cases hid : ie.pdrId with
  | none => rw [hid] at h; cases h
  | some id =>
    rw [hid] at h
    obtain ⟨t, s0, e0, h0⟩ := bind_ok h
    cases e0
    obtain ⟨p, s1, e1, h1⟩ := bind_ok h0
    obtain ⟨_, s2, e2, h2⟩ := bind_ok h1
    obtain ⟨x1, x2, x3, x4, -⟩ := extractPdr_ok e1
    cases e2
    obtain ⟨dp, hfr⟩ := applyPdr_frame p { s1 with sess := s1.sess.putPdr (id.zeroExtend 32) p }
    rw [h2] at hfr
    simp only at hfr
    refine ⟨id, p, s1, rfl, e1, ?_, ?_⟩
    · rw [hfr]; simp only; rw [x3]
    · rw [hfr]

theorem LB.updates {ue : Bool} : ∀ (l : List PdrIE) (s s' : HS), LB range rm0 R s → Act.each (updatePdr ue) l s = (s', .ok ()) →
    (∀ ie ∈ l, ie.asksTeid = none ∧ ¬ ie.givesTeid 0) → LB range rm0 R s'
  | [], s, s', hs, h, _ => by cases h; exact hs
  | ie :: l, s, s', hs, h, hl => by
    obtain ⟨s1, e1, e2⟩ := each_cons_ok h
    obtain ⟨id, p, t1, hid, hx, hsess, hrm⟩ := updatePdr_rm e1
    obtain ⟨h3, h4⟩ := hl ie List.mem_cons_self
    exact LB.updates l s1 s' (hs.put (id.zeroExtend 32) hx (.inr ⟨h3, h4, rfl⟩) hrm hsess) e2 (fun ie h => hl ie (List.mem_cons_of_mem _ h))

theorem deletePdr_ok_rm {ord : Orders} {p : SPdr} {s s' : HS} (h : deletePdr ord p s = (s', .ok ())) :
    s'.sess = s.sess ∧ ((p.teid = 0 ∧ s'.rm = s.rm) ∨
      (p.teid ≠ 0 ∧ ∃ r, s.rm = some r ∧ s'.rm = some { r with fteidm := r.fteidm.release ord.teids s.sess.remoteSEID })) := by
  unfold deletePdr at h
  obtain ⟨_, s1, e1, h1⟩ := bind_ok h
  obtain ⟨dp, c, hf⟩ := deletePdrEntry_frame p s
  rw [e1] at hf
  simp only at hf
  subst hf
  split at h1
  · rename_i hz
    unfold releaseTeids at h1
    simp only at h1
    cases hr : s.rm with
    | none => rw [hr] at h1; cases h1
    | some r => rw [hr] at h1; cases h1; exact ⟨rfl, .inr ⟨hz, r, rfl, rfl⟩⟩
  · rename_i hz
    cases h1
    exact ⟨rfl, .inl ⟨Classical.not_not.1 hz, rfl⟩⟩

/-- after a release nothing is lent to the session -/
theorem LB.released {s s' : HS} {r : ResourceManager} {o : Shuffle (U32 × U32)} (hs : LB range rm0 R s) (hr : s.rm = some r)
    (hr' : s'.rm = some { r with fteidm := r.fteidm.release o R }) (hrem : s'.sess.remoteSEID = R) :
    LB range rm0 R s' ∧ ∀ i t, ¬ Lent s'.rm R i t := by
  obtain ⟨f1, f2⟩ := release_lent o R r r.ipam
  rw [← hr, ← hr'] at f1
  rw [← hr, ← hr'] at f2
  have hno : ∀ i t, ¬ Lent s'.rm R i t := fun i t h => ((f2 R i t).1 h).1 rfl
  refine ⟨⟨hrem, ?_, fun k i t h => hs.lentIn k i t ((f2 k i t).1 h).2, ?_, fun i t h => absurd h (hno i t), ?_⟩, hno⟩
  · intro t ht
    rcases (f1 t).1 ht with h | ⟨i, h⟩
    · exact hs.inPool t h
    · exact hs.lentIn R i t h
  · intro t ht
    rcases hs.cover t ht with h | ⟨k, i, h⟩
    · exact .inl ((f1 t).2 (.inl h))
    · by_cases hk : k = R
      · subst hk; exact .inl ((f1 t).2 (.inr ⟨i, h⟩))
      · exact .inr ⟨k, i, (f2 k i t).2 ⟨hk, h⟩⟩
  · intro k i t hk
    rw [f2, ← hs.others k i t hk]
    exact ⟨fun h => h.2, fun h => ⟨hk, h⟩⟩

theorem LB.remove {ord : Orders} {id : Option U16} {s s' : HS} (hs : LB range rm0 R s) (h : removePdr ord id s = (s', .ok ())) : LB range rm0 R s' := by
  unfold removePdr at h
  obtain ⟨_, s0, e0, h0⟩ := bind_ok h
  cases e0
  simp only at h0
  cases hg : s.sess.pdrs.get? ((id.getD 0).zeroExtend 32) with
  | none => rw [hg] at h0; cases h0; exact hs
  | some p =>
    rw [hg] at h0
    obtain ⟨_, s1, e1, h1⟩ := bind_ok h0
    cases e1
    obtain ⟨hsess, hr⟩ := deletePdr_ok_rm h1
    simp only at hsess hr
    have hrem : s'.sess.remoteSEID = R := by rw [hsess]; exact hs.rem
    rcases hr with ⟨hz, hr⟩ | ⟨_, r, hr, hr'⟩
    · refine ⟨hrem, by rw [hr]; exact hs.inPool, by rw [hr]; exact hs.lentIn, by rw [hr]; exact hs.cover, ?_, by rw [hr]; exact hs.others⟩
      intro i t hl
      rw [hr] at hl
      obtain ⟨q, hq, hq0⟩ := hs.mine i t hl
      refine ⟨q, ?_, hq0⟩
      rw [hsess]
      simp only [Session.removePdr, GoMap.get?_erase]
      rw [if_neg ?_]
      · exact hq
      · rintro rfl
        rw [hg] at hq; cases hq
        exact hq0 hz
    · exact (hs.released hr (by rw [hr']; show some _ = some _; rw [show (s.sess.removePdr _).remoteSEID = R from hs.rem]) hrem).1

theorem LB.removes {ord : Orders} : ∀ (l : List (Option U16)) (s s' : HS), LB range rm0 R s → Act.each (removePdr ord) l s = (s', .ok ()) → LB range rm0 R s'
  | [], s, s', hs, h => by cases h; exact hs
  | id :: l, s, s', hs, h => by
    obtain ⟨s1, e1, e2⟩ := each_cons_ok h
    exact LB.removes l s1 s' (hs.remove e1) e2

/-- a deletion that goes through: nothing is lent to the session any more, if it had a TEID -/
theorem LB.deletes {ord : Orders} : ∀ (l : List (U32 × SPdr)) (s s' : HS), LB range rm0 R s →
    Act.each (fun e => deletePdr ord e.2) l s = (s', .ok ()) →
    LB range rm0 R s' ∧ s'.sess = s.sess ∧ ((∃ e ∈ l, e.2.teid ≠ 0) ∨ (∀ i t, ¬ Lent s.rm R i t) → ∀ i t, ¬ Lent s'.rm R i t)
  | [], s, s', hs, h => by
    cases h
    exact ⟨hs, rfl, fun h => h.resolve_left (by rintro ⟨e, he, _⟩; cases he)⟩
  | e :: l, s, s', hs, h => by
    obtain ⟨s1, e1, e2⟩ := each_cons_ok h
    obtain ⟨hsess, hr⟩ := deletePdr_ok_rm e1
    have hrem : s1.sess.remoteSEID = R := by rw [hsess]; exact hs.rem
    rcases hr with ⟨hz, hr⟩ | ⟨_, r, hr, hr'⟩
    · have h1 : LB range rm0 R s1 := ⟨hrem, by rw [hr]; exact hs.inPool, by rw [hr]; exact hs.lentIn, by rw [hr]; exact hs.cover,
        by rw [hr, hsess]; exact hs.mine, by rw [hr]; exact hs.others⟩
      obtain ⟨i1, i2, i3⟩ := LB.deletes l s1 s' h1 e2
      refine ⟨i1, i2.trans hsess, fun h => i3 ?_⟩
      rcases h with ⟨x, hx, hx0⟩ | h
      · rcases List.mem_cons.1 hx with rfl | hx
        · exact absurd hz hx0
        · exact .inl ⟨x, hx, hx0⟩
      · right; rw [hr]; exact h
    · obtain ⟨h1, hno⟩ := hs.released hr (by rw [hr', hs.rem]) hrem
      obtain ⟨i1, i2, i3⟩ := LB.deletes l s1 s' h1 e2
      exact ⟨i1, i2.trans hsess, fun _ => i3 (.inr hno)⟩

/-! ### lost peers -/

theorem ignore_del {ord : Orders} {p : SPdr} {s s1 : HS} (h : Act.ignore (deletePdr ord p) s = (s1, .ok ())) :
    deletePdr ord p s = (s1, .ok ()) ∨ (s1 = s ∧ s.dp.entry? p.key = none ∧ (p.key = .ul p.teid → s.cache.get? (p.teid.truncate 8) = none)) := by
  unfold Act.ignore at h
  rcases hd : deletePdr ord p s with ⟨s', r⟩
  rw [hd] at h
  cases r with
  | ok u => cases h; exact .inl rfl
  | panic => cases h
  | err =>
    cases h
    right
    unfold deletePdr at hd
    simp only [Act.bind_def, Act.bind] at hd
    cases deletePdrEntry_cases p s with
    | gone dp c he hsome hdp hc =>
      rw [he] at hd
      simp only at hd
      split at hd
      · unfold releaseTeids at hd
        simp only at hd
        split at hd <;> cases hd
      · cases hd
    | absent he hn =>
      rw [he] at hd
      cases hd
      refine ⟨rfl, hn, fun hk => ?_⟩
      rcases hg : s.cache.get? (p.teid.truncate 8) with _ | v
      · rfl
      · exfalso
        have h4 : p.ipv4 = none ∧ p.ipv6 = none := by
          unfold SPdr.key at hk
          cases h4 : p.ipv4 with
          | some ip => rw [h4] at hk; cases hk
          | none =>
            cases h6 : p.ipv6 with
            | some ip => rw [h4, h6] at hk; cases hk
            | none => exact ⟨rfl, rfl⟩
        unfold deletePdrEntry at he
        rw [h4.1, h4.2] at he
        simp only [hg, Option.isSome_some, if_true] at he
        cases he
    | skipped he hk hc =>
      rw [he] at hd
      simp only at hd
      split at hd
      · unfold releaseTeids at hd
        split at hd <;> cases hd
      · cases hd

/-- TEID `t` is installed, or has been removed in this deletion -/
def Reach1 (t : U32) (s : HS) : Prop := (s.cache.get? (t.truncate 8)).isSome ∨ (s.dp.entry? (.ul t)).isSome

theorem reach1_del (t : U32) {ord : Orders} {p : SPdr} {s s1 : HS} (h : Act.ignore (deletePdr ord p) s = (s1, .ok ())) (hr : Reach1 t s) : Reach1 t s1 := by
  rcases ignore_del h with h | ⟨rfl, _⟩
  · obtain ⟨rm, e⟩ := deletePdr_dp ord p s
    rw [h] at e
    simp only at e
    subst e
    show Reach1 t (deletePdrEntry p s).1
    cases deletePdrEntry_cases p s with
    | gone dp c he hsome hdp hc =>
      rw [he]
      unfold Reach1
      simp only
      rcases hc with ⟨rfl, hk⟩ | ⟨hk, rfl, _⟩
      · rcases hr with hr | hr
        · exact .inl hr
        · right; rw [hdp, if_neg (fun e => hk t e.symm)]; exact hr
      · by_cases hb : (t.truncate 8 : U8) = p.teid.truncate 8
        · left; rw [hb]; simp
        · rcases hr with hr | hr
          · left; simp only [GoMap.get?_set]; rw [if_neg hb]; exact hr
          · right
            rw [hdp, if_neg ?_]
            · exact hr
            · rw [hk]; intro e; cases e; exact hb rfl
    | absent he _ => rw [he]; exact hr
    | skipped he _ _ => rw [he]; exact hr
  · exact hr

theorem entry_del (k : PdrKey) {ord : Orders} {p : SPdr} {s s1 : HS} (h : Act.ignore (deletePdr ord p) s = (s1, .ok ())) (hk : p.key ≠ k) :
    s1.dp.entry? k = s.dp.entry? k := by
  rcases ignore_del h with h | ⟨rfl, _⟩
  · obtain ⟨rm, e⟩ := deletePdr_dp ord p s
    rw [h] at e
    simp only at e
    subst e
    show (deletePdrEntry p s).1.dp.entry? k = _
    cases deletePdrEntry_cases p s with
    | gone dp c he hsome hdp hc => rw [he]; simp only; rw [hdp, if_neg (fun e => hk e.symm)]
    | absent he _ => rw [he]
    | skipped he _ _ => rw [he]
  · rfl

theorem LB.drops {ord : Orders} {K : PdrKey → Prop} : ∀ (l : List (U32 × SPdr)) (s s' : HS), LB range rm0 R s →
    Act.each (fun e => Act.ignore (deletePdr ord e.2)) l s = (s', .ok ()) → (∀ e ∈ l, ¬ K e.2.key) →
    LB range rm0 R s' ∧ s'.sess = s.sess ∧ (∀ k, K k → s'.dp.entry? k = s.dp.entry? k) ∧
    ((∃ e ∈ l, e.2.teid ≠ 0 ∧ e.2.key = .ul e.2.teid ∧ Reach1 e.2.teid s) ∨ (∀ i t, ¬ Lent s.rm R i t) → ∀ i t, ¬ Lent s'.rm R i t)
  | [], s, s', hs, h, _ => by
    cases h
    exact ⟨hs, rfl, fun _ _ => rfl, fun h => h.resolve_left (by rintro ⟨e, he, _⟩; cases he)⟩
  | e :: l, s, s', hs, h, hK => by
    obtain ⟨s1, e1, e2⟩ := each_cons_ok h
    have hent : ∀ k, K k → s1.dp.entry? k = s.dp.entry? k := fun k hk => entry_del k e1 (fun e' => hK e List.mem_cons_self (by rw [e']; exact hk))
    have fin : LB range rm0 R s1 → s1.sess = s.sess →
        ((e.2.teid ≠ 0 ∧ e.2.key = .ul e.2.teid ∧ Reach1 e.2.teid s) ∨ (∀ i t, ¬ Lent s.rm R i t) → ∀ i t, ¬ Lent s1.rm R i t) →
        LB range rm0 R s' ∧ s'.sess = s.sess ∧ (∀ k, K k → s'.dp.entry? k = s.dp.entry? k) ∧
        ((∃ e' ∈ e :: l, e'.2.teid ≠ 0 ∧ e'.2.key = .ul e'.2.teid ∧ Reach1 e'.2.teid s) ∨ (∀ i t, ¬ Lent s.rm R i t) → ∀ i t, ¬ Lent s'.rm R i t) := by
      intro h1 hsess hno
      obtain ⟨i1, i2, i3, i4⟩ := LB.drops l s1 s' h1 e2 (fun e he => hK e (List.mem_cons_of_mem _ he))
      refine ⟨i1, i2.trans hsess, fun k hk => (i3 k hk).trans (hent k hk), ?_⟩
      rintro (⟨x, hx, hx1, hx2, hx3⟩ | hx)
      · rcases List.mem_cons.1 hx with rfl | hx
        · exact i4 (.inr (hno (.inl ⟨hx1, hx2, hx3⟩)))
        · exact i4 (.inl ⟨x, hx, hx1, hx2, reach1_del _ e1 hx3⟩)
      · exact i4 (.inr (hno (.inr hx)))
    rcases ignore_del e1 with hd | ⟨rfl, hn, hc⟩
    · obtain ⟨hsess, hr⟩ := deletePdr_ok_rm hd
      have hrem : s1.sess.remoteSEID = R := by rw [hsess]; exact hs.rem
      rcases hr with ⟨hz, hr⟩ | ⟨_, r, hr, hr'⟩
      · refine fin ⟨hrem, by rw [hr]; exact hs.inPool, by rw [hr]; exact hs.lentIn, by rw [hr]; exact hs.cover,
          by rw [hr, hsess]; exact hs.mine, by rw [hr]; exact hs.others⟩ hsess ?_
        rintro (⟨h0, _⟩ | h)
        · exact absurd hz h0
        · rw [hr]; exact h
      · obtain ⟨h1, hno⟩ := hs.released hr (by rw [hr', hs.rem]) hrem
        exact fin h1 hsess (fun _ => hno)
    · refine fin hs rfl ?_
      rintro (⟨_, hk, h⟩ | h)
      · exfalso
        rcases h with h | h
        · rw [hc hk] at h; cases h
        · rw [← hk, hn] at h; cases h
      · exact h

end

/-- the pool part of the invariant -/
structure LP (range : U32) (rm : Option ResourceManager) (own : U64 → U32 → Prop) : Prop where
  inPool : ∀ t ∈ freeTeids rm, t ∈ teidPool range
  lentIn : ∀ k i t, Lent rm k i t → t ∈ teidPool range
  cover : ∀ t ∈ teidPool range, t ∈ freeTeids rm ∨ ∃ k i, Lent rm k i t
  own : ∀ k i t, Lent rm k i t → own k i

theorem LP.lb {range : U32} {rm : Option ResourceManager} {own : U64 → U32 → Prop} (h : LP range rm own) {s : HS} (hrm : s.rm = rm)
    (hm : ∀ i, own s.sess.remoteSEID i → ∃ p, s.sess.pdrs.get? i = some p ∧ p.teid ≠ 0) : LB range rm s.sess.remoteSEID s := by
  subst hrm
  exact ⟨rfl, h.inPool, h.lentIn, h.cover, fun i t hl => hm i (h.own _ i t hl), fun _ _ _ _ => Iff.rfl⟩

theorem LB.lp {range : U32} {rm : Option ResourceManager} {own own' : U64 → U32 → Prop} {R : U64} {s : HS} (h : LB range rm R s)
    (ho : ∀ k i t, Lent rm k i t → own k i) (h1 : ∀ k i, k ≠ R → own k i → own' k i)
    (h2 : (∀ i p, s.sess.pdrs.get? i = some p → p.teid ≠ 0 → own' R i) ∨ ∀ i t, ¬ Lent s.rm R i t) : LP range s.rm own' := by
  refine ⟨h.inPool, h.lentIn, h.cover, ?_⟩
  intro k i t hl
  by_cases hk : k = R
  · subst hk
    rcases h2 with h2 | h2
    · obtain ⟨p, hp, hz⟩ := h.mine i t hl
      exact h2 i p hp hz
    · exact absurd hl (h2 i t)
  · exact h1 k i hk (ho k i t ((h.others k i t hk).1 hl))

/-- a deletion of all sessions in the list -/
theorem drops_all {range : U32} (ord : Orders) {own : U64 → U32 → Prop} : ∀ (l : List (U64 × Session)) (rm : Option ResourceManager) (dp : BpfObjects)
    (rm' : Option ResourceManager) (dp' : BpfObjects), dropSessions ord l rm dp = (rm', dp', true) →
    l.Pairwise (fun e e' => e.2.remoteSEID ≠ e'.2.remoteSEID) →
    (∀ e ∈ l, (∃ i p, e.2.pdrs.get? i = some p ∧ p.teid ≠ 0) → ∃ i p, e.2.pdrs.get? i = some p ∧ p.teid ≠ 0 ∧ p.key = .ul p.teid ∧
      (dp.entry? p.key).isSome ∧ ∀ e' ∈ l, e'.1 ≠ e.1 → ∀ i' p', e'.2.pdrs.get? i' = some p' → p'.key ≠ p.key) →
    (l.map Prod.fst).Nodup →
    LP range rm (fun k i => own k i ∨ ∃ e ∈ l, e.2.remoteSEID = k ∧ ∃ p, e.2.pdrs.get? i = some p ∧ p.teid ≠ 0) →
    (∀ e ∈ l, ∀ i, ¬ own e.2.remoteSEID i) → LP range rm' own
  | [], rm, dp, rm', dp', h, _, _, _, hl, _ => by
    cases h
    exact ⟨hl.inPool, hl.lentIn, hl.cover, fun k i t h => (hl.own k i t h).resolve_right (by rintro ⟨e, he, _⟩; cases he)⟩
  | (seid, sess) :: l, rm, dp, rm', dp', h, hpw, hw, hnd, hl, hown => by
    unfold dropSessions at h
    simp only [] at h
    rcases hb : deleteSessionBody ord sess ⟨sess, GoMap.empty, rm, dp, [], []⟩ with ⟨s', res⟩
    rw [hb] at h
    have hpw1 := List.pairwise_cons.1 hpw
    have hnd1 : seid ∉ l.map Prod.fst ∧ (l.map Prod.fst).Nodup := List.nodup_cons.1 hnd
    have hnpanic : res ≠ .panic := by rintro rfl; cases h
    have hok : deleteSessionBody ord sess ⟨sess, GoMap.empty, rm, dp, [], []⟩ = (s', .ok ()) := by
      cases res with
      | ok u => exact hb
      | panic => exact absurd rfl hnpanic
      | err =>
        exfalso
        unfold deleteSessionBody at hb
        have noerr : ∀ {α : Type} (g : α → Act HS Unit) (l : List α) (s : HS), (Act.each (fun e => Act.ignore (g e)) l s).2 ≠ .err := by
          intro α g l
          induction l with
          | nil => intro s h; cases h
          | cons x xs ih =>
            intro s
            show (Act.bind (Act.ignore (g x)) (fun _ => Act.each (fun e => Act.ignore (g e)) xs) s).2 ≠ .err
            unfold Act.bind
            have : (Act.ignore (g x) s).2 ≠ .err := by
              unfold Act.ignore
              rcases g x s with ⟨s', r⟩
              cases r <;> simp
            rcases hm : Act.ignore (g x) s with ⟨s1, r⟩
            rw [hm] at this
            cases r with
            | ok _ => exact ih s1
            | err => exact absurd rfl this
            | panic => simp
        simp only [Act.bind_def, Act.bind] at hb
        have n1 := noerr dropFar (ord.fars.run sess.fars.entries) ⟨sess, GoMap.empty, rm, dp, [], []⟩
        rcases h1 : Act.each (fun e => Act.ignore (dropFar e)) (ord.fars.run sess.fars.entries) ⟨sess, GoMap.empty, rm, dp, [], []⟩ with ⟨s1, r1⟩
        rw [h1] at hb n1
        cases r1 with
        | err => exact n1 rfl
        | panic => simp at hb
        | ok _ =>
          simp only at hb
          have n2 := noerr dropQer (ord.qers.run sess.qers.entries) s1
          rcases h2 : Act.each (fun e => Act.ignore (dropQer e)) (ord.qers.run sess.qers.entries) s1 with ⟨s2, r2⟩
          rw [h2] at hb n2
          cases r2 with
          | err => exact n2 rfl
          | panic => simp at hb
          | ok _ =>
            simp only at hb
            have n3 := noerr (fun e : U32 × SPdr => deletePdr ord e.2) (ord.pdrs.run sess.pdrs.entries) s2
            rw [hb] at n3
            exact n3 rfl
    have hres : res = .ok () := by rw [hb] at hok; exact congrArg Prod.snd hok
    subst hres
    simp only at h
    -- the body
    unfold deleteSessionBody at hok
    obtain ⟨_, s1, e1, hok⟩ := bind_ok hok
    obtain ⟨_, s2, e2, e3⟩ := bind_ok hok
    have f1 : RuleFrame (⟨sess, GoMap.empty, rm, dp, [], []⟩ : HS) s1 := by
      refine pres_each_ok (I := fun s => RuleFrame (⟨sess, GoMap.empty, rm, dp, [], []⟩ : HS) s) (fun x _ => pres_of fun s hs => ?_) e1 (RuleFrame.refl _)
      rw [ignore_fst]
      have := dropFar_rf x s
      exact ⟨this.ul.trans hs.ul, this.dl4.trans hs.dl4, this.dl6.trans hs.dl6, this.cache.trans hs.cache, this.rm.trans hs.rm, this.pdrs.trans hs.pdrs,
        this.remote.trans hs.remote, this.loc.trans hs.loc, this.created.trans hs.created⟩
    have f2 : RuleFrame (⟨sess, GoMap.empty, rm, dp, [], []⟩ : HS) s2 := by
      refine pres_each_ok (I := fun s => RuleFrame (⟨sess, GoMap.empty, rm, dp, [], []⟩ : HS) s) (fun x _ => pres_of fun s hs => ?_) e2 f1
      rw [ignore_fst]
      have := dropQer_rf x s
      exact ⟨this.ul.trans hs.ul, this.dl4.trans hs.dl4, this.dl6.trans hs.dl6, this.cache.trans hs.cache, this.rm.trans hs.rm, this.pdrs.trans hs.pdrs,
        this.remote.trans hs.remote, this.loc.trans hs.loc, this.created.trans hs.created⟩
    have b0 : LB range rm sess.remoteSEID (⟨sess, GoMap.empty, rm, dp, [], []⟩ : HS) := by
      refine LP.lb (s := (⟨sess, GoMap.empty, rm, dp, [], []⟩ : HS)) hl rfl ?_
      rintro i (ho | ⟨e, he, heq, hp⟩)
      · exact absurd ho (hown _ List.mem_cons_self i)
      · rcases List.mem_cons.1 he with rfl | he
        · exact hp
        · exact absurd heq.symm (hpw1.1 e he)
    have b2 := b0.frame f2
    obtain ⟨i1, i2, i3, i4⟩ := LB.drops (K := fun k => ∀ i p, sess.pdrs.get? i = some p → p.key ≠ k) _ _ _ b2 e3
      (fun e he hk => hk e.1 e.2 (mem_run_get _ _ e he) rfl)
    have hno : ∀ i t, ¬ Lent s'.rm sess.remoteSEID i t := by
      by_cases hex : ∃ i p, sess.pdrs.get? i = some p ∧ p.teid ≠ 0
      · obtain ⟨i, p, hp, hz, hk, hin, _⟩ := hw _ List.mem_cons_self hex
        refine i4 (.inl ⟨(i, p), (ord.pdrs.perm _).mem_iff.2 ((sess.pdrs.mem_entries_iff i p).2 hp), hz, hk, .inr ?_⟩)
        rw [f2.entry, ← hk]; exact hin
      · refine i4 (.inr fun i t hlt => ?_)
        obtain ⟨p, hp, hz⟩ := b2.mine i t hlt
        exact hex ⟨i, p, by rw [← hp, f2.pdrs], hz⟩
    refine drops_all ord l _ _ _ _ h hpw1.2 ?_ hnd1.2 ?_ (fun e he => hown e (List.mem_cons_of_mem _ he))
    · intro e he hex
      obtain ⟨i, p, hp, hz, hk, hin, hoth⟩ := hw e (List.mem_cons_of_mem _ he) hex
      refine ⟨i, p, hp, hz, hk, ?_, fun e' he' => hoth e' (List.mem_cons_of_mem _ he')⟩
      rw [i3 p.key ?_, f2.entry]
      · exact hin
      · have hne : seid ≠ e.1 := by rintro rfl; exact hnd1.1 (List.mem_map.2 ⟨e, he, rfl⟩)
        exact fun i' p' hp' => hoth _ List.mem_cons_self hne i' p' hp'
    · refine i1.lp hl.own ?_ (.inr hno)
      rintro k i hk (ho | ⟨e, he, heq, hp⟩)
      · exact .inl ho
      · rcases List.mem_cons.1 he with rfl | he
        · exact absurd heq.symm hk
        · exact .inr ⟨e, he, heq, hp⟩


/-! ### nodes -/

theorem LB.del_pres {range : U32} {rm0 : Option ResourceManager} {R : U64} (ord : Orders) (p : SPdr) : Pres (LB range rm0 R) (deletePdr ord p) := by
  refine deletePdr_pres (pres_of fun s h => ?_) (pres_of fun s h => ?_)
  · obtain ⟨_, _, e⟩ := deletePdrEntry_frame p s
    rw [e]
    exact ⟨h.rem, h.inPool, h.lentIn, h.cover, h.mine, h.others⟩
  · unfold releaseTeids
    split
    · exact h
    · rename_i r hr
      exact (h.released (s' := { s with rm := some { r with fteidm := r.fteidm.release ord.teids s.sess.remoteSEID } }) hr (by rw [h.rem]) h.rem).1

/-- a live session with CP SEID `k` has PDR `i`, with a TEID -/
def Node.hasTeid (n : Node) (k : U64) (i : U32) : Prop :=
  ∃ a s x p, n.session? a s = some x ∧ x.remoteSEID = k ∧ x.pdrs.get? i = some p ∧ p.teid ≠ 0

/-- Invariant of careful histories. -/
structure NL (range : U32) (n : Node) : Prop where
  pool : LP range n.rm n.hasTeid
  uniq : ∀ a s x a' s' x', n.session? a s = some x → n.session? a' s' = some x' → x.remoteSEID = x'.remoteSEID → a = a' ∧ s = s'

theorem NL.congr {range : U32} {n n' : Node} (h : NL range n) (hrm : SameT n.rm n'.rm) (hs : ∀ a s, n'.session? a s = n.session? a s) : NL range n' := by
  refine ⟨⟨by rw [hrm.free]; exact h.pool.inPool, fun k i t hl => h.pool.lentIn k i t ((hrm.lent k i t).1 hl), ?_, ?_⟩, ?_⟩
  · intro t ht
    rw [hrm.free]
    rcases h.pool.cover t ht with h | ⟨k, i, h⟩
    · exact .inl h
    · exact .inr ⟨k, i, (hrm.lent k i t).2 h⟩
  · intro k i t hl
    obtain ⟨a, s, x, p, hx, h1⟩ := h.pool.own k i t ((hrm.lent k i t).1 hl)
    exact ⟨a, s, x, p, by rw [hs]; exact hx, h1⟩
  · intro a s x a' s' x' hx hx'; rw [hs] at hx hx'; exact h.uniq a s x a' s' x' hx hx'

theorem NL.store {range : U32} {n n' : Node} (h : NL range n) {addr : Addr} {seid : U64} {s : HS} (hb : LB range n.rm s.sess.remoteSEID s)
    (hrm : n'.rm = s.rm) (hs : ∀ b u, n'.session? b u = if b = addr ∧ u = seid then some s.sess else n.session? b u)
    (hold : ∀ x, n.session? addr seid = some x → x.remoteSEID = s.sess.remoteSEID)
    (hne : ∀ b u x, n.session? b u = some x → ¬ (b = addr ∧ u = seid) → x.remoteSEID ≠ s.sess.remoteSEID) : NL range n' := by
  refine ⟨?_, ?_⟩
  · rw [hrm]
    refine hb.lp h.pool.own ?_ (.inl ?_)
    · rintro k i hk ⟨a, u, x, p, hx, hr, hp⟩
      refine ⟨a, u, x, p, ?_, hr, hp⟩
      rw [hs, if_neg ?_]
      · exact hx
      · rintro ⟨rfl, rfl⟩; exact hk (hr.symm.trans (hold x hx))
    · intro i p hp hz
      exact ⟨addr, seid, s.sess, p, by rw [hs, if_pos ⟨rfl, rfl⟩], rfl, hp, hz⟩
  · intro a u x a' u' x' hx hx' e
    rw [hs] at hx hx'
    split at hx <;> split at hx'
    · rename_i h1 h2; exact ⟨h1.1.trans h2.1.symm, h1.2.trans h2.2.symm⟩
    · rename_i h1 h2; cases hx; exact absurd e.symm (hne _ _ _ hx' h2)
    · rename_i h1 h2; cases hx'; exact absurd e (hne _ _ _ hx h1)
    · exact h.uniq _ _ _ _ _ _ hx hx' e

theorem NL.drop {range : U32} {n n' : Node} (h : NL range n) (hp : LP range n'.rm n'.hasTeid)
    (hs : ∀ a s x, n'.session? a s = some x → n.session? a s = some x) : NL range n' :=
  ⟨hp, fun a s x a' s' x' hx hx' => h.uniq a s x a' s' x' (hs _ _ _ hx) (hs _ _ _ hx')⟩

/-- creating PDRs that do not ask for a TEID leaves the TEIDs alone -/
theorem same_create {rm0 : Option ResourceManager} {ue : Bool} {ie : PdrIE} (ha : ie.asksTeid = none) : Pres (fun s => SameT rm0 s.rm) (createPdr ue ie) := by
  have app : ∀ p, Pres (fun s : HS => SameT rm0 s.rm) (applyPdr p) := fun p => pres_of fun s h => by
    obtain ⟨dp, e⟩ := applyPdr_frame p s; rw [e]; exact h
  unfold createPdr
  cases ie.pdrId with
  | none => exact Pres.fail
  | some id =>
    exact Pres.bind (pres_of fun s h => h.trans ((extract_teids (s1 := (extractPdr ue ie { pdrId := id.zeroExtend 32 } s).1) rfl).1 ha)) fun _ =>
      Pres.bind (Pres.modify fun _ h => h) fun _ => Pres.bind (app _) fun _ => Pres.modify fun _ h => h

theorem each_frame {α : Type} {f : α → Act HS Unit} (hf : ∀ x s, RuleFrame s (f x s).1) {l : List α} {s s' : HS} (h : Act.each f l s = (s', .ok ()))
    {range : U32} {rm0 : Option ResourceManager} {R : U64} (hs : LB range rm0 R s) : LB range rm0 R s' :=
  pres_each_ok (I := LB range rm0 R) (fun x _ => pres_of fun _ h => LB.frame (hf x _) h) h hs

theorem establish_pdrs {ue : Bool} {r : EstReq} {s s' : HS} (h : establishBody ue r s = (s', .ok ())) :
    ∃ s1 s2 s3, Act.each createFar r.createFar s = (s1, .ok ()) ∧ Act.each createQer r.createQer s1 = (s2, .ok ()) ∧
      Act.each createUrr r.createUrr s2 = (s3, .ok ()) ∧ Act.each (createPdr ue) r.createPdr s3 = (s', .ok ()) := by
  unfold establishBody at h
  obtain ⟨_, x1, d1, hx1⟩ := bind_ok h
  obtain rfl := display_ok d1
  obtain ⟨_, s1, e1, h1⟩ := bind_ok hx1
  obtain ⟨_, s2, e2, h2⟩ := bind_ok h1
  obtain ⟨_, s3, e3, h3⟩ := bind_ok h2
  exact ⟨s1, s2, s3, e1, e2, e3, h3⟩

theorem frames_pdrs {α : Type} {f : α → Act HS Unit} (hf : ∀ x s, RuleFrame s (f x s).1) {l : List α} {s s' : HS} (h : Act.each f l s = (s', .ok ())) :
    s'.sess.pdrs = s.sess.pdrs :=
  pres_each_ok (I := fun t => t.sess.pdrs = s.sess.pdrs) (fun x _ => pres_of fun t h => (hf x t).pdrs.trans h) h rfl

theorem nl_hist {cfg : NodeCfg} {ips : List Ip4} {range : U32} {dp : BpfObjects} {h : List (Ev × Outcome)} {n : Node}
    (H : HistP Careful (Node.init cfg (some (newResourceManager ips range)) dp) h n) (hb : attempts h < 2 ^ 64 - 2) : NL range n := by
  induction H with
  | init =>
    have hno : ∀ a s, (Node.init cfg (some (newResourceManager ips range)) dp).session? a s = none := by
      intro a s; simp [Node.session?, Node.init]
    have hl : ∀ k i t, ¬ Lent (some (newResourceManager ips range)) k i t := by
      rintro k i t ⟨r, m, e, h1, _⟩; cases e; simp [newResourceManager] at h1
    refine ⟨⟨fun t ht => ht, fun k i t h => absurd h (hl k i t), fun t ht => .inl ht, fun k i t h => absurd h (hl k i t)⟩, ?_⟩
    intro a s x a' s' x' hx; rw [hno] at hx; cases hx
  | traffic _ _ ih => exact (ih hb).congr (.refl _) (fun _ _ => rfl)
  | @step h n e H hc hnc ih =>
    have hb' : attempts h < 2 ^ 64 - 2 := by
      have := attempts_cons (e, (n.step e).2) h
      omega
    have D := ih hb'
    have L := linv_hist H.hist hb'
    have other : e.isNodeMsg = true → NL range (n.step e).1 := by
      intro he
      rcases other_step n e he with h1 | ⟨b, hbn, h1⟩
      · rw [h1]; exact D
      · rw [h1]
        refine D.congr (.refl _) ?_
        intro a s
        simp only [Node.session?, GoMap.get?_set]
        split
        · subst a; rw [hbn]; simp [Assoc.new]
        · rfl
    cases e with
    | assocSetup => exact other rfl
    | assocSetupResp => exact other rfl
    | assocUpdate => exact other rfl
    | heartbeatReq => exact other rfl
    | heartbeatResp => exact other rfl
    | setConfig => exact D.congr (.refl _) (fun _ _ => rfl)
    | establish addr r =>
      obtain ⟨c1, c2, c3⟩ := hc
      simp only [Node.step] at hnc c3 ⊢
      cases establish_cases n addr r with
      | refused c hcc he => rw [he]; exact D
      | ran remote a hs res hid hcp ha hbody hl hrem he =>
        have hsessions : ∀ b s, ({ n with rm := hs.rm, dp := hs.dp, assocs := n.assocs.set addr (a.bumped a.sessions) } : Node).session? b s = n.session? b s := by
          intro b s
          simp only [Node.session?, GoMap.get?_set]
          split
          · subst b; simp only [Assoc.bumped, ha]; rfl
          · rfl
        rw [he] at c3 hnc ⊢
        cases res with
        | panic => exact absurd rfl hnc
        | ok _ =>
          obtain ⟨s1, s2, s3, e1, e2, e3, e4⟩ := establish_pdrs hbody
          have b0 : LB range n.rm remote (n.hs (Session.new (a.nextSessionID + 1) remote)) := by
            refine LP.lb (s := n.hs (Session.new (a.nextSessionID + 1) remote)) D.pool rfl ?_
            rintro i ⟨b, s, x, p, hx, hr, _⟩
            exact absurd hr (c2 remote b s x hcp hx)
          have b3 := each_frame createUrr_rf e3 (each_frame createQer_rf e2 (each_frame createFar_rf e1 b0))
          have hp3 : s3.sess.pdrs = GoMap.empty := by
            rw [frames_pdrs createUrr_rf e3, frames_pdrs createQer_rf e2, frames_pdrs createFar_rf e1]; rfl
          have b4 := LB.creates _ _ _ b3 e4 c1 (fun ie _ id _ => by rw [hp3]; simp)
          have hf : n.session? addr (a.nextSessionID + 1) = none := by
            rcases hx : n.session? addr (a.nextSessionID + 1) with _ | x
            · rfl
            · exact absurd rfl (L.fresh hb' (by rw [hx]; simp) a ha)
          refine D.store (addr := addr) (seid := a.nextSessionID + 1) (by rw [hrem]; exact b4) rfl (fun b s => session_set n addr a ha _ _ _ hs.sess hs.rm hs.dp b s) ?_ ?_
          · intro x hx; rw [hf] at hx; cases hx
          · intro b u x hx _; rw [hrem]; exact c2 remote b u x hcp hx
        | err =>
          have hno : ∀ ie ∈ r.createPdr, ie.asksTeid = none := by
            intro ie hie
            rcases hx : ie.asksTeid with _ | c
            · rfl
            · obtain ⟨resp, hr, hcause⟩ := c3 ⟨ie, hie, by rw [hx]; rfl⟩
              cases hr
              simp [causeRuleFailure] at hcause
          have hsame := (establishBody_rf (I := fun s => SameT n.rm s.rm) (ue := n.ueip) (r := r) (fun h hs => by rw [h.rm]; exact hs)
            (fun ie hie => same_create (hno ie hie))).apply (s := n.hs (Session.new (a.nextSessionID + 1) remote)) (.refl _)
          rw [hbody] at hsame
          exact D.congr (n' := { n with rm := hs.rm, dp := hs.dp, assocs := n.assocs.set addr (a.bumped a.sessions) }) hsame hsessions
    | modify addr r ord =>
      obtain ⟨c1, c2, c3, c4, c5⟩ := hc
      simp only [Node.step] at hnc c5 ⊢
      cases modify_cases n addr r ord with
      | refused c x hcc hs he => rw [he]; exact D
      | ran a sess hs res ha hsess hbody hl hrem he =>
        have hset : sess.setRemote r.cpFseid = sess := by
          unfold Session.setRemote
          split
          · rename_i c hc'; exact absurd hc' (c1 c)
          · rfl
        rw [hset] at hbody hrem
        have hx : n.session? addr r.seid = some sess := by simp [Node.session?, ha, hsess]
        have b0 : LB range n.rm sess.remoteSEID (n.hs sess) := by
          refine LP.lb (s := n.hs sess) D.pool rfl ?_
          rintro i ⟨b, s, x, p, hx', hr, hp⟩
          obtain ⟨rfl, rfl⟩ := D.uniq _ _ _ _ _ _ hx' hx hr
          rw [hx] at hx'; cases hx'
          exact ⟨p, hp⟩
        have fin : LB range n.rm sess.remoteSEID hs → NL range (n.modResult addr r a hs res).1 := by
          intro b
          refine D.store (addr := addr) (seid := r.seid) (by rw [hrem]; exact b) rfl (fun b s => session_set n addr a ha _ _ _ hs.sess hs.rm hs.dp b s) ?_ ?_
          · intro x hx'; rw [hx] at hx'; cases hx'; exact hrem.symm
          · intro b u x hx' hne e; exact hne (D.uniq _ _ _ _ _ _ hx' hx (by rw [e, hrem]))
        rw [he] at c5 hnc ⊢
        by_cases hpdr : r.createPdr ≠ [] ∨ r.updatePdr ≠ [] ∨ r.removePdr ≠ []
        · obtain ⟨resp, hresp, hcause⟩ := c5 hpdr
          cases res with
          | err => cases hresp; simp [causeRuleFailure] at hcause
          | panic => exact absurd rfl hnc
          | ok _ =>
            obtain ⟨s1, s2, s3, s4, s5, s6, s7, s8, s9, s10, s11, e1, e2, e3, e4, e5, e6, e7, e8, e9, e10, e11, e12⟩ := modify_phases hbody
            have b9 := each_frame removeUrr_rf e9 (each_frame updateUrr_rf e8 (each_frame createUrr_rf e7 (each_frame removeQer_rf e6 (each_frame updateQer_rf e5
              (each_frame createQer_rf e4 (each_frame removeFar_rf e3 (each_frame updateFar_rf e2 (each_frame createFar_rf e1 b0))))))))
            have hp9 : s9.sess.pdrs = sess.pdrs := by
              rw [frames_pdrs removeUrr_rf e9, frames_pdrs updateUrr_rf e8, frames_pdrs createUrr_rf e7, frames_pdrs removeQer_rf e6, frames_pdrs updateQer_rf e5,
                frames_pdrs createQer_rf e4, frames_pdrs removeFar_rf e3, frames_pdrs updateFar_rf e2, frames_pdrs createFar_rf e1]; rfl
            exact fin (LB.removes _ _ _ (LB.updates _ _ _ (LB.creates _ _ _ b9 e10 c2 (fun ie hie id hid => by rw [hp9]; exact c3 sess hx ie hie id hid)) e11 c4) e12)
        · have h1 : r.createPdr = [] := Classical.not_not.1 fun h => hpdr (.inl h)
          have h2 : r.updatePdr = [] := Classical.not_not.1 fun h => hpdr (.inr (.inl h))
          have h3 : r.removePdr = [] := Classical.not_not.1 fun h => hpdr (.inr (.inr h))
          have := (modifyBody_rf (I := LB range n.rm sess.remoteSEID) (ue := n.ueip) (ord := ord) (r := r) LB.frame (fun ie h => by rw [h1] at h; cases h)
            (fun ie h => by rw [h2] at h; cases h) (fun ie h => by rw [h3] at h; cases h)).apply b0
          rw [hbody] at this
          exact fin this
    | delete addr r ord =>
      simp only [Node.step] at hnc ⊢
      cases delete_cases n addr r ord with
      | refused c hcc hs he => rw [he]; exact D
      | ran a sess hs res ha hsess hbody he =>
        have hx : n.session? addr r.seid = some sess := by simp [Node.session?, ha, hsess]
        have b0 : LB range n.rm sess.remoteSEID (n.hs sess) := by
          refine LP.lb (s := n.hs sess) D.pool rfl ?_
          rintro i ⟨b, s, x, p, hx', hr, hp⟩
          obtain ⟨rfl, rfl⟩ := D.uniq _ _ _ _ _ _ hx' hx hr
          rw [hx] at hx'; cases hx'
          exact ⟨p, hp⟩
        rw [he] at hnc ⊢
        cases res with
        | panic => exact absurd rfl hnc
        | err =>
          have b1 := (deleteBody_rf (I := fun s => LB range n.rm sess.remoteSEID s ∧ s.sess.pdrs = sess.pdrs) (ord := ord) (sess := sess)
            (fun h hs => ⟨hs.1.frame h, h.pdrs.trans hs.2⟩) (fun e _ => pres_of fun s h => ⟨(LB.del_pres ord e.2).apply h.1, by
              obtain ⟨rm, e'⟩ := deletePdr_dp ord e.2 s
              rw [e']
              obtain ⟨_, _, e''⟩ := deletePdrEntry_frame e.2 s
              rw [e'']
              exact h.2⟩)).apply (s := n.hs sess) ⟨b0, rfl⟩
          rw [hbody] at b1
          refine D.drop (n' := { n with rm := hs.rm, dp := hs.dp }) ?_ (fun _ _ _ h => h)
          refine b1.1.lp D.pool.own (fun _ _ _ h => h) (.inl ?_)
          intro i p hp hz
          rw [b1.2] at hp
          exact ⟨addr, r.seid, sess, p, hx, rfl, hp, hz⟩
        | ok _ =>
          unfold deleteBody at hbody
          obtain ⟨_, s1, e1, hbody⟩ := bind_ok hbody
          obtain ⟨_, s2, e2, hbody⟩ := bind_ok hbody
          obtain ⟨_, s3, e3, e4⟩ := bind_ok hbody
          obtain ⟨b1, b2, b3⟩ := LB.deletes _ _ _ b0 e1
          have hno : ∀ i t, ¬ Lent s1.rm sess.remoteSEID i t := by
            by_cases hex : ∃ i p, sess.pdrs.get? i = some p ∧ p.teid ≠ 0
            · obtain ⟨i, p, hp, hz⟩ := hex
              exact b3 (.inl ⟨(i, p), (ord.pdrs.perm _).mem_iff.2 ((sess.pdrs.mem_entries_iff i p).2 hp), hz⟩)
            · refine b3 (.inr fun i t hl => ?_)
              obtain ⟨p, hp, hz⟩ := b0.mine i t hl
              exact hex ⟨i, p, hp, hz⟩
          have hrm : hs.rm = s1.rm := by
            have f : ∀ {α : Type} {f : α → Act HS Unit} (hf : ∀ x s, RuleFrame s (f x s).1) {l : List α} {s s' : HS} (h : Act.each f l s = (s', .ok ())), s'.rm = s.rm :=
              fun hf _ s _ h => pres_each_ok (I := fun t => t.rm = s.rm) (fun x _ => pres_of fun t h => (hf x t).rm.trans h) h rfl
            rw [f dropUrr_rf e4, f dropQer_rf e3, f dropFar_rf e2]
          have hsub : ∀ b s (x : Session), ({ n with rm := releaseResources ord r.seid hs.rm, dp := hs.dp, assocs := n.assocs.set addr { a with sessions := a.sessions.erase r.seid } } : Node).session? b s =
              if b = addr ∧ s = r.seid then none else n.session? b s := by
            intro b s x
            simp only [Node.session?, GoMap.get?_set]
            by_cases hbb : b = addr
            · subst hbb
              simp only [if_true, Option.bind_some, GoMap.get?_erase, ha, true_and]
            · rw [if_neg hbb, if_neg (fun h => hbb h.1)]
          have p1 : LP range s1.rm ({ n with rm := releaseResources ord r.seid hs.rm, dp := hs.dp, assocs := n.assocs.set addr { a with sessions := a.sessions.erase r.seid } } : Node).hasTeid := by
            refine b1.lp D.pool.own ?_ (.inr hno)
            rintro k i hk ⟨b, s, x, p, hx', hr, hp⟩
            refine ⟨b, s, x, p, ?_, hr, hp⟩
            rw [hsub b s x, if_neg ?_]
            · exact hx'
            · rintro ⟨rfl, rfl⟩; rw [hx] at hx'; cases hx'; exact hk hr.symm
          refine D.drop (n' := { n with rm := releaseResources ord r.seid hs.rm, dp := hs.dp, assocs := n.assocs.set addr { a with sessions := a.sessions.erase r.seid } }) ?_ ?_
          · show LP range (releaseResources ord r.seid hs.rm) _
            rw [hrm]
            cases hr : s1.rm with
            | none => rw [hr] at p1; exact p1
            | some rr =>
              rw [hr] at p1
              obtain ⟨f1, f2⟩ := release_lent ord.teids r.seid rr (rr.ipam.release r.seid)
              refine ⟨?_, fun k i t h => p1.lentIn k i t ((f2 k i t).1 h).2, ?_, fun k i t h => (by rw [← hr] at p1 ⊢; exact p1.own k i t (by rw [hr]; exact ((f2 k i t).1 h).2))⟩
              · intro t ht
                rcases (f1 t).1 ht with h | ⟨i, h⟩
                · exact p1.inPool t h
                · exact p1.lentIn _ i t h
              · intro t ht
                rcases p1.cover t ht with h | ⟨k, i, h⟩
                · exact .inl ((f1 t).2 (.inl h))
                · by_cases hk : k = r.seid
                  · subst hk; exact .inl ((f1 t).2 (.inr ⟨i, h⟩))
                  · exact .inr ⟨k, i, (f2 k i t).2 ⟨hk, h⟩⟩
          · intro b s x hx'
            rw [hsub b s x] at hx'
            split at hx'
            · cases hx'
            · exact hx'
    | peerLost addr ord =>
      simp only [Node.step, Node.deleteAssociation] at hnc ⊢
      cases ha : n.assocs.get? addr with
      | none => rw [ha] at hnc; exact absurd rfl hnc
      | some a =>
        simp only [ha] at hnc ⊢
        rcases hd : dropSessions ord (ord.sessions.run a.sessions.entries) n.rm n.dp with ⟨rm, dp', b⟩
        have hmem : ∀ e, e ∈ ord.sessions.run a.sessions.entries ↔ n.session? addr e.1 = some e.2 := by
          intro e
          rw [(ord.sessions.perm _).mem_iff, a.sessions.mem_entries_iff e.1 e.2]
          simp [Node.session?, ha]
        rw [hd] at hnc
        cases b with
        | false => exact absurd rfl hnc
        | true =>
          have hsub : ∀ b s x, ({ n with rm := rm, dp := dp', assocs := n.assocs.erase addr } : Node).session? b s = some x ↔ b ≠ addr ∧ n.session? b s = some x := by
            intro b s x
            simp only [Node.session?, GoMap.get?_erase]
            split
            · rename_i e; simp [e]
            · rename_i e; simp [e]
          have hnd : ((ord.sessions.run a.sessions.entries).map Prod.fst).Nodup :=
            ((ord.sessions.perm _).map _).nodup_iff.2 a.sessions.keys_nodup
          refine D.drop (n' := { n with rm := rm, dp := dp', assocs := n.assocs.erase addr }) ?_ (fun b s x hx => ((hsub b s x).1 hx).2)
          refine drops_all ord _ _ _ _ _ hd ?_ ?_ hnd ?_ ?_
          · have hnd' : (ord.sessions.run a.sessions.entries).Pairwise (fun e e' => e.1 ≠ e'.1) := List.pairwise_map.1 hnd
            refine hnd'.imp_of_mem ?_
            intro e e' he he' hne heq
            exact hne (D.uniq _ _ _ _ _ _ ((hmem e).1 he) ((hmem e').1 he') heq).2
          · intro e he hex
            obtain ⟨i, p, hp, hz, hk, hin, hoth⟩ := hc e.1 e.2 ((hmem e).1 he) hex
            exact ⟨i, p, hp, hz, hk, hin, fun e' he' hne i' p' hp' => hoth e'.1 e'.2 i' p' hne ((hmem e').1 he') hp'⟩
          · refine ⟨D.pool.inPool, D.pool.lentIn, D.pool.cover, ?_⟩
            intro k i t hl
            obtain ⟨b, s, x, p, hx, hr, hp⟩ := D.pool.own k i t hl
            by_cases hbb : b = addr
            · subst hbb; exact .inr ⟨(s, x), (hmem (s, x)).2 hx, hr, p, hp⟩
            · exact .inl ⟨b, s, x, p, (hsub b s x).2 ⟨hbb, hx⟩, hr, hp⟩
          · rintro e he i ⟨b, s, x, p, hx, hr, hp⟩
            obtain ⟨h1, h2⟩ := (hsub b s x).1 hx
            exact h1 (D.uniq _ _ _ _ _ _ h2 ((hmem e).1 he) hr).1

end Eupf
