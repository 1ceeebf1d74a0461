import Verif.Spec.ModAcceptance
import Verif.AcceptLemmas
import Verif.Props.Gone
/-
When the parts of a modification succeed.
-/
namespace Eupf
open Act

theorem then_iff {m k : Act HS Unit} {s : HS} {A B : Prop} (h1 : (m s).2 = .ok () ↔ A) (h2 : (k (m s).1).2 = .ok () ↔ B) :
    ((m >>= fun _ => k) s).2 = .ok () ↔ A ∧ B := by
  rw [bind_ok_iff, ← h1, ← h2]
  constructor
  · rintro ⟨s1, _, e, h⟩; rw [e]; exact ⟨rfl, h⟩
  · rintro ⟨e, h⟩; exact ⟨_, (), ok_of_snd e, h⟩

theorem each_iff {β : Type} {g : β → Act HS Unit} {good : β → Prop} {I : HS → Prop} (hg : ∀ c s, I s → ((g c s).2 = .ok () ↔ good c))
    (hI : ∀ c, Pres I (g c)) (l : List β) (s : HS) (hs : I s) : (Act.each g l s).2 = .ok () ↔ ∀ c ∈ l, good c := by
  induction l generalizing s with
  | nil => exact ⟨fun _ _ h => (by cases h), fun _ => rfl⟩
  | cons c l ih =>
    rw [each_cons_iff]
    constructor
    · rintro ⟨s1, e, h⟩
      have h1 := (hI c).apply hs
      rw [e] at h1
      intro d hd
      rcases List.mem_cons.1 hd with rfl | hd
      · exact (hg _ s hs).1 (by rw [e])
      · exact (ih s1 h1).1 h d hd
    · intro h
      have e := ok_of_snd ((hg c s hs).2 (h c List.mem_cons_self))
      have h1 := (hI c).apply hs
      exact ⟨_, e, (ih _ h1).2 fun d hd => h d (List.mem_cons_of_mem _ hd)⟩

theorem RuleFrame.then {s s' s'' : HS} (h : RuleFrame s s') (h' : RuleFrame s' s'') : RuleFrame s s'' :=
  ⟨h'.ul.trans h.ul, h'.dl4.trans h.dl4, h'.dl6.trans h.dl6, h'.cache.trans h.cache, h'.rm.trans h.rm, h'.pdrs.trans h.pdrs,
    h'.remote.trans h.remote, h'.loc.trans h.loc, h'.created.trans h.created⟩

section
variable {f q u : U32}

theorem arr_update_iff {V : Type} {a : ArrMap V} {i : U32} {v : V} (h : i.toNat < a.size.toNat) : ∃ a', a.update i v = some a' := by
  unfold ArrMap.update; exact ⟨_, if_pos h⟩

theorem composeFar_iff (ie : FarIE) (f0 : FarInfo) : (∃ f, composeFarInfo ie f0 = .ok f) ↔ ie.usable := by
  rw [← compose_usable]
  unfold composeFarInfo composeAction
  rcases ie.applyAction with _ | _ | ⟨a, l⟩
  · simp only []
    unfold composeForward
    by_cases hk : ie.kind = .other
    · simp [hk]
    · simp only [if_neg hk]
      rcases ie.forward with _ | _ | _ | o <;> simp
      cases o.hasIPv6 <;> simp
  · simp
  · simp only []
    unfold composeForward
    by_cases hk : ie.kind = .other
    · simp [hk]
    · simp only [if_neg hk]
      rcases ie.forward with _ | _ | _ | o <;> simp
      cases o.hasIPv6 <;> simp

theorem updateFar_iff (hf : 0 < f.toNat) (ie : FarIE) (s : HS) (hs : RI f q u s) : (updateFar ie s).2 = .ok () ↔ ie.farId.isSome = true ∧ ie.usable := by
  unfold updateFar
  cases hid : ie.farId with
  | none => exact ⟨fun h => (by cases h), fun h => (by cases h.1)⟩
  | some id =>
    rw [← composeFar_iff ie (s.sess.getFar id).info]
    cases hc : composeFarInfo ie (s.sess.getFar id).info with
    | err => simp only [hc]; exact ⟨fun h => (by cases h), fun h => (by obtain ⟨_, _, h⟩ := h; cases h)⟩
    | panic => simp only [hc]; exact ⟨fun h => (by cases h), fun h => (by obtain ⟨_, _, h⟩ := h; cases h)⟩
    | ok x =>
      refine ⟨fun _ => ⟨rfl, x, rfl⟩, fun _ => ?_⟩
      obtain ⟨a, ha⟩ := arr_update_iff (a := s.dp.far) (v := x) (by rw [hs.2.far]; exact getFar_range hs.1 hf id)
      simp only [hc, BpfObjects.updateFar, ha, Option.map_some]

theorem removeFar_ok (hf : 0 < f.toNat) (id : Option U32) (s : HS) (hs : RI f q u s) : (removeFar id s).2 = .ok () ↔ True := by
  refine ⟨fun _ => trivial, fun _ => ?_⟩
  unfold removeFar
  obtain ⟨a, ha⟩ := arr_update_iff (a := s.dp.far) (v := {}) (by rw [hs.2.far]; exact getFar_range hs.1 hf (id.getD 0))
  simp only [BpfObjects.deleteFar, ha]

theorem updateQer_iff (hf : 0 < q.toNat) (ie : QerIE) (s : HS) (hs : RI f q u s) : (updateQer ie s).2 = .ok () ↔ ie.qerId.isSome = true := by
  unfold updateQer
  cases hid : ie.qerId with
  | none => exact ⟨fun h => (by cases h), fun h => (by cases h)⟩
  | some id =>
    refine ⟨fun _ => rfl, fun _ => ?_⟩
    obtain ⟨a, ha⟩ := arr_update_iff (a := s.dp.qer) (v := mergeQer (s.sess.getQer id).info ie) (by rw [hs.2.qer]; exact getQer_range hs.1 hf id)
    simp only [BpfObjects.updateQer, ha, Option.map_some]

theorem removeQer_iff (hf : 0 < q.toNat) (id : Option U32) (s : HS) (hs : RI f q u s) : (removeQer id s).2 = .ok () ↔ id.isSome = true := by
  unfold removeQer
  cases id with
  | none => exact ⟨fun h => (by cases h), fun h => (by cases h)⟩
  | some id =>
    refine ⟨fun _ => rfl, fun _ => ?_⟩
    obtain ⟨a, ha⟩ := arr_update_iff (a := s.dp.qer) (v := {}) (by rw [hs.2.qer]; exact getQer_range hs.1 hf id)
    simp only [BpfObjects.deleteQer, ha]

theorem updateUrr_iff (hf : 0 < u.toNat) (id : Option U32) (s : HS) (hs : RI f q u s) : (updateUrr id s).2 = .ok () ↔ id.isSome = true := by
  unfold updateUrr
  cases id with
  | none => exact ⟨fun h => (by cases h), fun h => (by cases h)⟩
  | some id =>
    refine ⟨fun _ => rfl, fun _ => ?_⟩
    obtain ⟨a, ha⟩ := arr_update_iff (a := s.dp.urr) (v := (s.sess.getUrr id).info) (by rw [hs.2.urr]; exact (getUrr_range hs.1 hf id).1)
    simp only [BpfObjects.updateUrr, ha, Option.map_some]

theorem removeUrr_iff (hf : 0 < u.toNat) (id : Option U32) (s : HS) (hs : RI f q u s) : (removeUrr id s).2 = .ok () ↔ id.isSome = true := by
  unfold removeUrr
  cases id with
  | none => exact ⟨fun h => (by cases h), fun h => (by cases h)⟩
  | some id =>
    refine ⟨fun _ => rfl, fun _ => ?_⟩
    have hr : (s.sess.getUrr id).gid.toNat < s.dp.urr.size.toNat := by rw [hs.2.urr]; exact (getUrr_range hs.1 hf id).1
    obtain ⟨a, ha⟩ := arr_update_iff (a := s.dp.urr) (v := {}) hr
    have hl : ∃ v, s.dp.urr.lookup (s.sess.getUrr id).gid = some v := by unfold ArrMap.lookup; exact ⟨_, if_pos hr⟩
    obtain ⟨v, hl⟩ := hl
    simp only [BpfObjects.deleteUrr, hl, ha]

/-- so far only rules were handled, and slots are in range -/
structure Ruled (f q u : U32) (s s' : HS) : Prop where
  ri : RI f q u s'
  rf : RuleFrame s s'

theorem ruled_pres {m : Act HS Unit} (h1 : Pres (RI f q u) m) (h2 : ∀ s, RuleFrame s (m s).1) (s0 : HS) : Pres (Ruled f q u s0) m :=
  pres_of fun s h => ⟨h1.apply h.ri, h.rf.then (h2 s)⟩

end

/-! ### PDRs -/

/-- What `extractPdr` takes from the pools. -/
inductive Taken (ue : Bool) (ie : PdrIE) (s s1 : HS) (p : SPdr) : Prop
  | shared (c : U8) (ha : ie.asksTeid = some (some c)) (hc : s.cache.get? c = some p.teid) (e : s1 = s)
  | fresh (c : Option U8) (ha : ie.asksTeid = some c) (hc : c.bind s.cache.get? = none) (hf : freeTeids s.rm = p.teid :: freeTeids s1.rm)
      (hi : freeIps s1.rm = freeIps s.rm) (hcache : s1.cache = match c with | some c => s.cache.set c p.teid | none => s.cache)
  | address (ip : Ip4) (hn : ie.asksTeid = none) (ha : ie.asksIp = true) (hu : ue = true) (hf : freeIps s.rm = ip :: freeIps s1.rm)
      (hi : freeTeids s1.rm = freeTeids s.rm) (hcache : s1.cache = s.cache)
  | given (hn : ie.asksTeid = none) (ha : ie.asksIp = true → ue = true → freeIps s.rm = []) (e : s1 = s)

theorem taken {ue : Bool} {ie : PdrIE} {p0 : SPdr} {s s1 : HS} {p : SPdr} (h : extractPdr ue ie p0 s = (s1, .ok p)) : Taken ue ie s s1 p := by
  unfold extractPdr at h
  simp only [] at h
  split at h
  · cases h
  · rename_i pdi hpdi
    split at h
    · cases h
    · rename_i info _
      split at h
      · cases h
      · rename_i f hf
        have asks : ie.asksTeid = if f.ch then some f.chooseId else none := by
          unfold PdrIE.asksTeid; rw [hpdi]; obtain ⟨a, b⟩ := pdi; simp only at hf; rw [hf]
        have noip : ie.asksIp = false := by
          unfold PdrIE.asksIp; rw [hpdi]; obtain ⟨a, b⟩ := pdi; simp only at hf; rw [hf]
        unfold pdrFteid at h
        split at h
        · rename_i hch
          rw [if_pos hch] at asks
          split at h
          · rename_i t ht
            cases h
            obtain ⟨c, hc1, hc2⟩ := Option.bind_eq_some_iff.1 ht
            exact .shared c (by rw [asks, hc1]) hc2 rfl
          · rename_i hmiss
            rcases hal : allocTeid s.sess.remoteSEID p0.pdrId s.rm with ⟨rm, _ | t⟩
            · simp only [hal] at h; cases h
            · simp only [hal] at h
              obtain ⟨f1, f2⟩ := allocTeid_takes hal
              cases hc : f.chooseId with
              | none => rw [hc] at h asks hmiss; cases h; exact .fresh none asks hmiss f1 f2 rfl
              | some c => rw [hc] at h asks hmiss; cases h; exact .fresh (some c) asks hmiss f1 f2 rfl
        · rename_i hch
          rw [if_neg hch] at asks
          cases h
          exact .given asks (by rw [noip]; intro x; cases x) rfl
      · rename_i hf
        have asks : ie.asksTeid = none := by
          unfold PdrIE.asksTeid; rw [hpdi]; obtain ⟨a, b⟩ := pdi; simp only at hf; rw [hf]
        split at h
        · cases h
        · rename_i u hu
          have askip : ie.asksIp = u.chv4 := by
            unfold PdrIE.asksIp; rw [hpdi]; obtain ⟨a, b⟩ := pdi; simp only at hf hu; rw [hf, hu]
          unfold pdrUeIp at h
          by_cases hb : (ue && u.chv4) = true
          · simp only [if_pos hb] at h
            have hue : ue = true := by simp at hb; exact hb.1
            have hch : u.chv4 = true := by simp at hb; exact hb.2
            rcases allocIp_cases s.sess.remoteSEID s.rm with ⟨rm', ip, e, h1, h2⟩ | ⟨e, h1⟩
            · simp only [e] at h
              cases h
              exact .address ip asks (by rw [askip, hch]) hue h1 h2 rfl
            · simp only [e] at h
              split at h
              · cases h; exact .given asks (fun _ _ => h1) rfl
              · cases h; exact .given asks (fun _ _ => h1) rfl
              · cases h
          · simp only [if_neg hb] at h
            have no : ie.asksIp = true → ue = true → freeIps s.rm = [] := by
              rw [askip]; intro h1 h2; exact absurd (by rw [h1, h2]; rfl) hb
            split at h
            · cases h; exact .given asks no rfl
            · cases h; exact .given asks no rfl
            · cases h
        · rename_i hu
          cases h
          exact .given asks (by unfold PdrIE.asksIp; rw [hpdi]; obtain ⟨a, b⟩ := pdi; simp only at hf hu; rw [hf, hu]; intro x; cases x) rfl

/-- the pools have what the PDRs ask for -/
structure PoolsFor (ue : Bool) (s : HS) (l : List PdrIE) : Prop where
  teid : needTeids s.cache l ≤ (freeTeids s.rm).length
  ip : ue = true → (l.filter (·.asksIp)).length ≤ (freeIps s.rm).length

theorem must_ue {ue : Bool} {ie : PdrIE} (hc : ie.clear ue) (hm : ie.mustGetIp = true) : ue = true := by
  obtain ⟨d, hd, h1, h2⟩ := hc.pdi
  unfold PdrIE.mustGetIp at hm
  obtain ⟨ft, u, x⟩ := d
  rw [hd] at hm
  rcases ft with _ | ft
  · rcases u with _ | _ | u
    · cases hm
    · cases hm
    · obtain ⟨v, hv, h3⟩ := h2 rfl _ rfl
      cases hv
      simp only [Bool.and_eq_true, Option.isNone_iff_eq_none] at hm
      rcases h3 with h3 | h3 | h3
      · rw [hm.1.2] at h3; cases h3
      · rw [hm.2] at h3; cases h3
      · exact h3.1
  · cases hm

/-- one PDR finds what it needs, and leaves the others theirs -/
theorem extract_can {ue : Bool} {ie : PdrIE} {l : List PdrIE} {s : HS} (p0 : SPdr) (hc : ie.clear ue) (hr : PoolsFor ue s (ie :: l)) :
    ∃ s1 p, extractPdr ue ie p0 s = (s1, .ok p) ∧ s1.dp = s.dp ∧ PoolsFor ue s1 l := by
  have hpool : Pooled ie s := by
    constructor
    · intro c ha hb hf
      have := hr.teid
      cases c with
      | none => rw [need_fresh (t := 0) ha hb ⟨fun _ h => (by cases h), fun _ => rfl⟩, hf] at this; exact absurd this (Nat.not_succ_le_zero _)
      | some x =>
        rw [need_fresh (C' := s.cache.set x 0) (t := 0) ha hb ⟨fun y hy => (by cases hy; rfl), fun h => (by cases h)⟩, hf] at this
        exact absurd this (Nat.not_succ_le_zero _)
    · intro hm hf
      have := hr.ip (must_ue hc hm)
      rw [List.filter_cons_of_pos (must_asks hm), hf] at this
      exact absurd this (Nat.not_succ_le_zero _)
  obtain ⟨s1, p, hx⟩ := (extract_iff ue ie p0 s).2 ⟨hc, hpool⟩
  have hg := taken hx
  obtain ⟨c1, rm1, hfr⟩ := extractPdr_frame ue ie p0 s
  rw [hx] at hfr
  refine ⟨s1, p, hx, by rw [show s1 = _ from hfr], ?_, ?_⟩
  · have h0 := hr.teid
    cases hg with
    | shared c ha hcc e =>
      subst e
      rw [need_shared ha hcc] at h0; exact h0
    | fresh c ha hcc hf hi hcache =>
      have hn : (∀ x, c = some x → s1.cache = s.cache.set x p.teid) ∧ (c = none → s1.cache = s.cache) := by
        cases c with
        | none => exact ⟨fun _ h => (by cases h), fun _ => hcache⟩
        | some x => exact ⟨fun y hy => (by cases hy; exact hcache), fun h => (by cases h)⟩
      rw [need_fresh ha hcc hn, hf] at h0
      exact Nat.le_of_succ_le_succ h0
    | address ip hn ha hu hf hi hcache =>
      rw [need_none hn] at h0
      rw [hcache, hi]; exact h0
    | given hn ha e =>
      subst e
      rw [need_none hn] at h0; exact h0
  · intro hu
    have h0 := hr.ip hu
    have h1 : (l.filter (·.asksIp)).length ≤ ((ie :: l).filter (·.asksIp)).length := ((List.sublist_cons_self ie l).filter _).length_le
    cases hg with
    | shared c ha hcc e => subst e; exact Nat.le_trans h1 h0
    | fresh c ha hcc hf hi hcache => rw [hi]; exact Nat.le_trans h1 h0
    | address ip hn ha hu hf hi hcache =>
      rw [List.filter_cons_of_pos ha, hf] at h0
      exact Nat.le_of_succ_le_succ h0
    | given hn ha e => subst e; exact Nat.le_trans h1 h0

/-- what one PDR took -/
theorem extract_took {ue : Bool} {ie : PdrIE} {l : List PdrIE} {p0 p : SPdr} {s s1 : HS} (hx : extractPdr ue ie p0 s = (s1, .ok p)) :
    ie.clear ue ∧ (needTeids s1.cache l ≤ (freeTeids s1.rm).length → needTeids s.cache (ie :: l) ≤ (freeTeids s.rm).length) ∧
    ((l.filter (·.mustGetIp)).length ≤ (freeIps s1.rm).length → ((ie :: l).filter (·.mustGetIp)).length ≤ (freeIps s.rm).length) := by
  obtain ⟨hc, hpool⟩ := (extract_iff ue ie p0 s).1 ⟨_, _, hx⟩
  refine ⟨hc, fun h0 => ?_, fun h0 => ?_⟩
  · cases taken hx with
    | shared c ha hcc e => subst e; rw [need_shared ha hcc]; exact h0
    | fresh c ha hcc hf hi hcache =>
      have hn : (∀ x, c = some x → s1.cache = s.cache.set x p.teid) ∧ (c = none → s1.cache = s.cache) := by
        cases c with
        | none => exact ⟨fun _ h => (by cases h), fun _ => hcache⟩
        | some x => exact ⟨fun y hy => (by cases hy; exact hcache), fun h => (by cases h)⟩
      rw [need_fresh ha hcc hn, hf]; exact Nat.succ_le_succ h0
    | address ip hn ha hu hf hi hcache => rw [need_none hn, ← hi, ← hcache]; exact h0
    | given hn ha e => subst e; rw [need_none hn]; exact h0
  · cases hm : ie.mustGetIp with
    | false =>
      rw [List.filter_cons_of_neg (by simp [hm])]
      refine Nat.le_trans h0 ?_
      cases taken hx with
      | shared c ha hcc e => subst e; exact Nat.le_refl _
      | fresh c ha hcc hf hi hcache => rw [hi]
      | address ip hn ha hu hf hi hcache => rw [hf]; exact Nat.le_succ _
      | given hn ha e => subst e; exact Nat.le_refl _
    | true =>
      rw [List.filter_cons_of_pos hm, List.length_cons]
      have hask := must_asks hm
      have hno : ie.asksTeid = none := by
        unfold PdrIE.asksIp at hask
        unfold PdrIE.asksTeid
        rcases hp : ie.pdi with _ | ⟨_ | ft, _ | _ | u, x⟩ <;> rw [hp] at hask <;> first | rfl | cases hask
      cases taken hx with
      | shared c ha => rw [hno] at ha; cases ha
      | fresh c ha => rw [hno] at ha; cases ha
      | address ip hn ha hu hf hi hcache => rw [hf]; exact Nat.succ_le_succ h0
      | given hn ha e => exact absurd (ha hask (must_ue hc hm)) (hpool.ip hm)

/-- room for `k` more PDRs of any kind -/
structure RoomAny (dp : BpfObjects) (k : Nat) : Prop where
  ul : dp.pdrUl.m.size + k ≤ dp.pdrUl.cap
  dl4 : dp.pdrDl4.m.size + k ≤ dp.pdrDl4.cap
  dl6 : dp.pdrDl6.m.size + k ≤ dp.pdrDl6.cap

theorem apply_any {k : Nat} (p : SPdr) (s : HS) (r : RoomAny s.dp (k + 1)) : ∃ dp, applyPdr p s = ({ s with dp := dp }, .ok ()) ∧ RoomAny dp k := by
  have r1 := r.ul; have r2 := r.dl4; have r3 := r.dl6
  unfold applyPdr
  cases h4 : p.ipv4 with
  | some ip =>
    obtain ⟨h', e1, e2, e3⟩ := HMap.put_room (h := s.dp.pdrDl4) ip (pdrToStore (s.dp.pdrDl4.lookup ip) p.info) (by omega)
    simp only [BpfObjects.putPdrDownlink, e1, Option.map_some]
    have : h'.m.size + k ≤ h'.cap := by rw [e2]; omega
    exact ⟨_, rfl, Nat.le_of_succ_le r1, this, Nat.le_of_succ_le r3⟩
  | none =>
    cases h6 : p.ipv6 with
    | some ip =>
      obtain ⟨h', e1, e2, e3⟩ := HMap.put_room (h := s.dp.pdrDl6) ip (pdrToStore (s.dp.pdrDl6.lookup ip) p.info) (by omega)
      simp only [BpfObjects.putDownlinkPdrIp6, e1, Option.map_some]
      have : h'.m.size + k ≤ h'.cap := by rw [e2]; omega
      exact ⟨_, rfl, Nat.le_of_succ_le r1, Nat.le_of_succ_le r2, this⟩
    | none =>
      obtain ⟨h', e1, e2, e3⟩ := HMap.put_room (h := s.dp.pdrUl) p.teid (pdrToStore (s.dp.pdrUl.lookup p.teid) p.info) (by omega)
      simp only [BpfObjects.putPdrUplink, e1, Option.map_some]
      have : h'.m.size + k ≤ h'.cap := by rw [e2]; omega
      exact ⟨_, rfl, this, Nat.le_of_succ_le r2, Nat.le_of_succ_le r3⟩

/-- room for the new PDRs in `l` and `k` more of any kind -/
structure RoomPlus (dp : BpfObjects) (l : List PdrIE) (k : Nat) : Prop where
  ul : dp.pdrUl.m.size + (l.filter (·.uplink)).length + k ≤ dp.pdrUl.cap
  dl4 : dp.pdrDl4.m.size + (l.filter (!·.uplink)).length + k ≤ dp.pdrDl4.cap
  dl6 : dp.pdrDl6.m.size + (l.filter (!·.uplink)).length + k ≤ dp.pdrDl6.cap

theorem apply_plus {ue : Bool} {ie : PdrIE} {id : U32} {l : List PdrIE} {k : Nat} {s0 s1 : HS} {p : SPdr} (hx : extractPdr ue ie { pdrId := id } s0 = (s1, .ok p))
    (s : HS) (r : RoomPlus s.dp (ie :: l) k) : ∃ dp, applyPdr p s = ({ s with dp := dp }, .ok ()) ∧ RoomPlus dp l k := by
  have ht := extract_table hx
  have r1 := r.ul; have r2 := r.dl4; have r3 := r.dl6
  unfold applyPdr
  cases hup : ie.uplink with
  | true =>
    obtain ⟨h4, h6⟩ := ht.1 hup
    rw [List.filter_cons_of_pos hup, List.length_cons] at r1
    rw [List.filter_cons_of_neg (by simp [hup])] at r2 r3
    have r1 : s.dp.pdrUl.m.size + ((l.filter (·.uplink)).length + 1) + k ≤ s.dp.pdrUl.cap := r1
    obtain ⟨h', e1, e2, e3⟩ := HMap.put_room (h := s.dp.pdrUl) p.teid (pdrToStore (s.dp.pdrUl.lookup p.teid) p.info) (by omega)
    simp only [h4, h6, BpfObjects.putPdrUplink, e1, Option.map_some]
    have : h'.m.size + (l.filter (·.uplink)).length + k ≤ h'.cap := by rw [e2]; omega
    exact ⟨_, rfl, this, r2, r3⟩
  | false =>
    have hne : ¬ (p.ipv4 = none ∧ p.ipv6 = none) := fun h => by rw [ht.2 h] at hup; cases hup
    rw [List.filter_cons_of_neg (by simp [hup])] at r1
    rw [List.filter_cons_of_pos (by simp [hup]), List.length_cons] at r2 r3
    have r2 : s.dp.pdrDl4.m.size + ((l.filter (!·.uplink)).length + 1) + k ≤ s.dp.pdrDl4.cap := r2
    have r3 : s.dp.pdrDl6.m.size + ((l.filter (!·.uplink)).length + 1) + k ≤ s.dp.pdrDl6.cap := r3
    have q2 : s.dp.pdrDl4.m.size + (l.filter (!·.uplink)).length + k ≤ s.dp.pdrDl4.cap := by omega
    have q3 : s.dp.pdrDl6.m.size + (l.filter (!·.uplink)).length + k ≤ s.dp.pdrDl6.cap := by omega
    cases h4 : p.ipv4 with
    | some ip =>
      obtain ⟨h', e1, e2, e3⟩ := HMap.put_room (h := s.dp.pdrDl4) ip (pdrToStore (s.dp.pdrDl4.lookup ip) p.info) (by omega)
      simp only [BpfObjects.putPdrDownlink, e1, Option.map_some]
      have : h'.m.size + (l.filter (!·.uplink)).length + k ≤ h'.cap := by rw [e2]; omega
      exact ⟨_, rfl, r1, this, q3⟩
    | none =>
      cases h6 : p.ipv6 with
      | none => exact absurd ⟨h4, h6⟩ hne
      | some ip =>
        obtain ⟨h', e1, e2, e3⟩ := HMap.put_room (h := s.dp.pdrDl6) ip (pdrToStore (s.dp.pdrDl6.lookup ip) p.info) (by omega)
        simp only [BpfObjects.putDownlinkPdrIp6, e1, Option.map_some]
        have : h'.m.size + (l.filter (!·.uplink)).length + k ≤ h'.cap := by rw [e2]; omega
        exact ⟨_, rfl, r1, q2, this⟩

/-- new PDRs succeed when there is room, and leave room for what follows -/
theorem creates_can {ue : Bool} (l2 : List PdrIE) (k : Nat) : ∀ (l : List PdrIE) {s : HS}, (∀ ie ∈ l, ie.pdrId.isSome ∧ ie.clear ue) → PoolsFor ue s (l ++ l2) →
    RoomPlus s.dp l k → ∃ s', Act.each (createPdr ue) l s = (s', .ok ()) ∧ PoolsFor ue s' l2 ∧ RoomAny s'.dp k
  | [], s, _, hp, hr => ⟨s, rfl, hp, ⟨hr.ul, hr.dl4, hr.dl6⟩⟩
  | ie :: l, s, h, hp, hr => by
    obtain ⟨h1, h2⟩ := h ie List.mem_cons_self
    obtain ⟨id, hid⟩ := Option.isSome_iff_exists.1 h1
    obtain ⟨s1, p, hx, hdp, hp1⟩ := extract_can (l := l ++ l2) { pdrId := id.zeroExtend 32 } h2 hp
    obtain ⟨dp, ea, hr1⟩ := apply_plus hx (l := l) (k := k) { s1 with sess := s1.sess.putPdr p.pdrId p } (by show RoomPlus s1.dp _ _; rw [hdp]; exact hr)
    have ec : createPdr ue ie s = ({ s1 with sess := s1.sess.putPdr p.pdrId p, dp := dp, created := s1.created ++ [p] }, .ok ()) := by
      unfold createPdr
      rw [hid]
      simp only [Act.bind_def, Act.bind, hx, Act.modify, ea]
    obtain ⟨s', e', k1, k2⟩ := creates_can l2 k l (s := { s1 with sess := s1.sess.putPdr p.pdrId p, dp := dp, created := s1.created ++ [p] })
      (fun c hc => h c (List.mem_cons_of_mem _ hc)) ⟨hp1.teid, hp1.ip⟩ hr1
    refine ⟨s', ?_, k1, k2⟩
    show (createPdr ue ie >>= fun _ => Act.each (createPdr ue) l) s = _
    simp only [Act.bind_def, Act.bind, ec]
    exact e'

/-- updates of PDRs succeed when there is room -/
theorem updates_can {ue : Bool} : ∀ (l : List PdrIE) {s : HS}, (∀ ie ∈ l, ie.pdrId.isSome ∧ ie.clear ue) → PoolsFor ue s l →
    RoomAny s.dp l.length → ∃ s', Act.each (updatePdr ue) l s = (s', .ok ())
  | [], s, _, _, _ => ⟨s, rfl⟩
  | ie :: l, s, h, hp, hr => by
    obtain ⟨h1, h2⟩ := h ie List.mem_cons_self
    obtain ⟨id, hid⟩ := Option.isSome_iff_exists.1 h1
    obtain ⟨s1, p, hx, hdp, hp1⟩ := extract_can (l := l) (s.sess.getPdr (id.zeroExtend 32)) h2 hp
    obtain ⟨dp, ea, hr1⟩ := apply_any (k := l.length) p { s1 with sess := s1.sess.putPdr (id.zeroExtend 32) p } (by show RoomAny s1.dp _; rw [hdp]; exact hr)
    have ec : updatePdr ue ie s = ({ s1 with sess := s1.sess.putPdr (id.zeroExtend 32) p, dp := dp }, .ok ()) := by
      unfold updatePdr
      rw [hid]
      simp only [Act.bind_def, Act.bind, Act.get, hx, Act.modify, ea]
    obtain ⟨s', e'⟩ := updates_can l (s := { s1 with sess := s1.sess.putPdr (id.zeroExtend 32) p, dp := dp })
      (fun c hc => h c (List.mem_cons_of_mem _ hc)) ⟨hp1.teid, hp1.ip⟩ hr1
    refine ⟨s', ?_⟩
    show (updatePdr ue ie >>= fun _ => Act.each (updatePdr ue) l) s = _
    simp only [Act.bind_def, Act.bind, ec]
    exact e'

theorem updatePdr_took {ue : Bool} {ie : PdrIE} {l : List PdrIE} {s s' : HS} (h : updatePdr ue ie s = (s', .ok ())) :
    ie.pdrId.isSome ∧ ie.clear ue ∧ (needTeids s'.cache l ≤ (freeTeids s'.rm).length → needTeids s.cache (ie :: l) ≤ (freeTeids s.rm).length) ∧
    ((l.filter (·.mustGetIp)).length ≤ (freeIps s'.rm).length → ((ie :: l).filter (·.mustGetIp)).length ≤ (freeIps s.rm).length) := by
  unfold updatePdr at h
  cases hid : ie.pdrId with
  | none => rw [hid] at h; cases h
  | some id =>
    rw [hid] at h
    obtain ⟨_, s0, h0, k0⟩ := bind_ok h
    cases h0
    obtain ⟨p, s1, hx, k1⟩ := bind_ok k0
    obtain ⟨_, s2, h2, k2⟩ := bind_ok k1
    cases h2
    obtain ⟨dp, e3⟩ := applyPdr_frame p { s1 with sess := s1.sess.putPdr (id.zeroExtend 32) p }
    rw [k2] at e3
    have ec : s'.cache = s1.cache := by rw [show s' = _ from e3]
    have er : s'.rm = s1.rm := by rw [show s' = _ from e3]
    obtain ⟨t1, t2, t3⟩ := extract_took (l := l) hx
    rw [ec, er]
    exact ⟨rfl, t1, t2, t3⟩

theorem updates_took {ue : Bool} : ∀ (l : List PdrIE) {s : HS}, (Act.each (updatePdr ue) l s).2 = .ok () →
    (∀ ie ∈ l, ie.pdrId.isSome ∧ ie.clear ue) ∧ needTeids s.cache l ≤ (freeTeids s.rm).length ∧ (l.filter (·.mustGetIp)).length ≤ (freeIps s.rm).length
  | [], _, _ => ⟨fun _ h => (by cases h), Nat.zero_le _, Nat.zero_le _⟩
  | ie :: l, s, h => by
    obtain ⟨s', e, h'⟩ := each_cons_iff.1 h
    obtain ⟨h1, h2, h3⟩ := updates_took l h'
    obtain ⟨t1, t2, t3, t4⟩ := updatePdr_took (l := l) e
    refine ⟨fun c hc => ?_, t3 h2, t4 h3⟩
    rcases List.mem_cons.1 hc with rfl | hc
    · exact ⟨t1, t2⟩
    · exact h1 c hc

theorem creates_took {ue : Bool} (l2 : List PdrIE) : ∀ (l : List PdrIE) {s s' : HS}, Act.each (createPdr ue) l s = (s', .ok ()) →
    (∀ ie ∈ l, ie.pdrId.isSome ∧ ie.clear ue) ∧ (needTeids s'.cache l2 ≤ (freeTeids s'.rm).length → needTeids s.cache (l ++ l2) ≤ (freeTeids s.rm).length) ∧
    ((l2.filter (·.mustGetIp)).length ≤ (freeIps s'.rm).length → ((l ++ l2).filter (·.mustGetIp)).length ≤ (freeIps s.rm).length)
  | [], _, _, h => by cases h; exact ⟨fun _ h => (by cases h), fun h => h, fun h => h⟩
  | ie :: l, s, s', h => by
    obtain ⟨s1, e, h'⟩ := each_cons_ok h
    obtain ⟨h1, h2, h3⟩ := creates_took l2 l h'
    obtain ⟨t1, t2, t3, t4⟩ := createPdr_took (l := l ++ l2) e
    refine ⟨fun c hc => ?_, fun k => t3 (h2 k), fun k => t4 (h3 k)⟩
    rcases List.mem_cons.1 hc with rfl | hc
    · exact ⟨t1, t2⟩
    · exact h1 c hc

/-! ### removals -/

theorem removes_can (ord : Orders) : ∀ (l : List (Option U16)) {s : HS}, s.rm ≠ none → s.sess.removable s.dp → (Act.each (removePdr ord) l s).2 = .ok ()
  | [], _, _, _ => rfl
  | d :: l, s, hrm, hr => by
    refine each_cons_iff.2 ?_
    cases hq : s.sess.pdrs.get? (BitVec.zeroExtend 32 (d.getD 0)) with
    | none => exact ⟨s, removePdr_unknown hq, removes_can ord l hrm hr⟩
    | some p =>
      rw [removePdr_known hq]
      generalize hs1 : ({ s with sess := s.sess.removePdr (BitVec.zeroExtend 32 (d.getD 0)) } : HS) = s1
      have hget : ∀ j, s1.sess.pdrs.get? j = if j = BitVec.zeroExtend 32 (d.getD 0) then none else s.sess.pdrs.get? j := by
        intro j; subst hs1; simp only [Session.removePdr, GoMap.get?_erase]
      have hdp1 : s1.dp = s.dp := by subst hs1; rfl
      have hrm1 : s1.rm ≠ none := by subst hs1; exact hrm
      have rel : ∀ s2 : HS, s2.rm ≠ none → s2.sess = s1.sess → (∀ k, k ≠ p.key → s2.dp.entry? k = s.dp.entry? k) →
          ∃ s3, (if p.teid ≠ 0 then releaseTeids ord else (Pure.pure () : Act HS Unit)) s2 = (s3, .ok ()) ∧ s3.rm ≠ none ∧ s3.sess.removable s3.dp := by
        intro s2 hrm2 hsess hent
        have hrem : s2.sess.removable s2.dp := by
          constructor
          · intro i x hx
            rw [hsess, hget] at hx
            split at hx
            · cases hx
            · rename_i hi
              rw [hent _ fun hk => hi (hr.apart _ _ _ _ hx hq hk)]
              exact hr.there _ _ hx
          · intro i j x y hx hy hk
            rw [hsess, hget] at hx hy
            split at hx
            · cases hx
            · split at hy
              · cases hy
              · exact hr.apart _ _ _ _ hx hy hk
        split
        · cases hm : s2.rm with
          | none => exact absurd hm hrm2
          | some r => exact ⟨{ s2 with rm := some { r with fteidm := r.fteidm.release ord.teids s2.sess.remoteSEID } }, by simp only [releaseTeids, hm], by simp, hrem⟩
        · exact ⟨s2, rfl, hrm2, hrem⟩
      have fin : ∀ s2 : HS, deletePdrEntry p s1 = (s2, .ok ()) → s2.rm ≠ none → s2.sess = s1.sess → (∀ k, k ≠ p.key → s2.dp.entry? k = s.dp.entry? k) →
          ∃ s3, deletePdr ord p s1 = (s3, .ok ()) ∧ (Act.each (removePdr ord) l s3).2 = .ok () := by
        intro s2 e h1 h2 h3
        obtain ⟨s3, e3, h4, h5⟩ := rel s2 h1 h2 h3
        refine ⟨s3, ?_, removes_can ord l h4 h5⟩
        unfold deletePdr
        simp only [Act.bind_def, Act.bind, e]
        exact e3
      cases deletePdrEntry_cases p s1 with
      | gone dp c hdl _ hdp hc =>
        exact fin _ hdl hrm1 rfl fun k hk => by show dp.entry? k = _; rw [hdp, if_neg hk, hdp1]
      | absent hdl hnone =>
        have := hr.there _ _ hq
        rw [← hdp1, hnone] at this; cases this
      | skipped hdl hk hc => exact fin s1 hdl hrm1 rfl fun k _ => by rw [hdp1]

/-! ### the body -/

theorem display_state : ∀ (l : List PdrIE) (s : HS), (Act.each displayPdr l s).1 = s
  | [], _ => rfl
  | ie :: l, s => by
    have h0 : (displayPdr ie s).1 = s := by
      unfold displayPdr
      split
      · split <;> rfl
      · rfl
    show ((displayPdr ie >>= fun _ => Act.each displayPdr l) s).1 = s
    simp only [Act.bind_def, Act.bind]
    rcases hd : displayPdr ie s with ⟨s1, r⟩
    rw [hd] at h0
    have h0 : s1 = s := h0
    subst h0
    cases r with
    | ok _ => exact display_state l s1
    | err => rfl
    | panic => rfl

/-- so far only FARs were handled -/
structure InFars (f q u : U32) (s s' : HS) : Prop extends Ruled f q u s s' where
  qer : s'.dp.qerIds = s.dp.qerIds
  urr : s'.dp.urrIds = s.dp.urrIds
/-- so far only QERs were handled -/
structure InQers (f q u : U32) (s s' : HS) : Prop extends Ruled f q u s s' where
  urr : s'.dp.urrIds = s.dp.urrIds

section
variable {f q u : U32}

theorem inFars_pres {m : Act HS Unit} (h1 : Pres (RI f q u) m) (h2 : ∀ s, RuleFrame s (m s).1) (h3 : ∀ s, onlyFar s (m s).1) (s0 : HS) : Pres (InFars f q u s0) m :=
  pres_of fun s h => ⟨(ruled_pres h1 h2 s0).apply h.toRuled, (h3 s).aside.1.ids.trans h.qer, (h3 s).aside.2.ids.trans h.urr⟩
theorem inQers_pres {m : Act HS Unit} (h1 : Pres (RI f q u) m) (h2 : ∀ s, RuleFrame s (m s).1) (h3 : ∀ s, onlyQer s (m s).1) (s0 : HS) : Pres (InQers f q u s0) m :=
  pres_of fun s h => ⟨(ruled_pres h1 h2 s0).apply h.toRuled, (h3 s).aside.2.ids.trans h.urr⟩

/-- The rules of a modification, then its PDRs: when the body succeeds. -/
theorem modBody_iff (hf : 0 < f.toNat) (hq : 0 < q.toNat) (hu : 0 < u.toNat) (ue : Bool) (ord : Orders) (r : ModReq) (s : HS) (hs : RI f q u s) :
    ∃ s', RuleFrame s s' ∧ ((modifyBody ue ord r s).2 = .ok () ↔
      (∀ ie ∈ r.createPdr, ∀ d, ie.pdi = some d → d.source = true) ∧ (∀ ie ∈ r.updatePdr, ∀ d, ie.pdi = some d → d.source = true) ∧
      ((∀ c ∈ r.createFar, c.usable) ∧ r.createFar.length ≤ slotsFree s.dp.farIds) ∧ (∀ c ∈ r.updateFar, c.farId.isSome = true ∧ c.usable) ∧ (∀ c ∈ r.removeFar, True) ∧
      ((∀ c ∈ r.createQer, c.qerId.isSome = true) ∧ r.createQer.length ≤ slotsFree s.dp.qerIds) ∧ (∀ c ∈ r.updateQer, c.qerId.isSome = true) ∧
      (∀ c ∈ r.removeQer, c.isSome = true) ∧
      ((∀ c ∈ r.createUrr, c.isSome = true) ∧ r.createUrr.length ≤ slotsFree s.dp.urrIds) ∧ (∀ c ∈ r.updateUrr, c.isSome = true) ∧
      (∀ c ∈ r.removeUrr, c.isSome = true) ∧
      ((do Act.each (createPdr ue) r.createPdr; Act.each (updatePdr ue) r.updatePdr; Act.each (removePdr ord) r.removePdr : Act HS Unit) s').2 = .ok ()) := by
  -- FARs
  have f1 := fun c => inFars_pres (f := f) (q := q) (u := u) (createFar_ri c) (createFar_rf c) (createFar_only c) s
  have f2 := fun c => inFars_pres (f := f) (q := q) (u := u) (updateFar_ri hf c) (updateFar_rf c) (updateFar_only c) s
  have f3 := fun c => inFars_pres (f := f) (q := q) (u := u) (removeFar_ri c) (removeFar_rf c) (removeFar_only c) s
  have i0 : InFars f q u s s := ⟨⟨hs, RuleFrame.refl s⟩, rfl, rfl⟩
  have e1 := each_fares (g := createFar) (ids := (·.farIds)) (I := InFars f q u s) (fun c s' h => createFar_fares c s' (by rw [h.ri.2.farIds, h.ri.2.far])) f1 r.createFar s i0
  have i1 : InFars f q u s (Act.each createFar r.createFar s).1 := (Pres.each (l := r.createFar) fun c _ => f1 c).apply i0
  generalize hs1 : (Act.each createFar r.createFar s).1 = s1 at i1
  have e2 := each_iff (g := updateFar) (I := InFars f q u s) (fun c s' h => updateFar_iff hf c s' h.ri) f2 r.updateFar s1 i1
  have i2 : InFars f q u s (Act.each updateFar r.updateFar s1).1 := (Pres.each (l := r.updateFar) fun c _ => f2 c).apply i1
  generalize hs2 : (Act.each updateFar r.updateFar s1).1 = s2 at i2
  have e3 := each_iff (g := removeFar) (I := InFars f q u s) (fun c s' h => removeFar_ok hf c s' h.ri) f3 r.removeFar s2 i2
  have i3 : InFars f q u s (Act.each removeFar r.removeFar s2).1 := (Pres.each (l := r.removeFar) fun c _ => f3 c).apply i2
  generalize hs3 : (Act.each removeFar r.removeFar s2).1 = s3 at i3
  -- QERs
  have q1 := fun c => inQers_pres (f := f) (q := q) (u := u) (createQer_ri c) (createQer_rf c) (createQer_only c) s
  have q2 := fun c => inQers_pres (f := f) (q := q) (u := u) (updateQer_ri hq c) (updateQer_rf c) (updateQer_only c) s
  have q3 := fun c => inQers_pres (f := f) (q := q) (u := u) (removeQer_ri c) (removeQer_rf c) (removeQer_only c) s
  have j0 : InQers f q u s s3 := ⟨i3.toRuled, i3.urr⟩
  have e4 := each_fares (g := createQer) (ids := (·.qerIds)) (I := InQers f q u s) (fun c s' h => createQer_fares c s' (by rw [h.ri.2.qerIds, h.ri.2.qer])) q1 r.createQer s3 j0
  have j1 : InQers f q u s (Act.each createQer r.createQer s3).1 := (Pres.each (l := r.createQer) fun c _ => q1 c).apply j0
  generalize hs4 : (Act.each createQer r.createQer s3).1 = s4 at j1
  have e5 := each_iff (g := updateQer) (I := InQers f q u s) (fun c s' h => updateQer_iff hq c s' h.ri) q2 r.updateQer s4 j1
  have j2 : InQers f q u s (Act.each updateQer r.updateQer s4).1 := (Pres.each (l := r.updateQer) fun c _ => q2 c).apply j1
  generalize hs5 : (Act.each updateQer r.updateQer s4).1 = s5 at j2
  have e6 := each_iff (g := removeQer) (I := InQers f q u s) (fun c s' h => removeQer_iff hq c s' h.ri) q3 r.removeQer s5 j2
  have j3 : InQers f q u s (Act.each removeQer r.removeQer s5).1 := (Pres.each (l := r.removeQer) fun c _ => q3 c).apply j2
  generalize hs6 : (Act.each removeQer r.removeQer s5).1 = s6 at j3
  -- URRs
  have u1 := fun c => ruled_pres (f := f) (q := q) (u := u) (createUrr_ri c) (createUrr_rf c) s
  have u2 := fun c => ruled_pres (f := f) (q := q) (u := u) (updateUrr_ri hu c) (updateUrr_rf c) s
  have u3 := fun c => ruled_pres (f := f) (q := q) (u := u) (removeUrr_ri c) (removeUrr_rf c) s
  have k0 : Ruled f q u s s6 := j3.toRuled
  have e7 := each_fares (g := createUrr) (ids := (·.urrIds)) (I := Ruled f q u s) (fun c s' h => createUrr_fares c s' (by rw [h.ri.2.urrIds, h.ri.2.urr])) u1 r.createUrr s6 k0
  have k1 : Ruled f q u s (Act.each createUrr r.createUrr s6).1 := (Pres.each (l := r.createUrr) fun c _ => u1 c).apply k0
  generalize hs7 : (Act.each createUrr r.createUrr s6).1 = s7 at k1
  have e8 := each_iff (g := updateUrr) (I := Ruled f q u s) (fun c s' h => updateUrr_iff hu c s' h.ri) u2 r.updateUrr s7 k1
  have k2 : Ruled f q u s (Act.each updateUrr r.updateUrr s7).1 := (Pres.each (l := r.updateUrr) fun c _ => u2 c).apply k1
  generalize hs8 : (Act.each updateUrr r.updateUrr s7).1 = s8 at k2
  have e9 := each_iff (g := removeUrr) (I := Ruled f q u s) (fun c s' h => removeUrr_iff hu c s' h.ri) u3 r.removeUrr s8 k2
  have k3 : Ruled f q u s (Act.each removeUrr r.removeUrr s8).1 := (Pres.each (l := r.removeUrr) fun c _ => u3 c).apply k2
  generalize hs9 : (Act.each removeUrr r.removeUrr s8).1 = s9 at k3
  rw [i3.qer] at e4
  rw [j3.urr] at e7
  refine ⟨s9, k3.rf, ?_⟩
  unfold modifyBody
  refine then_iff (display_iff r.createPdr s) ?_
  rw [display_state]
  refine then_iff (display_iff r.updatePdr s) ?_
  rw [display_state]
  refine then_iff e1 ?_
  rw [hs1]
  refine then_iff e2 ?_
  rw [hs2]
  refine then_iff e3 ?_
  rw [hs3]
  refine then_iff e4 ?_
  rw [hs4]
  refine then_iff e5 ?_
  rw [hs5]
  refine then_iff e6 ?_
  rw [hs6]
  refine then_iff e7 ?_
  rw [hs7]
  refine then_iff e8 ?_
  rw [hs8]
  refine then_iff e9 ?_
  rw [hs9]

end

end Eupf
