import Verif.Spec.Acceptance
import Verif.SizeLemmas
import Verif.Props.Capacity
import Verif.Props.SdfGrammar
/-
When the steps of an establishment succeed (C95). Models no code.
-/
namespace Eupf
open Act

theorem bind_ok_iff {S α β : Type} {m : Act S α} {k : α → Act S β} {s : S} {b : β} :
    ((m >>= k) s).2 = .ok b ↔ ∃ s1 a, m s = (s1, .ok a) ∧ (k a s1).2 = .ok b := by
  rw [Act.bind_def]
  unfold Act.bind
  rcases hm : m s with ⟨s1, r⟩
  cases r with
  | ok a => exact ⟨fun h => ⟨s1, a, rfl, h⟩, fun ⟨_, _, h1, h2⟩ => by cases h1; exact h2⟩
  | err => exact ⟨fun h => (by cases h), fun ⟨_, _, h1, _⟩ => by cases h1⟩
  | panic => exact ⟨fun h => (by cases h), fun ⟨_, _, h1, _⟩ => by cases h1⟩

theorem each_cons_iff {S α : Type} {f : α → Act S Unit} {x : α} {l : List α} {s : S} :
    (Act.each f (x :: l) s).2 = .ok () ↔ ∃ s1, f x s = (s1, .ok ()) ∧ (Act.each f l s1).2 = .ok () := by
  have := bind_ok_iff (m := f x) (k := fun _ => Act.each f l) (s := s) (b := ())
  exact this.trans ⟨fun ⟨s1, _, h⟩ => ⟨s1, h⟩, fun ⟨s1, h⟩ => ⟨s1, (), h⟩⟩

theorem ok_of_snd {S α : Type} {m : Act S α} {s : S} {a : α} (h : (m s).2 = .ok a) : m s = ((m s).1, .ok a) := Prod.ext rfl h

/-! ### display -/

theorem display_iff (l : List PdrIE) (s : HS) : (Act.each displayPdr l s).2 = .ok () ↔ ∀ ie ∈ l, ∀ d, ie.pdi = some d → d.source = true := by
  induction l generalizing s with
  | nil => exact ⟨fun _ _ h => (by cases h), fun _ => rfl⟩
  | cons ie l ih =>
    rw [each_cons_iff]
    constructor
    · rintro ⟨s1, h1, h2⟩ c hc d hd
      rcases List.mem_cons.1 hc with rfl | hc
      · simp only [displayPdr, hd] at h1
        split at h1
        · assumption
        · cases h1
      · exact (ih s1).1 h2 c hc d hd
    · intro h
      refine ⟨s, ?_, (ih s).2 fun c hc => h c (List.mem_cons_of_mem _ hc)⟩
      unfold displayPdr
      cases hd : ie.pdi with
      | none => rfl
      | some d => simp only [h ie List.mem_cons_self d hd, if_true]

/-! ### rules -/

theorem compose_usable (ie : FarIE) : (∃ f, composeFarInfo ie {} = .ok f) ↔ ie.usable := by
  have ha : (∃ f, composeAction ie {} = .ok f) ↔ ie.applyAction ≠ some [] := by
    unfold composeAction
    rcases ie.applyAction with _ | _ | ⟨a, l⟩ <;> simp
  have hf : ∀ f0, (∃ f, composeForward ie f0 = .ok f) ↔ ie.kind ≠ .other ∧ ∀ o, ie.forward = some (some o) → ∃ h, o = some h ∧ h.hasIPv6 = false := by
    intro f0
    unfold composeForward
    by_cases hk : ie.kind = .other
    · simp [hk]
    · rw [if_neg hk]
      rcases ie.forward with _ | _ | _ | o
      · simp [hk]
      · simp [hk]
      · simp
      · cases h6 : o.hasIPv6 <;> simp [hk, h6]
  constructor
  · rintro ⟨f, h⟩
    unfold composeFarInfo at h
    cases h1 : composeAction ie {} with
    | ok f1 =>
      rw [h1] at h
      simp only at h
      cases h2 : composeForward ie f1 with
      | ok f2 => obtain ⟨k1, k2⟩ := (hf f1).1 ⟨f2, h2⟩; exact ⟨k1, ha.1 ⟨f1, h1⟩, k2⟩
      | err => rw [h2] at h; cases h
      | panic => rw [h2] at h; cases h
    | err => rw [h1] at h; cases h
    | panic => rw [h1] at h; cases h
  · intro h
    obtain ⟨f1, h1⟩ := ha.2 h.action
    obtain ⟨f2, h2⟩ := (hf f1).2 ⟨h.kind, h.header⟩
    exact ⟨_, by unfold composeFarInfo; rw [h1]; simp only; rw [h2]⟩

/-- how one creation of a rule fares, in terms of free slots -/
structure Fares (ids : BpfObjects → IdTracker) (good : Prop) (s : HS) (x : HS × Res Unit) : Prop where
  can : x.2 = .ok () ↔ good ∧ 0 < slotsFree (ids s.dp)
  left : x.2 = .ok () → slotsFree (ids x.1.dp) = slotsFree (ids s.dp) - 1

theorem each_fares {β : Type} {g : β → Act HS Unit} {ids : BpfObjects → IdTracker} {good : β → Prop} {I : HS → Prop}
    (hg : ∀ c s, I s → Fares ids (good c) s (g c s)) (hI : ∀ c, Pres I (g c)) (l : List β) (s : HS) (hs : I s) :
    (Act.each g l s).2 = .ok () ↔ (∀ c ∈ l, good c) ∧ l.length ≤ slotsFree (ids s.dp) := by
  induction l generalizing s with
  | nil => exact ⟨fun _ => ⟨fun _ h => (by cases h), Nat.zero_le _⟩, fun _ => rfl⟩
  | cons c l ih =>
    rw [each_cons_iff]
    have F := hg c s hs
    constructor
    · rintro ⟨s1, h1, h2⟩
      rw [h1] at F
      obtain ⟨k1, k2⟩ := F.can.1 rfl
      have k3 := F.left rfl
      have hI1 : I s1 := by have := (hI c).apply hs; rw [h1] at this; exact this
      obtain ⟨j1, j2⟩ := (ih s1 hI1).1 h2
      simp only at k3
      refine ⟨fun d hd => ?_, by simp only [List.length_cons]; omega⟩
      rcases List.mem_cons.1 hd with rfl | hd
      · exact k1
      · exact j1 d hd
    · rintro ⟨h1, h2⟩
      simp only [List.length_cons] at h2
      have hr := F.can.2 ⟨h1 c List.mem_cons_self, by omega⟩
      have k3 := F.left hr
      refine ⟨(g c s).1, ok_of_snd hr, (ih _ ((hI c).apply hs)).2 ⟨fun d hd => h1 d (List.mem_cons_of_mem _ hd), by omega⟩⟩

theorem createFar_fares (ie : FarIE) (s : HS) (hsz : s.dp.farIds.maxSize = s.dp.far.size) : Fares (·.farIds) ie.usable s (createFar ie s) := by
  have ht := fun f => newFar_took s.dp f
  unfold createFar
  cases hc : composeFarInfo ie {} with
  | err => exact ⟨⟨fun h => (by cases h), fun h => (by obtain ⟨f, hf⟩ := (compose_usable ie).2 h.1; rw [hc] at hf; cases hf)⟩, fun h => (by cases h)⟩
  | panic => exact ⟨⟨fun h => (by cases h), fun h => (by obtain ⟨f, hf⟩ := (compose_usable ie).2 h.1; rw [hc] at hf; cases hf)⟩, fun h => (by cases h)⟩
  | ok f =>
    have hu := (compose_usable ie).1 ⟨f, hc⟩
    have ht := ht f
    simp only
    rcases hd : s.dp.newFar f with ⟨dp, g⟩
    rw [hd] at ht
    cases g with
    | none =>
      refine ⟨⟨fun h => (by cases h), fun h => ?_⟩, fun h => (by cases h)⟩
      cases ht with
      | full hi _ hg => exact absurd (slotsFree_none.1 hg) (Nat.ne_of_gt h.2)
      | outside _ _ h' => exact absurd hsz h'
    | some g =>
      cases ht with
      | got _ hi hz hg =>
        have h0 : slotsFree s.dp.farIds ≠ 0 := fun h => by
          have := slotsFree_none.2 h
          rw [show s.dp.farIds.getNext.2 = some g from hg] at this; cases this
        exact ⟨⟨fun _ => ⟨hu, Nat.pos_of_ne_zero h0⟩, fun _ => rfl⟩, fun _ => by
          show slotsFree dp.farIds = _
          rw [show dp.farIds = s.dp.farIds.getNext.1 from hi]; exact slotsFree_getNext _⟩

theorem createQer_fares (ie : QerIE) (s : HS) (hsz : s.dp.qerIds.maxSize = s.dp.qer.size) : Fares (·.qerIds) (ie.qerId.isSome = true) s (createQer ie s) := by
  unfold createQer
  cases hc : ie.qerId with
  | none => exact ⟨⟨fun h => (by cases h), fun h => (by cases h.1)⟩, fun h => (by cases h)⟩
  | some id =>
    have ht := newQer_took s.dp (mergeQer {} ie)
    simp only
    rcases hd : s.dp.newQer (mergeQer {} ie) with ⟨dp, g⟩
    rw [hd] at ht
    cases g with
    | none =>
      refine ⟨⟨fun h => (by cases h), fun h => ?_⟩, fun h => (by cases h)⟩
      cases ht with
      | full hi _ hg => exact absurd (slotsFree_none.1 hg) (Nat.ne_of_gt h.2)
      | outside _ _ h' => exact absurd hsz h'
    | some g =>
      cases ht with
      | got _ hi hz hg =>
        have h0 : slotsFree s.dp.qerIds ≠ 0 := fun h => by
          have := slotsFree_none.2 h
          rw [show s.dp.qerIds.getNext.2 = some g from hg] at this; cases this
        exact ⟨⟨fun _ => ⟨rfl, Nat.pos_of_ne_zero h0⟩, fun _ => rfl⟩, fun _ => by
          show slotsFree dp.qerIds = _
          rw [show dp.qerIds = s.dp.qerIds.getNext.1 from hi]; exact slotsFree_getNext _⟩

theorem createUrr_fares (ie : Option U32) (s : HS) (hsz : s.dp.urrIds.maxSize = s.dp.urr.size) : Fares (·.urrIds) (ie.isSome = true) s (createUrr ie s) := by
  unfold createUrr
  cases hc : ie with
  | none => exact ⟨⟨fun h => (by cases h), fun h => (by cases h.1)⟩, fun h => (by cases h)⟩
  | some id =>
    have ht := newUrr_took s.dp {}
    simp only
    rcases hd : s.dp.newUrr {} with ⟨dp, g⟩
    rw [hd] at ht
    cases g with
    | none =>
      refine ⟨⟨fun h => (by cases h), fun h => ?_⟩, fun h => (by cases h)⟩
      cases ht with
      | full hi _ hg => exact absurd (slotsFree_none.1 hg) (Nat.ne_of_gt h.2)
      | outside _ _ h' => exact absurd hsz h'
    | some g =>
      cases ht with
      | got _ hi hz hg =>
        have h0 : slotsFree s.dp.urrIds ≠ 0 := fun h => by
          have := slotsFree_none.2 h
          rw [show s.dp.urrIds.getNext.2 = some g from hg] at this; cases this
        exact ⟨⟨fun _ => ⟨rfl, Nat.pos_of_ne_zero h0⟩, fun _ => rfl⟩, fun _ => by
          show slotsFree dp.urrIds = _
          rw [show dp.urrIds = s.dp.urrIds.getNext.1 from hi]; exact slotsFree_getNext _⟩

/-! ### PDRs -/

/-- what the PDR says, without PDR ID and Source Interface -/
structure PdrIE.clear (ueip : Bool) (ie : PdrIE) : Prop where
  pdi : ∃ d, ie.pdi = some d ∧ d.fteid ≠ some none ∧ (d.fteid = none → ∀ u, d.ueip = some u → ∃ v, u = some v ∧ v.usable ueip)
  filter : ∀ t, ie.sdf = some t → t = [] ∨ ∃ r, SdfText t r

theorem usable_iff (ueip : Bool) (ie : PdrIE) : ie.usable ueip ↔ ie.pdrId.isSome ∧ (∀ d, ie.pdi = some d → d.source = true) ∧ ie.clear ueip := by
  constructor
  · rintro ⟨h1, ⟨d, h2, h3, h4⟩, h5⟩
    exact ⟨h1, fun d' hd => by rw [h2] at hd; cases hd; exact h3, ⟨d, h2, h4⟩, h5⟩
  · rintro ⟨h1, h2, ⟨d, h3, h4⟩, h5⟩
    exact ⟨h1, ⟨d, h3, h2 d h3, h4⟩, h5⟩

theorem pdrSdf_iff (ie : PdrIE) (p : PdrInfo) : (∃ q, pdrSdf ie p = some q) ↔ ∀ t, ie.sdf = some t → t = [] ∨ ∃ r, SdfText t r := by
  unfold pdrSdf
  rcases ie.sdf with _ | _ | ⟨c, t⟩
  · exact ⟨fun _ _ h => (by cases h), fun _ => ⟨p, rfl⟩⟩
  · exact ⟨fun _ _ h => (by cases h; exact .inl rfl), fun _ => ⟨p, rfl⟩⟩
  · constructor
    · rintro ⟨q, hq⟩ t' ht
      cases ht
      obtain ⟨f, hf, _⟩ := Option.map_eq_some_iff.1 hq
      obtain ⟨r, hr, _⟩ := Sdf.C21_accepted hf
      exact .inr ⟨r, hr⟩
    · intro h
      rcases h _ rfl with h | ⟨r, hr⟩
      · cases h
      · obtain ⟨f, hf, _⟩ := Sdf.C21_complete hr
        exact ⟨_, by simp only [hf]; rfl⟩

/-- what a step needs of the pools -/
structure Pooled (ie : PdrIE) (s : HS) : Prop where
  teid : ∀ c, ie.asksTeid = some c → c.bind s.cache.get? = none → freeTeids s.rm ≠ []
  ip : ie.mustGetIp = true → freeIps s.rm ≠ []

theorem extract_iff (ue : Bool) (ie : PdrIE) (p : SPdr) (s : HS) :
    (∃ s1 p', extractPdr ue ie p s = (s1, .ok p')) ↔ ie.clear ue ∧ Pooled ie s := by
  unfold extractPdr
  simp only
  cases hpdi : ie.pdi with
  | none =>
    refine ⟨fun ⟨_, _, h⟩ => (by cases h), fun h => ?_⟩
    obtain ⟨d, hd, _⟩ := h.1.pdi
    rw [hpdi] at hd; cases hd
  | some d =>
    have hs := pdrSdf_iff ie (pdrRefs s.sess ie p.info)
    cases hf : pdrSdf ie (pdrRefs s.sess ie p.info) with
    | none =>
      simp only
      refine ⟨fun ⟨_, _, h⟩ => (by cases h), fun h => ?_⟩
      obtain ⟨q, hq⟩ := hs.2 h.1.filter
      rw [hf] at hq; cases hq
    | some info =>
      have hfil := hs.1 ⟨_, hf⟩
      simp only
      obtain ⟨ft, ueip, src⟩ := d
      rcases ft with _ | _ | f
      · have a1 : ie.asksTeid = none := by unfold PdrIE.asksTeid; rw [hpdi]
        rcases ueip with _ | _ | v
        · simp only
          refine ⟨fun _ => ⟨⟨⟨_, hpdi, by simp, by intro _ u h; cases h⟩, hfil⟩, ⟨(by rw [a1]; intro c h; cases h), ?_⟩⟩, fun _ => ⟨_, _, rfl⟩⟩
          unfold PdrIE.mustGetIp; rw [hpdi]; simp
        · simp only
          refine ⟨fun ⟨_, _, h⟩ => (by cases h), fun h => ?_⟩
          obtain ⟨d, hd, _, h2⟩ := h.1.pdi
          rw [hpdi] at hd; cases hd
          obtain ⟨v, hv, _⟩ := h2 rfl _ rfl
          cases hv
        · have a2 : ie.mustGetIp = (v.chv4 && v.ipv4.isNone && v.ipv6.isNone) := by unfold PdrIE.mustGetIp; rw [hpdi]
          have hcl : ie.clear ue ↔ v.usable ue := by
            constructor
            · intro h
              obtain ⟨d, hd, _, h2⟩ := h.pdi
              rw [hpdi] at hd; cases hd
              obtain ⟨v', hv, h3⟩ := h2 rfl _ rfl
              cases hv; exact h3
            · intro h
              exact ⟨⟨_, hpdi, by simp, fun _ u hu => by cases hu; exact ⟨v, rfl, h⟩⟩, hfil⟩
          have hpo : Pooled ie s ↔ (ie.mustGetIp = true → freeIps s.rm ≠ []) := ⟨fun h => h.ip, fun h => ⟨(by rw [a1]; intro c h; cases h), h⟩⟩
          rw [hcl, hpo, a2]
          simp only [pdrUeIp, UeIp.usable]
          rcases allocIp_cases s.sess.remoteSEID s.rm with ⟨rm', ip, e1, e2, _⟩ | ⟨e1, e2⟩
          · rw [e1, e2]
            cases ue <;> cases v.chv4 <;> cases v.ipv4 <;> cases v.ipv6 <;> simp
          · rw [e1, e2]
            cases ue <;> cases v.chv4 <;> cases v.ipv4 <;> cases v.ipv6 <;> simp
      · simp only
        refine ⟨fun ⟨_, _, h⟩ => (by cases h), fun h => ?_⟩
        obtain ⟨d, hd, h1, _⟩ := h.1.pdi
        rw [hpdi] at hd; cases hd
        exact absurd rfl h1
      · have a1 : ie.asksTeid = if f.ch then some f.chooseId else none := by unfold PdrIE.asksTeid; rw [hpdi]
        have a2 : ie.mustGetIp = false := by unfold PdrIE.mustGetIp; rw [hpdi]
        have hcl : ie.clear ue := ⟨⟨_, hpdi, by simp, fun h => (by cases h)⟩, hfil⟩
        have hpo : Pooled ie s ↔ (∀ c, ie.asksTeid = some c → c.bind s.cache.get? = none → freeTeids s.rm ≠ []) := ⟨fun h => h.teid, fun h => ⟨h, by rw [a2]; simp⟩⟩
        rw [hpo, a1]
        simp only [hcl, true_and, pdrFteid]
        cases hch : f.ch with
        | false => simp
        | true =>
          simp only [if_true, Option.some.injEq]
          cases hcc : f.chooseId.bind s.cache.get? with
          | some t =>
            refine ⟨fun _ c hc hn => ?_, fun _ => ⟨_, _, rfl⟩⟩
            subst hc; rw [hcc] at hn; cases hn
          | none =>
            simp only
            rcases hal : allocTeid s.sess.remoteSEID p.pdrId s.rm with ⟨rm', _ | t⟩
            · refine ⟨fun ⟨_, _, h⟩ => (by cases h), fun h => ?_⟩
              exfalso
              refine h _ rfl hcc ?_
              unfold allocTeid at hal
              cases hrm : s.rm with
              | none => rfl
              | some r =>
                rw [hrm] at hal
                simp only [FTEIDM.allocate] at hal
                split at hal
                · assumption
                · cases hal
            · refine ⟨fun _ c hc hn => ?_, fun _ => ⟨_, _, rfl⟩⟩
              rw [(allocTeid_takes hal).1]; simp

/-- in which table a new PDR goes -/
theorem extract_table {ue : Bool} {ie : PdrIE} {id : U32} {s s1 : HS} {p : SPdr} (h : extractPdr ue ie { pdrId := id } s = (s1, .ok p)) :
    ie.uplink = true ↔ p.ipv4 = none ∧ p.ipv6 = none := by
  unfold extractPdr at h
  simp only at h
  cases hpdi : ie.pdi with
  | none => rw [hpdi] at h; cases h
  | some d =>
    rw [hpdi] at h
    simp only at h
    cases hf : pdrSdf ie (pdrRefs s.sess ie {}) with
    | none => simp only [hf] at h; cases h
    | some info =>
      simp only [hf] at h
      obtain ⟨ft, ueip, src⟩ := d
      have hup : ie.uplink = (ft.isSome || ueip.isNone) := by unfold PdrIE.uplink; rw [hpdi]
      rw [hup]
      rcases ft with _ | _ | f
      · rcases ueip with _ | _ | v
        · cases h; simp
        · cases h
        · simp only [pdrUeIp] at h
          revert h
          generalize (if (ue && v.chv4) = true then
              match allocIp s.sess.remoteSEID s.rm with
              | (rm, some ip) => (rm, some ip, true)
              | (rm, none) => (rm, v.ipv4, false)
            else (s.rm, v.ipv4, false) : Option ResourceManager × Option Ip4 × Bool) = r
          obtain ⟨a, b, c⟩ := r
          intro h
          rcases b with _ | ip <;> rcases hv : v.ipv6 with _ | ip6 <;> simp only [hv] at h <;> cases h <;> simp
      · cases h
      · simp only [pdrFteid] at h
        simp only [Option.isSome_some, Bool.true_or, true_iff]
        split at h
        · split at h
          · cases h; exact ⟨rfl, rfl⟩
          · split at h
            · cases h
            · cases h; exact ⟨rfl, rfl⟩
        · cases h; exact ⟨rfl, rfl⟩

theorem chooseIds_none {ie : PdrIE} {l : List PdrIE} (h : ie.asksTeid = none) : chooseIds (ie :: l) = chooseIds l := List.filterMap_cons_none h
theorem chooseIds_some {ie : PdrIE} {l : List PdrIE} {c : Option U8} (h : ie.asksTeid = some c) : chooseIds (ie :: l) = c :: chooseIds l := List.filterMap_cons_some h

/-- TEIDs needed when some CHOOSE IDs are already served -/
def needTeids (C : GoMap U8 U32) (l : List PdrIE) : Nat :=
  ((chooseIds l).filter (·.isNone)).length + (((chooseIds l).filterMap id).filter fun c => (C.get? c).isNone).eraseDups.length

theorem needTeids_empty (l : List PdrIE) : needTeids GoMap.empty l = teidsNeeded l := by
  unfold needTeids teidsNeeded
  congr 3
  rw [List.filter_eq_self]
  intro c _; simp

theorem need_none {C : GoMap U8 U32} {ie : PdrIE} {l : List PdrIE} (h : ie.asksTeid = none) : needTeids C (ie :: l) = needTeids C l := by
  unfold needTeids; rw [chooseIds_none h]
theorem need_shared {C : GoMap U8 U32} {ie : PdrIE} {l : List PdrIE} {c : U8} (h : ie.asksTeid = some (some c)) {t : U32} (hc : C.get? c = some t) :
    needTeids C (ie :: l) = needTeids C l := by
  unfold needTeids; rw [chooseIds_some h]; simp [hc]
theorem need_fresh {C C' : GoMap U8 U32} {ie : PdrIE} {l : List PdrIE} {c : Option U8} (h : ie.asksTeid = some c) (hc : c.bind C.get? = none) {t : U32}
    (hC : (∀ x, c = some x → C' = C.set x t) ∧ (c = none → C' = C)) :
    needTeids C (ie :: l) = needTeids C' l + 1 := by
  unfold needTeids; rw [chooseIds_some h]
  cases c with
  | none => rw [hC.2 rfl]; simp; omega
  | some c =>
    rw [hC.1 c rfl]
    have hc : C.get? c = none := hc
    simp only [List.filter_cons_of_neg (p := fun x : Option U8 => x.isNone) (a := some c) (by simp), List.filterMap_cons_some (f := id) (a := some c) rfl]
    rw [List.filter_cons_of_pos (by simp [hc]), List.eraseDups_cons, List.filter_filter, List.length_cons, Nat.add_assoc]
    congr 4
    refine List.filter_congr fun x _ => ?_
    rw [GoMap.get?_set]
    by_cases hx : x = c
    · simp [hx]
    · simp [hx]

/-- room for the PDRs that are left -/
structure RoomFor (ue : Bool) (s : HS) (l : List PdrIE) : Prop where
  teid : needTeids s.cache l ≤ (freeTeids s.rm).length
  ip : ue = true → (l.filter (·.asksIp)).length ≤ (freeIps s.rm).length
  pdr : PdrRoom s.dp l

theorem must_asks {ie : PdrIE} (h : ie.mustGetIp = true) : ie.asksIp = true := by
  unfold PdrIE.mustGetIp at h
  unfold PdrIE.asksIp
  cases hp : ie.pdi with
  | none => rw [hp] at h; cases h
  | some d =>
    obtain ⟨ft, u, x⟩ := d
    rw [hp] at h
    rcases ft with _ | ft
    · rcases u with _ | _ | u
      · cases h
      · cases h
      · simp only [Bool.and_eq_true] at h ⊢; exact h.1.1
    · cases h

/-- one PDR succeeds when there is room, and leaves room for the others -/
theorem createPdr_can {ue : Bool} {ie : PdrIE} {l : List PdrIE} {s : HS} (hid : ie.pdrId.isSome) (hc : ie.clear ue) (hr : RoomFor ue s (ie :: l)) :
    ∃ s', createPdr ue ie s = (s', .ok ()) ∧ RoomFor ue s' l := by
  obtain ⟨id, hid⟩ := Option.isSome_iff_exists.1 hid
  have hpool : Pooled ie s := by
    constructor
    · intro c ha hb hf
      have := hr.teid
      cases c with
      | none => rw [need_fresh (t := 0) ha hb ⟨fun _ h => (by cases h), fun _ => rfl⟩, hf] at this; exact absurd this (Nat.not_succ_le_zero _)
      | some x =>
        rw [need_fresh (C' := s.cache.set x 0) (t := 0) ha hb ⟨fun y hy => (by cases hy; rfl), fun h => (by cases h)⟩, hf] at this
        exact absurd this (Nat.not_succ_le_zero _)
    · intro hm hf
      have hu : ue = true := by
        obtain ⟨d, hd, h1, h2⟩ := hc.pdi
        unfold PdrIE.mustGetIp at hm
        obtain ⟨ft, u, x⟩ := d
        rw [hd] at hm
        rcases ft with _ | ft
        · rcases u with _ | _ | u
          · cases hm
          · cases hm
          · obtain ⟨v, hv, h3⟩ := h2 rfl _ rfl
            cases hv
            simp only [Bool.and_eq_true, Option.isNone_iff_eq_none] at hm
            rcases h3 with h3 | h3 | h3
            · rw [hm.1.2] at h3; cases h3
            · rw [hm.2] at h3; cases h3
            · exact h3.1
        · cases hm
      have := hr.ip hu
      rw [List.filter_cons_of_pos (must_asks hm), hf] at this
      exact absurd this (Nat.not_succ_le_zero _)
  obtain ⟨s1, p, hx⟩ := (extract_iff ue ie { pdrId := id.zeroExtend 32 } s).2 ⟨hc, hpool⟩
  have hg := got hx
  have ht := extract_table hx
  obtain ⟨c1, rm1, hfr⟩ := extractPdr_frame ue ie { pdrId := id.zeroExtend 32 } s
  rw [hx] at hfr
  have hdp : s1.dp = s.dp := by rw [show s1 = _ from hfr]
  -- the pools
  have hteid : needTeids s1.cache l ≤ (freeTeids s1.rm).length := by
    have h0 := hr.teid
    cases hg with
    | shared c ha hcc e =>
      subst e
      rw [need_shared ha hcc] at h0; exact h0
    | fresh c ha hcc hf hi hcache =>
      have hn : (∀ x, c = some x → s1.cache = s.cache.set x p.teid) ∧ (c = none → s1.cache = s.cache) := by
        cases c with
        | none => exact ⟨fun _ h => (by cases h), fun _ => hcache⟩
        | some x => exact ⟨fun y hy => (by cases hy; exact hcache), fun h => (by cases h)⟩
      rw [need_fresh ha hcc hn, hf] at h0
      exact Nat.le_of_succ_le_succ h0
    | address ip hn ha hu hf hi hcache =>
      rw [need_none hn] at h0
      rw [hcache, hi]; exact h0
    | given hn ha e =>
      subst e
      rw [need_none hn] at h0; exact h0
  have hip : ue = true → (l.filter (·.asksIp)).length ≤ (freeIps s1.rm).length := by
    intro hu
    have h0 := hr.ip hu
    have h1 : (l.filter (·.asksIp)).length ≤ ((ie :: l).filter (·.asksIp)).length := ((List.sublist_cons_self ie l).filter _).length_le
    cases hg with
    | shared c ha hcc e => subst e; exact Nat.le_trans h1 h0
    | fresh c ha hcc hf hi hcache => rw [hi]; exact Nat.le_trans h1 h0
    | address ip hn ha hu hf hi hcache =>
      rw [List.filter_cons_of_pos ha, hf] at h0
      exact Nat.le_of_succ_le_succ h0
    | given hn ha e => subst e; exact Nat.le_trans h1 h0
  -- the table
  have happly : ∀ s2 : HS, s2.dp = s.dp → ∃ dp, applyPdr p s2 = ({ s2 with dp := dp }, .ok ()) ∧ PdrRoom dp l := by
    intro s2 h2
    have r := hr.pdr
    unfold applyPdr
    rw [h2]
    cases hup : ie.uplink with
    | true =>
      obtain ⟨h4, h6⟩ := ht.1 hup
      have r1 := r.ul; have r2 := r.dl4; have r3 := r.dl6
      rw [List.filter_cons_of_pos hup, List.length_cons] at r1
      rw [List.filter_cons_of_neg (by simp [hup])] at r2 r3
      obtain ⟨h', e1, e2, e3⟩ := HMap.put_room (h := s.dp.pdrUl) p.teid (pdrToStore (s.dp.pdrUl.lookup p.teid) p.info) (by omega)
      simp only [h4, h6, BpfObjects.putPdrUplink, e1, Option.map_some]
      have r1 : s.dp.pdrUl.m.size + ((l.filter (·.uplink)).length + 1) ≤ s.dp.pdrUl.cap := r1
      have : h'.m.size + (l.filter (·.uplink)).length ≤ h'.cap := by rw [e2]; omega
      exact ⟨_, rfl, this, r2, r3⟩
    | false =>
      have hne : ¬ (p.ipv4 = none ∧ p.ipv6 = none) := fun h => by rw [ht.2 h] at hup; cases hup
      have r1 := r.ul; have r2 := r.dl4; have r3 := r.dl6
      rw [List.filter_cons_of_neg (by simp [hup])] at r1
      rw [List.filter_cons_of_pos (by simp [hup]), List.length_cons] at r2 r3
      cases h4 : p.ipv4 with
      | some ip =>
        obtain ⟨h', e1, e2, e3⟩ := HMap.put_room (h := s.dp.pdrDl4) ip (pdrToStore (s.dp.pdrDl4.lookup ip) p.info) (by omega)
        simp only [BpfObjects.putPdrDownlink, e1, Option.map_some]
        have r2 : s.dp.pdrDl4.m.size + ((l.filter (!·.uplink)).length + 1) ≤ s.dp.pdrDl4.cap := r2
        have r3 : s.dp.pdrDl6.m.size + ((l.filter (!·.uplink)).length + 1) ≤ s.dp.pdrDl6.cap := r3
        have : h'.m.size + (l.filter (!·.uplink)).length ≤ h'.cap := by rw [e2]; omega
        exact ⟨_, rfl, r1, this, Nat.le_of_succ_le r3⟩
      | none =>
        cases h6 : p.ipv6 with
        | none => exact absurd ⟨h4, h6⟩ hne
        | some ip =>
          obtain ⟨h', e1, e2, e3⟩ := HMap.put_room (h := s.dp.pdrDl6) ip (pdrToStore (s.dp.pdrDl6.lookup ip) p.info) (by omega)
          simp only [BpfObjects.putDownlinkPdrIp6, e1, Option.map_some]
          have r2 : s.dp.pdrDl4.m.size + ((l.filter (!·.uplink)).length + 1) ≤ s.dp.pdrDl4.cap := r2
          have r3 : s.dp.pdrDl6.m.size + ((l.filter (!·.uplink)).length + 1) ≤ s.dp.pdrDl6.cap := r3
          have : h'.m.size + (l.filter (!·.uplink)).length ≤ h'.cap := by rw [e2]; omega
          exact ⟨_, rfl, r1, Nat.le_of_succ_le r2, this⟩
  obtain ⟨dp, ea, hroom⟩ := happly { s1 with sess := s1.sess.putPdr p.pdrId p } hdp
  refine ⟨{ s1 with sess := s1.sess.putPdr p.pdrId p, dp := dp, created := s1.created ++ [p] }, ?_, ⟨hteid, hip, hroom⟩⟩
  unfold createPdr
  rw [hid]
  simp only [Act.bind_def, Act.bind, hx, Act.modify, ea]

/-- what a successful PDR needed -/
theorem createPdr_took {ue : Bool} {ie : PdrIE} {l : List PdrIE} {s s' : HS} (h : createPdr ue ie s = (s', .ok ())) :
    ie.pdrId.isSome ∧ ie.clear ue ∧ (needTeids s'.cache l ≤ (freeTeids s'.rm).length → needTeids s.cache (ie :: l) ≤ (freeTeids s.rm).length) ∧
    ((l.filter (·.mustGetIp)).length ≤ (freeIps s'.rm).length → ((ie :: l).filter (·.mustGetIp)).length ≤ (freeIps s.rm).length) := by
  unfold createPdr at h
  cases hid : ie.pdrId with
  | none => rw [hid] at h; cases h
  | some id =>
    rw [hid] at h
    obtain ⟨p, s1, hx, k1⟩ := bind_ok h
    obtain ⟨_, s2, h2, k2⟩ := bind_ok k1
    obtain ⟨_, s3, h3, k3⟩ := bind_ok k2
    cases h2; cases k3
    obtain ⟨dp, e3⟩ := applyPdr_frame p { s1 with sess := s1.sess.putPdr p.pdrId p }
    rw [h3] at e3
    have ec : s3.cache = s1.cache := by rw [show s3 = _ from e3]
    have er : s3.rm = s1.rm := by rw [show s3 = _ from e3]
    obtain ⟨hc, hpool⟩ := (extract_iff ue ie { pdrId := id.zeroExtend 32 } s).1 ⟨_, _, hx⟩
    refine ⟨rfl, hc, fun h0 => ?_, fun h0 => ?_⟩
    · have h0 : needTeids s1.cache l ≤ (freeTeids s1.rm).length := by rw [← ec, ← er]; exact h0
      cases got hx with
      | shared c ha hcc e => subst e; rw [need_shared ha hcc]; exact h0
      | fresh c ha hcc hf hi hcache =>
        have hn : (∀ x, c = some x → s1.cache = s.cache.set x p.teid) ∧ (c = none → s1.cache = s.cache) := by
          cases c with
          | none => exact ⟨fun _ h => (by cases h), fun _ => hcache⟩
          | some x => exact ⟨fun y hy => (by cases hy; exact hcache), fun h => (by cases h)⟩
        rw [need_fresh ha hcc hn, hf]; exact Nat.succ_le_succ h0
      | address ip hn ha hu hf hi hcache => rw [need_none hn, ← hi, ← hcache]; exact h0
      | given hn ha e => subst e; rw [need_none hn]; exact h0
    · have h0 : (l.filter (·.mustGetIp)).length ≤ (freeIps s1.rm).length := by rw [← er]; exact h0
      cases hm : ie.mustGetIp with
      | false =>
        rw [List.filter_cons_of_neg (by simp [hm])]
        refine Nat.le_trans h0 ?_
        cases got hx with
        | shared c ha hcc e => subst e; exact Nat.le_refl _
        | fresh c ha hcc hf hi hcache => rw [hi]
        | address ip hn ha hu hf hi hcache => rw [hf]; exact Nat.le_succ _
        | given hn ha e => subst e; exact Nat.le_refl _
      | true =>
        rw [List.filter_cons_of_pos hm, List.length_cons]
        have hask := must_asks hm
        have hno : ie.asksTeid = none := by
          unfold PdrIE.asksIp at hask
          unfold PdrIE.asksTeid
          rcases hp : ie.pdi with _ | ⟨_ | ft, _ | _ | u, x⟩ <;> rw [hp] at hask <;> first | rfl | cases hask
        cases got hx with
        | shared c ha => rw [hno] at ha; cases ha
        | fresh c ha => rw [hno] at ha; cases ha
        | address ip hn ha hu hf hi hcache => rw [hf]; exact Nat.succ_le_succ h0
        | given hn ha e =>
          exfalso
          refine hpool.ip hm (ha hask ?_)
          obtain ⟨d, hd, h1, h2⟩ := hc.pdi
          unfold PdrIE.mustGetIp at hm
          obtain ⟨ft, u, x⟩ := d
          rw [hd] at hm
          rcases ft with _ | ft
          · rcases u with _ | _ | u
            · cases hm
            · cases hm
            · obtain ⟨v, hv, h3⟩ := h2 rfl _ rfl
              cases hv
              simp only [Bool.and_eq_true, Option.isNone_iff_eq_none] at hm
              rcases h3 with h3 | h3 | h3
              · rw [hm.1.2] at h3; cases h3
              · rw [hm.2] at h3; cases h3
              · exact h3.1
          · cases hm

theorem pdrs_can {ue : Bool} : ∀ (l : List PdrIE) {s : HS}, (∀ ie ∈ l, ie.pdrId.isSome ∧ ie.clear ue) → RoomFor ue s l → (Act.each (createPdr ue) l s).2 = .ok ()
  | [], _, _, _ => rfl
  | ie :: l, s, h, hr => by
    obtain ⟨h1, h2⟩ := h ie List.mem_cons_self
    obtain ⟨s', e, hr'⟩ := createPdr_can h1 h2 hr
    exact each_cons_iff.2 ⟨s', e, pdrs_can l (fun c hc => h c (List.mem_cons_of_mem _ hc)) hr'⟩

theorem pdrs_took {ue : Bool} : ∀ (l : List PdrIE) {s : HS}, (Act.each (createPdr ue) l s).2 = .ok () →
    (∀ ie ∈ l, ie.pdrId.isSome ∧ ie.clear ue) ∧ needTeids s.cache l ≤ (freeTeids s.rm).length ∧ (l.filter (·.mustGetIp)).length ≤ (freeIps s.rm).length
  | [], _, _ => ⟨fun _ h => (by cases h), Nat.zero_le _, Nat.zero_le _⟩
  | ie :: l, s, h => by
    obtain ⟨s', e, h'⟩ := each_cons_iff.1 h
    obtain ⟨h1, h2, h3⟩ := pdrs_took l h'
    obtain ⟨t1, t2, t3, t4⟩ := createPdr_took (l := l) e
    refine ⟨fun c hc => ?_, t3 h2, t4 h3⟩
    rcases List.mem_cons.1 hc with rfl | hc
    · exact ⟨t1, t2⟩
    · exact h1 c hc

/-- what the rules do not touch -/
structure Before (s s' : HS) : Prop where
  rf : RuleFrame s s'
  sizes : SameSizes s.dp s'.dp

theorem Before.trans {s s' s'' : HS} (h : Before s s') (h' : Before s' s'') : Before s s'' :=
  ⟨⟨h'.rf.ul.trans h.rf.ul, h'.rf.dl4.trans h.rf.dl4, h'.rf.dl6.trans h.rf.dl6, h'.rf.cache.trans h.rf.cache, h'.rf.rm.trans h.rf.rm, h'.rf.pdrs.trans h.rf.pdrs,
    h'.rf.remote.trans h.rf.remote, h'.rf.loc.trans h.rf.loc, h'.rf.created.trans h.rf.created⟩, h.sizes.trans h'.sizes⟩

theorem before_pres {m : Act HS Unit} (h1 : ∀ s, RuleFrame s (m s).1) (h2 : ∀ s, SameSizes s.dp (m s).1.dp) (s0 : HS) : Pres (Before s0) m :=
  pres_of fun s h => h.trans ⟨h1 s, h2 s⟩

/-- The rules of the request, then the PDRs: when the body succeeds. -/
theorem body_iff (ue : Bool) (r : EstReq) (s : HS) (hf : s.dp.farIds.maxSize = s.dp.far.size) (hq : s.dp.qerIds.maxSize = s.dp.qer.size)
    (hu : s.dp.urrIds.maxSize = s.dp.urr.size) :
    ∃ s', RuleFrame s s' ∧ ((establishBody ue r s).2 = .ok () ↔
      (∀ ie ∈ r.createPdr, ∀ d, ie.pdi = some d → d.source = true) ∧
      ((∀ c ∈ r.createFar, c.usable) ∧ r.createFar.length ≤ slotsFree s.dp.farIds) ∧
      ((∀ c ∈ r.createQer, c.qerId.isSome = true) ∧ r.createQer.length ≤ slotsFree s.dp.qerIds) ∧
      ((∀ c ∈ r.createUrr, c.isSome = true) ∧ r.createUrr.length ≤ slotsFree s.dp.urrIds) ∧
      (Act.each (createPdr ue) r.createPdr s').2 = .ok ()) := by
  have hb1 : ∀ s0 c, Pres (Before s0) (createFar c) := fun s0 c => before_pres (createFar_rf c) (createFar_sizes c) s0
  have hb2 : ∀ s0 c, Pres (Before s0) (createQer c) := fun s0 c => before_pres (createQer_rf c) (createQer_sizes c) s0
  have hb3 : ∀ s0 c, Pres (Before s0) (createUrr c) := fun s0 c => before_pres (createUrr_rf c) (createUrr_sizes c) s0
  have e1 := each_fares (g := createFar) (ids := (·.farIds)) (I := Before s) (fun c s' h => createFar_fares c s' (by rw [h.sizes.farIds, h.sizes.far]; exact hf)) (hb1 s) r.createFar s
    ⟨RuleFrame.refl s, .refl _⟩
  have b1 : Before s (Act.each createFar r.createFar s).1 := (Pres.each (l := r.createFar) fun c _ => hb1 s c).apply ⟨RuleFrame.refl s, .refl _⟩
  have a1 : ∀ K, K = RuleKind.qer ∨ K = .urr → Aside K s (Act.each createFar r.createFar s).1 := by
    intro K hK
    refine (Pres.each (l := r.createFar) fun c _ => pres_aside (K := K) (fun s => ?_) s).apply (.refl _ s)
    rcases hK with rfl | rfl
    · exact (createFar_only c s).aside.1
    · exact (createFar_only c s).aside.2
  generalize hs1 : (Act.each createFar r.createFar s).1 = s1 at b1 a1
  have hq1 : s1.dp.qerIds.maxSize = s1.dp.qer.size := by rw [b1.sizes.qerIds, b1.sizes.qer]; exact hq
  have e2 := each_fares (g := createQer) (ids := (·.qerIds)) (I := Before s1) (fun c s' h => createQer_fares c s' (by rw [h.sizes.qerIds, h.sizes.qer]; exact hq1)) (hb2 s1) r.createQer s1
    ⟨RuleFrame.refl s1, .refl _⟩
  have b2 : Before s1 (Act.each createQer r.createQer s1).1 := (Pres.each (l := r.createQer) fun c _ => hb2 s1 c).apply ⟨RuleFrame.refl s1, .refl _⟩
  have a2 : Aside .urr s1 (Act.each createQer r.createQer s1).1 :=
    (Pres.each (l := r.createQer) fun c _ => pres_aside (K := .urr) (fun s => (createQer_only c s).aside.2) s1).apply (.refl _ s1)
  generalize hs2 : (Act.each createQer r.createQer s1).1 = s2 at b2 a2
  have hu2 : s2.dp.urrIds.maxSize = s2.dp.urr.size := by rw [b2.sizes.urrIds, b2.sizes.urr, b1.sizes.urrIds, b1.sizes.urr]; exact hu
  have e3 := each_fares (g := createUrr) (ids := (·.urrIds)) (I := Before s2) (fun c s' h => createUrr_fares c s' (by rw [h.sizes.urrIds, h.sizes.urr]; exact hu2)) (hb3 s2) r.createUrr s2
    ⟨RuleFrame.refl s2, .refl _⟩
  have b3 : Before s2 (Act.each createUrr r.createUrr s2).1 := (Pres.each (l := r.createUrr) fun c _ => hb3 s2 c).apply ⟨RuleFrame.refl s2, .refl _⟩
  generalize hs3 : (Act.each createUrr r.createUrr s2).1 = s3 at b3
  have i1 : s1.dp.qerIds = s.dp.qerIds := (a1 .qer (.inl rfl)).ids
  have i2 : s2.dp.urrIds = s.dp.urrIds := a2.ids.trans (a1 .urr (.inr rfl)).ids
  rw [i1] at e2
  rw [i2] at e3
  have hrf : RuleFrame s s3 := ((b1.trans b2).trans b3).rf
  refine ⟨s3, hrf, ?_⟩
  rw [← display_iff r.createPdr s, ← e1, ← e2, ← e3]
  unfold establishBody
  constructor
  · intro h
    obtain ⟨x, _, d1, k1⟩ := bind_ok_iff.1 h
    have hx : x = s := display_ok d1
    rw [hx] at k1 d1
    obtain ⟨x1, _, d2, k2⟩ := bind_ok_iff.1 k1
    have hx1 : x1 = s1 := by rw [← hs1, d2]
    subst hx1
    obtain ⟨x2, _, d3, k3⟩ := bind_ok_iff.1 k2
    have hx2 : x2 = s2 := by rw [← hs2, d3]
    subst hx2
    obtain ⟨x3, _, d4, k4⟩ := bind_ok_iff.1 k3
    have hx3 : x3 = s3 := by rw [← hs3, d4]
    subst hx3
    exact ⟨by rw [d1], by rw [d2], by rw [d3], by rw [d4], k4⟩
  · rintro ⟨d1, d2, d3, d4, k4⟩
    have d1 := ok_of_snd d1
    have := display_ok d1
    have d2 := ok_of_snd d2
    have d3 := ok_of_snd d3
    have d4 := ok_of_snd d4
    rw [hs1] at d2
    rw [hs2] at d3
    rw [hs3] at d4
    exact bind_ok_iff.2 ⟨s, (), by rw [d1, this], bind_ok_iff.2 ⟨s1, (), d2, bind_ok_iff.2 ⟨s2, (), d3, bind_ok_iff.2 ⟨s3, (), d4, k4⟩⟩⟩⟩

end Eupf
