import Verif.Props.PdrInstall
import Verif.PdrTables
import Verif.Spec.Chosen
import Verif.Props.Pools
/-
C16: CHOOSE ID. C17: Created PDR IEs.
-/
namespace Eupf
open Act

/-! ### what one PDR gets -/

theorem allocTeid_takes {seid : U64} {pdr : U32} {rm rm' : Option ResourceManager} {t : U32} (h : allocTeid seid pdr rm = (rm', some t)) :
    freeTeids rm = t :: freeTeids rm' ∧ freeIps rm' = freeIps rm := by
  unfold allocTeid at h
  cases rm with
  | none => cases h
  | some r =>
    simp only [FTEIDM.allocate] at h
    split at h
    · cases h
    · rename_i x rest hf
      cases h
      exact ⟨hf, rfl⟩
theorem allocIp_cases (seid : U64) (rm : Option ResourceManager) :
    (∃ rm' ip, allocIp seid rm = (rm', some ip) ∧ freeIps rm = ip :: freeIps rm' ∧ freeTeids rm' = freeTeids rm) ∨
    (allocIp seid rm = (rm, none) ∧ freeIps rm = []) := by
  unfold allocIp
  cases rm with
  | none => exact .inr ⟨rfl, rfl⟩
  | some r =>
    simp only [IPAM.allocate]
    split
    · rename_i hf; exact .inr ⟨rfl, hf⟩
    · rename_i x rest hf; exact .inl ⟨_, x, rfl, hf, rfl⟩

/-- What `extractPdr` chooses for a new PDR. -/
inductive Got (ue : Bool) (ie : PdrIE) (s s1 : HS) (p : SPdr) : Prop
  /-- the TEID of an earlier PDR with the same CHOOSE ID -/
  | shared (c : U8) (ha : ie.asksTeid = some (some c)) (hc : s.cache.get? c = some p.teid) (e : s1 = s) (al : p.allocated = true)
      (h4 : p.ipv4 = none) (h6 : p.ipv6 = none)
  /-- a new TEID -/
  | fresh (c : Option U8) (ha : ie.asksTeid = some c) (hc : c.bind s.cache.get? = none) (hf : freeTeids s.rm = p.teid :: freeTeids s1.rm)
      (hi : freeIps s1.rm = freeIps s.rm) (hcache : s1.cache = match c with | some c => s.cache.set c p.teid | none => s.cache)
      (al : p.allocated = true) (h4 : p.ipv4 = none) (h6 : p.ipv6 = none)
  /-- a new address -/
  | address (ip : Ip4) (hn : ie.asksTeid = none) (ha : ie.asksIp = true) (hu : ue = true) (hf : freeIps s.rm = ip :: freeIps s1.rm)
      (hi : freeTeids s1.rm = freeTeids s.rm) (hcache : s1.cache = s.cache) (al : p.allocated = true) (h4 : p.ipv4 = some ip)
  /-- nothing is chosen -/
  | given (hn : ie.asksTeid = none) (ha : ie.asksIp = true → ue = true → freeIps s.rm = []) (e : s1 = s) (al : p.allocated = false)

theorem got {ue : Bool} {ie : PdrIE} {id : U32} {s s1 : HS} {p : SPdr} (h : extractPdr ue ie { pdrId := id } s = (s1, .ok p)) : Got ue ie s s1 p := by
  unfold extractPdr at h
  simp only [] at h
  split at h
  · cases h
  · rename_i pdi hpdi
    split at h
    · cases h
    · rename_i info _
      split at h
      · cases h
      · rename_i f hf
        have asks : ie.asksTeid = if f.ch then some f.chooseId else none := by
          unfold PdrIE.asksTeid; rw [hpdi]; obtain ⟨a, b⟩ := pdi; simp only at hf; rw [hf]
        have noip : ie.asksIp = false := by
          unfold PdrIE.asksIp; rw [hpdi]; obtain ⟨a, b⟩ := pdi; simp only at hf; rw [hf]
        unfold pdrFteid at h
        split at h
        · rename_i hch
          rw [if_pos hch] at asks
          split at h
          · rename_i t ht
            cases h
            obtain ⟨c, hc1, hc2⟩ := Option.bind_eq_some_iff.1 ht
            exact .shared c (by rw [asks, hc1]) hc2 rfl rfl rfl rfl
          · rename_i hmiss
            rcases hal : allocTeid s.sess.remoteSEID id s.rm with ⟨rm, _ | t⟩
            · rw [hal] at h; cases h
            · rw [hal] at h
              obtain ⟨f1, f2⟩ := allocTeid_takes hal
              simp only [] at h
              cases hc : f.chooseId with
              | none => rw [hc] at h asks hmiss; cases h; exact .fresh none asks hmiss f1 f2 rfl rfl rfl rfl
              | some c => rw [hc] at h asks hmiss; cases h; exact .fresh (some c) asks hmiss f1 f2 rfl rfl rfl rfl
        · rename_i hch
          rw [if_neg hch] at asks
          cases h
          exact .given asks (by rw [noip]; intro x; cases x) rfl rfl
      · rename_i hf
        have asks : ie.asksTeid = none := by
          unfold PdrIE.asksTeid; rw [hpdi]; obtain ⟨a, b⟩ := pdi; simp only at hf; rw [hf]
        split at h
        · cases h
        · rename_i u hu
          have askip : ie.asksIp = u.chv4 := by
            unfold PdrIE.asksIp; rw [hpdi]; obtain ⟨a, b⟩ := pdi; simp only at hf hu; rw [hf, hu]
          unfold pdrUeIp at h
          by_cases hb : (ue && u.chv4) = true
          · simp only [if_pos hb] at h
            have hue : ue = true := by simp at hb; exact hb.1
            have hch : u.chv4 = true := by simp at hb; exact hb.2
            rcases allocIp_cases s.sess.remoteSEID s.rm with ⟨rm', ip, e, h1, h2⟩ | ⟨e, h1⟩
            · simp only [e] at h
              cases h
              exact .address ip asks (by rw [askip, hch]) hue h1 h2 rfl rfl rfl
            · simp only [e] at h
              split at h
              · cases h; exact .given asks (fun _ _ => h1) rfl rfl
              · cases h; exact .given asks (fun _ _ => h1) rfl rfl
              · cases h
          · simp only [if_neg hb] at h
            have no : ie.asksIp = true → ue = true → freeIps s.rm = [] := by
              rw [askip]; intro h1 h2; exact absurd (by rw [h1, h2]; rfl) hb
            split at h
            · cases h; exact .given asks no rfl rfl
            · cases h; exact .given asks no rfl rfl
            · cases h
        · rename_i hu
          cases h
          exact .given asks (by unfold PdrIE.asksIp; rw [hpdi]; obtain ⟨a, b⟩ := pdi; simp only at hf hu; rw [hf, hu]; intro x; cases x) rfl rfl

/-! ### what all PDRs of a request get -/

/-- two PDRs of a request that asked for TEIDs: same TEID exactly for the same CHOOSE ID -/
abbrev ChooseOk (a b : (Option U16 × Option U8) × U32) : Prop := a.2 = b.2 ↔ a.1.2 = b.1.2 ∧ a.1.2 ≠ none

/-- State of the loop over the Create PDRs: `seen` are the PDRs that asked for TEIDs so far with their TEIDs. -/
structure Seen (F0 : List U32) (s : HS) (seen : List ((Option U16 × Option U8) × U32)) : Prop where
  cache : ∀ c t, s.cache.get? c = some t ↔ ∃ i, ((i, some c), t) ∈ seen
  free : (freeTeids s.rm).Nodup
  apart : ∀ x ∈ seen, x.2 ∉ freeTeids s.rm
  ok : seen.Pairwise ChooseOk
  fromFree : ∀ x ∈ seen, x.2 ∈ F0
  sub : ∀ t ∈ freeTeids s.rm, t ∈ F0

theorem createdIEs_append (n3 : Ip4) (a b : List SPdr) : createdIEs n3 (a ++ b) = createdIEs n3 a ++ createdIEs n3 b := List.filterMap_append
theorem reportedTeids_append (a b : List CreatedPdr) : reportedTeids (a ++ b) = reportedTeids a ++ reportedTeids b := List.filterMap_append

/-- an asker with the TEID it got, as reported -/
def asReported (x : (Option U16 × Option U8) × U32) : U16 × U32 := (x.1.1.getD 0, x.2)

theorem seen_step {F0 : List U32} {ue : Bool} {ie : PdrIE} {s s' : HS} {seen : List ((Option U16 × Option U8) × U32)} (n3 : Ip4) (h : Seen F0 s seen)
    (hc : createPdr ue ie s = (s', .ok ())) :
    ∃ new : List ((Option U16 × Option U8) × U32), Seen F0 s' (seen ++ new) ∧ teidAskers [ie] = new.map Prod.fst ∧
      reportedTeids (createdIEs n3 s'.created) = reportedTeids (createdIEs n3 s.created) ++ new.map asReported := by
  obtain ⟨id, p, s1, hid, hx, hsess, hcr, hrm, hca, hent⟩ := createPdr_ok hc
  obtain ⟨hpid, -⟩ := extractPdr_ok hx
  simp only at hpid
  have askers : teidAskers [ie] = match ie.asksTeid with | some c => [(some id, c)] | none => [] := by
    unfold teidAskers
    cases ha : ie.asksTeid <;> simp [ha, hid]
  have trunc : p.pdrId.truncate 16 = id := by
    rw [hpid]; apply BitVec.eq_of_toNat_eq; simp only [BitVec.truncate_eq_setWidth, BitVec.toNat_setWidth]
    have := id.isLt; omega
  rw [hcr, createdIEs_append, reportedTeids_append]
  have teidRep : p.allocated = true → p.ipv4 = none → p.ipv6 = none → reportedTeids (createdIEs n3 [p]) = [(id, p.teid)] := by
    intro al h4 h6
    simp [createdIEs, al, h4, h6, reportedTeids, trunc]
  cases got hx with
  | shared c ha hc e al h4 h6 =>
    subst e
    refine ⟨[((some id, some c), p.teid)], ⟨?_, by rw [hrm]; exact h.free, ?_, ?_, ?_, by rw [hrm]; exact h.sub⟩, by rw [askers, ha]; rfl, by rw [teidRep al h4 h6]; rfl⟩
    · intro c' t
      rw [hca, h.cache]
      constructor
      · rintro ⟨i, hi⟩; exact ⟨i, List.mem_append_left _ hi⟩
      · rintro ⟨i, hi⟩
        rcases List.mem_append.1 hi with hi | hi
        · exact ⟨i, hi⟩
        · simp only [List.mem_singleton, Prod.mk.injEq, Option.some.injEq] at hi
          obtain ⟨⟨_, rfl⟩, rfl⟩ := hi
          exact (h.cache _ _).1 hc
    · rw [hrm]
      intro x hx
      rcases List.mem_append.1 hx with hx | hx
      · exact h.apart x hx
      · obtain ⟨i, hi⟩ := (h.cache _ _).1 hc
        rw [List.mem_singleton.1 hx]
        exact h.apart ((i, some c), p.teid) hi
    · refine List.pairwise_append.2 ⟨h.ok, List.pairwise_singleton _ _, ?_⟩
      intro a ha' b hb
      rw [List.mem_singleton.1 hb]
      -- the earlier asker with the same CHOOSE ID that put the TEID in the cache
      obtain ⟨i, hi⟩ := (h.cache _ _).1 hc
      obtain ⟨⟨ai, ac⟩, t⟩ := a
      show t = p.teid ↔ ac = some c ∧ ac ≠ none
      constructor
      · intro e
        subst e
        -- both in `seen`, same TEID
        by_cases heq : (((ai, ac), p.teid) : (Option U16 × Option U8) × U32) = ((i, some c), p.teid)
        · cases heq; exact ⟨rfl, by simp⟩
        · have sym : ∀ x y : (Option U16 × Option U8) × U32, ChooseOk x y → ChooseOk y x := by
            intro x y hxy
            constructor
            · intro e; obtain ⟨e1, e2⟩ := hxy.1 e.symm; exact ⟨e1.symm, by rw [← e1]; exact e2⟩
            · intro ⟨e1, e2⟩; exact (hxy.2 ⟨e1.symm, by rw [← e1]; exact e2⟩).symm
          have := pairwise_mem sym h.ok ha' hi heq
          exact this.1 rfl
      · rintro ⟨rfl, -⟩
        have h1 := (h.cache c t).2 ⟨ai, ha'⟩
        rw [hc] at h1
        cases h1; rfl
    · intro x hx
      rcases List.mem_append.1 hx with hx | hx
      · exact h.fromFree x hx
      · obtain ⟨i, hi⟩ := (h.cache _ _).1 hc
        rw [List.mem_singleton.1 hx]
        exact h.fromFree ((i, some c), p.teid) hi
  | fresh c ha hmiss hf hi hcache al h4 h6 =>
    have hnd := h.free
    rw [hf, List.nodup_cons] at hnd
    have hsub : ∀ t, t ∈ freeTeids s1.rm → t ∈ freeTeids s.rm := by intro t ht; rw [hf]; exact List.mem_cons_of_mem _ ht
    have hnew : ∀ x ∈ seen, x.2 ≠ p.teid := by
      intro x hx e; exact h.apart x hx (by rw [hf, e]; exact List.mem_cons_self)
    refine ⟨[((some id, c), p.teid)], ⟨?_, by rw [hrm]; exact hnd.2, ?_, ?_, ?_, by rw [hrm]; exact fun t ht => h.sub t (hsub t ht)⟩, by rw [askers, ha]; rfl, by rw [teidRep al h4 h6]; rfl⟩
    · intro c' t
      rw [hca, hcache]
      have old : (∃ i, ((i, some c'), t) ∈ seen ++ [((some id, c), p.teid)]) ↔ (∃ i, ((i, some c'), t) ∈ seen) ∨ (c = some c' ∧ t = p.teid) := by
        constructor
        · rintro ⟨i, hi⟩
          rcases List.mem_append.1 hi with hi | hi
          · exact .inl ⟨i, hi⟩
          · simp only [List.mem_singleton, Prod.mk.injEq] at hi
            exact .inr ⟨hi.1.2.symm, hi.2⟩
        · rintro (⟨i, hi⟩ | ⟨rfl, rfl⟩)
          · exact ⟨i, List.mem_append_left _ hi⟩
          · exact ⟨some id, List.mem_append_right _ (by simp)⟩
      rw [old, ← h.cache]
      cases c with
      | none => simp
      | some c =>
        simp only [GoMap.get?_set, Option.some.injEq]
        have hmiss : s.cache.get? c = none := hmiss
        by_cases hcc : c' = c
        · subst hcc; rw [hmiss]; simp [eq_comm]
        · rw [if_neg hcc]
          constructor
          · exact .inl
          · rintro (h | ⟨h, _⟩)
            · exact h
            · exact absurd h.symm hcc
    · rw [hrm]
      intro x hx
      rcases List.mem_append.1 hx with hx | hx
      · exact fun hm => h.apart x hx (hsub _ hm)
      · rw [List.mem_singleton.1 hx]; exact hnd.1
    · refine List.pairwise_append.2 ⟨h.ok, List.pairwise_singleton _ _, ?_⟩
      intro a ha' b hb
      rw [List.mem_singleton.1 hb]
      obtain ⟨⟨ai, ac⟩, t⟩ := a
      show t = p.teid ↔ ac = c ∧ ac ≠ none
      constructor
      · intro e; exact absurd e (hnew _ ha')
      · rintro ⟨rfl, hne⟩
        cases ac with
        | none => exact absurd rfl hne
        | some c =>
          have h1 := (h.cache c t).2 ⟨ai, ha'⟩
          have hmiss : s.cache.get? c = none := hmiss
          rw [hmiss] at h1; cases h1
    · intro x hx
      rcases List.mem_append.1 hx with hx | hx
      · exact h.fromFree x hx
      · rw [List.mem_singleton.1 hx]; exact h.sub _ (by rw [hf]; exact List.mem_cons_self)
  | address ip hn ha hu hf hi hcache al h4 =>
    refine ⟨[], ?_, by rw [askers, hn]; rfl, by simp [createdIEs, al, h4, reportedTeids]⟩
    rw [List.append_nil]
    exact ⟨by rw [hca, hcache]; exact h.cache, by rw [hrm, hi]; exact h.free, by rw [hrm, hi]; exact h.apart, h.ok, h.fromFree, by rw [hrm, hi]; exact h.sub⟩
  | given hn ha e al =>
    subst e
    refine ⟨[], ?_, by rw [askers, hn]; rfl, by simp [createdIEs, al, reportedTeids]⟩
    rw [List.append_nil]
    exact ⟨by rw [hca]; exact h.cache, by rw [hrm]; exact h.free, by rw [hrm]; exact h.apart, h.ok, h.fromFree, by rw [hrm]; exact h.sub⟩

theorem seen_all {F0 : List U32} {ue : Bool} (n3 : Ip4) : ∀ (l : List PdrIE) {s s' : HS} {seen : List ((Option U16 × Option U8) × U32)}, Seen F0 s seen →
    Act.each (createPdr ue) l s = (s', .ok ()) →
    ∃ new : List ((Option U16 × Option U8) × U32), Seen F0 s' (seen ++ new) ∧ teidAskers l = new.map Prod.fst ∧
      reportedTeids (createdIEs n3 s'.created) = reportedTeids (createdIEs n3 s.created) ++ new.map asReported
  | [], s, s', seen, h, he => by
    cases he
    exact ⟨[], by rw [List.append_nil]; exact h, rfl, by simp⟩
  | ie :: l, s, s', seen, h, he => by
    obtain ⟨s1, h1, h2⟩ := each_cons_ok he
    obtain ⟨new1, i1, i2, i3⟩ := seen_step n3 h h1
    obtain ⟨new2, j1, j2, j3⟩ := seen_all n3 l i1 h2
    refine ⟨new1 ++ new2, by rw [← List.append_assoc]; exact j1, ?_, by rw [j3, i3, List.map_append, List.append_assoc]⟩
    rw [List.map_append, ← i2, ← j2]
    exact List.filterMap_append (l := [ie]) (l' := l)

theorem seen_init {s : HS} (hc : s.cache = GoMap.empty) (hf : (freeTeids s.rm).Nodup) : Seen (freeTeids s.rm) s [] :=
  ⟨fun c t => by rw [hc]; simp, hf, by simp, List.Pairwise.nil, by simp, fun _ h => h⟩

/-- `created` is only written by Create PDR -/
theorem updatePdr_created {c : List SPdr} (ue ie) : Pres (fun s => s.created = c) (updatePdr ue ie) := by
  unfold updatePdr
  cases ie.pdrId with
  | none => exact Pres.fail
  | some id =>
    refine Pres.bind Pres.get fun s0 => Pres.bind (pres_of fun s h => ?_) fun _ => Pres.bind (Pres.modify fun _ h => h) fun _ => pres_of fun s h => ?_
    · obtain ⟨c, rm, e⟩ := extractPdr_frame ue ie (s0.sess.getPdr (id.zeroExtend 32)) s; rw [e]; exact h
    · rename_i p _; obtain ⟨dp, e⟩ := applyPdr_frame p s; rw [e]; exact h
theorem removePdr_created {c : List SPdr} (ord id) : Pres (fun s => s.created = c) (removePdr ord id) := by
  refine Pres.bind Pres.get fun s => ?_
  simp only []
  split
  · exact Pres.pure
  · refine Pres.bind (Pres.modify fun _ h => h) fun _ => pres_of fun s h => ?_
    rename_i p _ _
    obtain ⟨rm, e⟩ := deletePdr_dp ord p s
    obtain ⟨_, _, e2⟩ := deletePdrEntry_frame p s
    rw [e, e2]; exact h

/-- The statement of C16 about the Create PDRs of a request and the Created PDR IEs of its response. -/
structure ChooseIdOk (l : List PdrIE) (created : List CreatedPdr) (ts : List U32) : Prop where
  /-- one TEID for each PDR that asked for one, reported in the order of the request -/
  length : ts.length = (teidAskers l).length
  reported : reportedTeids created = ((teidAskers l).zip ts).map fun x => (x.1.1.getD 0, x.2)
  /-- two of them are equal exactly if both PDRs gave the same CHOOSE ID -/
  distinct : ((teidAskers l).zip ts).Pairwise fun a b => a.2 = b.2 ↔ a.1.2 = b.1.2 ∧ a.1.2 ≠ none

theorem zip_fst_snd {α β : Type} : ∀ l : List (α × β), (l.map Prod.fst).zip (l.map Prod.snd) = l
  | [] => rfl
  | (a, b) :: l => by simp [zip_fst_snd l]

theorem chooseIdOk {F0 : List U32} {s s' : HS} {n3 : Ip4} {l : List PdrIE} {new} (h : Seen F0 s' ([] ++ new)) (h1 : teidAskers l = new.map Prod.fst)
    (h2 : reportedTeids (createdIEs n3 s'.created) = reportedTeids (createdIEs n3 s.created) ++ new.map asReported) (hc : s.created = []) :
    ChooseIdOk l (createdIEs n3 s'.created) (new.map Prod.snd) := by
  refine ⟨by rw [h1]; simp, ?_, ?_⟩
  · rw [h1, zip_fst_snd, h2, hc]; rfl
  · rw [h1, zip_fst_snd]; exact h.ok

/-- **C16, establishment.** For every state whose pool has no TEID twice (`C16_pool` below: every reachable state) and every accepted establishment;
the TEIDs were free before and are not free after. -/
theorem C16_establishment {n : Node} {addr : Addr} {r : EstReq} {n' : Node} {resp : Resp} (hpool : (freeTeids n.rm).Nodup)
    (hstep : n.step (.establish addr r) = (n', .reply resp)) (hacc : resp.cause = 1) :
    ∃ ts, ChooseIdOk r.createPdr resp.created ts ∧ ∀ t ∈ ts, t ∈ freeTeids n.rm ∧ t ∉ freeTeids n'.rm := by
  obtain ⟨seid, remote, hs', h1, h2, hb, h3, h4, h5, h6⟩ := establish_accepted hstep hacc
  unfold establishBody at hb
  obtain ⟨_, s0, e0, hb⟩ := bind_ok hb
  obtain rfl := display_ok e0
  obtain ⟨_, s1, e1, hb⟩ := bind_ok hb
  obtain ⟨_, s2, e2, hb⟩ := bind_ok hb
  obtain ⟨_, s3, e3, e4⟩ := bind_ok hb
  have fr : s3.cache = GoMap.empty ∧ s3.rm = n.rm ∧ s3.created = [] := by
    have hI : ∀ {s s' : HS}, RuleFrame s s' → (s.cache = GoMap.empty ∧ s.rm = n.rm ∧ s.created = []) →
        s'.cache = GoMap.empty ∧ s'.rm = n.rm ∧ s'.created = [] := fun h h' => ⟨h.cache.trans h'.1, h.rm.trans h'.2.1, h.created.trans h'.2.2⟩
    have f1 := pres_each_ok (fun _ _ => pres_of fun s h => hI (createFar_rf _ s) h) e1 ⟨rfl, rfl, rfl⟩
    have f2 := pres_each_ok (fun _ _ => pres_of fun s h => hI (createQer_rf _ s) h) e2 f1
    exact pres_each_ok (fun _ _ => pres_of fun s h => hI (createUrr_rf _ s) h) e3 f2
  obtain ⟨new, i1, i2, i3⟩ := seen_all n.cfg.n3 r.createPdr (seen_init fr.1 (by rw [fr.2.1]; exact hpool)) e4
  refine ⟨new.map Prod.snd, ?_, ?_⟩
  · rw [h6]; exact chooseIdOk i1 i2 i3 fr.2.2
  · intro t ht
    obtain ⟨x, hx, rfl⟩ := List.mem_map.1 ht
    refine ⟨by have := i1.fromFree x (by simpa using hx); rwa [fr.2.1] at this, by rw [h5]; exact i1.apart x (by simpa using hx)⟩

/-- **C16, modification.** The same for the Create PDRs of an accepted modification. -/
theorem C16_modification {n : Node} {addr : Addr} {r : ModReq} {ord : Orders} {sess0 : Session} {n' : Node} {resp : Resp}
    (hs : n.session? addr r.seid = some sess0) (hpool : (freeTeids n.rm).Nodup)
    (hstep : n.step (.modify addr r ord) = (n', .reply resp)) (hacc : resp.cause = 1) :
    ∃ ts, ChooseIdOk r.createPdr resp.created ts ∧ ∀ t ∈ ts, t ∈ freeTeids n.rm := by
  obtain ⟨hs', hb, h3, h4, h5, -, h6⟩ := modify_accepted hs hstep hacc
  obtain ⟨s1, s2, s3, s4, s5, s6, s7, s8, s9, s10, s11, e1, e2, e3, e4, e5, e6, e7, e8, e9, e10, e11, e12⟩ := modify_phases hb
  have fr : s9.cache = GoMap.empty ∧ s9.rm = n.rm ∧ s9.created = [] := by
    have hI : ∀ {s s' : HS}, RuleFrame s s' → (s.cache = GoMap.empty ∧ s.rm = n.rm ∧ s.created = []) →
        s'.cache = GoMap.empty ∧ s'.rm = n.rm ∧ s'.created = [] := fun h h' => ⟨h.cache.trans h'.1, h.rm.trans h'.2.1, h.created.trans h'.2.2⟩
    have f1 := pres_each_ok (fun _ _ => pres_of fun s h => hI (createFar_rf _ s) h) e1 ⟨rfl, rfl, rfl⟩
    have f2 := pres_each_ok (fun _ _ => pres_of fun s h => hI (updateFar_rf _ s) h) e2 f1
    have f3 := pres_each_ok (fun _ _ => pres_of fun s h => hI (removeFar_rf _ s) h) e3 f2
    have f4 := pres_each_ok (fun _ _ => pres_of fun s h => hI (createQer_rf _ s) h) e4 f3
    have f5 := pres_each_ok (fun _ _ => pres_of fun s h => hI (updateQer_rf _ s) h) e5 f4
    have f6 := pres_each_ok (fun _ _ => pres_of fun s h => hI (removeQer_rf _ s) h) e6 f5
    have f7 := pres_each_ok (fun _ _ => pres_of fun s h => hI (createUrr_rf _ s) h) e7 f6
    have f8 := pres_each_ok (fun _ _ => pres_of fun s h => hI (updateUrr_rf _ s) h) e8 f7
    exact pres_each_ok (fun _ _ => pres_of fun s h => hI (removeUrr_rf _ s) h) e9 f8
  obtain ⟨new, i1, i2, i3⟩ := seen_all n.cfg.n3 r.createPdr (seen_init fr.1 (by rw [fr.2.1]; exact hpool)) e10
  have c1 : s11.created = s10.created := pres_each_ok (I := fun s => s.created = s10.created) (fun _ _ => updatePdr_created _ _) e11 rfl
  have c2 : hs'.created = s10.created := pres_each_ok (I := fun s => s.created = s10.created) (fun _ _ => removePdr_created _ _) e12 c1
  refine ⟨new.map Prod.snd, ?_, ?_⟩
  · rw [h6, c2]; exact chooseIdOk i1 i2 i3 fr.2.2
  · intro t ht
    obtain ⟨x, hx, rfl⟩ := List.mem_map.1 ht
    have := i1.fromFree x (by simpa using hx); rwa [fr.2.1] at this

/-! ### the pools in all histories -/

/-- A property of the pools kept by every call on them. -/
structure PoolKeeps (J : Option ResourceManager → Prop) : Prop where
  teid : ∀ s p rm, J rm → J (allocTeid s p rm).1
  ip : ∀ s rm, J rm → J (allocIp s rm).1
  release : ∀ o s r, J (some r) → J (some { r with fteidm := r.fteidm.release o s })
  releaseIp : ∀ s r, J (some r) → J (some { r with ipam := r.ipam.release s })

section
variable {J : Option ResourceManager → Prop}

theorem extractPdr_pool (hJ : PoolKeeps J) (ue ie p) : Pres (fun s => J s.rm) (extractPdr ue ie p) := by
  apply pres_of; intro s h
  unfold extractPdr
  simp only []
  split
  · exact h
  · split
    · exact h
    · split
      · exact h
      · unfold pdrFteid
        split
        · split
          · exact h
          · have := hJ.teid s.sess.remoteSEID p.pdrId s.rm h
            rcases hx : allocTeid s.sess.remoteSEID p.pdrId s.rm with ⟨rm, r⟩
            rw [hx] at this
            cases r with
            | none => exact this
            | some t => simp only []; split <;> exact this
        · exact h
      · split
        · exact h
        · unfold pdrUeIp
          have := hJ.ip s.sess.remoteSEID s.rm h
          rcases hx : allocIp s.sess.remoteSEID s.rm with ⟨rm, r⟩
          rw [hx] at this
          simp only []
          cases r <;> (simp only []; split <;> (simp only []; split <;> first | exact this | exact h))
        · exact h

theorem pool_keep (hJ : PoolKeeps J) : BodiesKeep (fun _ => True) (fun _ => True) (fun rm _ => J rm) := by
  have fr : ∀ {s s' : HS}, RuleFrame s s' → J s.rm → J s'.rm := fun h hs => by rw [h.rm]; exact hs
  have app : ∀ p, Pres (fun s : HS => J s.rm) (applyPdr p) := fun p => pres_of fun s h => by
    obtain ⟨dp, e⟩ := applyPdr_frame p s; rw [e]; exact h
  have cr : ∀ ue ie, Pres (fun s : HS => J s.rm) (createPdr ue ie) := by
    intro ue ie
    unfold createPdr
    cases ie.pdrId with
    | none => exact Pres.fail
    | some id => exact Pres.bind (extractPdr_pool hJ _ _ _) fun _ => Pres.bind (Pres.modify fun _ h => h) fun _ => Pres.bind (app _) fun _ => Pres.modify fun _ h => h
  have up : ∀ ue ie, Pres (fun s : HS => J s.rm) (updatePdr ue ie) := by
    intro ue ie
    unfold updatePdr
    cases ie.pdrId with
    | none => exact Pres.fail
    | some id => exact Pres.bind Pres.get fun _ => Pres.bind (extractPdr_pool hJ _ _ _) fun _ => Pres.bind (Pres.modify fun _ h => h) fun _ => app _
  have del : ∀ ord p, Pres (fun s : HS => J s.rm) (deletePdr ord p) := by
    intro ord p
    refine deletePdr_pres (pres_of fun s h => ?_) (pres_of fun s h => ?_)
    · obtain ⟨_, _, e⟩ := deletePdrEntry_frame p s; rw [e]; exact h
    · unfold releaseTeids
      split
      · exact h
      · rename_i r hr; exact hJ.release _ _ r (by rw [← hr]; exact h)
  have rem : ∀ ord id, Pres (fun s : HS => J s.rm) (removePdr ord id) := by
    intro ord id
    refine Pres.bind Pres.get fun s => ?_
    simp only []
    split
    · exact Pres.pure
    · exact Pres.bind (Pres.modify fun _ h => h) fun _ => del _ _
  have ks : ∀ {α : Type} {m : Act HS α}, Pres (fun s : HS => J s.rm) m → Keeps (fun _ => True) (fun rm _ => J rm) m :=
    fun h s _ hs => ⟨trivial, h.apply hs.2⟩
  exact
  { new := fun _ _ => trivial
    remote := fun _ _ _ => trivial
    est := fun _ _ _ _ => ks (establishBody_rf fr (fun _ _ => cr _ _))
    mod := fun _ _ _ _ _ => ks (modifyBody_rf fr (fun _ _ => cr _ _) (fun _ _ => up _ _) (fun _ _ => rem _ _))
    del := fun _ _ _ => ks (deleteBody_rf fr (fun _ _ => del _ _))
    dels := fun _ _ _ => ks (deleteSessionBody_rf fr (fun _ _ => del _ _))
    rel := fun o k rm _ h => by
      cases rm with
      | none => exact h
      | some r => exact hJ.releaseIp k ⟨r.ipam, r.fteidm.release o.teids k⟩ (hJ.release o.teids k r h)
    traffic := fun _ _ _ h _ => h }
end

theorem teidInv_keeps (range : U32) : PoolKeeps (fun rm => ∀ r, rm = some r → ∃ out, TeidInv range r.fteidm out) where
  teid s p rm h := by
    cases rm with
    | none => intro r hr; cases hr
    | some r =>
      intro r' hr
      obtain ⟨out, ho⟩ := h r rfl
      cases hr
      exact ⟨_, ho.step (.alloc s p)⟩
  ip s rm h := by
    cases rm with
    | none => intro r hr; cases hr
    | some r => intro r' hr; cases hr; exact h r rfl
  release o s r h := by
    intro r' hr
    obtain ⟨out, ho⟩ := h r rfl
    cases hr
    exact ⟨_, ho.step (.release s o)⟩
  releaseIp s r h := by intro r' hr; cases hr; exact h r rfl

theorem ipInv_keeps (pool : List Ip4) : PoolKeeps (fun rm => ∀ r, rm = some r → ∃ out, IpInv pool r.ipam out) where
  teid s p rm h := by
    cases rm with
    | none => intro r hr; cases hr
    | some r => intro r' hr; cases hr; exact h r rfl
  ip s rm h := by
    cases rm with
    | none => intro r hr; cases hr
    | some r =>
      intro r' hr
      obtain ⟨out, ho⟩ := h r rfl
      cases hr
      exact ⟨_, ho.step (.alloc s)⟩
  release o s r h := by intro r' hr; cases hr; exact h r rfl
  releaseIp s r h := by
    intro r' hr
    obtain ⟨out, ho⟩ := h r rfl
    cases hr
    exact ⟨_, ho.step (.release s)⟩

/-- In every history of a node started with a pool of `range` TEIDs, no TEID is free twice and no TEID is both free and handed out. -/
theorem C16_pool {cfg : NodeCfg} {ips : List Ip4} {range : U32} {dp : BpfObjects} {h : List (Ev × Outcome)} {n : Node}
    (H : Hist (Node.init cfg (some (newResourceManager ips range)) dp) h n) : (freeTeids n.rm).Nodup := by
  have inv := (ni_hist (pool_keep (teidInv_keeps range)) (fun r hr => by cases hr; exact ⟨[], TeidInv.init ips range⟩) H (fun _ _ => trivial)).2
  cases hrm : n.rm with
  | none => exact List.nodup_nil
  | some r => obtain ⟨out, ho⟩ := inv r hrm; exact ho.freeNodup
/-- The same for UE addresses. -/
theorem pool_ips {cfg : NodeCfg} {ips : List Ip4} (hips : ips.Nodup) {range : U32} {dp : BpfObjects} {h : List (Ev × Outcome)} {n : Node}
    (H : Hist (Node.init cfg (some (newResourceManager ips range)) dp) h n) : (freeIps n.rm).Nodup := by
  have inv := (ni_hist (pool_keep (ipInv_keeps ips)) (fun r hr => by
    cases hr
    exact ⟨[], hips, by simp, by simp, fun t ht => ht, by simp, by intro k ip hk; simp [newResourceManager] at hk⟩) H (fun _ _ => trivial)).2
  cases hrm : n.rm with
  | none => exact List.nodup_nil
  | some r => obtain ⟨out, ho⟩ := inv r hrm; exact ho.freeNodup

namespace Demo
/-- a PDR that asks for a TEID -/
def ch (id : U16) (c : Option U8) : PdrIE := { pdrId := some id, farId := some 1, pdi := some { fteid := some (some ⟨0, true, c⟩) } }
/-- four askers, two with CHOOSE ID 5, one with 6, one without -/
def estCh : EstReq := { seq := 1, nodeId := some (some ()), cpFseid := some (some 9), createFar := [fwd],
                        createPdr := [ch 1 (some 5), ch 2 (some 6), ch 3 none, ch 4 (some 5),
                          { pdrId := some 5, farId := some 1, pdi := some { ueip := some (some { chv4 := true }) } },
                          { pdrId := some 6, farId := some 1, pdi := some { fteid := some (some ⟨77, false, none⟩) } }] }
end Demo

/-- An accepted request with all kinds of askers; the reports. -/
example : (Demo.nAssoc.step (.establish 1 Demo.estCh)).2 = .reply { type := .establishment, seid := 9, seq := 1, cause := 1, fseid := some 2, created := [.fteid 1 1 0x0a000001, .fteid 2 2 0x0a000001, .fteid 3 3 0x0a000001, .fteid 4 1 0x0a000001, .ueIp 5 0x0a2d0001] } ∧
    teidAskers Demo.estCh.createPdr = [(some 1, some 5), (some 2, some 6), (some 3, none), (some 4, some 5)] := by
  decide +kernel

/-! ### C17 -/

/-- What became of one Create PDR `ie`: record `p`. `F0`, `I0` are the free TEIDs and addresses before, `I1` the free addresses after the request. -/
structure Answered (ue : Bool) (F0 : List U32) (I0 I1 : List Ip4) (ie : PdrIE) (p : SPdr) : Prop where
  id : ∃ i, ie.pdrId = some i ∧ p.pdrId = i.zeroExtend 32
  teid : ie.asksTeid.isSome = true → p.allocated = true ∧ p.ipv4 = none ∧ p.ipv6 = none
  ip : ie.asksIp = true → ue = true → (p.allocated = true ∧ p.ipv4 ≠ none) ∨ I1 = []
  only : p.allocated = true → (ie.asksTeid.isSome = true ∧ p.ipv4 = none ∧ p.ipv6 = none ∧ p.teid ∈ F0) ∨
    (ie.asksIp = true ∧ ue = true ∧ ∃ a, p.ipv4 = some a ∧ a ∈ I0)

theorem answered_all {ue : Bool} {F0 : List U32} {I0 : List Ip4} : ∀ (l : List PdrIE) {s s' : HS},
    (∀ c t, s.cache.get? c = some t → t ∈ F0) → (∀ t ∈ freeTeids s.rm, t ∈ F0) → (∀ a ∈ freeIps s.rm, a ∈ I0) →
    Act.each (createPdr ue) l s = (s', .ok ()) →
    ∃ ps, s'.created = s.created ++ ps ∧ List.Forall₂ (Answered ue F0 I0 (freeIps s'.rm)) l ps ∧
      (∀ k, (s.dp.entry? k).isSome = true → (s'.dp.entry? k).isSome = true) ∧ (∀ p ∈ ps, (s'.dp.entry? p.key).isSome = true) ∧
      (freeIps s.rm = [] → freeIps s'.rm = []) ∧
      ((l.map (·.pdrId)).Nodup → ∀ p ∈ ps, s'.sess.pdrs.get? p.pdrId = some p)
  | [], s, s', _, _, _, he => by
    cases he
    exact ⟨[], by simp, .nil, fun _ h => h, by simp, id, by simp⟩
  | ie :: l, s, s', hca, hfr, hip, he => by
    obtain ⟨s1, h1, h2⟩ := each_cons_ok he
    obtain ⟨i, p, u, hid, hx, hsess, hcr, hrm, hcac, hent⟩ := createPdr_ok h1
    obtain ⟨hpid, -⟩ := extractPdr_ok hx
    simp only at hpid
    have g := got hx
    have hca' : ∀ c t, s1.cache.get? c = some t → t ∈ F0 := by
      rw [hcac]
      cases g with
      | shared c ha hc e al h4 h6 => subst e; exact hca
      | fresh c ha hmiss hf hi hcache al h4 h6 =>
        rw [hcache]
        intro c' t ht
        cases c with
        | none => exact hca c' t ht
        | some c =>
          simp only [GoMap.get?_set] at ht
          split at ht
          · cases ht; exact hfr _ (by rw [hf]; exact List.mem_cons_self)
          · exact hca c' t ht
      | address ip hn ha hu hf hi hcache al h4 => rw [hcache]; exact hca
      | given hn ha e al => subst e; exact hca
    have hfr' : ∀ t ∈ freeTeids s1.rm, t ∈ F0 := by
      rw [hrm]
      cases g with
      | shared c ha hc e al h4 h6 => subst e; exact hfr
      | fresh c ha hmiss hf hi hcache al h4 h6 => intro t ht; exact hfr t (by rw [hf]; exact List.mem_cons_of_mem _ ht)
      | address ip hn ha hu hf hi hcache al h4 => rw [hi]; exact hfr
      | given hn ha e al => subst e; exact hfr
    have hsub : (∀ a ∈ freeIps s1.rm, a ∈ I0) ∧ (freeIps s.rm = [] → freeIps s1.rm = []) := by
      rw [hrm]
      cases g with
      | shared c ha hc e al h4 h6 => subst e; exact ⟨hip, fun h => h⟩
      | fresh c ha hmiss hf hi hcache al h4 h6 => rw [hi]; exact ⟨hip, fun h => h⟩
      | address ip hn ha hu hf hi hcache al h4 =>
        exact ⟨fun t ht => hip t (by rw [hf]; exact List.mem_cons_of_mem _ ht), fun h => by rw [h] at hf; cases hf⟩
      | given hn ha e al => subst e; exact ⟨hip, fun h => h⟩
    obtain ⟨ps, j1, j2, j3, j4, j5, j6⟩ := answered_all l hca' hfr' hsub.1 h2
    have hkey : (s1.dp.entry? p.key).isSome = true := by rw [hent, if_pos rfl]; rfl
    refine ⟨p :: ps, by rw [j1, hcr]; simp, .cons ?_ j2, ?_, ?_, fun h => j5 (hsub.2 h), ?_⟩
    · refine ⟨⟨i, hid, hpid⟩, ?_, ?_, ?_⟩
      · intro hask
        cases g with
        | shared c ha hc e al h4 h6 => exact ⟨al, h4, h6⟩
        | fresh c ha hmiss hf hi hcache al h4 h6 => exact ⟨al, h4, h6⟩
        | address ip hn ha hu hf hi hcache al h4 => rw [hn] at hask; cases hask
        | given hn ha e al => rw [hn] at hask; cases hask
      · intro hask hue
        have noT : ∀ c, ie.asksTeid = some c → False := by
          intro c hc
          unfold PdrIE.asksTeid at hc; unfold PdrIE.asksIp at hask
          split at hc
          · rename_i hp; rw [hp] at hask; cases hask
          · cases hc
        cases g with
        | shared c ha hc e al h4 h6 => exact (noT _ ha).elim
        | fresh c ha hmiss hf hi hcache al h4 h6 => exact (noT _ ha).elim
        | address ip hn ha hu hf hi hcache al h4 => exact .inl ⟨al, by rw [h4]; simp⟩
        | given hn ha e al => exact .inr (j5 (hsub.2 (ha hask hue)))
      · intro hal
        cases g with
        | shared c ha hc e al h4 h6 => exact .inl ⟨by rw [ha]; rfl, h4, h6, hca c _ hc⟩
        | fresh c ha hmiss hf hi hcache al h4 h6 => exact .inl ⟨by rw [ha]; rfl, h4, h6, hfr _ (by rw [hf]; exact List.mem_cons_self)⟩
        | address ip hn ha hu hf hi hcache al h4 => exact .inr ⟨ha, hu, ip, h4, hip _ (by rw [hf]; exact List.mem_cons_self)⟩
        | given hn ha e al => rw [al] at hal; cases hal
    · intro k hk
      refine j3 k ?_
      rw [hent]
      split
      · rfl
      · exact hk
    · intro q hq
      rcases List.mem_cons.1 hq with rfl | hq
      · exact j3 _ hkey
      · exact j4 q hq
    · intro hnd q hq
      simp only [List.map_cons, List.nodup_cons] at hnd
      rcases List.mem_cons.1 hq with rfl | hq
      · rw [hpid, (puts_later (createPdr_puts ue) l s1 s' h2 hnd.2).2.1 i, hsess]
        · exact (GoMap.get?_set ..).trans (if_pos rfl)
        · intro y hy he
          exact hnd.1 (List.mem_map.2 ⟨y, hy, he.trans hid.symm⟩)
      · exact j6 hnd.2 q hq

theorem forall2_left {α β : Type} {R : α → β → Prop} : ∀ {l : List α} {m : List β}, List.Forall₂ R l m → ∀ x ∈ l, ∃ y ∈ m, R x y
  | _, _, .cons h t, x, hx => by
    rcases List.mem_cons.1 hx with rfl | hx
    · exact ⟨_, List.mem_cons_self, h⟩
    · obtain ⟨y, hy, hr⟩ := forall2_left t x hx
      exact ⟨y, List.mem_cons_of_mem _ hy, hr⟩
theorem forall2_right {α β : Type} {R : α → β → Prop} : ∀ {l : List α} {m : List β}, List.Forall₂ R l m → ∀ y ∈ m, ∃ x ∈ l, R x y
  | _, _, .cons h t, y, hy => by
    rcases List.mem_cons.1 hy with rfl | hy
    · exact ⟨_, List.mem_cons_self, h⟩
    · obtain ⟨x, hx, hr⟩ := forall2_right t y hy
      exact ⟨x, List.mem_cons_of_mem _ hx, hr⟩

theorem trunc_zext (i : U16) : (i.zeroExtend 32).truncate 16 = i := by
  apply BitVec.eq_of_toNat_eq; simp only [BitVec.truncate_eq_setWidth, BitVec.toNat_setWidth]
  have := i.isLt; omega

/-- **C17.** The Created PDR IEs of an accepted establishment: sound (each stands for a PDR of the request that asked, with a value that was free in the
pool and is installed), complete (each PDR that asked for a TEID is reported; each that asked for an address is, unless the pool ran empty), and the
value is the one recorded for the PDR (which `C18_establish` shows to be in effect), if PDR ids are not given twice. -/
theorem C17_created {n : Node} {addr : Addr} {r : EstReq} {n' : Node} {resp : Resp}
    (hstep : n.step (.establish addr r) = (n', .reply resp)) (hacc : resp.cause = 1) :
    ∃ seid sess, resp.fseid = some seid ∧ n'.session? addr seid = some sess ∧
      (∀ i t a, .fteid i t a ∈ resp.created → a = n.cfg.n3 ∧ t ∈ freeTeids n.rm ∧ (n'.dp.entry? (.ul t)).isSome = true ∧
        (∃ ie ∈ r.createPdr, ie.pdrId = some i ∧ ie.asksTeid.isSome = true) ∧
        ((r.createPdr.map (·.pdrId)).Nodup → ∃ p, sess.pdrs.get? (i.zeroExtend 32) = some p ∧ p.key = .ul t)) ∧
      (∀ i ip, .ueIp i ip ∈ resp.created → ip ∈ freeIps n.rm ∧ (n'.dp.entry? (.dl4 ip)).isSome = true ∧
        (∃ ie ∈ r.createPdr, ie.pdrId = some i ∧ ie.asksIp = true ∧ n.ueip = true) ∧
        ((r.createPdr.map (·.pdrId)).Nodup → ∃ p, sess.pdrs.get? (i.zeroExtend 32) = some p ∧ p.key = .dl4 ip)) ∧
      (∀ ie ∈ r.createPdr, ie.asksTeid.isSome = true → ∃ i t, ie.pdrId = some i ∧ .fteid i t n.cfg.n3 ∈ resp.created) ∧
      (∀ ie ∈ r.createPdr, ie.asksIp = true → n.ueip = true →
        (∃ i ip, ie.pdrId = some i ∧ .ueIp i ip ∈ resp.created) ∨ freeIps n'.rm = []) := by
  obtain ⟨seid, remote, hs', h1, h2, hb, h3, h4, h5, h6⟩ := establish_accepted hstep hacc
  unfold establishBody at hb
  obtain ⟨_, s0, e0, hb⟩ := bind_ok hb
  obtain rfl := display_ok e0
  obtain ⟨_, s1, e1, hb⟩ := bind_ok hb
  obtain ⟨_, s2, e2, hb⟩ := bind_ok hb
  obtain ⟨_, s3, e3, e4⟩ := bind_ok hb
  have fr : s3.cache = GoMap.empty ∧ s3.rm = n.rm ∧ s3.created = [] := by
    have hI : ∀ {s s' : HS}, RuleFrame s s' → (s.cache = GoMap.empty ∧ s.rm = n.rm ∧ s.created = []) →
        s'.cache = GoMap.empty ∧ s'.rm = n.rm ∧ s'.created = [] := fun h h' => ⟨h.cache.trans h'.1, h.rm.trans h'.2.1, h.created.trans h'.2.2⟩
    have f1 := pres_each_ok (fun _ _ => pres_of fun s h => hI (createFar_rf _ s) h) e1 ⟨rfl, rfl, rfl⟩
    have f2 := pres_each_ok (fun _ _ => pres_of fun s h => hI (createQer_rf _ s) h) e2 f1
    exact pres_each_ok (fun _ _ => pres_of fun s h => hI (createUrr_rf _ s) h) e3 f2
  obtain ⟨ps, j1, j2, j3, j4, j5, j6⟩ := answered_all (F0 := freeTeids n.rm) (I0 := freeIps n.rm) r.createPdr
    (fun c t h => by rw [fr.1] at h; simp at h) (by rw [fr.2.1]; exact fun _ h => h) (by rw [fr.2.1]; exact fun _ h => h) e4
  rw [fr.2.2, List.nil_append] at j1
  rw [h4, h5, h6, j1]
  have mem : ∀ c, c ∈ createdIEs n.cfg.n3 ps ↔ ∃ p ∈ ps, p.allocated = true ∧
      ((∃ ip, p.ipv4 = some ip ∧ c = .ueIp (p.pdrId.truncate 16) ip) ∨ (p.ipv4 = none ∧ p.ipv6 = none ∧ c = .fteid (p.pdrId.truncate 16) p.teid n.cfg.n3)) := by
    intro c
    unfold createdIEs
    rw [List.mem_filterMap]
    constructor
    · rintro ⟨p, hp, h⟩
      split at h
      · rename_i hal
        refine ⟨p, hp, hal, ?_⟩
        split at h
        · rename_i ip h4; cases h; exact .inl ⟨ip, h4, rfl⟩
        · cases h
        · rename_i h4 h6; cases h; exact .inr ⟨h4, h6, rfl⟩
      · cases h
    · rintro ⟨p, hp, hal, ⟨ip, h4, rfl⟩ | ⟨h4, h6, rfl⟩⟩
      · exact ⟨p, hp, by rw [if_pos hal, h4]⟩
      · exact ⟨p, hp, by rw [if_pos hal, h4, h6]⟩
  refine ⟨seid, hs'.sess, h1, h3, ?_, ?_, ?_, ?_⟩
  · intro i t a hc
    obtain ⟨p, hp, hal, ⟨ip, _, hc⟩ | ⟨p4, p6, hc⟩⟩ := (mem _).1 hc
    · cases hc
    · obtain ⟨ie, hie, ans⟩ := forall2_right j2 p hp
      obtain ⟨i', hid, hpid⟩ := ans.id
      cases hc
      have hk : p.key = .ul p.teid := by unfold SPdr.key; rw [p4, p6]
      rcases ans.only hal with ⟨ask, _, _, hin⟩ | ⟨_, _, ip, hx, _⟩
      · refine ⟨rfl, hin, by rw [← hk]; exact j4 p hp, ⟨ie, hie, by rw [hid, hpid, trunc_zext], ask⟩, fun hnd => ⟨p, ?_, hk⟩⟩
        rw [hpid, trunc_zext, ← hpid]; exact j6 hnd p hp
      · rw [p4] at hx; cases hx
  · intro i a hc
    obtain ⟨p, hp, hal, ⟨ip, p4, hc⟩ | ⟨p4, p6, hc⟩⟩ := (mem _).1 hc
    · obtain ⟨ie, hie, ans⟩ := forall2_right j2 p hp
      obtain ⟨i', hid, hpid⟩ := ans.id
      cases hc
      have hk : p.key = .dl4 a := by unfold SPdr.key; rw [p4]
      rcases ans.only hal with ⟨_, hx, _⟩ | ⟨ask, hu, ip, hx, hin⟩
      · rw [p4] at hx; cases hx
      · rw [p4] at hx; cases hx
        refine ⟨hin, by rw [← hk]; exact j4 p hp, ⟨ie, hie, by rw [hid, hpid, trunc_zext], ask, hu⟩, fun hnd => ⟨p, ?_, hk⟩⟩
        rw [hpid, trunc_zext, ← hpid]; exact j6 hnd p hp
    · cases hc
  · intro ie hie ask
    obtain ⟨p, hp, ans⟩ := forall2_left j2 ie hie
    obtain ⟨i, hid, hpid⟩ := ans.id
    obtain ⟨al, p4, p6⟩ := ans.teid ask
    exact ⟨i, p.teid, hid, (mem _).2 ⟨p, hp, al, .inr ⟨p4, p6, by rw [hpid, trunc_zext]⟩⟩⟩
  · intro ie hie ask hu
    obtain ⟨p, hp, ans⟩ := forall2_left j2 ie hie
    obtain ⟨i, hid, hpid⟩ := ans.id
    rcases ans.ip ask hu with ⟨al, p4⟩ | hx
    · cases h : p.ipv4 with
      | none => exact absurd h p4
      | some ip => exact .inl ⟨i, ip, hid, (mem _).2 ⟨p, hp, al, .inl ⟨ip, h, by rw [hpid, trunc_zext]⟩⟩⟩
    · exact .inr hx

end Eupf
