import Verif.Spec.Classify
import Verif.Props.Merge
/- What installing a PDR does to the tables. Models no code. -/
namespace Eupf
open Act

theorem hmap_put {K V : Type} [DecidableEq K] {h h' : HMap K V} {k : K} {v : V} (hp : h.put k v = some h') (j : K) :
    h'.lookup j = if j = k then some v else h.lookup j := by
  unfold HMap.put at hp
  split at hp
  · cases hp; exact GoMap.get?_set ..
  · cases hp

/-- installing a record writes its own key only -/
theorem applyPdr_ok {p : SPdr} {s s' : HS} (h : applyPdr p s = (s', .ok ())) (k : PdrKey) :
    s'.dp.entry? k = if k = p.key then some (pdrToStore (s.dp.entry? p.key) p.info) else s.dp.entry? k := by
  unfold applyPdr at h
  rcases h4 : p.ipv4 with _ | ip
  · rcases h6 : p.ipv6 with _ | ip6
    · have hk : p.key = .ul p.teid := by simp [SPdr.key, h4, h6]
      simp only [h4, h6] at h
      split at h
      · rename_i dp hd
        cases h
        obtain ⟨t, ht, rfl⟩ := Option.map_eq_some_iff.1 hd
        have := hmap_put ht
        rw [hk]
        cases k with
        | ul x => simpa [BpfObjects.entry?] using this x
        | dl4 x => simp [BpfObjects.entry?]
        | dl6 x => simp [BpfObjects.entry?]
      · cases h
    · have hk : p.key = .dl6 ip6 := by simp [SPdr.key, h4, h6]
      simp only [h4, h6] at h
      split at h
      · rename_i dp hd
        cases h
        obtain ⟨t, ht, rfl⟩ := Option.map_eq_some_iff.1 hd
        have := hmap_put ht
        rw [hk]
        cases k with
        | ul x => simp [BpfObjects.entry?]
        | dl4 x => simp [BpfObjects.entry?]
        | dl6 x => simpa [BpfObjects.entry?] using this x
      · cases h
  · have hk : p.key = .dl4 ip := by simp [SPdr.key, h4]
    simp only [h4] at h
    split at h
    · rename_i dp hd
      cases h
      obtain ⟨t, ht, rfl⟩ := Option.map_eq_some_iff.1 hd
      have := hmap_put ht
      rw [hk]
      cases k with
      | ul x => simp [BpfObjects.entry?]
      | dl4 x => simpa [BpfObjects.entry?] using this x
      | dl6 x => simp [BpfObjects.entry?]
    · cases h

/-- What `extractPdr` puts in the record besides the key. -/
theorem extractPdr_ok {ue : Bool} {ie : PdrIE} {p p' : SPdr} {s s' : HS} (h : extractPdr ue ie p s = (s', .ok p')) :
    p'.pdrId = p.pdrId ∧ s'.dp = s.dp ∧ s'.sess = s.sess ∧ s'.created = s.created ∧
    p'.info.ohr = ie.ohr.getD p.info.ohr ∧
    p'.info.farId = (match ie.farId with | some i => (s.sess.getFar i).gid | none => p.info.farId) ∧
    p'.info.qerId = (match ie.qerId with | some i => (s.sess.getQer i).gid | none => p.info.qerId) ∧
    (match ie.sdf with
     | none | some [] => p'.info.sdf = p.info.sdf
     | some txt => ∃ f, Sdf.parse txt = some f ∧ p'.info.sdf = some f) := by
  unfold extractPdr at h
  simp only [] at h
  split at h
  · cases h
  · split at h
    · cases h
    · rename_i info hinfo
      have hinf : info.ohr = ie.ohr.getD p.info.ohr ∧
          info.farId = (match ie.farId with | some i => (s.sess.getFar i).gid | none => p.info.farId) ∧
          info.qerId = (match ie.qerId with | some i => (s.sess.getQer i).gid | none => p.info.qerId) ∧
          (match ie.sdf with
           | none | some [] => info.sdf = p.info.sdf
           | some txt => ∃ f, Sdf.parse txt = some f ∧ info.sdf = some f) := by
        unfold pdrSdf at hinfo
        split at hinfo
        · rename_i e; cases hinfo; rw [e]; exact ⟨rfl, rfl, rfl, rfl⟩
        · rename_i e; cases hinfo; rw [e]; exact ⟨rfl, rfl, rfl, rfl⟩
        · rename_i txt hne e
          obtain ⟨f, hf, rfl⟩ := Option.map_eq_some_iff.1 hinfo
          rw [e]
          refine ⟨rfl, rfl, rfl, ?_⟩
          cases txt with
          | nil => exact absurd rfl hne
          | cons c cs => exact ⟨f, hf, rfl⟩
      split at h
      · cases h
      · rename_i f _
        have fr := pdrFteid_frame f { p with info := info } s
        rw [h] at fr
        obtain ⟨c, rm, hs⟩ := fr
        simp only at hs
        have : p'.info = info ∧ p'.pdrId = p.pdrId := by
          unfold pdrFteid at h
          split at h
          · split at h
            · cases h; exact ⟨rfl, rfl⟩
            · split at h
              · cases h
              · cases h; exact ⟨rfl, rfl⟩
          · cases h; exact ⟨rfl, rfl⟩
        subst hs
        rw [this.1, this.2]
        exact ⟨rfl, rfl, rfl, rfl, hinf⟩
      · split at h
        · cases h
        · rename_i u _
          have fr := pdrUeIp_frame ue u { p with info := info } s
          rw [h] at fr
          obtain ⟨rm, hs⟩ := fr
          simp only at hs
          have : p'.info = info ∧ p'.pdrId = p.pdrId := by
            unfold pdrUeIp at h
            simp only [] at h
            split at h
            · cases h; exact ⟨rfl, rfl⟩
            · cases h; exact ⟨rfl, rfl⟩
            · cases h
          subst hs
          rw [this.1, this.2]
          exact ⟨rfl, rfl, rfl, rfl, hinf⟩
        · cases h
          exact ⟨rfl, rfl, rfl, rfl, hinf⟩

/-- one successful Create PDR -/
theorem createPdr_ok {ue : Bool} {ie : PdrIE} {s s' : HS} (h : createPdr ue ie s = (s', .ok ())) :
    ∃ id p s1, ie.pdrId = some id ∧ extractPdr ue ie { pdrId := id.zeroExtend 32 } s = (s1, .ok p) ∧
      s'.sess = s.sess.putPdr (id.zeroExtend 32) p ∧ s'.created = s.created ++ [p] ∧ s'.rm = s1.rm ∧ s'.cache = s1.cache ∧
      ∀ k, s'.dp.entry? k = if k = p.key then some (pdrToStore (s.dp.entry? p.key) p.info) else s.dp.entry? k := by
  unfold createPdr at h
  cases hid : ie.pdrId with
  | none => rw [hid] at h; cases h
  | some id =>
    rw [hid] at h
    obtain ⟨p, s1, e1, h1⟩ := bind_ok h
    obtain ⟨_, s2, e2, h2⟩ := bind_ok h1
    obtain ⟨_, s3, e3, h3⟩ := bind_ok h2
    obtain ⟨x1, x2, x3, x4, -⟩ := extractPdr_ok e1
    cases e2
    have key := applyPdr_ok e3
    obtain ⟨dp, hfr⟩ := applyPdr_frame p { s1 with sess := s1.sess.putPdr p.pdrId p }
    rw [e3] at hfr
    simp only at hfr
    cases h3
    refine ⟨id, p, s1, rfl, e1, ?_, ?_, ?_, ?_, ?_⟩
    · rw [hfr]; simp only; rw [x3, x1]
    · rw [hfr]; simp only; rw [x4]
    · rw [hfr]
    · rw [hfr]
    · intro k
      have := key k
      simp only [x2] at this
      exact this

/-- one successful Update PDR -/
theorem updatePdr_ok {ue : Bool} {ie : PdrIE} {s s' : HS} (h : updatePdr ue ie s = (s', .ok ())) :
    ∃ id p s1, ie.pdrId = some id ∧ extractPdr ue ie (s.sess.getPdr (id.zeroExtend 32)) s = (s1, .ok p) ∧
      s'.sess = s.sess.putPdr (id.zeroExtend 32) p ∧ s'.created = s.created ∧
      ∀ k, s'.dp.entry? k = if k = p.key then some (pdrToStore (s.dp.entry? p.key) p.info) else s.dp.entry? k := by
  unfold updatePdr at h
  cases hid : ie.pdrId with
  | none => rw [hid] at h; cases h
  | some id =>
    rw [hid] at h
    obtain ⟨t, s0, e0, h0⟩ := bind_ok h
    cases e0
    obtain ⟨p, s1, e1, h1⟩ := bind_ok h0
    obtain ⟨_, s2, e2, h2⟩ := bind_ok h1
    obtain ⟨x1, x2, x3, x4, -⟩ := extractPdr_ok e1
    cases e2
    have key := applyPdr_ok h2
    obtain ⟨dp, hfr⟩ := applyPdr_frame p { s1 with sess := s1.sess.putPdr (id.zeroExtend 32) p }
    rw [h2] at hfr
    simp only at hfr
    refine ⟨id, p, s1, rfl, e1, ?_, ?_, ?_⟩
    · rw [hfr]; simp only; rw [x3]
    · rw [hfr]; simp only; rw [x4]
    · intro k
      have := key k
      simp only [x2] at this
      exact this

/-- the rule of a packet after installing `p` -/
theorem classify_store (cur : Option PdrEntry) (p : PdrInfo) (m : KFilter → Bool) :
    classify (some (pdrToStore cur p)) m =
      match p.sdf with
      | none => some p.rule
      | some f => if m (toKFilter f) then some p.rule else cur.map (fun d => ⟨d.ohr, d.farId, d.qerId⟩) := by
  unfold pdrToStore
  cases p.sdf with
  | none => simp [classify, toEntry, PdrInfo.rule]
  | some f =>
    cases cur with
    | none =>
      simp only [combineWithSdf, classify, PdrInfo.rule]
      by_cases hm : m (toKFilter f) = true <;> simp [hm]
    | some d =>
      simp only [combineWithSdf, classify, PdrInfo.rule]
      by_cases hm : m (toKFilter f) = true <;> simp [hm]

end Eupf
