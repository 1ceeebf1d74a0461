import Verif.Ranges
/- What the loops of a session deletion achieve. -/
namespace Eupf
open Act

/-- A loop that ran to its end has established `Q` of every element, if each step does and no step spoils it. -/
theorem each_ok_all {S α : Type} {f : α → Act S Unit} {L : List α} {I : S → Prop} {Q : α → S → Prop}
    (hI : ∀ x ∈ L, ∀ s, I s → I (f x s).1)
    (hQ : ∀ y ∈ L, ∀ x ∈ L, ∀ s, I s → Q y s → Q y (f x s).1)
    (hE : ∀ x ∈ L, ∀ s, I s → (f x s).2 = .ok () → Q x (f x s).1) :
    ∀ (l : List α) (s s' : S), (∀ x ∈ l, x ∈ L) → I s → Act.each f l s = (s', .ok ()) →
      I s' ∧ (∀ x ∈ l, Q x s') ∧ ∀ y ∈ L, Q y s → Q y s'
  | [], s, s', _, h, he => by
    cases he
    exact ⟨h, by simp, fun _ _ h => h⟩
  | x :: xs, s, s', hl, h, he => by
    have hx := hl x (by simp)
    have he' : Act.bind (f x) (fun _ => Act.each f xs) s = (s', .ok ()) := he
    unfold Act.bind at he'
    rcases hm : f x s with ⟨s1, r⟩
    rw [hm] at he'
    cases r with
    | err => simp at he'
    | panic => simp at he'
    | ok a =>
      have h1 := hI x hx s h
      have h2 := hE x hx s h (by rw [hm])
      have h4 : ∀ y ∈ L, Q y s → Q y s1 := fun y hy hq => by have := hQ y hy x hx s h hq; rwa [hm] at this
      rw [hm] at h1 h2
      obtain ⟨i1, i2, i3⟩ := each_ok_all hI hQ hE xs s1 s' (fun y hy => hl y (by simp [hy])) h1 he'
      refine ⟨i1, ?_, fun y hy hq => i3 y hy (h4 y hy hq)⟩
      intro y hy
      rcases List.mem_cons.1 hy with rfl | hy'
      · exact i3 _ hx h2
      · exact i2 y hy'

/-! ### frames -/

theorem deleteFar_frame (b : BpfObjects) (g : U32) : ∃ a i, (b.deleteFar g).1 = { b with far := a, farIds := i } := by
  unfold BpfObjects.deleteFar; simp only []; split <;> exact ⟨_, _, rfl⟩
theorem deleteQer_frame (b : BpfObjects) (g : U32) : ∃ a i, (b.deleteQer g).1 = { b with qer := a, qerIds := i } := by
  unfold BpfObjects.deleteQer; simp only []; split <;> exact ⟨_, _, rfl⟩
theorem deleteUrr_frame (b : BpfObjects) (g : U32) : ∃ a i, (b.deleteUrr g).1 = { b with urr := a, urrIds := i } := by
  unfold BpfObjects.deleteUrr; simp only []; split
  · exact ⟨b.urr, b.urrIds, rfl⟩
  · split <;> exact ⟨_, _, rfl⟩
theorem dropFar_dp (e : U32 × SFar) (s : HS) : (dropFar e s).1 = { s with dp := (s.dp.deleteFar e.2.gid).1 } := by
  unfold dropFar; rcases s.dp.deleteFar e.2.gid with ⟨d, b⟩; cases b <;> rfl
theorem dropQer_dp (e : U32 × SQer) (s : HS) : (dropQer e s).1 = { s with dp := (s.dp.deleteQer e.2.gid).1 } := by
  unfold dropQer; rcases s.dp.deleteQer e.2.gid with ⟨d, b⟩; cases b <;> rfl
theorem dropUrr_dp (e : U32 × SUrr) (s : HS) : (dropUrr e s).1.dp = (s.dp.deleteUrr e.2.gid).1 ∧
    (dropUrr e s).1.rm = s.rm := by
  unfold dropUrr; rcases s.dp.deleteUrr e.2.gid with ⟨d, b⟩; cases b <;> exact ⟨rfl, rfl⟩

/-! ### slots -/

section
variable {f q u : U32}

/-- slot `g` is empty and free -/
def farGone (b : BpfObjects) (g : U32) : Prop := b.far.lookup g = some {} ∧ b.farIds.free g = true
def qerGone (b : BpfObjects) (g : U32) : Prop := b.qer.lookup g = some {} ∧ b.qerIds.free g = true
def urrGone (b : BpfObjects) (g : U32) : Prop := b.urr.lookup g = some {} ∧ b.urrIds.free g = true

theorem deleteFar_gone {b : BpfObjects} (h : Sized f q u b) {g : U32} (hg : g.toNat < f.toNat) :
    (b.deleteFar g).2 = true ∧ farGone (b.deleteFar g).1 g ∧ ∀ k, farGone b k → farGone (b.deleteFar g).1 k := by
  have h1 : g.toNat < b.far.size.toNat := by rw [h.far]; exact hg
  have h2 : g.toNat < b.farIds.maxSize.toNat := by rw [h.farIds]; exact hg
  simp only [BpfObjects.deleteFar, ArrMap.update, if_pos h1, farGone, ArrMap.lookup]
  refine ⟨trivial, ⟨by simp, by rw [IdTracker.release_free h2]; simp⟩, ?_⟩
  rintro k ⟨h3, h4⟩
  refine ⟨?_, by rw [IdTracker.release_free h2]; simp [h4]⟩
  split at h3
  · rename_i hk
    simp only [hk, if_true]
    split
    · rfl
    · exact h3
  · cases h3
theorem deleteQer_gone {b : BpfObjects} (h : Sized f q u b) {g : U32} (hg : g.toNat < q.toNat) :
    (b.deleteQer g).2 = true ∧ qerGone (b.deleteQer g).1 g ∧ ∀ k, qerGone b k → qerGone (b.deleteQer g).1 k := by
  have h1 : g.toNat < b.qer.size.toNat := by rw [h.qer]; exact hg
  have h2 : g.toNat < b.qerIds.maxSize.toNat := by rw [h.qerIds]; exact hg
  simp only [BpfObjects.deleteQer, ArrMap.update, if_pos h1, qerGone, ArrMap.lookup]
  refine ⟨trivial, ⟨by simp, by rw [IdTracker.release_free h2]; simp⟩, ?_⟩
  rintro k ⟨h3, h4⟩
  refine ⟨?_, by rw [IdTracker.release_free h2]; simp [h4]⟩
  split at h3
  · rename_i hk
    simp only [hk, if_true]
    split
    · rfl
    · exact h3
  · cases h3
theorem deleteUrr_gone {b : BpfObjects} (h : Sized f q u b) {g : U32} (hg : g.toNat < u.toNat) :
    (b.deleteUrr g).2 = some (b.urr.val g) ∧ urrGone (b.deleteUrr g).1 g ∧
      (∀ k, urrGone b k → urrGone (b.deleteUrr g).1 k) ∧ ∀ k, k ≠ g → (b.deleteUrr g).1.urr.val k = b.urr.val k := by
  have h1 : g.toNat < b.urr.size.toNat := by rw [h.urr]; exact hg
  have h2 : g.toNat < b.urrIds.maxSize.toNat := by rw [h.urrIds]; exact hg
  simp only [BpfObjects.deleteUrr, ArrMap.update, if_pos h1, urrGone, ArrMap.lookup]
  refine ⟨trivial, ⟨by simp, by rw [IdTracker.release_free h2]; simp⟩, ?_, fun k hk => by simp [hk]⟩
  rintro k ⟨h3, h4⟩
  refine ⟨?_, by rw [IdTracker.release_free h2]; simp [h4]⟩
  split at h3
  · rename_i hk
    simp only [hk, if_true]
    split
    · rfl
    · exact h3
  · cases h3

/-! ### PDR keys -/

theorem entry_pdr {b b' : BpfObjects} (h1 : b'.pdrUl = b.pdrUl) (h2 : b'.pdrDl4 = b.pdrDl4) (h3 : b'.pdrDl6 = b.pdrDl6)
    (k : PdrKey) : b'.entry? k = b.entry? k := by
  cases k <;> simp [BpfObjects.entry?, h1, h2, h3]

theorem hmap_delete {K V : Type} [DecidableEq K] (h : HMap K V) (k : K) :
    (h.delete k = none ∧ h.lookup k = none) ∨
    ∃ h', h.delete k = some h' ∧ (h.lookup k).isSome ∧ ∀ j, h'.lookup j = if j = k then none else h.lookup j := by
  unfold HMap.delete HMap.lookup
  split
  · exact Or.inr ⟨_, rfl, by assumption, fun j => by simp⟩
  · rename_i hx
    exact Or.inl ⟨rfl, Option.not_isSome_iff_eq_none.1 hx⟩

/-- What removing a PDR's table entry does, for each kind of key. -/
inductive DelEntry (p : SPdr) (s : HS) : Prop
  /-- the entry existed and is gone; nothing else changed -/
  | gone (dp : BpfObjects) (c : GoMap U8 U32) (h : deletePdrEntry p s = ({ s with dp := dp, cache := c }, .ok ()))
      (hsome : (s.dp.entry? p.key).isSome) (hdp : ∀ k, dp.entry? k = if k = p.key then none else s.dp.entry? k)
      (hc : c = s.cache ∧ (∀ t, p.key ≠ .ul t) ∨
        p.key = .ul p.teid ∧ c = s.cache.set (p.teid.truncate 8) 0 ∧ s.cache.get? (p.teid.truncate 8) = none)
  /-- there was no entry -/
  | absent (h : deletePdrEntry p s = (s, .err)) (hnone : s.dp.entry? p.key = none)
  /-- an uplink PDR whose low octet was seen before -/
  | skipped (h : deletePdrEntry p s = (s, .ok ())) (hk : p.key = .ul p.teid)
      (hc : (s.cache.get? (p.teid.truncate 8)).isSome)

theorem deletePdrEntry_cases (p : SPdr) (s : HS) : DelEntry p s := by
  cases h4 : p.ipv4 with
  | some ip =>
    have hk : p.key = .dl4 ip := by simp [SPdr.key, h4]
    rcases hmap_delete s.dp.pdrDl4 ip with ⟨h1, h2⟩ | ⟨h', h1, h2, h3⟩
    · exact .absent (by simp [deletePdrEntry, h4, BpfObjects.deletePdrDownlink, h1]) (by rw [hk]; exact h2)
    · refine .gone { s.dp with pdrDl4 := h' } s.cache (by simp [deletePdrEntry, h4, BpfObjects.deletePdrDownlink, h1]) (by rw [hk]; exact h2) ?_
        (Or.inl ⟨rfl, by intro t; rw [hk]; exact PdrKey.noConfusion⟩)
      intro k
      rw [hk]
      cases k <;> simp [BpfObjects.entry?, h3]
  | none =>
    cases h6 : p.ipv6 with
    | some ip =>
      have hk : p.key = .dl6 ip := by simp [SPdr.key, h4, h6]
      rcases hmap_delete s.dp.pdrDl6 ip with ⟨h1, h2⟩ | ⟨h', h1, h2, h3⟩
      · exact .absent (by simp [deletePdrEntry, h4, h6, BpfObjects.deleteDownlinkPdrIp6, h1]) (by rw [hk]; exact h2)
      · refine .gone { s.dp with pdrDl6 := h' } s.cache (by simp [deletePdrEntry, h4, h6, BpfObjects.deleteDownlinkPdrIp6, h1]) (by rw [hk]; exact h2) ?_
          (Or.inl ⟨rfl, by intro t; rw [hk]; exact PdrKey.noConfusion⟩)
        intro k
        rw [hk]
        cases k <;> simp [BpfObjects.entry?, h3]
    | none =>
      have hk : p.key = .ul p.teid := by simp [SPdr.key, h4, h6]
      by_cases hc : (s.cache.get? (p.teid.truncate 8)).isSome
      · refine .skipped ?_ hk hc
        unfold deletePdrEntry; rw [h4, h6]; simp only []; rw [if_pos hc]
      · rcases hmap_delete s.dp.pdrUl p.teid with ⟨h1, h2⟩ | ⟨h', h1, h2, h3⟩
        · refine .absent ?_ (by rw [hk]; exact h2)
          unfold deletePdrEntry; rw [h4, h6]; simp only []; rw [if_neg hc]
          simp [BpfObjects.deletePdrUplink, h1]
        · refine .gone { s.dp with pdrUl := h' } (s.cache.set (p.teid.truncate 8) 0) ?_ (by rw [hk]; exact h2) ?_
            (Or.inr ⟨hk, rfl, by simpa using hc⟩)
          · unfold deletePdrEntry; rw [h4, h6]; simp only []; rw [if_neg hc]
            simp [BpfObjects.deletePdrUplink, h1]
          · intro k
            rw [hk]
            cases k <;> simp [BpfObjects.entry?, h3]

/-- Among the PDRs `L`, TEIDs that agree in the low octet are equal. -/
def LowOctet (L : List SPdr) : Prop := ∀ p ∈ L, ∀ q ∈ L, p.key = .ul p.teid → q.key = .ul q.teid →
  p.teid.truncate 8 = q.teid.truncate 8 → p.teid = q.teid

/-- The cache only remembers removed TEIDs. -/
def CacheOk (L : List SPdr) (s : HS) : Prop := ∀ b, (s.cache.get? b).isSome →
  ∃ p ∈ L, p.key = .ul p.teid ∧ p.teid.truncate 8 = b ∧ s.dp.entry? p.key = none

theorem deletePdr_dp (ord : Orders) (p : SPdr) (s : HS) : ∃ rm, (deletePdr ord p s).1 = { (deletePdrEntry p s).1 with rm := rm } := by
  unfold deletePdr
  simp only [Act.bind_def, Act.bind]
  rcases hm : deletePdrEntry p s with ⟨s1, r⟩
  cases r with
  | ok a =>
    simp only []
    split
    · exact releaseTeids_frame ord s1
    · exact ⟨s1.rm, rfl⟩
  | err => exact ⟨s1.rm, rfl⟩
  | panic => exact ⟨s1.rm, rfl⟩

theorem deletePdr_gone {L : List SPdr} (hL : LowOctet L) (ord : Orders) {p : SPdr} (hp : p ∈ L) {s : HS} (h : CacheOk L s) :
    CacheOk L (deletePdr ord p s).1 ∧ (deletePdr ord p s).1.dp.entry? p.key = none ∧
    ∀ k, s.dp.entry? k = none → (deletePdr ord p s).1.dp.entry? k = none := by
  obtain ⟨rm, e⟩ := deletePdr_dp ord p s
  rw [e]
  cases deletePdrEntry_cases p s with
  | gone dp c hd hsome hdp hc =>
    rw [hd]
    refine ⟨?_, by simp [hdp], fun k hk => by simp [hdp, hk]⟩
    rcases hc with ⟨rfl, _⟩ | ⟨hk, rfl, _⟩
    · intro b hb
      obtain ⟨p', h1, h2, h3, h4⟩ := h b hb
      exact ⟨p', h1, h2, h3, by simp [hdp, h4]⟩
    · intro b hb
      simp only [GoMap.get?_set] at hb
      split at hb
      · subst b; exact ⟨p, hp, hk, rfl, by simp [hdp]⟩
      · obtain ⟨p', h1, h2, h3, h4⟩ := h b hb
        exact ⟨p', h1, h2, h3, by simp [hdp, h4]⟩
  | absent hd hnone => rw [hd]; exact ⟨h, hnone, fun _ h => h⟩
  | skipped hd hk hc =>
    rw [hd]
    obtain ⟨p', h1, h2, h3, h4⟩ := h _ hc
    have := hL p' h1 p hp h2 hk h3
    refine ⟨h, ?_, fun _ h => h⟩
    rw [hk, ← this, ← h2]; exact h4

/-- The table deletions of a loop never add entries, whatever the outcome. -/
theorem deletePdr_none (ord : Orders) (p : SPdr) (s : HS) (k : PdrKey) (h : s.dp.entry? k = none) :
    (deletePdr ord p s).1.dp.entry? k = none := by
  obtain ⟨rm, e⟩ := deletePdr_dp ord p s
  rw [e]
  cases deletePdrEntry_cases p s with
  | gone dp c hd hsome hdp hc => rw [hd]; simp [hdp, h]
  | absent hd _ => rw [hd]; exact h
  | skipped hd _ _ => rw [hd]; exact h

theorem deletePdr_part (ord : Orders) (p : SPdr) (s : HS) :
    SamePart (deletePdr ord p s).1.dp s.dp ∧ (deletePdr ord p s).1.sess = s.sess ∧ (deletePdr ord p s).1.reports = s.reports := by
  obtain ⟨rm, e⟩ := deletePdr_dp ord p s
  rw [e]
  obtain ⟨h1, h2⟩ := deletePdrEntry_part p s
  obtain ⟨_, _, h3⟩ := deletePdrEntry_frame p s
  exact ⟨h1, h2, by rw [h3]⟩
end

end Eupf
