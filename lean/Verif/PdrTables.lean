import Verif.PdrLemmas
/- Steps for FARs, QERs and URRs do not touch PDRs, pools and cache. Models no code. -/
namespace Eupf
open Act

/-- what steps for FARs, QERs and URRs leave alone -/
structure RuleFrame (s s' : HS) : Prop where
  ul : s'.dp.pdrUl = s.dp.pdrUl
  dl4 : s'.dp.pdrDl4 = s.dp.pdrDl4
  dl6 : s'.dp.pdrDl6 = s.dp.pdrDl6
  cache : s'.cache = s.cache
  rm : s'.rm = s.rm
  pdrs : s'.sess.pdrs = s.sess.pdrs
  remote : s'.sess.remoteSEID = s.sess.remoteSEID
  loc : s'.sess.localSEID = s.sess.localSEID
  created : s'.created = s.created

theorem RuleFrame.refl (s : HS) : RuleFrame s s := ⟨rfl, rfl, rfl, rfl, rfl, rfl, rfl, rfl, rfl⟩
theorem RuleFrame.entry {s s' : HS} (h : RuleFrame s s') (k : PdrKey) : s'.dp.entry? k = s.dp.entry? k := entry_pdr h.ul h.dl4 h.dl6 k

theorem newFar_frame (b : BpfObjects) (x : FarInfo) : ∃ a i, (b.newFar x).1 = { b with far := a, farIds := i } := by
  unfold BpfObjects.newFar; simp only []; repeat' split
  all_goals exact ⟨_, _, rfl⟩
theorem newQer_frame (b : BpfObjects) (x : QerInfo) : ∃ a i, (b.newQer x).1 = { b with qer := a, qerIds := i } := by
  unfold BpfObjects.newQer; simp only []; repeat' split
  all_goals exact ⟨_, _, rfl⟩
theorem newUrr_frame (b : BpfObjects) (x : UrrInfo) : ∃ a i, (b.newUrr x).1 = { b with urr := a, urrIds := i } := by
  unfold BpfObjects.newUrr; simp only []; repeat' split
  all_goals exact ⟨_, _, rfl⟩

theorem createFar_rf (ie : FarIE) (s : HS) : RuleFrame s (createFar ie s).1 := by
  unfold createFar; split
  · rename_i y _
    have fr := newFar_frame s.dp y
    rcases hd : s.dp.newFar y with ⟨dp, g⟩
    rw [hd] at fr
    obtain ⟨_, _, rfl⟩ := fr
    cases g <;> exact ⟨rfl, rfl, rfl, rfl, rfl, rfl, rfl, rfl, rfl⟩
  · exact .refl s
  · exact .refl s
theorem updateFar_rf (ie : FarIE) (s : HS) : RuleFrame s (updateFar ie s).1 := by
  unfold updateFar; split
  · exact .refl s
  · split
    · simp only []; split
      · rename_i hu; obtain ⟨_, _, rfl⟩ := Option.map_eq_some_iff.1 hu; exact ⟨rfl, rfl, rfl, rfl, rfl, rfl, rfl, rfl, rfl⟩
      · exact ⟨rfl, rfl, rfl, rfl, rfl, rfl, rfl, rfl, rfl⟩
    · exact .refl s
    · exact .refl s
theorem removeFar_rf (id) (s : HS) : RuleFrame s (removeFar id s).1 := by
  unfold removeFar; simp only []
  have fr := deleteFar_frame s.dp (s.sess.getFar (id.getD 0)).gid
  rcases hd : s.dp.deleteFar (s.sess.getFar (id.getD 0)).gid with ⟨dp, b⟩
  rw [hd] at fr
  obtain ⟨_, _, rfl⟩ := fr
  cases b <;> exact ⟨rfl, rfl, rfl, rfl, rfl, rfl, rfl, rfl, rfl⟩
theorem createQer_rf (ie : QerIE) (s : HS) : RuleFrame s (createQer ie s).1 := by
  unfold createQer; split
  · exact .refl s
  · have fr := newQer_frame s.dp (mergeQer {} ie)
    simp only []
    rcases hd : s.dp.newQer (mergeQer {} ie) with ⟨dp, g⟩
    rw [hd] at fr
    obtain ⟨_, _, rfl⟩ := fr
    cases g <;> exact ⟨rfl, rfl, rfl, rfl, rfl, rfl, rfl, rfl, rfl⟩
theorem updateQer_rf (ie : QerIE) (s : HS) : RuleFrame s (updateQer ie s).1 := by
  unfold updateQer; split
  · exact .refl s
  · simp only []; split
    · rename_i hu; obtain ⟨_, _, rfl⟩ := Option.map_eq_some_iff.1 hu; exact ⟨rfl, rfl, rfl, rfl, rfl, rfl, rfl, rfl, rfl⟩
    · exact ⟨rfl, rfl, rfl, rfl, rfl, rfl, rfl, rfl, rfl⟩
theorem removeQer_rf (id) (s : HS) : RuleFrame s (removeQer id s).1 := by
  unfold removeQer; split
  · exact .refl s
  · rename_i j
    simp only []
    have fr := deleteQer_frame s.dp (s.sess.getQer j).gid
    rcases hd : s.dp.deleteQer (s.sess.getQer j).gid with ⟨dp, b⟩
    rw [hd] at fr
    obtain ⟨_, _, rfl⟩ := fr
    cases b <;> exact ⟨rfl, rfl, rfl, rfl, rfl, rfl, rfl, rfl, rfl⟩
theorem createUrr_rf (id) (s : HS) : RuleFrame s (createUrr id s).1 := by
  unfold createUrr; split
  · exact .refl s
  · have fr := newUrr_frame s.dp {}
    rcases hd : s.dp.newUrr {} with ⟨dp, g⟩
    rw [hd] at fr
    obtain ⟨_, _, rfl⟩ := fr
    cases g <;> exact ⟨rfl, rfl, rfl, rfl, rfl, rfl, rfl, rfl, rfl⟩
theorem updateUrr_rf (id) (s : HS) : RuleFrame s (updateUrr id s).1 := by
  unfold updateUrr; split
  · exact .refl s
  · simp only []; split
    · rename_i hu; obtain ⟨_, _, rfl⟩ := Option.map_eq_some_iff.1 hu; exact ⟨rfl, rfl, rfl, rfl, rfl, rfl, rfl, rfl, rfl⟩
    · exact ⟨rfl, rfl, rfl, rfl, rfl, rfl, rfl, rfl, rfl⟩
theorem removeUrr_rf (id) (s : HS) : RuleFrame s (removeUrr id s).1 := by
  unfold removeUrr; split
  · exact .refl s
  · rename_i j
    simp only []
    have fr := deleteUrr_frame s.dp (s.sess.getUrr j).gid
    rcases hd : s.dp.deleteUrr (s.sess.getUrr j).gid with ⟨dp, b⟩
    rw [hd] at fr
    obtain ⟨_, _, rfl⟩ := fr
    cases b <;> exact ⟨rfl, rfl, rfl, rfl, rfl, rfl, rfl, rfl, rfl⟩
theorem dropFar_rf (e) (s : HS) : RuleFrame s (dropFar e s).1 := by
  rw [dropFar_dp]
  obtain ⟨_, _, h⟩ := deleteFar_frame s.dp e.2.gid
  rw [h]; exact ⟨rfl, rfl, rfl, rfl, rfl, rfl, rfl, rfl, rfl⟩
theorem dropQer_rf (e) (s : HS) : RuleFrame s (dropQer e s).1 := by
  rw [dropQer_dp]
  obtain ⟨_, _, h⟩ := deleteQer_frame s.dp e.2.gid
  rw [h]; exact ⟨rfl, rfl, rfl, rfl, rfl, rfl, rfl, rfl, rfl⟩
theorem dropUrr_rf (e) (s : HS) : RuleFrame s (dropUrr e s).1 := by
  unfold dropUrr
  have fr := deleteUrr_frame s.dp e.2.gid
  rcases hd : s.dp.deleteUrr e.2.gid with ⟨dp, b⟩
  rw [hd] at fr
  obtain ⟨_, _, rfl⟩ := fr
  cases b <;> exact ⟨rfl, rfl, rfl, rfl, rfl, rfl, rfl, rfl, rfl⟩

/-! An invariant of PDRs, pools and cache holds through a body if the PDR steps keep it. -/
section
variable {I : HS → Prop} (hI : ∀ {s s'}, RuleFrame s s' → I s → I s')
include hI

theorem establishBody_rf {ue : Bool} {r : EstReq} (hp : ∀ ie ∈ r.createPdr, Pres I (createPdr ue ie)) : Pres I (establishBody ue r) :=
  establishBody_pres (fun _ _ => pres_of fun _ h => hI (createFar_rf ..) h) (fun _ _ => pres_of fun _ h => hI (createQer_rf ..) h)
    (fun _ _ => pres_of fun _ h => hI (createUrr_rf ..) h) hp
theorem modifyBody_rf {ue : Bool} {ord : Orders} {r : ModReq} (hp : ∀ ie ∈ r.createPdr, Pres I (createPdr ue ie))
    (hu : ∀ ie ∈ r.updatePdr, Pres I (updatePdr ue ie)) (hr : ∀ id ∈ r.removePdr, Pres I (removePdr ord id)) : Pres I (modifyBody ue ord r) :=
  modifyBody_pres (fun _ _ => pres_of fun _ h => hI (createFar_rf ..) h) (fun _ _ => pres_of fun _ h => hI (updateFar_rf ..) h)
    (fun _ _ => pres_of fun _ h => hI (removeFar_rf ..) h) (fun _ _ => pres_of fun _ h => hI (createQer_rf ..) h)
    (fun _ _ => pres_of fun _ h => hI (updateQer_rf ..) h) (fun _ _ => pres_of fun _ h => hI (removeQer_rf ..) h)
    (fun _ _ => pres_of fun _ h => hI (createUrr_rf ..) h) (fun _ _ => pres_of fun _ h => hI (updateUrr_rf ..) h)
    (fun _ _ => pres_of fun _ h => hI (removeUrr_rf ..) h) hp hu hr
theorem deleteBody_rf {ord : Orders} {sess : Session} (hd : ∀ e ∈ sess.pdrs.entries, Pres I (deletePdr ord e.2)) : Pres I (deleteBody ord sess) :=
  deleteBody_pres hd (fun _ _ => pres_of fun _ h => hI (dropFar_rf ..) h) (fun _ _ => pres_of fun _ h => hI (dropQer_rf ..) h)
    (fun _ _ => pres_of fun _ h => hI (dropUrr_rf ..) h)
theorem deleteSessionBody_rf {ord : Orders} {sess : Session} (hd : ∀ e ∈ sess.pdrs.entries, Pres I (deletePdr ord e.2)) :
    Pres I (deleteSessionBody ord sess) :=
  deleteSessionBody_pres hd (fun _ _ => pres_of fun _ h => hI (dropFar_rf ..) h) (fun _ _ => pres_of fun _ h => hI (dropQer_rf ..) h)
end

/-- `applyPdr` in every case -/
theorem applyPdr_entries (p : SPdr) (s : HS) :
    (∃ dp, applyPdr p s = ({ s with dp := dp }, .ok ()) ∧
      ∀ k, dp.entry? k = if k = p.key then some (pdrToStore (s.dp.entry? p.key) p.info) else s.dp.entry? k) ∨ applyPdr p s = (s, .err) := by
  rcases h : applyPdr p s with ⟨s', r⟩
  unfold applyPdr at h
  simp only [] at h
  split at h
  · rename_i dp _
    cases h
    refine .inl ⟨dp, rfl, ?_⟩
    have h2 : applyPdr p s = ({ s with dp := dp }, .ok ()) := by
      unfold applyPdr; simp only []; split
      · rename_i e1 _ _ e2; rw [e1] at e2; cases e2; rfl
      · rename_i e1 _ e2; rw [e1] at e2; cases e2
    exact applyPdr_ok h2
  · cases h; exact .inr rfl

end Eupf
