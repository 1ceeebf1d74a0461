import Verif.Node
/- Preservation lemmas for handler bodies: a predicate kept by every rule step is kept by the body. -/
namespace Eupf
open Act

/-! ### printing a request -/

theorem displayPdr_same (ie : PdrIE) (s : HS) : (displayPdr ie s).1 = s := by
  unfold displayPdr
  cases ie.pdi with
  | none => rfl
  | some p => cases hp : p.source <;> simp [hp]
theorem display_pres {I : HS → Prop} (l : List PdrIE) : Pres I (Act.each displayPdr l) :=
  Pres.each fun ie _ => pres_iff.2 fun s h => by rw [displayPdr_same]; exact h
theorem display_same (l : List PdrIE) (s : HS) : (Act.each displayPdr l s).1 = s :=
  (display_pres (I := fun x => x = s) l).apply rfl
theorem display_ok {l : List PdrIE} {s s' : HS} {x : Res Unit} (h : Act.each displayPdr l s = (s', x)) : s' = s := by
  have := display_same l s; rw [h] at this; exact this

theorem establishBody_pres {I : HS → Prop} {ue : Bool} {r : EstReq}
    (hf : ∀ ie ∈ r.createFar, Pres I (createFar ie)) (hq : ∀ ie ∈ r.createQer, Pres I (createQer ie))
    (hu : ∀ ie ∈ r.createUrr, Pres I (createUrr ie)) (hp : ∀ ie ∈ r.createPdr, Pres I (createPdr ue ie)) :
    Pres I (establishBody ue r) :=
  Pres.bind (display_pres _) fun _ => Pres.bind (Pres.each hf) fun _ => Pres.bind (Pres.each hq) fun _ =>
    Pres.bind (Pres.each hu) fun _ => Pres.each hp

theorem modifyBody_pres {I : HS → Prop} {ue : Bool} {ord : Orders} {r : ModReq}
    (h1 : ∀ ie ∈ r.createFar, Pres I (createFar ie)) (h2 : ∀ ie ∈ r.updateFar, Pres I (updateFar ie))
    (h3 : ∀ ie ∈ r.removeFar, Pres I (removeFar ie))
    (h4 : ∀ ie ∈ r.createQer, Pres I (createQer ie)) (h5 : ∀ ie ∈ r.updateQer, Pres I (updateQer ie))
    (h6 : ∀ ie ∈ r.removeQer, Pres I (removeQer ie))
    (h7 : ∀ ie ∈ r.createUrr, Pres I (createUrr ie)) (h8 : ∀ ie ∈ r.updateUrr, Pres I (updateUrr ie))
    (h9 : ∀ ie ∈ r.removeUrr, Pres I (removeUrr ie))
    (h10 : ∀ ie ∈ r.createPdr, Pres I (createPdr ue ie)) (h11 : ∀ ie ∈ r.updatePdr, Pres I (updatePdr ue ie))
    (h12 : ∀ ie ∈ r.removePdr, Pres I (removePdr ord ie)) :
    Pres I (modifyBody ue ord r) :=
  Pres.bind (display_pres _) fun _ => Pres.bind (display_pres _) fun _ =>
  Pres.bind (Pres.each h1) fun _ => Pres.bind (Pres.each h2) fun _ => Pres.bind (Pres.each h3) fun _ =>
  Pres.bind (Pres.each h4) fun _ => Pres.bind (Pres.each h5) fun _ => Pres.bind (Pres.each h6) fun _ =>
  Pres.bind (Pres.each h7) fun _ => Pres.bind (Pres.each h8) fun _ => Pres.bind (Pres.each h9) fun _ =>
  Pres.bind (Pres.each h10) fun _ => Pres.bind (Pres.each h11) fun _ => Pres.each h12

theorem deleteBody_pres {I : HS → Prop} {ord : Orders} {sess : Session}
    (h1 : ∀ e ∈ sess.pdrs.entries, Pres I (deletePdr ord e.2)) (h2 : ∀ e ∈ sess.fars.entries, Pres I (dropFar e))
    (h3 : ∀ e ∈ sess.qers.entries, Pres I (dropQer e)) (h4 : ∀ e ∈ sess.urrs.entries, Pres I (dropUrr e)) :
    Pres I (deleteBody ord sess) :=
  Pres.bind (Pres.each fun x hx => h1 x ((ord.pdrs.perm _).mem_iff.1 hx)) fun _ =>
  Pres.bind (Pres.each fun x hx => h2 x ((ord.fars.perm _).mem_iff.1 hx)) fun _ =>
  Pres.bind (Pres.each fun x hx => h3 x ((ord.qers.perm _).mem_iff.1 hx)) fun _ =>
  Pres.each fun x hx => h4 x ((ord.urrs.perm _).mem_iff.1 hx)

theorem Act.Pres.ignore {S : Type} {I : S → Prop} {m : Act S Unit} (h : Pres I m) : Pres I (Act.ignore m) := by
  rw [pres_iff] at *
  intro s hs
  have := h s hs
  unfold Act.ignore
  rcases hm : m s with ⟨s', r⟩
  rw [hm] at this
  cases r <;> exact this

theorem deleteSessionBody_pres {I : HS → Prop} {ord : Orders} {sess : Session}
    (h1 : ∀ e ∈ sess.pdrs.entries, Pres I (deletePdr ord e.2)) (h2 : ∀ e ∈ sess.fars.entries, Pres I (dropFar e))
    (h3 : ∀ e ∈ sess.qers.entries, Pres I (dropQer e)) :
    Pres I (deleteSessionBody ord sess) :=
  Pres.bind (Pres.each fun x hx => (h2 x ((ord.fars.perm _).mem_iff.1 hx)).ignore) fun _ =>
  Pres.bind (Pres.each fun x hx => (h3 x ((ord.qers.perm _).mem_iff.1 hx)).ignore) fun _ =>
  Pres.each fun x hx => (h1 x ((ord.pdrs.perm _).mem_iff.1 hx)).ignore

/-! ### generic frame rules: predicates insensitive to what a step changes -/

theorem pres_of {I : HS → Prop} {α : Type} {m : Act HS α} (h : ∀ s, I s → I (m s).1) : Pres I m :=
  pres_iff.2 h

theorem pdrFteid_frame (f : Fteid) (p : SPdr) (s : HS) :
    ∃ c rm, (pdrFteid f p s).1 = { s with cache := c, rm := rm } := by
  unfold pdrFteid
  cases f.ch with
  | false => exact ⟨s.cache, s.rm, rfl⟩
  | true =>
    simp only [if_true]
    cases f.chooseId.bind s.cache.get? with
    | some t => exact ⟨s.cache, s.rm, rfl⟩
    | none =>
      rcases allocTeid s.sess.remoteSEID p.pdrId s.rm with ⟨rm, t⟩
      cases t with
      | none => exact ⟨s.cache, rm, rfl⟩
      | some t => cases f.chooseId <;> exact ⟨_, _, rfl⟩

theorem pdrUeIp_frame (ue : Bool) (u : UeIp) (p : SPdr) (s : HS) :
    ∃ rm, (pdrUeIp ue u p s).1 = { s with rm := rm } := by
  unfold pdrUeIp
  simp only []
  split <;> exact ⟨_, rfl⟩

/-- `extractPdr` changes only the cache and the pools. -/
theorem extractPdr_frame (ue : Bool) (ie : PdrIE) (p : SPdr) (s : HS) :
    ∃ c rm, (extractPdr ue ie p s).1 = { s with cache := c, rm := rm } := by
  have h0 : ∃ c rm, s = { s with cache := c, rm := rm } := ⟨s.cache, s.rm, rfl⟩
  unfold extractPdr
  simp only []
  rcases ie.pdi with _ | ⟨ft, ueip⟩
  · exact h0
  · cases pdrSdf ie (pdrRefs s.sess ie p.info) with
    | none => exact h0
    | some info =>
      simp only []
      rcases ft with _ | _ | f
      · simp only []
        rcases ueip with _ | _ | u
        · exact h0
        · exact h0
        · obtain ⟨rm, h⟩ := pdrUeIp_frame ue u { p with info := info } s
          exact ⟨_, _, h⟩
      · exact h0
      · exact pdrFteid_frame f _ s

/-- The record after `applyPdr`: only the tables change. -/
theorem applyPdr_frame (p : SPdr) (s : HS) : ∃ dp, (applyPdr p s).1 = { s with dp := dp } := by
  unfold applyPdr
  simp only []
  split
  · exact ⟨_, rfl⟩
  · exact ⟨s.dp, rfl⟩

theorem deletePdrEntry_frame (p : SPdr) (s : HS) :
    ∃ dp c, (deletePdrEntry p s).1 = { s with dp := dp, cache := c } := by
  unfold deletePdrEntry
  have h0 : ∃ dp c, s = { s with dp := dp, cache := c } := ⟨s.dp, s.cache, rfl⟩
  split
  · split
    · exact ⟨_, s.cache, rfl⟩
    · exact h0
  · split
    · exact ⟨_, s.cache, rfl⟩
    · exact h0
  · split
    · exact h0
    · split
      · exact ⟨_, _, rfl⟩
      · exact h0

theorem releaseTeids_frame (ord : Orders) (s : HS) : ∃ rm, (releaseTeids ord s).1 = { s with rm := rm } := by
  unfold releaseTeids
  split
  · exact ⟨s.rm, rfl⟩
  · exact ⟨_, rfl⟩

/-- `deletePdr` changes only tables, cache and pools. -/
theorem deletePdr_pres {I : HS → Prop} {ord : Orders} {p : SPdr}
    (h1 : Pres I (deletePdrEntry p)) (h2 : Pres I (releaseTeids ord)) : Pres I (deletePdr ord p) := by
  refine Pres.bind h1 fun _ => ?_
  split
  · exact h2
  · exact Pres.pure

/-! ### the SEIDs of a session never change inside a body -/

section
variable {l r : U64}

theorem createFar_seids (ie : FarIE) : Pres (fun s => s.sess.localSEID = l ∧ s.sess.remoteSEID = r) (createFar ie) := by
  apply pres_of; intro s h; unfold createFar; repeat' split
  all_goals exact h
theorem updateFar_seids (ie : FarIE) : Pres (fun s => s.sess.localSEID = l ∧ s.sess.remoteSEID = r) (updateFar ie) := by
  apply pres_of; intro s h; unfold updateFar; simp only []; repeat' split
  all_goals exact h
theorem removeFar_seids (ie) : Pres (fun s => s.sess.localSEID = l ∧ s.sess.remoteSEID = r) (removeFar ie) := by
  apply pres_of; intro s h; unfold removeFar; simp only []; repeat' split
  all_goals exact h
theorem createQer_seids (ie) : Pres (fun s => s.sess.localSEID = l ∧ s.sess.remoteSEID = r) (createQer ie) := by
  apply pres_of; intro s h; unfold createQer; simp only []; repeat' split
  all_goals exact h
theorem updateQer_seids (ie) : Pres (fun s => s.sess.localSEID = l ∧ s.sess.remoteSEID = r) (updateQer ie) := by
  apply pres_of; intro s h; unfold updateQer; simp only []; repeat' split
  all_goals exact h
theorem removeQer_seids (ie) : Pres (fun s => s.sess.localSEID = l ∧ s.sess.remoteSEID = r) (removeQer ie) := by
  apply pres_of; intro s h; unfold removeQer; simp only []; repeat' split
  all_goals exact h
theorem createUrr_seids (ie) : Pres (fun s => s.sess.localSEID = l ∧ s.sess.remoteSEID = r) (createUrr ie) := by
  apply pres_of; intro s h; unfold createUrr; repeat' split
  all_goals exact h
theorem updateUrr_seids (ie) : Pres (fun s => s.sess.localSEID = l ∧ s.sess.remoteSEID = r) (updateUrr ie) := by
  apply pres_of; intro s h; unfold updateUrr; simp only []; repeat' split
  all_goals exact h
theorem removeUrr_seids (ie) : Pres (fun s => s.sess.localSEID = l ∧ s.sess.remoteSEID = r) (removeUrr ie) := by
  apply pres_of; intro s h; unfold removeUrr; simp only []; repeat' split
  all_goals exact h
theorem extractPdr_seids (ue ie p) : Pres (fun s => s.sess.localSEID = l ∧ s.sess.remoteSEID = r) (extractPdr ue ie p) := by
  apply pres_of; intro s h; obtain ⟨c, rm, e⟩ := extractPdr_frame ue ie p s; rw [e]; exact h
theorem applyPdr_seids (p) : Pres (fun s => s.sess.localSEID = l ∧ s.sess.remoteSEID = r) (applyPdr p) := by
  apply pres_of; intro s h; obtain ⟨c, e⟩ := applyPdr_frame p s; rw [e]; exact h
theorem createPdr_seids (ue ie) : Pres (fun s => s.sess.localSEID = l ∧ s.sess.remoteSEID = r) (createPdr ue ie) := by
  unfold createPdr
  cases ie.pdrId with
  | none => exact Pres.fail
  | some id =>
    exact Pres.bind (extractPdr_seids _ _ _) fun _ => Pres.bind (Pres.modify fun _ h => h) fun _ =>
      Pres.bind (applyPdr_seids _) fun _ => Pres.modify fun _ h => h
theorem updatePdr_seids (ue ie) : Pres (fun s => s.sess.localSEID = l ∧ s.sess.remoteSEID = r) (updatePdr ue ie) := by
  unfold updatePdr
  cases ie.pdrId with
  | none => exact Pres.fail
  | some id =>
    exact Pres.bind Pres.get fun _ => Pres.bind (extractPdr_seids _ _ _) fun _ =>
      Pres.bind (Pres.modify fun _ h => h) fun _ => applyPdr_seids _
theorem deletePdr_seids (ord p) : Pres (fun s => s.sess.localSEID = l ∧ s.sess.remoteSEID = r) (deletePdr ord p) := by
  apply deletePdr_pres
  · apply pres_of; intro s h; obtain ⟨c, _, e⟩ := deletePdrEntry_frame p s; rw [e]; exact h
  · apply pres_of; intro s h; obtain ⟨c, e⟩ := releaseTeids_frame ord s; rw [e]; exact h
theorem removePdr_seids (ord id) : Pres (fun s => s.sess.localSEID = l ∧ s.sess.remoteSEID = r) (removePdr ord id) := by
  refine Pres.bind Pres.get fun s => ?_
  simp only []
  split
  · exact Pres.pure
  · exact Pres.bind (Pres.modify fun _ h => h) fun _ => deletePdr_seids _ _

theorem establishBody_seids (ue : Bool) (q : EstReq) :
    Pres (fun s => s.sess.localSEID = l ∧ s.sess.remoteSEID = r) (establishBody ue q) :=
  establishBody_pres (fun _ _ => createFar_seids _) (fun _ _ => createQer_seids _)
    (fun _ _ => createUrr_seids _) (fun _ _ => createPdr_seids _ _)
theorem modifyBody_seids (ue : Bool) (ord : Orders) (q : ModReq) :
    Pres (fun s => s.sess.localSEID = l ∧ s.sess.remoteSEID = r) (modifyBody ue ord q) :=
  modifyBody_pres (fun _ _ => createFar_seids _) (fun _ _ => updateFar_seids _) (fun _ _ => removeFar_seids _)
    (fun _ _ => createQer_seids _) (fun _ _ => updateQer_seids _) (fun _ _ => removeQer_seids _)
    (fun _ _ => createUrr_seids _) (fun _ _ => updateUrr_seids _) (fun _ _ => removeUrr_seids _)
    (fun _ _ => createPdr_seids _ _) (fun _ _ => updatePdr_seids _ _) (fun _ _ => removePdr_seids _ _)
end

end Eupf
