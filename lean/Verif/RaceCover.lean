import Verif.RaceLemmas
import Verif.HandlerLemmas
/-
Every change of a session's rule maps is a listed write (`Verif/Races.lean`).
-/
namespace Eupf

/-- a change of the part `sel` of the session shows as a write of `x` -/
def Tr.Covers {β : Type} (sel : Session → β) (x : Loc) (t : Tr HS) : Prop :=
  ∀ s, sel (t.act s).1.sess ≠ sel s.sess → Op.wb x ∈ t.ops s

section
variable {β : Type} {sel : Session → β} {x : Loc}

theorem Tr.Covers.seq {a b : Tr HS} (ha : a.Covers sel x) (hb : b.Covers sel x) : (a.seq b).Covers sel x := by
  intro s h
  have h' : sel (Act.bind a.act (fun _ => b.act) s).1.sess ≠ sel s.sess := h
  show _ ∈ a.ops s ++ _
  by_cases h1 : sel (a.act s).1.sess = sel s.sess
  · refine List.mem_append_right _ ?_
    unfold Act.bind at h'
    rcases ha' : a.act s with ⟨s', r⟩
    rw [ha'] at h' h1
    cases r with
    | ok u =>
      simp only at h' h1 ⊢
      exact hb s' (by rw [h1]; exact h')
    | err => exact absurd h1 h'
    | panic => exact absurd h1 h'
  · exact List.mem_append_left _ (ha s h1)

theorem Tr.Covers.each {α : Type} {f : α → Tr HS} (h : ∀ y, (f y).Covers sel x) : ∀ l, (Tr.each f l).Covers sel x
  | [] => fun _ h => absurd rfl h
  | y :: ys => (h y).seq (Tr.Covers.each h ys)

/-- an action that leaves the part alone -/
theorem Tr.Covers.of_same {t : Tr HS} (h : ∀ s, sel (t.act s).1.sess = sel s.sess) : t.Covers sel x :=
  fun s hne => absurd (h s) hne

end

theorem displayPdr_sess (ie : PdrIE) (s : HS) : (displayPdr ie s).1.sess = s.sess := by
  unfold displayPdr
  split
  · split <;> rfl
  · rfl

/-! what one rule changes in the session -/

theorem createFar_sess (ie : FarIE) (s : HS) : (createFar ie s).1.sess = s.sess ∨
    ((∃ u, (createFar ie s).2 = .ok u) ∧ ∃ i g f, (createFar ie s).1.sess = s.sess.newFar i g f) := by
  unfold createFar
  split
  · split
    · exact .inr ⟨⟨_, rfl⟩, _, _, _, rfl⟩
    · exact .inl rfl
  · exact .inl rfl
  · exact .inl rfl

theorem createQer_sess (ie : QerIE) (s : HS) : (createQer ie s).1.sess = s.sess ∨
    ((∃ u, (createQer ie s).2 = .ok u) ∧ ∃ i g f, (createQer ie s).1.sess = s.sess.newQer i g f) := by
  unfold createQer
  split
  · exact .inl rfl
  · simp only
    split
    · exact .inr ⟨⟨_, rfl⟩, _, _, _, rfl⟩
    · exact .inl rfl

theorem createUrr_sess (id : Option U32) (s : HS) : (createUrr id s).1.sess = s.sess ∨
    ((∃ u, (createUrr id s).2 = .ok u) ∧ ∃ i g f, (createUrr id s).1.sess = s.sess.newUrr i g f) := by
  unfold createUrr
  split
  · exact .inl rfl
  · split
    · exact .inr ⟨⟨_, rfl⟩, _, _, _, rfl⟩
    · exact .inl rfl

theorem extractPdr_sess (u : Bool) (ie : PdrIE) (p : SPdr) (s : HS) : (extractPdr u ie p s).1.sess = s.sess := by
  unfold extractPdr
  simp only
  split
  · rfl
  · split
    · rfl
    · split
      · rfl
      · unfold pdrFteid
        split
        · split
          · rfl
          · split
            · rfl
            · simp only; split <;> rfl
        · rfl
      · split
        · rfl
        · unfold pdrUeIp
          simp only
          split <;> rfl
        · rfl

theorem applyPdr_sess (p : SPdr) (s : HS) : (applyPdr p s).1.sess = s.sess := by
  unfold applyPdr
  simp only
  split <;> rfl

theorem createPdr_sess (u : Bool) (ie : PdrIE) (s : HS) : (createPdr u ie s).1.sess = s.sess ∨
    ∃ id p, ie.pdrId = some id ∧ (∃ q, (extractPdr u ie { pdrId := id.zeroExtend 32 } s).2 = .ok q) ∧
      (createPdr u ie s).1.sess = s.sess.putPdr p.pdrId p := by
  unfold createPdr
  cases hid : ie.pdrId with
  | none => exact .inl rfl
  | some id =>
    simp only [Act.bind_def]
    unfold Act.bind
    have hx := extractPdr_sess u ie { pdrId := id.zeroExtend 32 } s
    rcases he : extractPdr u ie { pdrId := id.zeroExtend 32 } s with ⟨s1, r⟩
    rw [he] at hx
    cases r with
    | err => exact .inl hx
    | panic => exact .inl hx
    | ok p =>
      refine .inr ⟨id, p, rfl, ⟨p, by rw [he]⟩, ?_⟩
      simp only [Act.modify_apply]
      have ha := applyPdr_sess p { s1 with sess := s1.sess.putPdr p.pdrId p }
      rcases hap : applyPdr p { s1 with sess := s1.sess.putPdr p.pdrId p } with ⟨s2, r2⟩
      rw [hap] at ha
      simp only at ha hx
      cases r2 <;> simp only [ha, hx]

theorem updatePdr_sess (u : Bool) (ie : PdrIE) (s : HS) : (updatePdr u ie s).1.sess = s.sess ∨
    ∃ id p, ie.pdrId = some id ∧ (∃ q, (extractPdr u ie (s.sess.getPdr (id.zeroExtend 32)) s).2 = .ok q) ∧
      (updatePdr u ie s).1.sess = s.sess.putPdr (id.zeroExtend 32) p := by
  unfold updatePdr
  cases hid : ie.pdrId with
  | none => exact .inl rfl
  | some id =>
    simp only [Act.bind_def]
    unfold Act.bind
    simp only [Act.get_apply]
    have hx := extractPdr_sess u ie (s.sess.getPdr (id.zeroExtend 32)) s
    rcases he : extractPdr u ie (s.sess.getPdr (id.zeroExtend 32)) s with ⟨s1, r⟩
    rw [he] at hx
    cases r with
    | err => exact .inl hx
    | panic => exact .inl hx
    | ok p =>
      refine .inr ⟨id, p, rfl, ⟨p, by rw [he]⟩, ?_⟩
      simp only [Act.modify_apply]
      have ha := applyPdr_sess p { s1 with sess := s1.sess.putPdr (id.zeroExtend 32) p }
      rcases hap : applyPdr p { s1 with sess := s1.sess.putPdr (id.zeroExtend 32) p } with ⟨s2, r2⟩
      rw [hap] at ha
      simp only at ha hx
      cases r2 <;> simp only [ha, hx]

theorem deletePdr_sess (ord : Orders) (p : SPdr) (s : HS) : (deletePdr ord p s).1.sess = s.sess := by
  have h1 : (deletePdrEntry p s).1.sess = s.sess := by
    unfold deletePdrEntry
    split
    · split <;> rfl
    · split <;> rfl
    · split
      · rfl
      · split <;> rfl
  unfold deletePdr
  simp only [Act.bind_def]
  unfold Act.bind
  rcases he : deletePdrEntry p s with ⟨s1, r⟩
  rw [he] at h1
  cases r with
  | err => exact h1
  | panic => exact h1
  | ok u =>
    simp only at h1 ⊢
    split
    · unfold releaseTeids
      split
      · exact h1
      · exact h1
    · exact h1

theorem erase_empty {K V : Type} [DecidableEq K] {m : GoMap K V} (h : m.size = 0) (k : K) : m.erase k = m := by
  have he : m.entries = [] := List.length_eq_zero_iff.1 h
  have h2 : (m.erase k).entries = m.entries := by
    unfold GoMap.erase
    simp [he]
  rcases hm : m with ⟨l, p⟩
  rcases hm2 : m.erase k with ⟨l2, p2⟩
  rw [hm2, hm] at h2
  simp only at h2
  subst h2
  rw [← hm, hm2, hm]

theorem removePdr_sess (ord : Orders) (id : Option U16) (s : HS) : (removePdr ord id s).1.sess = s.sess ∨
    ∃ p, s.sess.pdrs.get? ((id.getD 0).zeroExtend 32) = some p ∧
      (removePdr ord id s).1.sess = s.sess.removePdr ((id.getD 0).zeroExtend 32) := by
  unfold removePdr
  simp only [Act.bind_def]
  unfold Act.bind
  simp only [Act.get_apply]
  cases hp : s.sess.pdrs.get? ((id.getD 0).zeroExtend 32) with
  | none => exact .inl rfl
  | some p =>
    refine .inr ⟨p, rfl, ?_⟩
    simp only [Act.modify_apply]
    exact deletePdr_sess ord p { s with sess := s.sess.removePdr ((id.getD 0).zeroExtend 32) }

/-! ### PDRs -/
section
variable (a : Addr) (sid : U64)

theorem updateFar_sess (ie : FarIE) (s : HS) : (updateFar ie s).1.sess = s.sess ∨
    ∃ id f, ie.farId = some id ∧ (∃ q, composeFarInfo ie (s.sess.getFar id).info = .ok q) ∧
      (updateFar ie s).1.sess = s.sess.updateFar id f := by
  unfold updateFar
  cases hid : ie.farId with
  | none => exact .inl rfl
  | some id =>
    simp only
    cases hc : composeFarInfo ie (s.sess.getFar id).info with
    | ok f =>
      refine .inr ⟨id, f, rfl, ⟨f, hc⟩, ?_⟩
      simp only
      split <;> rfl
    | err => exact .inl rfl
    | panic => exact .inl rfl

theorem removeFar_sess (id : Option U32) (s : HS) : (removeFar id s).1.sess = s.sess.removeFar (id.getD 0) := by
  unfold removeFar
  simp only
  split <;> rfl

theorem updateQer_sess (ie : QerIE) (s : HS) : (updateQer ie s).1.sess = s.sess ∨
    ∃ id f, ie.qerId = some id ∧ (updateQer ie s).1.sess = s.sess.updateQer id f := by
  unfold updateQer
  cases hid : ie.qerId with
  | none => exact .inl rfl
  | some id =>
    refine .inr ⟨id, mergeQer (s.sess.getQer id).info ie, rfl, ?_⟩
    simp only
    split <;> rfl

theorem removeQer_sess (id : Option U32) (s : HS) : (removeQer id s).1.sess = s.sess ∨
    ∃ i, id = some i ∧ (removeQer id s).1.sess = s.sess.removeQer i := by
  unfold removeQer
  cases id with
  | none => exact .inl rfl
  | some i =>
    refine .inr ⟨i, rfl, ?_⟩
    simp only
    split <;> rfl

theorem updateUrr_sess (id : Option U32) (s : HS) : (updateUrr id s).1.sess = s.sess ∨
    ∃ i f, id = some i ∧ (updateUrr id s).1.sess = s.sess.updateUrr i f := by
  unfold updateUrr
  cases id with
  | none => exact .inl rfl
  | some i =>
    refine .inr ⟨i, (s.sess.getUrr i).info, rfl, ?_⟩
    simp only
    split <;> rfl

theorem removeUrr_sess (id : Option U32) (s : HS) : (removeUrr id s).1.sess = s.sess ∨
    ∃ i, id = some i ∧ (removeUrr id s).1.sess = s.sess.removeUrr i := by
  unfold removeUrr
  cases id with
  | none => exact .inl rfl
  | some i =>
    refine .inr ⟨i, rfl, ?_⟩
    simp only
    split <;> rfl

theorem covers_pdrs_modify (u : Bool) (ord : Orders) (r : ModReq) : (trModify a sid u ord r).Covers Session.pdrs (.pdrs a sid) := by
  unfold trModify
  refine (Tr.Covers.each (fun ie => .of_same fun s => by rw [show (Tr.quiet (displayPdr ie)).act = displayPdr ie from rfl, displayPdr_sess]) _).seq <|
    (Tr.Covers.each (fun ie => .of_same fun s => by rw [show (Tr.quiet (displayPdr ie)).act = displayPdr ie from rfl, displayPdr_sess]) _).seq <|
    (Tr.Covers.each (fun ie => .of_same fun s => ?_) _).seq <|
    (Tr.Covers.each (fun ie => .of_same fun s => ?_) _).seq <|
    (Tr.Covers.each (fun ie => .of_same fun s => ?_) _).seq <|
    (Tr.Covers.each (fun ie => .of_same fun s => ?_) _).seq <|
    (Tr.Covers.each (fun ie => .of_same fun s => ?_) _).seq <|
    (Tr.Covers.each (fun ie => .of_same fun s => ?_) _).seq <|
    (Tr.Covers.each (fun ie => .of_same fun s => ?_) _).seq <|
    (Tr.Covers.each (fun ie => .of_same fun s => ?_) _).seq <|
    (Tr.Covers.each (fun ie => .of_same fun s => ?_) _).seq <|
    (Tr.Covers.each (fun ie s h => ?_) _).seq <|
    (Tr.Covers.each (fun ie s h => ?_) _).seq <|
    Tr.Covers.each (fun ie s h => ?_) _
  · show (createFar ie s).1.sess.pdrs = _
    rcases createFar_sess ie s with h | ⟨_, i, g, f, h⟩ <;> rw [h]; rfl
  · show (updateFar ie s).1.sess.pdrs = _
    rcases updateFar_sess ie s with h | ⟨i, f, _, _, h⟩ <;> rw [h]; rfl
  · show (removeFar ie s).1.sess.pdrs = _
    rw [removeFar_sess]; rfl
  · show (createQer ie s).1.sess.pdrs = _
    rcases createQer_sess ie s with h | ⟨_, i, g, f, h⟩ <;> rw [h]; rfl
  · show (updateQer ie s).1.sess.pdrs = _
    rcases updateQer_sess ie s with h | ⟨i, f, _, h⟩ <;> rw [h]; rfl
  · show (removeQer ie s).1.sess.pdrs = _
    rcases removeQer_sess ie s with h | ⟨i, _, h⟩ <;> rw [h]; rfl
  · show (createUrr ie s).1.sess.pdrs = _
    rcases createUrr_sess ie s with h | ⟨_, i, g, f, h⟩ <;> rw [h]; rfl
  · show (updateUrr ie s).1.sess.pdrs = _
    rcases updateUrr_sess ie s with h | ⟨i, f, _, h⟩ <;> rw [h]; rfl
  · show (removeUrr ie s).1.sess.pdrs = _
    rcases removeUrr_sess ie s with h | ⟨i, _, h⟩ <;> rw [h]; rfl
  · rcases createPdr_sess u ie s with he | ⟨id, p, hid, ⟨q, hq⟩, he⟩
    · exact absurd (congrArg Session.pdrs he) h
    · unfold trCreatePdr
      simp only [hid]
      refine List.mem_append_right _ ?_
      rw [hq]
      exact List.mem_cons_self
  · rcases updatePdr_sess u ie s with he | ⟨id, p, hid, ⟨q, hq⟩, he⟩
    · exact absurd (congrArg Session.pdrs he) h
    · unfold trUpdatePdr
      simp only [hid]
      refine List.mem_append_right _ ?_
      rw [hq]
      exact List.mem_cons_self
  · rcases removePdr_sess ord ie s with he | ⟨p, hp, he⟩
    · exact absurd (congrArg Session.pdrs he) h
    · have hsz : s.sess.pdrs.size ≠ 0 := by
        intro h0
        have hm := (GoMap.mem_entries_iff s.sess.pdrs _ p).2 hp
        rw [List.length_eq_zero_iff.1 h0] at hm
        cases hm
      unfold trRemovePdr
      simp only [hp]
      refine List.mem_append_right _ (List.mem_append_left _ (List.mem_append_right _ ?_))
      unfold delOf
      rw [if_neg hsz]
      exact List.mem_cons_self

theorem covers_fars_modify (u : Bool) (ord : Orders) (r : ModReq) : (trModify a sid u ord r).Covers Session.fars (.fars a sid) := by
  unfold trModify
  refine (Tr.Covers.each (fun ie => .of_same fun s => by rw [show (Tr.quiet (displayPdr ie)).act = displayPdr ie from rfl, displayPdr_sess]) _).seq <|
    (Tr.Covers.each (fun ie => .of_same fun s => by rw [show (Tr.quiet (displayPdr ie)).act = displayPdr ie from rfl, displayPdr_sess]) _).seq <|
    (Tr.Covers.each (fun ie s h => ?_) _).seq <|
    (Tr.Covers.each (fun ie s h => ?_) _).seq <|
    (Tr.Covers.each (fun ie s h => ?_) _).seq <|
    (Tr.Covers.each (fun ie => .of_same fun s => ?_) _).seq <|
    (Tr.Covers.each (fun ie => .of_same fun s => ?_) _).seq <|
    (Tr.Covers.each (fun ie => .of_same fun s => ?_) _).seq <|
    (Tr.Covers.each (fun ie => .of_same fun s => ?_) _).seq <|
    (Tr.Covers.each (fun ie => .of_same fun s => ?_) _).seq <|
    (Tr.Covers.each (fun ie => .of_same fun s => ?_) _).seq <|
    (Tr.Covers.each (fun ie => .of_same fun s => ?_) _).seq <|
    (Tr.Covers.each (fun ie => .of_same fun s => ?_) _).seq <|
    Tr.Covers.each (fun ie => .of_same fun s => ?_) _
  · rcases createFar_sess ie s with he | ⟨⟨w, hw⟩, i, g, f, he⟩
    · exact absurd (congrArg Session.fars he) h
    · unfold trCreateFar
      simp only [hw]
      exact List.mem_cons_self
  · rcases updateFar_sess ie s with he | ⟨i, f, hi, ⟨q, hq⟩, he⟩
    · exact absurd (congrArg Session.fars he) h
    · unfold trUpdateFar
      simp only [hi, hq]
      exact List.mem_append_right _ (List.mem_append_right _ List.mem_cons_self)
  · have hsz : s.sess.fars.size ≠ 0 := by
      intro h0
      apply h
      show (removeFar ie s).1.sess.fars = _
      rw [removeFar_sess]
      exact erase_empty h0 _
    unfold trRemoveFar
    refine List.mem_append_right _ ?_
    unfold delOf
    rw [if_neg hsz]
    exact List.mem_cons_self
  · show (createQer ie s).1.sess.fars = _
    rcases createQer_sess ie s with h | ⟨_, i, g, f, h⟩ <;> rw [h]; rfl
  · show (updateQer ie s).1.sess.fars = _
    rcases updateQer_sess ie s with h | ⟨i, f, _, h⟩ <;> rw [h]; rfl
  · show (removeQer ie s).1.sess.fars = _
    rcases removeQer_sess ie s with h | ⟨i, _, h⟩ <;> rw [h]; rfl
  · show (createUrr ie s).1.sess.fars = _
    rcases createUrr_sess ie s with h | ⟨_, i, g, f, h⟩ <;> rw [h]; rfl
  · show (updateUrr ie s).1.sess.fars = _
    rcases updateUrr_sess ie s with h | ⟨i, f, _, h⟩ <;> rw [h]; rfl
  · show (removeUrr ie s).1.sess.fars = _
    rcases removeUrr_sess ie s with h | ⟨i, _, h⟩ <;> rw [h]; rfl
  · show (createPdr u ie s).1.sess.fars = _
    rcases createPdr_sess u ie s with h | ⟨_, _, _, _, h⟩ <;> rw [h]; rfl
  · show (updatePdr u ie s).1.sess.fars = _
    rcases updatePdr_sess u ie s with h | ⟨_, _, _, _, h⟩ <;> rw [h]; rfl
  · show (removePdr ord ie s).1.sess.fars = _
    rcases removePdr_sess ord ie s with h | ⟨_, _, h⟩ <;> rw [h]; rfl

theorem covers_qers_modify (u : Bool) (ord : Orders) (r : ModReq) : (trModify a sid u ord r).Covers Session.qers (.qers a sid) := by
  unfold trModify
  refine (Tr.Covers.each (fun ie => .of_same fun s => by rw [show (Tr.quiet (displayPdr ie)).act = displayPdr ie from rfl, displayPdr_sess]) _).seq <|
    (Tr.Covers.each (fun ie => .of_same fun s => by rw [show (Tr.quiet (displayPdr ie)).act = displayPdr ie from rfl, displayPdr_sess]) _).seq <|
    (Tr.Covers.each (fun ie => .of_same fun s => ?_) _).seq <|
    (Tr.Covers.each (fun ie => .of_same fun s => ?_) _).seq <|
    (Tr.Covers.each (fun ie => .of_same fun s => ?_) _).seq <|
    (Tr.Covers.each (fun ie s h => ?_) _).seq <|
    (Tr.Covers.each (fun ie s h => ?_) _).seq <|
    (Tr.Covers.each (fun ie s h => ?_) _).seq <|
    (Tr.Covers.each (fun ie => .of_same fun s => ?_) _).seq <|
    (Tr.Covers.each (fun ie => .of_same fun s => ?_) _).seq <|
    (Tr.Covers.each (fun ie => .of_same fun s => ?_) _).seq <|
    (Tr.Covers.each (fun ie => .of_same fun s => ?_) _).seq <|
    (Tr.Covers.each (fun ie => .of_same fun s => ?_) _).seq <|
    Tr.Covers.each (fun ie => .of_same fun s => ?_) _
  · show (createFar ie s).1.sess.qers = _
    rcases createFar_sess ie s with h | ⟨_, i, g, f, h⟩ <;> rw [h]; rfl
  · show (updateFar ie s).1.sess.qers = _
    rcases updateFar_sess ie s with h | ⟨i, f, _, _, h⟩ <;> rw [h]; rfl
  · show (removeFar ie s).1.sess.qers = _
    rw [removeFar_sess]; rfl
  · rcases createQer_sess ie s with he | ⟨⟨w, hw⟩, i, g, f, he⟩
    · exact absurd (congrArg Session.qers he) h
    · unfold trCreateQer
      simp only [hw]
      exact List.mem_cons_self
  · rcases updateQer_sess ie s with he | ⟨i, f, hi, he⟩
    · exact absurd (congrArg Session.qers he) h
    · unfold trUpdateQer
      simp only [hi]
      exact List.mem_append_right _ List.mem_cons_self
  · rcases removeQer_sess ie s with he | ⟨i, hi, he⟩
    · exact absurd (congrArg Session.qers he) h
    · have hsz : s.sess.qers.size ≠ 0 := by
        intro h0
        apply h
        show (removeQer ie s).1.sess.qers = _
        rw [he]
        exact erase_empty h0 _
      unfold trRemoveQer
      simp only [hi]
      refine List.mem_append_right _ ?_
      unfold delOf
      rw [if_neg hsz]
      exact List.mem_cons_self
  · show (createUrr ie s).1.sess.qers = _
    rcases createUrr_sess ie s with h | ⟨_, i, g, f, h⟩ <;> rw [h]; rfl
  · show (updateUrr ie s).1.sess.qers = _
    rcases updateUrr_sess ie s with h | ⟨i, f, _, h⟩ <;> rw [h]; rfl
  · show (removeUrr ie s).1.sess.qers = _
    rcases removeUrr_sess ie s with h | ⟨i, _, h⟩ <;> rw [h]; rfl
  · show (createPdr u ie s).1.sess.qers = _
    rcases createPdr_sess u ie s with h | ⟨_, _, _, _, h⟩ <;> rw [h]; rfl
  · show (updatePdr u ie s).1.sess.qers = _
    rcases updatePdr_sess u ie s with h | ⟨_, _, _, _, h⟩ <;> rw [h]; rfl
  · show (removePdr ord ie s).1.sess.qers = _
    rcases removePdr_sess ord ie s with h | ⟨_, _, h⟩ <;> rw [h]; rfl

theorem covers_urrs_modify (u : Bool) (ord : Orders) (r : ModReq) : (trModify a sid u ord r).Covers Session.urrs (.urrs a sid) := by
  unfold trModify
  refine (Tr.Covers.each (fun ie => .of_same fun s => by rw [show (Tr.quiet (displayPdr ie)).act = displayPdr ie from rfl, displayPdr_sess]) _).seq <|
    (Tr.Covers.each (fun ie => .of_same fun s => by rw [show (Tr.quiet (displayPdr ie)).act = displayPdr ie from rfl, displayPdr_sess]) _).seq <|
    (Tr.Covers.each (fun ie => .of_same fun s => ?_) _).seq <|
    (Tr.Covers.each (fun ie => .of_same fun s => ?_) _).seq <|
    (Tr.Covers.each (fun ie => .of_same fun s => ?_) _).seq <|
    (Tr.Covers.each (fun ie => .of_same fun s => ?_) _).seq <|
    (Tr.Covers.each (fun ie => .of_same fun s => ?_) _).seq <|
    (Tr.Covers.each (fun ie => .of_same fun s => ?_) _).seq <|
    (Tr.Covers.each (fun ie s h => ?_) _).seq <|
    (Tr.Covers.each (fun ie s h => ?_) _).seq <|
    (Tr.Covers.each (fun ie s h => ?_) _).seq <|
    (Tr.Covers.each (fun ie => .of_same fun s => ?_) _).seq <|
    (Tr.Covers.each (fun ie => .of_same fun s => ?_) _).seq <|
    Tr.Covers.each (fun ie => .of_same fun s => ?_) _
  · show (createFar ie s).1.sess.urrs = _
    rcases createFar_sess ie s with h | ⟨_, i, g, f, h⟩ <;> rw [h]; rfl
  · show (updateFar ie s).1.sess.urrs = _
    rcases updateFar_sess ie s with h | ⟨i, f, _, _, h⟩ <;> rw [h]; rfl
  · show (removeFar ie s).1.sess.urrs = _
    rw [removeFar_sess]; rfl
  · show (createQer ie s).1.sess.urrs = _
    rcases createQer_sess ie s with h | ⟨_, i, g, f, h⟩ <;> rw [h]; rfl
  · show (updateQer ie s).1.sess.urrs = _
    rcases updateQer_sess ie s with h | ⟨i, f, _, h⟩ <;> rw [h]; rfl
  · show (removeQer ie s).1.sess.urrs = _
    rcases removeQer_sess ie s with h | ⟨i, _, h⟩ <;> rw [h]; rfl
  · rcases createUrr_sess ie s with he | ⟨⟨w, hw⟩, i, g, f, he⟩
    · exact absurd (congrArg Session.urrs he) h
    · unfold trCreateUrr
      simp only [hw]
      exact List.mem_cons_self
  · rcases updateUrr_sess ie s with he | ⟨i, f, hi, he⟩
    · exact absurd (congrArg Session.urrs he) h
    · unfold trUpdateUrr
      simp only [hi]
      exact List.mem_append_right _ List.mem_cons_self
  · rcases removeUrr_sess ie s with he | ⟨i, hi, he⟩
    · exact absurd (congrArg Session.urrs he) h
    · have hsz : s.sess.urrs.size ≠ 0 := by
        intro h0
        apply h
        show (removeUrr ie s).1.sess.urrs = _
        rw [he]
        exact erase_empty h0 _
      unfold trRemoveUrr
      simp only [hi]
      refine List.mem_append_right _ ?_
      unfold delOf
      rw [if_neg hsz]
      exact List.mem_cons_self
  · show (createPdr u ie s).1.sess.urrs = _
    rcases createPdr_sess u ie s with h | ⟨_, _, _, _, h⟩ <;> rw [h]; rfl
  · show (updatePdr u ie s).1.sess.urrs = _
    rcases updatePdr_sess u ie s with h | ⟨_, _, _, _, h⟩ <;> rw [h]; rfl
  · show (removePdr ord ie s).1.sess.urrs = _
    rcases removePdr_sess ord ie s with h | ⟨_, _, h⟩ <;> rw [h]; rfl

end

end Eupf
