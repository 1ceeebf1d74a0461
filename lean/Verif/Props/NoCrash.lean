import Verif.Demo
/-
C59: which messages can kill the process.
-/
namespace Eupf
open Act

/-- Specification: the FAR IEs of a message are free of the two defects that kill the process: an Apply Action IE of
length 0 and an undecodable Outer Header Creation IE. -/
def FarIE.sound (ie : FarIE) : Prop := ie.applyAction ≠ some [] ∧ ie.forward ≠ some (some none)

/-- Specification: a PDR IE is free of the defect that kills the process: a PDI without Source Interface IE. -/
def PdrIE.sound (ie : PdrIE) : Prop := ∀ p, ie.pdi = some p → p.source = true

/-- Specification: messages without a fatal defect. Heartbeats must carry a Recovery Time Stamp IE (decodable or not);
a peer is only given up once. -/
def Ev.sound (n : Node) : Ev → Prop
  | .heartbeatReq _ _ rts => rts ≠ none
  | .heartbeatResp _ _ rts => rts ≠ none
  | .establish _ r => (∀ ie ∈ r.createFar, ie.sound) ∧ (∀ ie ∈ r.createPdr, ie.sound)
  | .modify _ r _ => (∀ ie ∈ r.createFar ++ r.updateFar, ie.sound) ∧ (∀ ie ∈ r.createPdr ++ r.updatePdr, ie.sound)
  | .peerLost a _ => (n.assocs.get? a).isSome
  | _ => True

/-- no panic, and the pools stay available -/
def Calm {α : Type} (m : Act HS α) : Prop := ∀ s, s.rm ≠ none → (m s).2 ≠ .panic ∧ (m s).1.rm ≠ none

theorem Calm.bind {α β : Type} {m : Act HS α} {g : α → Act HS β} (h1 : Calm m) (h2 : ∀ a, Calm (g a)) : Calm (m >>= g) := by
  intro s hs
  have := h1 s hs
  rw [Act.bind_def]
  unfold Act.bind
  rcases hm : m s with ⟨s1, r⟩
  rw [hm] at this
  cases r with
  | ok a => exact h2 a s1 this.2
  | err => exact ⟨by simp, this.2⟩
  | panic => exact absurd rfl this.1
theorem Calm.each {α : Type} {g : α → Act HS Unit} {l : List α} (h : ∀ x ∈ l, Calm (g x)) : Calm (Act.each g l) := by
  induction l with
  | nil => intro s hs; exact ⟨by simp [Act.each], hs⟩
  | cons x xs ih => exact Calm.bind (h x (by simp)) fun _ => ih (fun y hy => h y (by simp [hy]))
theorem Calm.of {m : Act HS Unit} (h : ∀ s, (m s).2 ≠ .panic ∧ (m s).1.rm = s.rm) : Calm m :=
  fun s hs => ⟨(h s).1, by rw [(h s).2]; exact hs⟩
theorem Calm.pure {α : Type} (a : α) : Calm (Pure.pure a : Act HS α) := fun s hs => ⟨by simp, hs⟩

theorem display_calm {l : List PdrIE} (h : ∀ ie ∈ l, ie.sound) : Calm (Act.each displayPdr l) := by
  refine Calm.each fun ie hie => Calm.of fun s => ⟨?_, by rw [displayPdr_same]⟩
  unfold displayPdr
  cases hp : ie.pdi with
  | none => simp
  | some p => simp [h ie hie p hp]

theorem composeFarInfo_calm {ie : FarIE} (h : ie.sound) (f : FarInfo) : composeFarInfo ie f ≠ .panic := by
  have h1 : composeAction ie f ≠ .panic := by
    unfold composeAction
    split
    · simp
    · exact absurd ‹_› h.1
    · simp
  have h2 : ∀ f, composeForward ie f ≠ .panic := by
    intro f
    unfold composeForward
    split
    · simp
    · split
      · simp
      · simp
      · exact absurd ‹_› h.2
      · simp only []; split <;> simp
  unfold composeFarInfo
  cases hc : composeAction ie f with
  | ok f' =>
    simp only
    cases hd : composeForward ie f' with
    | ok _ => simp
    | err => simp
    | panic => exact absurd hd (h2 f')
  | err => simp
  | panic => exact absurd hc h1

theorem createFar_calm {ie : FarIE} (h : ie.sound) : Calm (createFar ie) := by
  apply Calm.of; intro s; unfold createFar
  have := composeFarInfo_calm h {}
  split
  · split <;> simp
  · simp
  · exact absurd ‹_› this
theorem updateFar_calm {ie : FarIE} (h : ie.sound) : Calm (updateFar ie) := by
  apply Calm.of; intro s; unfold updateFar
  split
  · simp
  · rename_i i hi
    have := composeFarInfo_calm h (s.sess.getFar i).info
    split
    · simp only []; split <;> simp
    · simp
    · exact absurd ‹_› this
theorem removeFar_calm (i) : Calm (removeFar i) := by
  apply Calm.of; intro s; unfold removeFar; simp only []; split <;> simp
theorem createQer_calm (i) : Calm (createQer i) := by
  apply Calm.of; intro s; unfold createQer; split
  · simp
  · simp only []; split <;> simp
theorem updateQer_calm (i) : Calm (updateQer i) := by
  apply Calm.of; intro s; unfold updateQer; split
  · simp
  · simp only []; split <;> simp
theorem removeQer_calm (i) : Calm (removeQer i) := by
  apply Calm.of; intro s; unfold removeQer; split
  · simp
  · simp only []; split <;> simp
theorem createUrr_calm (i) : Calm (createUrr i) := by
  apply Calm.of; intro s; unfold createUrr; split
  · simp
  · split <;> simp
theorem updateUrr_calm (i) : Calm (updateUrr i) := by
  apply Calm.of; intro s; unfold updateUrr; split
  · simp
  · simp only []; split <;> simp
theorem removeUrr_calm (i) : Calm (removeUrr i) := by
  apply Calm.of; intro s; unfold removeUrr; split
  · simp
  · simp only []; split <;> simp

theorem allocTeid_some {k : U64} {p : U32} {rm : Option ResourceManager} (h : rm ≠ none) : (allocTeid k p rm).1 ≠ none := by
  cases rm with
  | none => exact absurd rfl h
  | some r => simp [allocTeid]
theorem allocIp_some {k : U64} {rm : Option ResourceManager} (h : rm ≠ none) : (allocIp k rm).1 ≠ none := by
  cases rm with
  | none => exact absurd rfl h
  | some r => simp [allocIp]

theorem pdrFteid_calm (f : Fteid) (p : SPdr) : Calm (pdrFteid f p) := by
  intro s hs
  unfold pdrFteid
  split
  · split
    · exact ⟨by simp, hs⟩
    · have := allocTeid_some (k := s.sess.remoteSEID) (p := p.pdrId) hs
      rcases h : allocTeid s.sess.remoteSEID p.pdrId s.rm with ⟨rm, t⟩
      rw [h] at this
      cases t with
      | none => exact ⟨by simp, this⟩
      | some t =>
        simp only []
        cases f.chooseId <;> exact ⟨by simp, this⟩
  · exact ⟨by simp, hs⟩
theorem pdrUeIp_calm (ue : Bool) (u : UeIp) (p : SPdr) : Calm (pdrUeIp ue u p) := by
  intro s hs
  have := allocIp_some (k := s.sess.remoteSEID) hs
  rcases h : allocIp s.sess.remoteSEID s.rm with ⟨rm, t⟩
  rw [h] at this
  unfold pdrUeIp
  simp only [h]
  split
  · refine ⟨by simp, ?_⟩
    split
    · cases t <;> exact this
    · exact hs
  · refine ⟨by simp, ?_⟩
    split
    · cases t <;> exact this
    · exact hs
  · refine ⟨by simp, ?_⟩
    split
    · cases t <;> exact this
    · exact hs
theorem extractPdr_calm (ue : Bool) (ie : PdrIE) (p : SPdr) : Calm (extractPdr ue ie p) := by
  intro s hs
  unfold extractPdr
  simp only []
  split
  · exact ⟨by simp, hs⟩
  · split
    · exact ⟨by simp, hs⟩
    · split
      · exact ⟨by simp, hs⟩
      · exact pdrFteid_calm _ _ s hs
      · split
        · exact ⟨by simp, hs⟩
        · exact pdrUeIp_calm _ _ _ s hs
        · exact ⟨by simp, hs⟩
theorem applyPdr_calm (p : SPdr) : Calm (applyPdr p) := by
  apply Calm.of; intro s; unfold applyPdr; simp only []
  split <;> simp
theorem modify_calm (g : HS → HS) (h : ∀ s, (g s).rm = s.rm) : Calm (Act.modify g) :=
  Calm.of fun s => ⟨by simp, h s⟩
theorem createPdr_calm (ue : Bool) (ie : PdrIE) : Calm (createPdr ue ie) := by
  unfold createPdr
  cases ie.pdrId with
  | none => exact Calm.of fun s => ⟨by simp, rfl⟩
  | some id =>
    exact Calm.bind (extractPdr_calm _ _ _) fun _ => Calm.bind (modify_calm _ fun _ => rfl) fun _ =>
      Calm.bind (applyPdr_calm _) fun _ => modify_calm _ fun _ => rfl
theorem updatePdr_calm (ue : Bool) (ie : PdrIE) : Calm (updatePdr ue ie) := by
  unfold updatePdr
  cases ie.pdrId with
  | none => exact Calm.of fun s => ⟨by simp, rfl⟩
  | some id =>
    exact Calm.bind (fun s hs => ⟨by simp, hs⟩) fun _ => Calm.bind (extractPdr_calm _ _ _) fun _ =>
      Calm.bind (modify_calm _ fun _ => rfl) fun _ => applyPdr_calm _
theorem releaseTeids_calm (ord : Orders) : Calm (releaseTeids ord) := by
  intro s hs
  unfold releaseTeids
  split
  · exact absurd ‹_› hs
  · simp
theorem deletePdrEntry_calm (p : SPdr) : Calm (deletePdrEntry p) := by
  apply Calm.of; intro s; unfold deletePdrEntry
  split
  · split <;> simp
  · split <;> simp
  · split
    · simp
    · split <;> simp
theorem deletePdr_calm (ord : Orders) (p : SPdr) : Calm (deletePdr ord p) := by
  refine Calm.bind (deletePdrEntry_calm p) fun _ => ?_
  split
  · exact releaseTeids_calm ord
  · exact Calm.pure ()
theorem removePdr_calm (ord : Orders) (id) : Calm (removePdr ord id) := by
  refine Calm.bind (fun s hs => ⟨by simp, hs⟩) fun s => ?_
  simp only []
  split
  · exact Calm.pure ()
  · exact Calm.bind (modify_calm _ fun _ => rfl) fun _ => deletePdr_calm _ _
theorem dropFar_calm (e) : Calm (dropFar e) := by
  apply Calm.of; intro s; unfold dropFar; split <;> simp
theorem dropQer_calm (e) : Calm (dropQer e) := by
  apply Calm.of; intro s; unfold dropQer; split <;> simp
theorem dropUrr_calm (e) : Calm (dropUrr e) := by
  apply Calm.of; intro s; unfold dropUrr; split <;> simp
theorem Calm.ignore {m : Act HS Unit} (h : Calm m) : Calm (Act.ignore m) := by
  intro s hs
  have := h s hs
  unfold Act.ignore
  rcases hm : m s with ⟨s1, r⟩
  rw [hm] at this
  cases r with
  | ok _ => exact this
  | err => exact ⟨by simp, this.2⟩
  | panic => exact absurd rfl this.1

theorem dropSessions_calm (ord : Orders) : ∀ (l : List (U64 × Session)) (rm : Option ResourceManager) (dp : BpfObjects),
    rm ≠ none → (dropSessions ord l rm dp).1 ≠ none ∧ (dropSessions ord l rm dp).2.2 = true
  | [], rm, dp, h => ⟨h, rfl⟩
  | (seid, sess) :: l, rm, dp, h => by
    have hc : Calm (deleteSessionBody ord sess) :=
      Calm.bind (Calm.each fun _ _ => (dropFar_calm _).ignore) fun _ => Calm.bind (Calm.each fun _ _ => (dropQer_calm _).ignore) fun _ =>
        Calm.each fun _ _ => (deletePdr_calm _ _).ignore
    have := hc ⟨sess, GoMap.empty, rm, dp, [], []⟩ h
    unfold dropSessions
    simp only
    split
    · exact absurd ‹_› this.1
    · exact dropSessions_calm ord l _ _ this.2

/-- **C59.** With working address pools, a message without one of the listed defects does not kill the process in
any node state (and the pools keep working, so this holds along every history of such messages). -/
theorem C59_no_crash_partial (n : Node) (hrm : n.rm ≠ none) (e : Ev) (he : e.sound n) :
    (n.step e).2 ≠ .crash ∧ (n.step e).1.rm ≠ none := by
  cases e with
  | setConfig u => exact ⟨by simp [Node.step], hrm⟩
  | assocSetup a s i t =>
    rcases other_step n (.assocSetup a s i t) rfl with h | ⟨b, _, h⟩ <;> rw [h]
    all_goals
      refine ⟨?_, hrm⟩
      simp only [Node.step, Node.assocSetup]
      repeat' split
      all_goals simp
  | assocSetupResp a i c f =>
    rcases other_step n (.assocSetupResp a i c f) rfl with h | ⟨b, _, h⟩ <;> rw [h]
    all_goals
      refine ⟨?_, hrm⟩
      simp only [Node.step, Node.assocSetupResp]
      repeat' split
      all_goals simp
  | assocUpdate a s i =>
    rcases other_step n (.assocUpdate a s i) rfl with h | ⟨b, _, h⟩ <;> rw [h]
    all_goals
      refine ⟨?_, hrm⟩
      simp only [Node.step, Node.assocUpdate]
      repeat' split
      all_goals simp
  | heartbeatReq a s t =>
    have he : t ≠ none := he
    simp only [Node.step, Node.heartbeatReq]
    split
    · exact absurd rfl he
    · exact ⟨by simp, hrm⟩
    · exact ⟨by simp, hrm⟩
  | heartbeatResp a s t =>
    have he : t ≠ none := he
    simp only [Node.step, Node.heartbeatResp]
    exact ⟨by simp, hrm⟩
  | establish addr r =>
    simp only [Node.step]
    cases establish_cases n addr r with
    | refused c hcc he' => rw [he']; exact ⟨by simp, hrm⟩
    | ran remote a hs res hid hcp ha hbody hl hrem he' =>
      have hc : Calm (establishBody n.ueip r) :=
        Calm.bind (display_calm he.2) fun _ => Calm.bind (Calm.each fun ie h => createFar_calm (he.1 ie h)) fun _ => Calm.bind (Calm.each fun _ _ => createQer_calm _) fun _ =>
          Calm.bind (Calm.each fun _ _ => createUrr_calm _) fun _ => Calm.each fun _ _ => createPdr_calm _ _
      have := hc (n.hs (Session.new (a.nextSessionID + 1) remote)) hrm
      rw [hbody] at this
      rw [he']
      cases res with
      | ok _ => exact ⟨by simp [Node.estResult], this.2⟩
      | err => exact ⟨by simp [Node.estResult], this.2⟩
      | panic => exact absurd rfl this.1
  | modify addr r ord =>
    simp only [Node.step]
    cases modify_cases n addr r ord with
    | refused c x hcc hs he' => rw [he']; exact ⟨by simp, hrm⟩
    | ran a sess hs res ha hsess hbody hl hrem he' =>
      have hc : Calm (modifyBody n.ueip ord r) :=
        Calm.bind (display_calm fun ie h => he.2 ie (List.mem_append_left _ h)) fun _ =>
        Calm.bind (display_calm fun ie h => he.2 ie (List.mem_append_right _ h)) fun _ =>
        Calm.bind (Calm.each fun ie h => createFar_calm (he.1 ie (List.mem_append_left _ h))) fun _ =>
        Calm.bind (Calm.each fun ie h => updateFar_calm (he.1 ie (List.mem_append_right _ h))) fun _ =>
        Calm.bind (Calm.each fun _ _ => removeFar_calm _) fun _ => Calm.bind (Calm.each fun _ _ => createQer_calm _) fun _ =>
        Calm.bind (Calm.each fun _ _ => updateQer_calm _) fun _ => Calm.bind (Calm.each fun _ _ => removeQer_calm _) fun _ =>
        Calm.bind (Calm.each fun _ _ => createUrr_calm _) fun _ => Calm.bind (Calm.each fun _ _ => updateUrr_calm _) fun _ =>
        Calm.bind (Calm.each fun _ _ => removeUrr_calm _) fun _ => Calm.bind (Calm.each fun _ _ => createPdr_calm _ _) fun _ =>
        Calm.bind (Calm.each fun _ _ => updatePdr_calm _ _) fun _ => Calm.each fun _ _ => removePdr_calm _ _
      have := hc (n.hs (sess.setRemote r.cpFseid)) hrm
      rw [hbody] at this
      rw [he']
      cases res with
      | ok _ => exact ⟨by simp [Node.modResult], this.2⟩
      | err => exact ⟨by simp [Node.modResult], this.2⟩
      | panic => exact absurd rfl this.1
  | delete addr r ord =>
    simp only [Node.step]
    cases delete_cases n addr r ord with
    | refused c hcc hs he' => rw [he']; exact ⟨by simp, hrm⟩
    | ran a sess hs res ha hsess hbody he' =>
      have hc : Calm (deleteBody ord sess) :=
        Calm.bind (Calm.each fun _ _ => deletePdr_calm _ _) fun _ => Calm.bind (Calm.each fun _ _ => dropFar_calm _) fun _ =>
        Calm.bind (Calm.each fun _ _ => dropQer_calm _) fun _ => Calm.each fun _ _ => dropUrr_calm _
      have := hc (n.hs sess) hrm
      rw [hbody] at this
      rw [he']
      cases res with
      | ok _ =>
        refine ⟨by simp [Node.delResult], ?_⟩
        obtain ⟨r', hr'⟩ := Option.ne_none_iff_exists'.1 this.2
        show releaseResources ord r.seid hs.rm ≠ none
        have hr2 : hs.rm = some r' := hr'
        rw [hr2]; simp [releaseResources]
      | err => exact ⟨by simp [Node.delResult], this.2⟩
      | panic => exact absurd rfl this.1
  | peerLost addr ord =>
    obtain ⟨a, ha⟩ := Option.isSome_iff_exists.1 (show (n.assocs.get? addr).isSome from he)
    simp only [Node.step, Node.deleteAssociation, ha]
    have := dropSessions_calm ord (ord.sessions.run a.sessions.entries) n.rm n.dp hrm
    rcases hd : dropSessions ord (ord.sessions.run a.sessions.entries) n.rm n.dp with ⟨rm, dp, b⟩
    rw [hd] at this
    obtain ⟨h1, h2⟩ := this
    simp only at h2
    subst h2
    exact ⟨by simp, h1⟩

/-- Non-vacuity: the events of the demo history are sound in the states in which they occur, and the pools of the
demo node work. -/
example : Demo.nEnd.rm ≠ none ∧ Ev.sound Demo.nEnd (.establish 1 (Demo.est 300)) := by
  refine ⟨by decide +kernel, ?_, ?_⟩
  · intro ie h
    simp only [Demo.est, List.mem_singleton] at h
    subst h
    exact ⟨by decide, by decide⟩
  · intro ie h p hp
    simp only [Demo.est, List.mem_cons, List.not_mem_nil, or_false] at h
    rcases h with rfl | rfl <;> cases hp <;> rfl

theorem display_one (ie : PdrIE) (s : HS) : displayPdr ie s = (s, if ie.pdi.all (·.source) then .ok () else .panic) := by
  unfold displayPdr
  cases ie.pdi with
  | none => rfl
  | some p => cases hp : p.source <;> simp [hp]
theorem sound_iff (ie : PdrIE) : ie.sound ↔ ie.pdi.all (·.source) = true := by
  unfold PdrIE.sound
  cases ie.pdi <;> simp
theorem display_fine {l : List PdrIE} (h : ∀ ie ∈ l, ie.sound) {s : HS} : Act.each displayPdr l s = (s, .ok ()) := by
  induction l with
  | nil => rfl
  | cons x l ih =>
    have hx := (sound_iff x).1 (h x (.head _))
    simp only [Act.each, Act.bind, display_one, hx, if_true, ih fun ie hie => h ie (.tail _ hie)]
theorem display_panics {l : List PdrIE} (h : ¬ ∀ ie ∈ l, ie.sound) (s : HS) : Act.each displayPdr l s = (s, .panic) := by
  induction l with
  | nil => exact absurd (fun _ h => by cases h) h
  | cons x l ih =>
    by_cases hx : x.sound
    · have := ih fun h' => h fun ie hie => by cases hie with
        | head => exact hx
        | tail _ hie => exact h' ie hie
      simp only [Act.each, Act.bind, display_one, (sound_iff x).1 hx, if_true, this]
    · have : ¬ x.pdi.all (·.source) = true := fun h => hx ((sound_iff x).2 h)
      simp only [Act.each, Act.bind, display_one, if_neg this]

/-- **C59, negations.** In every node state: a heartbeat without Recovery Time Stamp kills the process; in a state
where a peer has an association, so do its establishments with an empty Apply Action, with an undecodable Outer Header Creation, or with a
PDI without Source Interface, and its modifications of a session with such a PDI, whatever else they contain. -/
theorem C59_crashes (n : Node) :
    (∀ a s, (n.step (.heartbeatReq a s none)).2 = .crash ∧ (n.step (.heartbeatResp a s none)).2 = .crash) ∧
    (∀ addr cp seq ie, (n.assocs.get? addr).isSome → ie.applyAction = some [] ∨
        (ie.applyAction = none ∧ ie.kind = .create ∧ ie.forward = some (some none)) →
      (n.step (.establish addr { seq := seq, nodeId := some (some ()), cpFseid := some (some cp), createFar := [ie] })).2 = .crash) ∧
    (∀ addr r cp, (n.assocs.get? addr).isSome → r.nodeId = some (some ()) → r.cpFseid = some (some cp) → (¬ ∀ ie ∈ r.createPdr, ie.sound) →
      (n.step (.establish addr r)).2 = .crash) ∧
    (∀ addr r ord, (n.session? addr r.seid).isSome → (¬ ∀ ie ∈ r.createPdr ++ r.updatePdr, ie.sound) →
      (n.step (.modify addr r ord)).2 = .crash) := by
  refine ⟨fun a s => ⟨rfl, rfl⟩, ?_, ?_, ?_⟩
  rotate_left
  · intro addr r cp ha h1 h2 h3
    obtain ⟨a, ha⟩ := Option.isSome_iff_exists.1 ha
    have hb : ∀ hs, (establishBody n.ueip r hs).2 = .panic := by
      intro hs
      have := display_panics h3 hs
      simp only [establishBody, Act.bind_def, Act.bind, this]
    simp only [Node.step, Node.establish, validateRequest, h1, h2, ha, Assoc.newLocalSEID, hb]
  · intro addr r ord hs h3
    obtain ⟨s, hs⟩ := Option.isSome_iff_exists.1 hs
    unfold Node.session? at hs
    cases ha : n.assocs.get? addr with
    | none => rw [ha] at hs; cases hs
    | some a =>
      rw [ha] at hs
      have hs : a.sessions.get? r.seid = some s := hs
      have hb : ∀ hs, (modifyBody n.ueip ord r hs).2 = .panic := by
        intro hs
        simp only [modifyBody, Act.bind_def, Act.bind]
        by_cases h : ∀ ie ∈ r.createPdr, ie.sound
        · have h' : ¬ ∀ ie ∈ r.updatePdr, ie.sound := fun h' => h3 fun ie hie => (List.mem_append.1 hie).elim (h ie) (h' ie)
          rw [display_fine h]
          simp only [display_panics h']
        · simp only [display_panics h]
      simp only [Node.step, Node.modify, ha, hs, hb]
  intro addr cp seq ie ha hie
  obtain ⟨a, ha⟩ := Option.isSome_iff_exists.1 ha
  have hp : composeFarInfo ie {} = .panic := by
    rcases hie with h | ⟨h1, h2, h3⟩
    · simp [composeFarInfo, composeAction, h]
    · simp [composeFarInfo, composeAction, composeForward, h1, h2, h3]
  have hb : ∀ hs, (establishBody n.ueip { seq := seq, nodeId := some (some ()), cpFseid := some (some cp), createFar := [ie] } hs).2
      = .panic := by
    intro hs
    simp only [establishBody, Act.bind_def, Act.bind, Act.each, createFar, hp, Act.pure]
  simp only [Node.step, Node.establish, validateRequest, ha, Assoc.newLocalSEID, hb]

/-- a node whose UE address pool failed to build (main.go 83-96 only logs this) -/
def Demo.nNoPool : Node := Node.init Demo.cfg none Demo.dp

/-- **C59, negation.** Without pools (an invalid UE pool in the configuration) deleting a session with a TEID kills
the process. -/
theorem C59_crash_without_pools : .crash ∈ (Demo.nNoPool.run
    [.assocSetup 1 1 (some (some ())) (some (some ())),
     .establish 1 { seq := 2, nodeId := some (some ()), cpFseid := some (some 5), createFar := [Demo.fwd],
                    createPdr := [{ pdrId := some 1, farId := some 1, pdi := some { fteid := some (some ⟨7, false, none⟩) } }] },
     .delete 1 ⟨2, 3⟩ default]).2 := by decide +kernel

end Eupf
