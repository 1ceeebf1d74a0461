import Verif.Props.WriteOrder
import Verif.CapacityLemmas
import Verif.MomentSlots
import Verif.Spec.Timers
import Verif.Props.Overlap
/- What requests do to the timers of the rate limiter and to the usage counters. Models no code. -/
namespace Eupf
open Act

/-! ### requests about other sessions -/

/-- Compares the slots of session `(a, s)` exactly and no others. -/
def SlotCmp.only (a : Addr) (s : U64) : SlotCmp :=
  ⟨fun o v w => o.1 = some (a, s) → v = w, fun o v w => o.1 = some (a, s) → v = w, fun _ => False, fun _ => False, fun _ _ _ _ => rfl, fun _ _ _ _ => rfl⟩

/-- The session with what the tables have in the slot of QER `j` and of URR `i`, and no other QERs and URRs. -/
def Session.frozen (x : Session) (dp : BpfObjects) (j i : U32) : Session :=
  { x with
    qers := match x.qers.get? j with
      | some q => GoMap.empty.set j ⟨dp.qer.val q.gid, q.gid⟩
      | none => GoMap.empty
    urrs := match x.urrs.get? i with
      | some u => GoMap.empty.set i ⟨dp.urr.val u.gid, u.gid, u.seqn⟩
      | none => GoMap.empty }

theorem frozen_qer {x : Session} {dp : BpfObjects} {j i : U32} {k : U32} {y : SQer} (h : (x.frozen dp j i).qers.get? k = some y) :
    ∃ q, x.qers.get? k = some q ∧ y = ⟨dp.qer.val q.gid, q.gid⟩ := by
  unfold Session.frozen at h
  simp only at h
  cases hq : x.qers.get? j with
  | none => rw [hq] at h; cases h
  | some q =>
    rw [hq] at h
    simp only [GoMap.get?_set] at h
    split at h
    · rename_i e; subst e; cases h; exact ⟨q, hq, rfl⟩
    · cases h
theorem frozen_urr {x : Session} {dp : BpfObjects} {j i : U32} {k : U32} {y : SUrr} (h : (x.frozen dp j i).urrs.get? k = some y) :
    ∃ u, x.urrs.get? k = some u ∧ y.gid = u.gid ∧ y.info = dp.urr.val u.gid := by
  unfold Session.frozen at h
  simp only at h
  cases hq : x.urrs.get? i with
  | none => rw [hq] at h; cases h
  | some q =>
    rw [hq] at h
    simp only [GoMap.get?_set] at h
    split at h
    · rename_i e; subst e; cases h; exact ⟨q, hq, rfl, rfl⟩
    · cases h

theorem slots_frozen {n : Node} (S : Slots n.view n.dp) {a : Addr} {s : U64} {x : Session} (hx : n.session? a s = some x) (j i : U32) :
    SlotsX (.only a s) (n.view.upd (some (a, s)) (x.frozen n.dp j i)) n.dp := by
  have hv : n.view (some (a, s)) = some x := hx
  have qo : ∀ o g v, ownQer (n.view.upd (some (a, s)) (x.frozen n.dp j i)) o = some (g, v) →
      (∃ w, ownQer n.view o = some (g, w)) ∧ (o.1 = some (a, s) → n.dp.qer.val g = v) := by
    rintro ⟨o, k⟩ g v ho
    by_cases e : o = some (a, s)
    · subst e
      rw [ownQer_upd] at ho
      obtain ⟨y, h1, h2⟩ := Option.map_eq_some_iff.1 ho
      obtain ⟨q, h3, rfl⟩ := frozen_qer h1
      cases h2
      exact ⟨⟨q.info, by simp [ownQer, hv, h3]⟩, fun _ => rfl⟩
    · rw [ownQer_upd_ne e] at ho
      exact ⟨⟨v, ho⟩, fun h => absurd h e⟩
  have uo : ∀ o g v, ownUrr (n.view.upd (some (a, s)) (x.frozen n.dp j i)) o = some (g, v) →
      (∃ w, ownUrr n.view o = some (g, w)) ∧ (o.1 = some (a, s) → n.dp.urr.val g = v) := by
    rintro ⟨o, k⟩ g v ho
    by_cases e : o = some (a, s)
    · subst e
      rw [ownUrr_upd] at ho
      obtain ⟨y, h1, h2⟩ := Option.map_eq_some_iff.1 ho
      obtain ⟨u, h3, h4, h5⟩ := frozen_urr h1
      cases h2
      exact ⟨⟨u.info, by simp [ownUrr, hv, h3, h4]⟩, fun _ => by rw [h5, h4]⟩
    · rw [ownUrr_upd_ne e] at ho
      exact ⟨⟨v, ho⟩, fun h => absurd h e⟩
  refine ⟨?_, ⟨S.qer.size, ?_, ?_⟩, ⟨S.urr.size, ?_, ?_⟩⟩
  · have e : ownFar (n.view.upd (some (a, s)) (x.frozen n.dp j i)) = ownFar n.view := by
      have := ownFar_congr (view := n.view) (k := some (a, s)) (s := x) (s' := x.frozen n.dp j i) rfl
      rw [this, upd_self hv]
    rw [e]; exact S.far
  · intro k k' g v v' h1 h2
    obtain ⟨⟨w, h1⟩, -⟩ := qo _ _ _ h1
    obtain ⟨⟨w', h2⟩, -⟩ := qo _ _ _ h2
    exact S.qer.excl _ _ _ _ _ h1 h2
  · intro k g v h1
    obtain ⟨⟨w, h1⟩, h2⟩ := qo _ _ _ h1
    obtain ⟨g1, g2, -⟩ := S.qer.ok _ _ _ h1
    exact ⟨g1, g2, h2⟩
  · intro k k' g v v' h1 h2
    obtain ⟨⟨w, h1⟩, -⟩ := uo _ _ _ h1
    obtain ⟨⟨w', h2⟩, -⟩ := uo _ _ _ h2
    exact S.urr.excl _ _ _ _ _ h1 h2
  · intro k g v h1
    obtain ⟨⟨w, h1⟩, h2⟩ := uo _ _ _ h1
    obtain ⟨g1, g2, -⟩ := S.urr.ok _ _ _ h1
    exact ⟨g1, g2, h2⟩

/-- After some pieces of an event that is not about the session its QER and URR slots are as before. -/
theorem pieces_frame {n : Node} {e : Ev} (S : Slots n.view n.dp) (hr : e.refsKnown n) {a : Addr} {s : U64} (hab : ¬ e.about a s) {x : Session}
    (hx : n.session? a s = some x) {s0 : HS} {l1 l2 : List Piece} (hj : n.job e = some (s0, l1 ++ l2)) :
    (∀ j q, x.qers.get? j = some q → (Act.all l1 s0).1.dp.qer.val q.gid = n.dp.qer.val q.gid) ∧
    (∀ i u, x.urrs.get? i = some u → (Act.all l1 s0).1.dp.urr.val u.gid = n.dp.urr.val u.gid) := by
  constructor
  · intro j q hq
    obtain ⟨v, h1, h2⟩ := pieces_slots (slots_frozen S hx j 0) hr hab (fun _ => ⟨id, id⟩) (by intro y hy; simp only [View.upd, if_neg hy]) hj
    have := (h1.qer.ok (some (a, s), j) q.gid (n.dp.qer.val q.gid) (by
      rw [View.upd, if_pos rfl] at h2
      simp [ownQer, h2, Session.frozen, hq])).2.2 rfl
    exact this
  · intro i u hu
    obtain ⟨v, h1, h2⟩ := pieces_slots (slots_frozen S hx 0 i) hr hab (fun _ => ⟨id, id⟩) (by intro y hy; simp only [View.upd, if_neg hy]) hj
    have := (h1.urr.ok (some (a, s), i) u.gid (n.dp.urr.val u.gid) (by
      rw [View.upd, if_pos rfl] at h2
      simp [ownUrr, h2, Session.frozen, hu])).2.2 rfl
    exact this

/-- After the event too. -/
theorem step_frame {n : Node} {e : Ev} (S : Slots n.view n.dp) (hr : e.refsKnown n) {a : Addr} {s : U64} (hab : ¬ e.about a s) {x : Session}
    (hx : n.session? a s = some x) :
    (∀ j q, x.qers.get? j = some q → (n.step e).1.dp.qer.val q.gid = n.dp.qer.val q.gid) ∧
    (∀ i u, x.urrs.get? i = some u → (n.step e).1.dp.urr.val u.gid = n.dp.urr.val u.gid) := by
  cases hj : n.job e with
  | none => rw [job_none_dp hj]; exact ⟨fun _ _ _ => rfl, fun _ _ _ => rfl⟩
  | some y =>
    obtain ⟨s0, l⟩ := y
    rw [(job_dp hj).1]
    exact pieces_frame S hr hab hx (l1 := l) (l2 := []) (by rw [List.append_nil]; exact hj)

/-! ### modifications that do not name the QER -/

/-- Compares the slot of QER `j` of `k` with `V`, which must not be written. -/
def SlotCmp.still (k : Option (Addr × U64)) (j : U32) (V : QerInfo) : SlotCmp :=
  ⟨fun o v _ => o = (k, j) → v = V, fun _ _ _ => True, fun o => o = (k, j), fun _ => False, fun _ _ h e => absurd e h, fun _ _ _ => trivial⟩

/-- the invariant of the session -/
abbrev HasQer (j : U32) (q : SQer) (s : HS) : Prop := s.sess.qers.get? j = some q

theorem hasQer_far {j q} {α : Type} {m : Act HS α} (h : ∀ s, onlyFar s (m s).1) : Pres (HasQer j q) m :=
  pres_of fun s hs => by obtain ⟨a, i, fs, e⟩ := h s; rw [e]; exact hs
theorem hasQer_urr {j q} {α : Type} {m : Act HS α} (h : ∀ s, onlyUrr s (m s).1) : Pres (HasQer j q) m :=
  pres_of fun s hs => by obtain ⟨a, i, fs, rs, e⟩ := h s; rw [e]; exact hs
theorem hasQer_apart {j q} {α : Type} {m : Act HS α} (h : ∀ s0, Pres (Apart s0) m) : Pres (HasQer j q) m :=
  pres_of fun s hs => by
    have ap := apart_of h s
    show (m s).1.sess.qers.get? j = some q
    rw [ap.qers]; exact hs
theorem hasQer_create {j q} {ie : QerIE} (hne : ie.qerId ≠ some j) : Pres (HasQer j q) (createQer ie) := by
  apply pres_of; intro s hs
  unfold createQer
  split
  · exact hs
  · rename_i id hid
    rcases hd : s.dp.newQer (mergeQer {} ie) with ⟨dp, g⟩
    simp only [hd]
    cases g with
    | none => exact hs
    | some g =>
      show (s.sess.qers.set id _).get? j = some q
      rw [GoMap.get?_set, if_neg (by rintro rfl; exact hne hid)]; exact hs
theorem hasQer_update {j q} {ie : QerIE} (hne : ie.qerId ≠ some j) : Pres (HasQer j q) (updateQer ie) := by
  apply pres_of; intro s hs
  unfold updateQer
  split
  · exact hs
  · rename_i id hid
    have h2 : ((s.sess.updateQer id (mergeQer (s.sess.getQer id).info ie)).qers).get? j = some q := by
      simp only [Session.updateQer]
      rw [GoMap.get?_set, if_neg (by rintro rfl; exact hne hid)]; exact hs
    simp only []
    cases hu : s.dp.updateQer (s.sess.getQer id).gid (mergeQer (s.sess.getQer id).info ie) with
    | none => exact h2
    | some dp => exact h2
theorem hasQer_remove {j q} {id : Option U32} (hne : id ≠ some j) : Pres (HasQer j q) (removeQer id) := by
  apply pres_of; intro s hs
  unfold removeQer
  split
  · exact hs
  · rename_i id
    have h2 : ((s.sess.removeQer id).qers).get? j = some q := by
      simp only [Session.removeQer]
      rw [GoMap.get?_erase, if_neg (by rintro rfl; exact hne rfl)]; exact hs
    simp only []
    rcases he : s.dp.deleteQer (s.sess.getQer id).gid with ⟨dp, b⟩
    cases b <;> exact h2

/-- A modification that does not name the QER leaves its slot exactly as it was. -/
theorem own_frame {n : Node} {a : Addr} {r : ModReq} {ord : Orders} (S : Slots n.view n.dp) {x : Session} (hk : RefsKnown r x)
    (hx : n.session? a r.seid = some x) {j : U32} {q : SQer} (hq : x.qers.get? j = some q) (hc : ∀ ie ∈ r.createQer, ie.qerId ≠ some j)
    (hu : ∀ ie ∈ r.updateQer, ie.qerId ≠ some j) (hd : some j ∉ r.removeQer) :
    (∃ x', (n.modify a r ord).1.session? a r.seid = some x' ∧ x'.qers.get? j = some q) ∧
    (n.modify a r ord).1.dp.qer.val q.gid = n.dp.qer.val q.gid := by
  cases modify_cases n a r ord with
  | refused c y hcc hs he => rw [hx] at hs; cases hs
  | ran as sess hs res ha hsess hbody hl hrem he =>
    have hx' : sess = x := by
      have : n.session? a r.seid = some sess := by simp [Node.session?, ha, hsess]
      rw [hx] at this; exact (Option.some.inj this).symm
    subst hx'
    have hv : n.view (some (a, r.seid)) = some sess := hx
    have hk' : RefsKnown r (sess.setRemote r.cpFseid) := by
      unfold Session.setRemote; split
      · exact ⟨hk.1, hk.2, hk.3, hk.4, hk.5, hk.6, hk.7, hk.8, hk.9⟩
      · exact hk
    have S' : SlotsX (.still (some (a, r.seid)) j (n.dp.qer.val q.gid)) n.view n.dp := by
      refine ⟨S.far, ⟨S.qer.size, S.qer.excl, ?_⟩, ⟨S.urr.size, S.urr.excl, fun k g v h => ⟨(S.urr.ok k g v h).1, (S.urr.ok k g v h).2.1, trivial⟩⟩⟩
      intro k g v h
      refine ⟨(S.qer.ok k g v h).1, (S.qer.ok k g v h).2.1, ?_⟩
      rintro rfl
      have : ownQer n.view (some (a, r.seid), j) = some (q.gid, q.info) := by simp [ownQer, hv, hq]
      rw [this] at h; cases h; rfl
    have hi := modifyBody_slots (c := .still (some (a, r.seid)) j (n.dp.qer.val q.gid)) (view := n.view) (k := some (a, r.seid)) n.ueip ord r
      (sess.setRemote r.cpFseid) hk' (n.hs (sess.setRemote r.cpFseid)) rfl (by
        refine slots_of (s := sess) (by rw [upd_self hv]; exact S') ?_ ?_ ?_ <;>
        · unfold Session.setRemote Node.hs; split <;> rfl)
      (by intro ie hie i hi h; cases h; exact hc ie hie hi) (by intro ie hie i hi h; cases h; exact hu ie hie hi) (fun _ _ h => h) (fun _ _ h => h)
    have hp : Pres (HasQer j q) (modifyBody n.ueip ord r) :=
      modifyBody_pres (fun _ _ => hasQer_far (createFar_only _)) (fun _ _ => hasQer_far (updateFar_only _)) (fun _ _ => hasQer_far (removeFar_only _))
        (fun ie h => hasQer_create (hc ie h)) (fun ie h => hasQer_update (hu ie h)) (fun id h => hasQer_remove (by rintro rfl; exact hd h))
        (fun _ _ => hasQer_urr (createUrr_only _)) (fun _ _ => hasQer_urr (updateUrr_only _)) (fun _ _ => hasQer_urr (removeUrr_only _))
        (fun _ _ => hasQer_apart (apart_create _ _)) (fun _ _ => hasQer_apart (apart_update _ _)) (fun _ _ => hasQer_apart (apart_remove _ _))
    have hp' : HasQer j q (modifyBody n.ueip ord r (n.hs (sess.setRemote r.cpFseid))).1 := hp.apply (show ((sess.setRemote r.cpFseid).qers).get? j = some q by
      rw [(setRemote_rules sess r.cpFseid).2.1]; exact hq)
    rw [hbody] at hi hp'
    rw [he]
    refine ⟨⟨hs.sess, by simp [Node.modResult, Node.session?, GoMap.get?_set], hp'⟩, ?_⟩
    exact (hi.qer.ok (some (a, r.seid), j) q.gid q.info (by rw [ownQer_upd, hp']; rfl)).2.2 rfl

/-- **A request that does not touch the QER** leaves the session its QER and the slot of it exactly as it was. -/
theorem slot_still {n : Node} {e : Ev} (S : Slots n.view n.dp) (hr : e.refsKnown n) {a : Addr} {s : U64} {j : U32} (ht : ¬ e.touches a s j)
    (hfresh : ∀ as, n.assocs.get? a = some as → s ≠ as.nextSessionID + 1) {x : Session} (hx : n.session? a s = some x) {q : SQer} (hq : x.qers.get? j = some q) :
    (∃ x', (n.step e).1.session? a s = some x' ∧ x'.qers.get? j = some q) ∧ (n.step e).1.dp.qer.val q.gid = n.dp.qer.val q.gid := by
  by_cases hab : e.about a s
  · cases e with
    | modify a' r ord =>
      obtain ⟨rfl, rfl⟩ := hab
      exact own_frame S (hr x hx) hx hq (fun ie h1 h2 => ht ⟨rfl, rfl, .inl ⟨ie, h1, h2⟩⟩) (fun ie h1 h2 => ht ⟨rfl, rfl, .inr (.inl ⟨ie, h1, h2⟩)⟩)
        (fun h => ht ⟨rfl, rfl, .inr (.inr h)⟩)
    | delete => exact absurd hab ht
    | peerLost => exact absurd hab ht
    | establish => exact absurd hab id
    | setConfig => exact absurd hab id
    | assocSetup => exact absurd hab id
    | assocSetupResp => exact absurd hab id
    | assocUpdate => exact absurd hab id
    | heartbeatReq => exact absurd hab id
    | heartbeatResp => exact absurd hab id
  · exact ⟨⟨x, (session_kept hfresh hab).trans hx, hq⟩, (step_frame S hr hab hx).1 j q hq⟩

/-! ### requests write timers 0 -/

theorem mergeQer_timers (q : QerInfo) (ie : QerIE) : (mergeQer q ie).startUL = 0 ∧ (mergeQer q ie).startDL = 0 := ⟨rfl, rfl⟩

section
variable {P : QerInfo → Prop} (hP : ∀ v : QerInfo, v.startUL = 0 → v.startDL = 0 → P v)

/-- as an invariant of bodies -/
abbrev QT (P : QerInfo → Prop) (s : HS) : Prop := HI (fun _ => True) (fun _ dp => ∀ g, P (dp.qer.val g)) s

theorem arr_update {V : Type} {arr arr' : ArrMap V} {g : U32} {v : V} {P : V → Prop} (hu : arr.update g v = some arr') (h : ∀ g, P (arr.val g)) (hv : P v) :
    ∀ g, P (arr'.val g) := by
  unfold ArrMap.update at hu
  split at hu
  · cases hu
    intro g'
    simp only
    split
    · exact hv
    · exact h g'
  · cases hu

theorem qt_far {α : Type} {m : Act HS α} (h : ∀ s, onlyFar s (m s).1) : Pres (QT P) m :=
  pres_of fun s hs => by obtain ⟨a, i, fs, e⟩ := h s; rw [e]; exact hs
theorem qt_urr {α : Type} {m : Act HS α} (h : ∀ s, onlyUrr s (m s).1) : Pres (QT P) m :=
  pres_of fun s hs => by obtain ⟨a, i, fs, rs, e⟩ := h s; rw [e]; exact hs
theorem qt_apart {α : Type} {m : Act HS α} (h : ∀ s0, Pres (Apart s0) m) : Pres (QT P) m :=
  pres_of fun s hs => by
    have ap := apart_of h s
    refine ⟨trivial, ?_⟩
    intro g; show P ((m s).1.dp.qer.val g); rw [ap.qer]; exact hs.2 g

include hP
theorem qt_createQer (ie : QerIE) : Pres (QT P) (createQer ie) := by
  apply pres_of; intro s hs
  unfold createQer
  split
  · exact hs
  · rename_i id _
    have hm := mergeQer_timers {} ie
    have hn : ∀ g, P ((s.dp.newQer (mergeQer {} ie)).1.qer.val g) := by
      generalize mergeQer {} ie = v at hm
      unfold BpfObjects.newQer
      simp only []
      split
      · exact hs.2
      · split
        · rename_i hu; exact arr_update hu hs.2 (hP _ hm.1 hm.2)
        · exact hs.2
    rcases hd : s.dp.newQer (mergeQer {} ie) with ⟨dp, g⟩
    rw [hd] at hn
    simp only [hd]
    cases g <;> exact ⟨trivial, hn⟩

theorem qt_updateQer (ie : QerIE) : Pres (QT P) (updateQer ie) := by
  apply pres_of; intro s hs
  unfold updateQer
  split
  · exact hs
  · rename_i id _
    have hm := mergeQer_timers (s.sess.getQer id).info ie
    generalize mergeQer (s.sess.getQer id).info ie = v at hm
    simp only []
    cases hu : s.dp.updateQer (s.sess.getQer id).gid v with
    | none => exact ⟨trivial, hs.2⟩
    | some dp =>
      obtain ⟨arr, ha, rfl⟩ := Option.map_eq_some_iff.1 hu
      exact ⟨trivial, arr_update ha hs.2 (hP _ hm.1 hm.2)⟩

theorem qt_deleteQer {dp : BpfObjects} (h : ∀ g, P (dp.qer.val g)) (g : U32) : ∀ g', P ((dp.deleteQer g).1.qer.val g') := by
  unfold BpfObjects.deleteQer
  simp only []
  split
  · rename_i hu; exact arr_update hu h (hP {} rfl rfl)
  · exact h

theorem qt_removeQer (id : Option U32) : Pres (QT P) (removeQer id) := by
  apply pres_of; intro s hs
  unfold removeQer
  split
  · exact hs
  · rename_i id
    have hd := qt_deleteQer hP hs.2 (s.sess.getQer id).gid
    simp only []
    rcases he : s.dp.deleteQer (s.sess.getQer id).gid with ⟨dp, b⟩
    rw [he] at hd
    cases b <;> exact ⟨trivial, hd⟩

theorem qt_dropQer (e) : Pres (QT P) (dropQer e) := by
  apply pres_of; intro s hs
  unfold dropQer
  have hd := qt_deleteQer hP hs.2 e.2.gid
  rcases he : s.dp.deleteQer e.2.gid with ⟨dp, b⟩
  rw [he] at hd
  cases b <;> exact ⟨trivial, hd⟩

/-- What every request keeps: what holds of all entries with timers 0 and did hold of all entries of the table. -/
theorem qt_keep : BodiesStep (fun _ => True) (fun _ => True) (fun _ dp => ∀ g, P (dp.qer.val g)) where
  new _ _ := trivial
  remote _ _ _ := trivial
  est _ _ _ _ := (establishBody_pres (fun _ _ => qt_far (createFar_only _)) (fun _ _ => qt_createQer hP _) (fun _ _ => qt_urr (createUrr_only _))
    (fun _ _ => qt_apart (apart_create _ _))).keeps
  mod _ _ _ _ _ := (modifyBody_pres (fun _ _ => qt_far (createFar_only _)) (fun _ _ => qt_far (updateFar_only _)) (fun _ _ => qt_far (removeFar_only _))
    (fun _ _ => qt_createQer hP _) (fun _ _ => qt_updateQer hP _) (fun _ _ => qt_removeQer hP _)
    (fun _ _ => qt_urr (createUrr_only _)) (fun _ _ => qt_urr (updateUrr_only _)) (fun _ _ => qt_urr (removeUrr_only _))
    (fun _ _ => qt_apart (apart_create _ _)) (fun _ _ => qt_apart (apart_update _ _)) (fun _ _ => qt_apart (apart_remove _ _))).keeps
  del _ _ _ := (deleteBody_pres (fun _ _ => qt_apart (apart_delete _ _)) (fun _ _ => qt_far (dropFar_only _)) (fun _ _ => qt_dropQer hP _)
    (fun _ _ => qt_urr (dropUrr_only _))).keeps
  dels _ _ _ := (deleteSessionBody_pres (fun _ _ => qt_apart (apart_delete _ _)) (fun _ _ => qt_far (dropFar_only _)) (fun _ _ => qt_dropQer hP _)).keeps
  rel _ _ _ _ h := h

theorem timers_step {n : Node} (ht : ∀ g, P (n.dp.qer.val g)) (e : Ev) : ∀ g, P ((n.step e).1.dp.qer.val g) :=
  (ni_step (qt_keep hP) e trivial ⟨fun _ _ _ _ => trivial, ht⟩).2
end

end Eupf
