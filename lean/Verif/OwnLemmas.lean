import Verif.Spec.OwnRules
import Verif.Props.Exact
/-
PDRs use rules of their own session (C99): handler bodies. Models no code.
-/
namespace Eupf
open Act

/-- FAR `j` of the session is in slot `g` -/
def FarAt (j g : U32) (s : HS) : Prop := (s.sess.fars.get? j).map SFar.gid = some g
/-- QER `j` of the session is in slot `g` -/
def QerAt (j g : U32) (s : HS) : Prop := (s.sess.qers.get? j).map SQer.gid = some g

theorem farAt_create {j g : U32} {ie : FarIE} (h : ie.farId.getD 0 ≠ j) : Pres (FarAt j g) (createFar ie) := by
  apply pres_of; intro s hs; unfold createFar
  split
  · rename_i f _
    rcases s.dp.newFar f with ⟨dp, o⟩
    cases o
    · exact hs
    · simp only [FarAt, Session.newFar, GoMap.get?_set]
      rw [if_neg (fun e => h e.symm)]; exact hs
  · exact hs
  · exact hs
theorem farAt_created {ie : FarIE} {s s' : HS} (h : createFar ie s = (s', .ok ())) : ∃ g, FarAt (ie.farId.getD 0) g s' := by
  unfold createFar at h
  split at h
  · rename_i f _
    rcases hn : s.dp.newFar f with ⟨dp, o⟩
    rw [hn] at h
    cases o with
    | none => cases h
    | some g =>
      cases h
      exact ⟨g, by simp [FarAt, Session.newFar]⟩
  · cases h
  · cases h
theorem farAt_update {j g : U32} (ie : FarIE) : Pres (FarAt j g) (updateFar ie) := by
  apply pres_of; intro s hs; unfold updateFar
  split
  · exact hs
  · rename_i id _
    have key : ∀ f, FarAt j g { s with sess := s.sess.updateFar id f } := by
      intro f
      simp only [FarAt, Session.updateFar, GoMap.get?_set]
      split
      · rename_i hj; subst hj
        obtain ⟨f0, h1, h2⟩ := Option.map_eq_some_iff.1 hs
        simp [Session.getFar, h1, h2]
      · exact hs
    split
    · rename_i f _
      simp only []
      split <;> exact key f
    · exact hs
    · exact hs
theorem farAt_remove {j g : U32} {d : Option U32} (h : d.getD 0 ≠ j) : Pres (FarAt j g) (removeFar d) := by
  apply pres_of; intro s hs; unfold removeFar
  have key : FarAt j g { s with sess := s.sess.removeFar (d.getD 0) } := by
    simp only [FarAt, Session.removeFar, GoMap.get?_erase]
    rw [if_neg (fun e => h e.symm)]; exact hs
  simp only []
  rcases s.dp.deleteFar (s.sess.getFar (d.getD 0)).gid with ⟨dp, b⟩
  cases b <;> exact key
theorem farAt_createQer {j g : U32} (ie : QerIE) : Pres (FarAt j g) (createQer ie) := by
  apply pres_of; intro s hs; unfold createQer
  split
  · exact hs
  · simp only []
    rcases s.dp.newQer (mergeQer {} ie) with ⟨dp, o⟩
    cases o <;> exact hs
theorem farAt_updateQer {j g : U32} (ie : QerIE) : Pres (FarAt j g) (updateQer ie) := by
  apply pres_of; intro s hs; unfold updateQer
  split
  · exact hs
  · simp only []
    split <;> exact hs
theorem farAt_removeQer {j g : U32} (d : Option U32) : Pres (FarAt j g) (removeQer d) := by
  apply pres_of; intro s hs; unfold removeQer
  split
  · exact hs
  · rename_i id
    simp only []
    rcases s.dp.deleteQer (s.sess.getQer id).gid with ⟨dp, b⟩
    cases b <;> exact hs

theorem qerAt_createFar {j g : U32} (ie : FarIE) : Pres (QerAt j g) (createFar ie) := by
  apply pres_of; intro s hs; unfold createFar
  split
  · rename_i f _
    rcases s.dp.newFar f with ⟨dp, o⟩
    cases o <;> exact hs
  · exact hs
  · exact hs
theorem qerAt_updateFar {j g : U32} (ie : FarIE) : Pres (QerAt j g) (updateFar ie) := by
  apply pres_of; intro s hs; unfold updateFar
  split
  · exact hs
  · split
    · simp only []
      split <;> exact hs
    · exact hs
    · exact hs
theorem qerAt_removeFar {j g : U32} (d : Option U32) : Pres (QerAt j g) (removeFar d) := by
  apply pres_of; intro s hs; unfold removeFar
  simp only []
  rcases s.dp.deleteFar (s.sess.getFar (d.getD 0)).gid with ⟨dp, b⟩
  cases b <;> exact hs
theorem qerAt_create {j g : U32} {ie : QerIE} (h : ie.qerId ≠ some j) : Pres (QerAt j g) (createQer ie) := by
  apply pres_of; intro s hs; unfold createQer
  split
  · exact hs
  · rename_i id hid
    simp only []
    rcases s.dp.newQer (mergeQer {} ie) with ⟨dp, o⟩
    cases o
    · exact hs
    · simp only [QerAt, Session.newQer, GoMap.get?_set]
      rw [if_neg (fun e => h (by rw [hid, e]))]; exact hs
theorem qerAt_created {ie : QerIE} {s s' : HS} (h : createQer ie s = (s', .ok ())) {id : U32} (hid : ie.qerId = some id) : ∃ g, QerAt id g s' := by
  unfold createQer at h
  rw [hid] at h
  simp only [] at h
  rcases hn : s.dp.newQer (mergeQer {} ie) with ⟨dp, o⟩
  rw [hn] at h
  cases o with
  | none => cases h
  | some g =>
    cases h
    exact ⟨g, by simp [QerAt, Session.newQer]⟩
theorem qerAt_update {j g : U32} (ie : QerIE) : Pres (QerAt j g) (updateQer ie) := by
  apply pres_of; intro s hs; unfold updateQer
  split
  · exact hs
  · rename_i id _
    have key : ∀ f, QerAt j g { s with sess := s.sess.updateQer id f } := by
      intro f
      simp only [QerAt, Session.updateQer, GoMap.get?_set]
      split
      · rename_i hj; subst hj
        obtain ⟨f0, h1, h2⟩ := Option.map_eq_some_iff.1 hs
        simp [Session.getQer, h1, h2]
      · exact hs
    simp only []
    split <;> exact key _
theorem qerAt_remove {j g : U32} {d : Option U32} (h : d ≠ some j) : Pres (QerAt j g) (removeQer d) := by
  apply pres_of; intro s hs; unfold removeQer
  split
  · exact hs
  · rename_i id
    have key : QerAt j g { s with sess := s.sess.removeQer id } := by
      simp only [QerAt, Session.removeQer, GoMap.get?_erase]
      rw [if_neg (fun e => h (by rw [e]))]; exact hs
    simp only []
    rcases s.dp.deleteQer (s.sess.getQer id).gid with ⟨dp, b⟩
    cases b <;> exact key
theorem farAt_createUrr {j g : U32} (x : Option U32) : Pres (FarAt j g) (createUrr x) := createUrr_rec (R := fun F _ => (F.get? j).map SFar.gid = some g) x
theorem farAt_updateUrr {j g : U32} (x : Option U32) : Pres (FarAt j g) (updateUrr x) := updateUrr_rec (R := fun F _ => (F.get? j).map SFar.gid = some g) x
theorem farAt_removeUrr {j g : U32} (x : Option U32) : Pres (FarAt j g) (removeUrr x) := removeUrr_rec (R := fun F _ => (F.get? j).map SFar.gid = some g) x
theorem qerAt_createUrr {j g : U32} (x : Option U32) : Pres (QerAt j g) (createUrr x) := createUrr_rec (R := fun _ Q => (Q.get? j).map SQer.gid = some g) x
theorem qerAt_updateUrr {j g : U32} (x : Option U32) : Pres (QerAt j g) (updateUrr x) := updateUrr_rec (R := fun _ Q => (Q.get? j).map SQer.gid = some g) x
theorem qerAt_removeUrr {j g : U32} (x : Option U32) : Pres (QerAt j g) (removeUrr x) := removeUrr_rec (R := fun _ Q => (Q.get? j).map SQer.gid = some g) x

/-- created FARs are in the session afterwards -/
theorem farsAt_created : ∀ (l : List FarIE) {s s' : HS}, Act.each createFar l s = (s', .ok ()) → (l.map (·.farId.getD 0)).Nodup →
    ∀ c ∈ l, ∃ g, FarAt (c.farId.getD 0) g s'
  | [], s, s', _, _, c, hc => by cases hc
  | ie :: l, s, s', h, hnd, c, hc => by
    obtain ⟨s1, h1, h2⟩ := each_cons_ok h
    rw [List.map_cons, List.nodup_cons] at hnd
    rcases List.mem_cons.1 hc with rfl | hc
    · obtain ⟨g, hg⟩ := farAt_created h1
      refine ⟨g, pres_each_ok (I := FarAt _ g) (fun x hx => farAt_create fun e => hnd.1 (List.mem_map.2 ⟨x, hx, e⟩)) h2 hg⟩
    · exact farsAt_created l h2 hnd.2 c hc
theorem qersAt_created : ∀ (l : List QerIE) {s s' : HS}, Act.each createQer l s = (s', .ok ()) → (l.map (·.qerId)).Nodup →
    ∀ c ∈ l, ∀ id, c.qerId = some id → ∃ g, QerAt id g s'
  | [], s, s', _, _, c, hc => by cases hc
  | ie :: l, s, s', h, hnd, c, hc => by
    intro id hid
    obtain ⟨s1, h1, h2⟩ := each_cons_ok h
    rw [List.map_cons, List.nodup_cons] at hnd
    rcases List.mem_cons.1 hc with rfl | hc
    · obtain ⟨g, hg⟩ := qerAt_created h1 hid
      refine ⟨g, pres_each_ok (I := QerAt _ g) (fun x hx => qerAt_create fun e => hnd.1 (List.mem_map.2 ⟨x, hx, e.trans hid.symm⟩)) h2 hg⟩
    · exact qersAt_created l h2 hnd.2 c hc id hid

/-! ### the PDR phases -/

/-- the PDRs of the session, but for those in `D`, point (with `ref`) to slots that satisfy `S` -/
def Points (S : U32 → Prop) (ref : PdrInfo → U32) (D : U32 → Prop) (x : Session) : Prop := ∀ i p, x.pdrs.get? i = some p → ¬ D i → S (ref p.info)

/-- the rule a PDR refers to after `extractPdr` -/
structure RefSel (sel : PdrIE → Option U32) (ref : PdrInfo → U32) (slot : Session → U32 → U32) : Prop where
  known : ∀ {ue ie p p' s s1 i}, extractPdr ue ie p s = (s1, .ok p') → sel ie = some i → ref p'.info = slot s.sess i
  unknown : ∀ {ue ie p p' s s1}, extractPdr ue ie p s = (s1, .ok p') → sel ie = none → ref p'.info = ref p.info
  stable : ∀ (x : Session) i p j, slot (x.putPdr i p) j = slot x j

theorem refFar : RefSel (·.farId) (·.farId) (fun x i => (x.getFar i).gid) where
  known h hi := by obtain ⟨-, -, -, -, -, e, -⟩ := extractPdr_ok h; simp only [hi] at e; exact e
  unknown h hi := by obtain ⟨-, -, -, -, -, e, -⟩ := extractPdr_ok h; simp only [hi] at e; exact e
  stable _ _ _ _ := rfl
theorem refQer : RefSel (·.qerId) (·.qerId) (fun x i => (x.getQer i).gid) where
  known h hi := by obtain ⟨-, -, -, -, -, -, e, -⟩ := extractPdr_ok h; simp only [hi] at e; exact e
  unknown h hi := by obtain ⟨-, -, -, -, -, -, e, -⟩ := extractPdr_ok h; simp only [hi] at e; exact e
  stable _ _ _ _ := rfl

variable {S : U32 → Prop} {sel : PdrIE → Option U32} {ref : PdrInfo → U32} {slot : Session → U32 → U32}

theorem points_creates (R : RefSel sel ref slot) {ue : Bool} {D : U32 → Prop} : ∀ (l : List PdrIE) {s s' : HS},
    Act.each (createPdr ue) l s = (s', .ok ()) → (∀ ie ∈ l, ∃ i, sel ie = some i ∧ S (slot s.sess i)) → Points S ref D s.sess →
    Points S ref D s'.sess ∧ ∀ j, slot s'.sess j = slot s.sess j
  | [], s, s', h, _, hp => by cases h; exact ⟨hp, fun _ => rfl⟩
  | ie :: l, s, s', h, hl, hp => by
    obtain ⟨s1, h1, h2⟩ := each_cons_ok h
    obtain ⟨id, p, t, -, e2, e3, -⟩ := createPdr_ok h1
    obtain ⟨i, i1, i2⟩ := hl ie (by simp)
    have hs1 : ∀ j, slot s1.sess j = slot s.sess j := fun j => by rw [e3, R.stable]
    obtain ⟨p2, p3⟩ := points_creates R (D := D) l h2 (fun x hx => by
      obtain ⟨i, i1, i2⟩ := hl x (List.mem_cons_of_mem _ hx)
      exact ⟨i, i1, by rw [hs1]; exact i2⟩) (by
      intro j q hq hD
      rw [e3] at hq
      simp only [Session.putPdr, GoMap.get?_set] at hq
      split at hq
      · cases hq
        rw [R.known e2 i1]; exact i2
      · exact hp j q hq hD)
    exact ⟨p2, fun j => (p3 j).trans (hs1 j)⟩

theorem points_updates (R : RefSel sel ref slot) {ue : Bool} {D : U32 → Prop} : ∀ (l : List PdrIE) {s s' : HS},
    Act.each (updatePdr ue) l s = (s', .ok ()) → (∀ ie ∈ l, ∀ i, sel ie = some i → S (slot s.sess i)) →
    (∀ ie ∈ l, ∀ id, ie.pdrId = some id → (s.sess.pdrs.get? (id.zeroExtend 32)).isSome) →
    Points S ref (fun i => D i ∨ ∃ ie ∈ l, ∃ id, ie.pdrId = some id ∧ id.zeroExtend 32 = i ∧ (sel ie).isSome) s.sess →
    Points S ref D s'.sess ∧ ∀ j, slot s'.sess j = slot s.sess j
  | [], s, s', h, _, _, hp => by cases h; exact ⟨fun i p h hD => hp i p h (by simp [hD]), fun _ => rfl⟩
  | ie :: l, s, s', h, hl, hk, hp => by
    obtain ⟨s1, h1, h2⟩ := each_cons_ok h
    obtain ⟨id, p, t, e1, e2, e3, -⟩ := updatePdr_ok h1
    have hs1 : ∀ j, slot s1.sess j = slot s.sess j := fun j => by rw [e3, R.stable]
    have hget : ∀ j, s1.sess.pdrs.get? j = if j = id.zeroExtend 32 then some p else s.sess.pdrs.get? j := by
      intro j; rw [e3]; simp only [Session.putPdr, GoMap.get?_set]
    obtain ⟨p2, p3⟩ := points_updates R (D := D) l h2 (fun x hx i hi => by
      rw [hs1]; exact hl x (List.mem_cons_of_mem _ hx) i hi) (fun x hx i hi => by
      rw [hget]
      split
      · rfl
      · exact hk x (List.mem_cons_of_mem _ hx) i hi) (by
      intro j q hq hD
      rw [hget] at hq
      split at hq
      · rename_i hj
        cases hq
        cases hsel : sel ie with
        | some i => rw [R.known e2 hsel]; exact hl ie (by simp) i hsel
        | none =>
          rw [R.unknown e2 hsel]
          have hsome := hk ie (by simp) id e1
          obtain ⟨p0, hp0⟩ := Option.isSome_iff_exists.1 hsome
          rw [show s.sess.getPdr (id.zeroExtend 32) = p0 by simp [Session.getPdr, hp0]]
          refine hp _ p0 hp0 ?_
          rintro (hd | ⟨x, hx, id', a1, a2, a3⟩)
          · exact hD (.inl (by rw [hj]; exact hd))
          · rcases List.mem_cons.1 hx with rfl | hx
            · rw [hsel] at a3; cases a3
            · exact hD (.inr ⟨x, hx, id', a1, by rw [hj]; exact a2, a3⟩)
      · rename_i hj
        refine hp j q hq ?_
        rintro (hd | ⟨x, hx, id', a1, a2, a3⟩)
        · exact hD (.inl hd)
        · rcases List.mem_cons.1 hx with rfl | hx
          · rw [e1] at a1; cases a1
            exact hj a2.symm
          · exact hD (.inr ⟨x, hx, id', a1, a2, a3⟩))
    exact ⟨p2, fun j => (p3 j).trans (hs1 j)⟩

/-- a Remove PDR leaves the rest of the session alone -/
theorem removePdr_rules {ord : Orders} {d : Option U16} {s s' : HS} (h : removePdr ord d s = (s', .ok ())) :
    (∀ j, s'.sess.pdrs.get? j = if j = BitVec.zeroExtend 32 (d.getD 0) then none else s.sess.pdrs.get? j) ∧
    s'.sess.fars = s.sess.fars ∧ s'.sess.qers = s.sess.qers := by
  cases hq : s.sess.pdrs.get? (BitVec.zeroExtend 32 (d.getD 0)) with
  | none =>
    rw [removePdr_unknown hq] at h; cases h
    refine ⟨fun j => ?_, rfl, rfl⟩
    split
    · rename_i hj; rw [hj, hq]
    · rfl
  | some q =>
    rw [removePdr_known hq] at h
    generalize hg : ({ s with sess := s.sess.removePdr (BitVec.zeroExtend 32 (d.getD 0)) } : HS) = g at h
    have hgs : g.sess = s.sess.removePdr (BitVec.zeroExtend 32 (d.getD 0)) := by rw [← hg]
    obtain ⟨rm, e⟩ := deletePdr_dp ord q g
    rw [h] at e
    simp only at e
    have : s'.sess = g.sess := by
      rw [e]
      cases deletePdrEntry_cases q g with
      | gone dp c hdl _ _ _ => rw [hdl]
      | absent hdl _ => rw [hdl]
      | skipped hdl _ _ => rw [hdl]
    rw [this, hgs]
    refine ⟨fun j => ?_, rfl, rfl⟩
    simp only [Session.removePdr, GoMap.get?_erase]

theorem points_removes {ord : Orders} : ∀ (l : List (Option U16)) {s s' : HS}, Act.each (removePdr ord) l s = (s', .ok ()) →
    Points S ref (fun i => ∃ d ∈ l, BitVec.zeroExtend 32 (d.getD 0) = i) s.sess → Points S ref (fun _ => False) s'.sess
  | [], s, s', h, hp => by cases h; exact fun i p h _ => hp i p h (by simp)
  | d :: l, s, s', h, hp => by
    obtain ⟨s1, h1, h2⟩ := each_cons_ok h
    obtain ⟨e1, -⟩ := removePdr_rules h1
    refine points_removes l h2 ?_
    intro j q hq hD
    rw [e1] at hq
    split at hq
    · cases hq
    · rename_i hj
      refine hp j q hq ?_
      rintro ⟨d', hd', hd2⟩
      rcases List.mem_cons.1 hd' with rfl | hd'
      · exact hj hd2.symm
      · exact hD ⟨d', hd', hd2⟩

theorem removes_rest {ord : Orders} : ∀ (l : List (Option U16)) {s s' : HS}, Act.each (removePdr ord) l s = (s', .ok ()) →
    s'.sess.fars = s.sess.fars ∧ s'.sess.qers = s.sess.qers
  | [], s, s', h => by cases h; exact ⟨rfl, rfl⟩
  | d :: l, s, s', h => by
    obtain ⟨s1, h1, h2⟩ := each_cons_ok h
    obtain ⟨-, e1, e2⟩ := removePdr_rules h1
    obtain ⟨f1, f2⟩ := removes_rest l h2
    exact ⟨f1.trans e1, f2.trans e2⟩

theorem FarAt.has {j g : U32} {s : HS} (h : FarAt j g s) : s.sess.hasFarSlot g ∧ (s.sess.getFar j).gid = g := by
  obtain ⟨f, h1, h2⟩ := Option.map_eq_some_iff.1 h
  exact ⟨⟨j, f, h1, h2⟩, by simp [Session.getFar, h1, h2]⟩
theorem QerAt.has {j g : U32} {s : HS} (h : QerAt j g s) : s.sess.hasQerSlot g ∧ (s.sess.getQer j).gid = g := by
  obtain ⟨f, h1, h2⟩ := Option.map_eq_some_iff.1 h
  exact ⟨⟨j, f, h1, h2⟩, by simp [Session.getQer, h1, h2]⟩

end Eupf
