import Verif.Spec.AbstractUpf
import Verif.OwnLemmas
import Verif.Props.ExactPackets
/-
The records follow the abstract UPF (C100): handler bodies. Models no code.
-/
namespace Eupf
open Act

variable {α β : Type} {R R' : α → β → Prop}

theorem both_none {b : Option β} (h : Both R none b) : b = none := by cases b with | none => rfl | some _ => exact h.elim
theorem both_some {a : α} {b : Option β} (h : Both R (some a) b) : ∃ y, b = some y ∧ R a y := by cases b with | none => exact h.elim | some y => exact ⟨y, rfl, h⟩
theorem both_some' {a : Option α} {b : β} (h : Both R a (some b)) : ∃ x, a = some x ∧ R x b := by cases a with | none => exact h.elim | some y => exact ⟨y, rfl, h⟩
theorem Both.mono {a : Option α} {b : Option β} (h : Both R a b) (hm : ∀ x y, a = some x → b = some y → R x y → R' x y) : Both R' a b := by
  cases a <;> cases b <;> first | exact h | exact hm _ _ rfl rfl h
theorem Both.isSome {a : Option α} {b : Option β} (h : Both R a b) : a.isSome = b.isSome := by cases a <;> cases b <;> first | rfl | exact h.elim

/-- one loop -/
theorem each_sim {X A : Type} {f : X → Act HS Unit} {g : A → X → A} {S : A → HS → Prop} {C : X → A → Prop} : ∀ (l : List X) {a : A} {s s' : HS},
    (∀ x a s s', C x a → S a s → f x s = (s', .ok ()) → S (g a x) s') → (∀ x ∈ l, ∀ a y, C x a → C y a → C y (g a x)) →
    (∀ x ∈ l, C x a) → Act.each f l s = (s', .ok ()) → S a s → S (l.foldl g a) s'
  | [], a, s, s', _, _, _, h, hs => by cases h; exact hs
  | x :: l, a, s, s', hf, hc, ha, h, hs => by
    obtain ⟨s1, h1, h2⟩ := each_cons_ok h
    refine each_sim l hf (fun x hx => hc x (List.mem_cons_of_mem _ hx)) (fun y hy => hc x (by simp) a y (ha x (by simp)) (ha y (List.mem_cons_of_mem _ hy))) h2 ?_
    exact hf x a s s1 (ha x (by simp)) hs h1

/-! ### FARs and QERs -/

theorem AFar.is_told {a : AFar} {f f' : FarInfo} {ie : FarIE} (h : a.Is f) (hm : FarMerged f ie f') : (a.told ie).Is f' := by
  have hact : f'.action = ie.action?.getD f.action := by
    unfold FarIE.action?
    cases ha : ie.applyAction with
    | none => exact hm.action.2 (by rw [ha]; rfl)
    | some l =>
      cases l with
      | nil => exact hm.action.2 (by rw [ha]; rfl)
      | cons c cs => exact hm.action.1 c cs ha
  have htlm : f'.tlm = ie.tlm.getD f.tlm := by
    cases ht : ie.tlm with
    | none => exact hm.tlm.2 ht
    | some t => exact hm.tlm.1 t ht
  cases ho : ie.ohc? with
  | none =>
    have hn : ∀ o, ie.forward ≠ some (some (some o)) := by
      intro o hc; unfold FarIE.ohc? at ho; rw [hc] at ho; cases ho
    obtain ⟨n1, n2, n3⟩ := hm.noTunnel hn
    refine ⟨?_, ?_, ?_, ?_, ?_⟩
    · rw [hact, h.action]; rfl
    · rw [n2, h.desc]; simp [AFar.told, ho]
    · rw [n1, h.teid]; simp [AFar.told, ho]
    · rw [n3]; simpa [AFar.told, ho] using h.peer
    · rw [htlm, h.tlm]; rfl
  | some o =>
    have hfw : ie.forward = some (some (some o)) := by
      unfold FarIE.ohc? at ho
      split at ho
      · rename_i x hx; rw [hx, ho]
      · cases ho
    obtain ⟨t1, t2⟩ := hm.tunnel o hfw
    refine ⟨?_, ?_, ?_, ?_, ?_⟩
    · rw [hact, h.action]; rfl
    · rw [t2]; simp [AFar.told, ho]
    · rw [t1]; simp [AFar.told, ho]
    · cases hip : o.ipv4 with
      | none => rw [hm.noAddr o hfw hip]; simpa [AFar.told, ho, hip] using h.peer
      | some ip => simpa [AFar.told, ho, hip] using hm.addr o ip hfw hip
    · rw [htlm, h.tlm]; rfl

theorem AFar.is_zero : ({} : AFar).Is {} := by
  refine ⟨rfl, by decide, rfl, ?_, rfl⟩
  intro k _
  have : ({} : FarInfo).remoteIP.toNat = 0 := rfl
  rw [this]
  show 0 / 256 ^ k % 256 = 0 / 256 ^ (3 - k) % 256
  rw [Nat.zero_div, Nat.zero_div]

theorem AQer.is_told {a : AQer} {f f' : QerInfo} {ie : QerIE} (h : a.Is f) (hm : QerMerged f ie f') : (a.told ie).Is f' := by
  refine ⟨?_, ?_, ?_, ?_, ?_⟩
  · cases he : ie.gateUL with
    | none => rw [hm.gateUL.2 he, h.gateUL]; simp [AQer.told, he]
    | some v => rw [hm.gateUL.1 v he]; simp [AQer.told, he]
  · cases he : ie.gateDL with
    | none => rw [hm.gateDL.2 he, h.gateDL]; simp [AQer.told, he]
    | some v => rw [hm.gateDL.1 v he]; simp [AQer.told, he]
  · cases he : ie.mbrUL with
    | none => rw [hm.mbrUL.2 he, h.mbrUL]; simp [AQer.told, he]
    | some v => rw [hm.mbrUL.1 v he]; simp [AQer.told, he]
  · cases he : ie.mbrDL with
    | none => rw [hm.mbrDL.2 he, h.mbrDL]; simp [AQer.told, he]
    | some v => rw [hm.mbrDL.1 v he]; simp [AQer.told, he]
  · cases he : ie.qfi with
    | none => rw [hm.qfi.2 he, h.qfi]; simp [AQer.told, he]
    | some v => rw [hm.qfi.1 v he]; simp [AQer.told, he]
theorem AQer.is_zero : ({} : AQer).Is {} := ⟨rfl, rfl, by decide, by decide, rfl⟩

/-- the FARs and QERs agree -/
structure SimFQ (a : ASession) (s : HS) : Prop where
  fars : ∀ i, Both (fun (a : AFar) (f : SFar) => a.Is f.info) (a.fars i) (s.sess.fars.get? i)
  qers : ∀ i, Both (fun (a : AQer) (q : SQer) => a.Is q.info) (a.qers i) (s.sess.qers.get? i)

theorem SimFQ.same {a : ASession} {s s' : HS} (h : SimFQ a s) (h1 : s'.sess.fars = s.sess.fars) (h2 : s'.sess.qers = s.sess.qers) : SimFQ a s' :=
  ⟨fun i => by rw [h1]; exact h.fars i, fun i => by rw [h2]; exact h.qers i⟩

theorem both_withAt {m : U32 → Option α} {g : GoMap U32 β} {i : U32} {v : Option α} {w : Option β} {g' : GoMap U32 β}
    (hg : ∀ j, g'.get? j = if j = i then w else g.get? j) (h : ∀ j, Both R (m j) (g.get? j)) (hv : Both R v w) (j : U32) :
    Both R (withAt m i v j) (g'.get? j) := by
  rw [hg]; unfold withAt
  split
  · exact hv
  · exact h j

theorem both_withAtI {R : U32 → α → β → Prop} {m : U32 → Option α} {g : GoMap U32 β} {i : U32} {v : Option α} {w : Option β} {g' : GoMap U32 β}
    (hg : ∀ j, g'.get? j = if j = i then w else g.get? j) (h : ∀ j, j ≠ i → Both (R j) (m j) (g.get? j)) (hv : Both (R i) v w) (j : U32) :
    Both (R j) (withAt m i v j) (g'.get? j) := by
  rw [hg]; unfold withAt
  split
  · rename_i e; subst e; exact hv
  · rename_i e; exact h j e

theorem sim_createFar {a : ASession} {s s' : HS} {ie : FarIE} (hs : SimFQ a s) (h : createFar ie s = (s', .ok ())) : SimFQ (a.createFar ie) s' := by
  unfold createFar at h
  split at h
  · rename_i f hf
    rcases hn : s.dp.newFar f with ⟨dp, o⟩
    rw [hn] at h
    cases o with
    | none => cases h
    | some g =>
      cases h
      exact ⟨both_withAt (w := some ⟨f, g⟩) (fun j => by simp only [Session.newFar, GoMap.get?_set]) hs.fars
        (AFar.is_told AFar.is_zero (composeFarInfo_merged hf)), hs.qers⟩
  · cases h
  · cases h
theorem sim_updateFar {a : ASession} {s s' : HS} {ie : FarIE} (hk : ∀ i, ie.farId = some i → (a.fars i).isSome) (hs : SimFQ a s)
    (h : updateFar ie s = (s', .ok ())) : SimFQ (a.updateFar ie) s' := by
  unfold updateFar at h
  split at h
  · cases h
  · rename_i id hid
    obtain ⟨af, haf⟩ := Option.isSome_iff_exists.1 (hk id hid)
    have hb := hs.fars id
    rw [haf] at hb
    obtain ⟨f0, hf0, hi⟩ := both_some hb
    have hgf : s.sess.getFar id = f0 := by simp [Session.getFar, hf0]
    rw [hgf] at h
    split at h
    · rename_i f hf
      simp only [] at h
      split at h
      · cases h
        unfold ASession.updateFar
        rw [hid]
        refine ⟨both_withAt (w := some ⟨f, f0.gid⟩) (fun j => by simp only [Session.updateFar, GoMap.get?_set, hgf]) hs.fars ?_, hs.qers⟩
        rw [haf]
        exact AFar.is_told hi (composeFarInfo_merged hf)
      · cases h
    · cases h
    · cases h
theorem sim_removeFar {a : ASession} {s s' : HS} {d : Option U32} (hs : SimFQ a s) (h : removeFar d s = (s', .ok ())) : SimFQ (a.removeFar d) s' := by
  unfold removeFar at h
  simp only [] at h
  rcases hn : s.dp.deleteFar (s.sess.getFar (d.getD 0)).gid with ⟨dp, b⟩
  rw [hn] at h
  cases b with
  | false => cases h
  | true =>
    cases h
    exact ⟨both_withAt (w := none) (fun j => by simp only [Session.removeFar, GoMap.get?_erase]) hs.fars trivial, hs.qers⟩
theorem sim_createQer {a : ASession} {s s' : HS} {ie : QerIE} (hs : SimFQ a s) (h : createQer ie s = (s', .ok ())) : SimFQ (a.createQer ie) s' := by
  unfold createQer at h
  split at h
  · cases h
  · rename_i id hid
    simp only [] at h
    rcases hn : s.dp.newQer (mergeQer {} ie) with ⟨dp, o⟩
    rw [hn] at h
    cases o with
    | none => cases h
    | some g =>
      cases h
      unfold ASession.createQer
      rw [hid]
      exact ⟨hs.fars, both_withAt (w := some ⟨mergeQer {} ie, g⟩) (fun j => by simp only [Session.newQer, GoMap.get?_set]) hs.qers
        (AQer.is_told AQer.is_zero (mergeQer_merged {} ie))⟩
theorem sim_updateQer {a : ASession} {s s' : HS} {ie : QerIE} (hk : ∀ i, ie.qerId = some i → (a.qers i).isSome) (hs : SimFQ a s)
    (h : updateQer ie s = (s', .ok ())) : SimFQ (a.updateQer ie) s' := by
  unfold updateQer at h
  split at h
  · cases h
  · rename_i id hid
    obtain ⟨aq, haq⟩ := Option.isSome_iff_exists.1 (hk id hid)
    have hb := hs.qers id
    rw [haq] at hb
    obtain ⟨f0, hf0, hi⟩ := both_some hb
    have hgf : s.sess.getQer id = f0 := by simp [Session.getQer, hf0]
    rw [hgf] at h
    simp only [] at h
    split at h
    · cases h
      unfold ASession.updateQer
      rw [hid]
      refine ⟨hs.fars, both_withAt (w := some ⟨mergeQer f0.info ie, f0.gid⟩) (fun j => by simp only [Session.updateQer, GoMap.get?_set, hgf]) hs.qers ?_⟩
      rw [haq]
      exact AQer.is_told hi (mergeQer_merged f0.info ie)
    · cases h
theorem sim_removeQer {a : ASession} {s s' : HS} {d : Option U32} (hs : SimFQ a s) (h : removeQer d s = (s', .ok ())) : SimFQ (a.removeQer d) s' := by
  unfold removeQer at h
  split at h
  · cases h
  · rename_i id
    simp only [] at h
    rcases hn : s.dp.deleteQer (s.sess.getQer id).gid with ⟨dp, b⟩
    rw [hn] at h
    cases b with
    | false => cases h
    | true =>
      cases h
      exact ⟨hs.fars, both_withAt (w := none) (fun j => by simp only [Session.removeQer, GoMap.get?_erase]) hs.qers trivial⟩

theorem withAt_isSome {m : U32 → Option α} {i j : U32} {f : α → α} (h : (m j).isSome) : (withAt m i ((m i).map f) j).isSome := by
  unfold withAt
  split
  · rename_i e; subst e; simpa using h
  · exact h
theorem ASession.createFar_keeps (a : ASession) (ie : FarIE) {j : U32} (h : (a.fars j).isSome) : ((a.createFar ie).fars j).isSome := by
  show (withAt a.fars _ _ j).isSome
  unfold withAt; split <;> first | rfl | exact h
theorem ASession.createQer_keeps (a : ASession) (ie : QerIE) {j : U32} (h : (a.qers j).isSome) : ((a.createQer ie).qers j).isSome := by
  unfold ASession.createQer
  split
  · exact h
  · show (withAt a.qers _ _ j).isSome
    unfold withAt; split <;> first | rfl | exact h
theorem ASession.updateFar_keeps (a : ASession) (ie : FarIE) {j : U32} (h : (a.fars j).isSome) : ((a.updateFar ie).fars j).isSome := by
  unfold ASession.updateFar
  split
  · exact h
  · exact withAt_isSome h
theorem ASession.updateQer_keeps (a : ASession) (ie : QerIE) {j : U32} (h : (a.qers j).isSome) : ((a.updateQer ie).qers j).isSome := by
  unfold ASession.updateQer
  split
  · exact h
  · exact withAt_isSome h
theorem ASession.createFars_has : ∀ (l : List FarIE) (a : ASession) {j : U32}, ((a.fars j).isSome ∨ ∃ c ∈ l, c.farId.getD 0 = j) → ((l.foldl ASession.createFar a).fars j).isSome
  | [], a, j, h => by simpa using h
  | ie :: l, a, j, h => by
    refine createFars_has l (a.createFar ie) ?_
    rcases h with h | ⟨c, hc, h⟩
    · exact .inl (a.createFar_keeps ie h)
    · rcases List.mem_cons.1 hc with rfl | hc
      · left
        show (withAt a.fars _ _ j).isSome
        rw [h]; simp [withAt]
      · exact .inr ⟨c, hc, h⟩
theorem ASession.createQers_has : ∀ (l : List QerIE) (a : ASession) {j : U32}, ((a.qers j).isSome ∨ ∃ c ∈ l, c.qerId = some j) → ((l.foldl ASession.createQer a).qers j).isSome
  | [], a, j, h => by simpa using h
  | ie :: l, a, j, h => by
    refine createQers_has l (a.createQer ie) ?_
    rcases h with h | ⟨c, hc, h⟩
    · exact .inl (a.createQer_keeps ie h)
    · rcases List.mem_cons.1 hc with rfl | hc
      · left
        unfold ASession.createQer
        rw [h]
        simp [withAt]
      · exact .inr ⟨c, hc, h⟩

theorem foldl_same {A X : Type} {B : Type} {g : A → X → A} {π : A → B} (h : ∀ a x, π (g a x) = π a) : ∀ (l : List X) (a : A), π (l.foldl g a) = π a
  | [], _ => rfl
  | x :: l, a => (foldl_same h l (g a x)).trans (h a x)
theorem ASession.createFar_qers (a : ASession) (ie) : (a.createFar ie).qers = a.qers := rfl
theorem ASession.updateFar_qers (a : ASession) (ie) : (a.updateFar ie).qers = a.qers := by unfold ASession.updateFar; split <;> rfl
theorem ASession.removeFar_qers (a : ASession) (ie) : (a.removeFar ie).qers = a.qers := rfl
theorem ASession.createFar_pdrs (a : ASession) (ie) : (a.createFar ie).pdrs = a.pdrs := rfl
theorem ASession.updateFar_pdrs (a : ASession) (ie) : (a.updateFar ie).pdrs = a.pdrs := by unfold ASession.updateFar; split <;> rfl
theorem ASession.removeFar_pdrs (a : ASession) (ie) : (a.removeFar ie).pdrs = a.pdrs := rfl
theorem ASession.createQer_pdrs (a : ASession) (ie) : (a.createQer ie).pdrs = a.pdrs := by unfold ASession.createQer; split <;> rfl
theorem ASession.updateQer_pdrs (a : ASession) (ie) : (a.updateQer ie).pdrs = a.pdrs := by unfold ASession.updateQer; split <;> rfl
theorem ASession.removeQer_pdrs (a : ASession) (ie) : (a.removeQer ie).pdrs = a.pdrs := by unfold ASession.removeQer; split <;> rfl

theorem sim_createFars {l : List FarIE} {a : ASession} {s s' : HS} (h : Act.each Eupf.createFar l s = (s', .ok ())) (hs : SimFQ a s) :
    SimFQ (l.foldl ASession.createFar a) s' :=
  each_sim (C := fun _ _ => True) l (fun _ _ _ _ _ h1 h2 => sim_createFar h1 h2) (fun _ _ _ _ _ _ => trivial) (fun _ _ => trivial) h hs
theorem sim_createQers {l : List QerIE} {a : ASession} {s s' : HS} (h : Act.each Eupf.createQer l s = (s', .ok ())) (hs : SimFQ a s) :
    SimFQ (l.foldl ASession.createQer a) s' :=
  each_sim (C := fun _ _ => True) l (fun _ _ _ _ _ h1 h2 => sim_createQer h1 h2) (fun _ _ _ _ _ _ => trivial) (fun _ _ => trivial) h hs
theorem sim_urrs {f : Option U32 → Act HS Unit} (hf : ∀ (R : GoMap U32 SFar → GoMap U32 SQer → Prop) x, Pres (RecFQ R) (f x)) {l : List (Option U32)}
    {a : ASession} {s s' : HS} (h : Act.each f l s = (s', .ok ())) (hs : SimFQ a s) : SimFQ a s' := by
  have := pres_each_ok (fun x _ => hf (fun F Q => F = s.sess.fars ∧ Q = s.sess.qers) x) h ⟨rfl, rfl⟩
  exact hs.same this.1 this.2

/-- the first loops of a modification -/
theorem sim_rules {r : ModReq} {a : ASession} {s0 s1 s2 s3 s4 s5 s6 s7 s8 s9 : HS} (hs : SimFQ a s0)
    (hkf : ∀ ie ∈ r.updateFar, ∀ i, ie.farId = some i → (s0.sess.fars.get? i).isSome ∨ ∃ c ∈ r.createFar, c.farId.getD 0 = i)
    (hkq : ∀ ie ∈ r.updateQer, ∀ i, ie.qerId = some i → (s0.sess.qers.get? i).isSome ∨ ∃ c ∈ r.createQer, c.qerId = some i)
    (e1 : Act.each createFar r.createFar s0 = (s1, .ok ())) (e2 : Act.each updateFar r.updateFar s1 = (s2, .ok ()))
    (e3 : Act.each removeFar r.removeFar s2 = (s3, .ok ())) (e4 : Act.each createQer r.createQer s3 = (s4, .ok ()))
    (e5 : Act.each updateQer r.updateQer s4 = (s5, .ok ())) (e6 : Act.each removeQer r.removeQer s5 = (s6, .ok ()))
    (e7 : Act.each createUrr r.createUrr s6 = (s7, .ok ())) (e8 : Act.each updateUrr r.updateUrr s7 = (s8, .ok ()))
    (e9 : Act.each removeUrr r.removeUrr s8 = (s9, .ok ())) :
    SimFQ (r.removeQer.foldl ASession.removeQer (r.updateQer.foldl ASession.updateQer (r.createQer.foldl ASession.createQer
      (r.removeFar.foldl ASession.removeFar (r.updateFar.foldl ASession.updateFar (r.createFar.foldl ASession.createFar a)))))) s9 := by
  have f1 := sim_createFars e1 hs
  have f2 : SimFQ (r.updateFar.foldl ASession.updateFar _) s2 := each_sim (C := fun ie a => ∀ i, ie.farId = some i → (a.fars i).isSome) r.updateFar
    (fun _ _ _ _ hc h1 h2 => sim_updateFar hc h1 h2) (by intro x _ a y _ hy i hi; exact a.updateFar_keeps x (hy i hi)) (fun ie hie i hi => by
      refine ASession.createFars_has _ _ ?_
      rw [(hs.fars i).isSome]; exact hkf ie hie i hi) e2 f1
  have f3 : SimFQ (r.removeFar.foldl ASession.removeFar _) s3 := each_sim (C := fun _ _ => True) r.removeFar
    (fun _ _ _ _ _ h1 h2 => sim_removeFar h1 h2) (fun _ _ _ _ _ _ => trivial) (fun _ _ => trivial) e3 f2
  have hq3 : (r.removeFar.foldl ASession.removeFar (r.updateFar.foldl ASession.updateFar (r.createFar.foldl ASession.createFar a))).qers = a.qers := by
    rw [foldl_same (π := ASession.qers) ASession.removeFar_qers, foldl_same (π := ASession.qers) ASession.updateFar_qers,
      foldl_same (π := ASession.qers) ASession.createFar_qers]
  have f4 := sim_createQers e4 f3
  have f5 : SimFQ (r.updateQer.foldl ASession.updateQer _) s5 := each_sim (C := fun ie a => ∀ i, ie.qerId = some i → (a.qers i).isSome) r.updateQer
    (fun _ _ _ _ hc h1 h2 => sim_updateQer hc h1 h2) (by intro x _ a y _ hy i hi; exact a.updateQer_keeps x (hy i hi)) (fun ie hie i hi => by
      refine ASession.createQers_has _ _ ?_
      rw [hq3, (hs.qers i).isSome]; exact hkq ie hie i hi) e5 f4
  have f6 : SimFQ (r.removeQer.foldl ASession.removeQer _) s6 := each_sim (C := fun _ _ => True) r.removeQer
    (fun _ _ _ _ _ h1 h2 => sim_removeQer h1 h2) (fun _ _ _ _ _ _ => trivial) (fun _ _ => trivial) e6 f5
  exact sim_urrs (fun R x => removeUrr_rec (R := R) x) e9 (sim_urrs (fun R x => updateUrr_rec (R := R) x) e8
    (sim_urrs (fun R x => createUrr_rec (R := R) x) e7 f6))

/-! ### PDRs -/

/-- the response `L` reports for PDR `i` what the record has -/
structure Rep (L : List CreatedPdr) (i : U16) (p : SPdr) : Prop where
  teid : p.allocated = true → p.ipv4 = none → p.ipv6 = none → teidFor L i = some p.teid
  addr : addrFor L i = if p.allocated then p.ipv4 else none

theorem teidFor_cons (c : CreatedPdr) (L i) : teidFor (c :: L) i = match c with | .fteid j t _ => (if j = i then some t else teidFor L i) | .ueIp _ _ => teidFor L i := by
  unfold teidFor
  cases c with
  | ueIp j ip => simp
  | fteid j t n3 => simp only [List.findSome?_cons]; by_cases h : j = i <;> simp [h]
theorem addrFor_cons (c : CreatedPdr) (L i) : addrFor (c :: L) i = match c with | .ueIp j ip => (if j = i then some ip else addrFor L i) | .fteid _ _ _ => addrFor L i := by
  unfold addrFor
  cases c with
  | fteid j t n3 => simp
  | ueIp j t => simp only [List.findSome?_cons]; by_cases h : j = i <;> simp [h]

/-- one record of the response -/
def createdIE (n3 : Ip4) (p : SPdr) : Option CreatedPdr :=
  if p.allocated then
    match p.ipv4, p.ipv6 with
    | some ip, _ => some (.ueIp (p.pdrId.truncate 16) ip)
    | none, some _ => none
    | none, none => some (.fteid (p.pdrId.truncate 16) p.teid n3)
  else none
theorem createdIEs_cons (n3 : Ip4) (p : SPdr) (l : List SPdr) : createdIEs n3 (p :: l) = (createdIE n3 p).toList ++ createdIEs n3 l := by
  have : createdIEs n3 = List.filterMap (createdIE n3) := rfl
  rw [this, List.filterMap_cons]
  cases createdIE n3 p <;> rfl

theorem rep_other {n3 : Ip4} {p : SPdr} {L : List CreatedPdr} {i : U16} (h : p.pdrId.truncate 16 ≠ i) :
    teidFor ((createdIE n3 p).toList ++ L) i = teidFor L i ∧ addrFor ((createdIE n3 p).toList ++ L) i = addrFor L i := by
  unfold createdIE
  split
  · split
    · simp only [Option.toList, List.cons_append, List.nil_append]
      rw [teidFor_cons, addrFor_cons]; simp [if_neg h]
    · exact ⟨rfl, rfl⟩
    · simp only [Option.toList, List.cons_append, List.nil_append]
      rw [teidFor_cons, addrFor_cons]; simp [if_neg h]
  · exact ⟨rfl, rfl⟩
theorem rep_none {n3 : Ip4} : ∀ (l : List SPdr) {i : U16}, (∀ p ∈ l, p.pdrId.truncate 16 ≠ i) → teidFor (createdIEs n3 l) i = none ∧ addrFor (createdIEs n3 l) i = none
  | [], _, _ => ⟨rfl, rfl⟩
  | p :: l, i, h => by
    rw [createdIEs_cons]
    obtain ⟨a, b⟩ := rep_other (n3 := n3) (L := createdIEs n3 l) (h p (by simp))
    rw [a, b]; exact rep_none l fun q hq => h q (List.mem_cons_of_mem _ hq)
theorem rep_all {n3 : Ip4} : ∀ (l : List SPdr), (l.map (fun p : SPdr => (p.pdrId.truncate 16 : U16))).Nodup → ∀ p ∈ l, Rep (createdIEs n3 l) (p.pdrId.truncate 16) p
  | [], _, p, hp => by cases hp
  | q :: l, hnd, p, hp => by
    rw [List.map_cons, List.nodup_cons] at hnd
    rw [createdIEs_cons]
    rcases List.mem_cons.1 hp with rfl | hp
    · obtain ⟨n1, n2⟩ := rep_none (n3 := n3) l (i := p.pdrId.truncate 16) fun q hq e => hnd.1 (List.mem_map.2 ⟨q, hq, e⟩)
      unfold createdIE
      split
      · rename_i ha
        split
        · rename_i ip h4
          simp only [Option.toList, List.cons_append, List.nil_append]
          refine ⟨fun _ h => (by rw [h4] at h; cases h), ?_⟩
          rw [addrFor_cons]; simp [ha, h4]
        · rename_i ip h4 h6
          refine ⟨fun _ _ h => (by rw [h6] at h; cases h), ?_⟩
          simp [ha, h4, n2]
        · rename_i h4 h6
          simp only [Option.toList, List.cons_append, List.nil_append]
          refine ⟨fun _ _ _ => by rw [teidFor_cons]; simp, ?_⟩
          rw [addrFor_cons]; simp [ha, h4, n2]
      · rename_i ha
        exact ⟨fun h => absurd h ha, by simp [ha, n2]⟩
    · have hne : q.pdrId.truncate 16 ≠ (p.pdrId.truncate 16 : U16) := fun e => hnd.1 (List.mem_map.2 ⟨p, hp, e.symm⟩)
      obtain ⟨a, b⟩ := rep_other (n3 := n3) (L := createdIEs n3 l) hne
      have := rep_all (n3 := n3) l hnd.2 p hp
      exact ⟨fun h1 h2 h3 => by rw [a]; exact this.teid h1 h2 h3, by rw [b]; exact this.addr⟩

/-- the key of a new record is the one that the request and the response say -/
theorem extract_key {ue : Bool} {ie : PdrIE} {id : U16} {i : U32} {s s1 : HS} {p : SPdr} {L : List CreatedPdr} (hid : ie.pdrId = some id)
    (h : extractPdr ue ie { pdrId := i } s = (s1, .ok p)) (hr : Rep L id p) : p.key = ie.keyIn L := by
  unfold extractPdr at h
  simp only [] at h
  split at h
  · cases h
  · rename_i pdi hpdi
    unfold PdrIE.keyIn
    rw [hpdi, hid]
    split at h
    · cases h
    · rename_i info _
      simp only [Option.bind_some, Option.getD_some]
      split at h
      · cases h
      · rename_i f hf
        rw [hf]
        simp only
        unfold pdrFteid at h
        split at h
        · rename_i hch
          split at h
          · rename_i t ht
            cases h
            have := hr.teid rfl rfl rfl
            rw [if_pos hch, this]; rfl
          · rcases hal : allocTeid s.sess.remoteSEID i s.rm with ⟨rm, _ | t⟩
            · rw [hal] at h; cases h
            · rw [hal] at h
              simp only [] at h
              cases h
              have := hr.teid rfl rfl rfl
              rw [if_pos hch, this]; rfl
        · rename_i hch
          cases h
          rw [if_neg hch]; rfl
      · rename_i hf
        rw [hf]
        split at h
        · cases h
        · rename_i u hu
          rw [hu]
          simp only
          have ha := hr.addr
          unfold pdrUeIp at h
          by_cases hb : (ue && u.chv4) = true
          · simp only [if_pos hb] at h
            have hch : u.chv4 = true := by simp at hb; exact hb.2
            rcases allocIp_cases s.sess.remoteSEID s.rm with ⟨rm', ip, e, h1, h2⟩ | ⟨e, h1⟩
            · simp only [e] at h
              cases h
              simp only [if_true] at ha
              rw [hch, ha]; rfl
            · simp only [e] at h
              split at h
              · rename_i ip h4; cases h; simp at ha; rw [ha]; simp [h4, SPdr.key]
              · rename_i ip h4 h6; cases h; simp at ha; rw [ha]; simp [h4, h6, SPdr.key]
              · cases h
          · simp only [if_neg hb] at h
            split at h
            · rename_i ip h4; cases h; simp at ha; rw [ha]; simp [h4, SPdr.key]
            · rename_i ip h4 h6; cases h; simp at ha; rw [ha]; simp [h4, h6, SPdr.key]
            · cases h
        · rename_i hu
          rw [hu]
          cases h
          rfl

/-- the PDRs agree; those in `DF` (`DQ`) need not have the right FAR (QER). `X`: the session with the FARs and QERs -/
def PdrSim (X : Session) (DF DQ : U32 → Prop) (a : ASession) (x : Session) : Prop := ∀ i, Both (fun (ap : APdr) (p : SPdr) =>
  p.key = ap.key ∧ p.info.ohr = ap.ohr ∧ p.info.sdf = ap.sdf ∧ (¬ DF i → (X.fars.get? ap.far).map SFar.gid = some p.info.farId) ∧
  (¬ DQ i → (X.qers.get? ap.qer).map SQer.gid = some p.info.qerId)) (a.pdrs i) (x.pdrs.get? i)

theorem PdrSim.mono {X : Session} {DF DQ DF' DQ' : U32 → Prop} {a : ASession} {x : Session} (h : PdrSim X DF DQ a x) (h1 : ∀ i, DF i → DF' i)
    (h2 : ∀ i, DQ i → DQ' i) : PdrSim X DF' DQ' a x :=
  fun i => (h i).mono fun _ _ _ _ ⟨a, b, c, d, e⟩ => ⟨a, b, c, fun h => d fun hh => h (h1 i hh), fun h => e fun hh => h (h2 i hh)⟩

theorem getFar_gid {x X : Session} (h : x.fars = X.fars) {j : U32} (hs : (X.fars.get? j).isSome) : (X.fars.get? j).map SFar.gid = some (x.getFar j).gid := by
  obtain ⟨f, hf⟩ := Option.isSome_iff_exists.1 hs
  simp [Session.getFar, h, hf]
theorem getQer_gid {x X : Session} (h : x.qers = X.qers) {j : U32} (hs : (X.qers.get? j).isSome) : (X.qers.get? j).map SQer.gid = some (x.getQer j).gid := by
  obtain ⟨f, hf⟩ := Option.isSome_iff_exists.1 hs
  simp [Session.getQer, h, hf]

/-- the records made by a list of Create PDRs -/
theorem creates_created {ue : Bool} : ∀ (l : List PdrIE) {s s' : HS}, Act.each (createPdr ue) l s = (s', .ok ()) →
    ∃ ps : List SPdr, s'.created = s.created ++ ps ∧ ps.map (fun p : SPdr => (p.pdrId.truncate 16 : U16)) = l.map (fun ie => ie.pdrId.getD 0)
  | [], s, s', h => by cases h; exact ⟨[], by simp, rfl⟩
  | ie :: l, s, s', h => by
    obtain ⟨s1, h1, h2⟩ := each_cons_ok h
    obtain ⟨id, p, t, e1, e2, e3, e4, -⟩ := createPdr_ok h1
    obtain ⟨x1, -⟩ := extractPdr_ok e2
    obtain ⟨ps, g1, g2⟩ := creates_created l h2
    refine ⟨p :: ps, by rw [g1, e4]; simp, ?_⟩
    rw [List.map_cons, List.map_cons, g2, e1, x1, Option.getD_some]
    exact congrArg (· :: _) (trunc_zext id)

theorem sim_createPdrs {X : Session} {DF DQ : U32 → Prop} {L : List CreatedPdr} {ue : Bool} : ∀ (l : List PdrIE) {a : ASession} {s s' : HS},
    Act.each (createPdr ue) l s = (s', .ok ()) → (∀ p ∈ s'.created, Rep L (p.pdrId.truncate 16) p) →
    (∀ ie ∈ l, (∃ i, ie.farId = some i ∧ (X.fars.get? i).isSome) ∧ ∃ i, ie.qerId = some i ∧ (X.qers.get? i).isSome) →
    s.sess.fars = X.fars → s.sess.qers = X.qers → PdrSim X DF DQ a s.sess → PdrSim X DF DQ (l.foldl (ASession.createPdr L) a) s'.sess
  | [], a, s, s', h, _, _, _, _, hp => by cases h; exact hp
  | ie :: l, a, s, s', h, hrep, hl, hF, hQ, hp => by
    obtain ⟨s1, h1, h2⟩ := each_cons_ok h
    obtain ⟨id, p, t, e1, e2, e3, e4, -⟩ := createPdr_ok h1
    obtain ⟨x1, -, -, -, x5, x6, x7, x8⟩ := extractPdr_ok e2
    have hmem : p ∈ s'.created := by
      obtain ⟨ps, g1, -⟩ := creates_created l h2
      rw [g1, e4]; simp
    have hr := hrep p hmem
    have hpid : (p.pdrId.truncate 16 : U16) = id := by rw [x1]; exact trunc_zext id
    rw [hpid] at hr
    obtain ⟨⟨i, i1, i2⟩, j, j1, j2⟩ := hl ie (by simp)
    refine sim_createPdrs l h2 hrep (fun x hx => hl x (List.mem_cons_of_mem _ hx)) (by rw [e3]; exact hF) (by rw [e3]; exact hQ) ?_
    refine both_withAtI (m := a.pdrs) (w := some p) (g := s.sess.pdrs) (fun j => by rw [e3, e1]; simp only [Session.putPdr, GoMap.get?_set, Option.getD_some]) (fun k _ => hp k) ?_
    refine ⟨extract_key e1 e2 hr, x5, ?_, fun _ => ?_, fun _ => ?_⟩
    · unfold PdrIE.filter?
      cases hsdf : ie.sdf with
      | none => rw [hsdf] at x8; exact x8
      | some txt =>
        cases txt with
        | nil => rw [hsdf] at x8; exact x8
        | cons c cs => rw [hsdf] at x8; obtain ⟨f, f1, f2⟩ := x8; rw [f2]; exact f1.symm
    · simp only [i1] at x6
      rw [x6, i1]; exact getFar_gid hF i2
    · simp only [j1] at x7
      rw [x7, j1]; exact getQer_gid hQ j2

/-- the Update PDR names a PDR, gives it no other key, and neither has a filter -/
def KeepsIn (ie : PdrIE) (a : ASession) : Prop :=
  ∃ i ap, ie.pdrId = some i ∧ a.pdrs (i.zeroExtend 32) = some ap ∧ ie.keepsKey ap.key ∧ ap.sdf = none ∧ (ie.sdf = none ∨ ie.sdf = some [])

theorem KeepsIn.update {ie ie' : PdrIE} {a : ASession} (h : KeepsIn ie a) : KeepsIn ie (a.updatePdr ie') := by
  obtain ⟨i, ap, h1, h2, h3, h4, h5⟩ := h
  by_cases hi : (i.zeroExtend 32 : U32) = (ie'.pdrId.getD 0).zeroExtend 32
  · exact ⟨i, { ap with ohr := ie'.ohr.getD ap.ohr, far := ie'.farId.getD ap.far, qer := ie'.qerId.getD ap.qer }, h1, by
      show withAt a.pdrs _ _ _ = _
      unfold withAt
      rw [if_pos hi, ← hi, h2]; rfl, h3, h4, h5⟩
  · exact ⟨i, ap, h1, by
      show withAt a.pdrs _ _ _ = _
      unfold withAt
      rw [if_neg hi]; exact h2, h3, h4, h5⟩

theorem sim_updatePdrs {X : Session} {DF DQ : U32 → Prop} {ue : Bool} : ∀ (l : List PdrIE) {a : ASession} {s s' : HS},
    Act.each (updatePdr ue) l s = (s', .ok ()) → (∀ ie ∈ l, KeepsIn ie a) →
    (∀ ie ∈ l, (∀ i, ie.farId = some i → (X.fars.get? i).isSome) ∧ ∀ i, ie.qerId = some i → (X.qers.get? i).isSome) →
    s.sess.fars = X.fars → s.sess.qers = X.qers →
    PdrSim X (fun i => DF i ∨ ∃ ie ∈ l, ∃ id, ie.pdrId = some id ∧ id.zeroExtend 32 = i ∧ ie.farId.isSome)
      (fun i => DQ i ∨ ∃ ie ∈ l, ∃ id, ie.pdrId = some id ∧ id.zeroExtend 32 = i ∧ ie.qerId.isSome) a s.sess →
    PdrSim X DF DQ (l.foldl ASession.updatePdr a) s'.sess
  | [], a, s, s', h, _, _, _, _, hp => by cases h; exact hp.mono (fun i h => by simpa using h) (fun i h => by simpa using h)
  | ie :: l, a, s, s', h, hk, hl, hF, hQ, hp => by
    obtain ⟨s1, h1, h2⟩ := each_cons_ok h
    obtain ⟨id, p, t, e1, e2, e3, -⟩ := updatePdr_ok h1
    obtain ⟨i, ap, k1, k2, k3, k4, k5⟩ := hk ie (by simp)
    rw [e1] at k1; cases k1
    have hb := hp (id.zeroExtend 32)
    rw [k2] at hb
    obtain ⟨p0, hp0, q1, q2, q3, q4, q5⟩ := both_some hb
    rw [show s.sess.getPdr (id.zeroExtend 32) = p0 by simp [Session.getPdr, hp0]] at e2
    obtain ⟨x1, -, -, -, x5, x6, x7, x8⟩ := extractPdr_ok e2
    have hkey := (extract_keeps e2 (by rw [q1]; exact k3)).1
    refine sim_updatePdrs l h2 (fun x hx => (hk x (List.mem_cons_of_mem _ hx)).update) (fun x hx => hl x (List.mem_cons_of_mem _ hx))
      (by rw [e3]; exact hF) (by rw [e3]; exact hQ) ?_
    refine both_withAtI (m := a.pdrs) (w := some p) (g := s.sess.pdrs) (fun j => by rw [e3, e1]; simp only [Session.putPdr, GoMap.get?_set, Option.getD_some])
      (fun k hne => (hp k).mono ?_) ?_
    · rintro ap q - - ⟨g1, g2, g3, g4, g5⟩
      rw [e1, Option.getD_some] at hne
      refine ⟨g1, g2, g3, fun hD => g4 ?_, fun hD => g5 ?_⟩
      · rintro (hd | ⟨x, hx, id', a1, a2, a3⟩)
        · exact hD (.inl hd)
        · rcases List.mem_cons.1 hx with rfl | hx
          · rw [e1] at a1; cases a1; exact hne a2.symm
          · exact hD (.inr ⟨x, hx, id', a1, a2, a3⟩)
      · rintro (hd | ⟨x, hx, id', a1, a2, a3⟩)
        · exact hD (.inl hd)
        · rcases List.mem_cons.1 hx with rfl | hx
          · rw [e1] at a1; cases a1; exact hne a2.symm
          · exact hD (.inr ⟨x, hx, id', a1, a2, a3⟩)
    · rw [e1, Option.getD_some, k2]
      refine ⟨hkey.trans q1, ?_, ?_, fun hD => ?_, fun hD => ?_⟩
      · show p.info.ohr = ie.ohr.getD ap.ohr
        rw [x5, q2]
      · rcases k5 with k5 | k5 <;> rw [k5] at x8 <;> exact x8.trans q3
      · show (X.fars.get? (ie.farId.getD ap.far)).map SFar.gid = _
        cases hf : ie.farId with
        | some i =>
          simp only [hf] at x6
          rw [x6]; exact getFar_gid hF ((hl ie (by simp)).1 i hf)
        | none =>
          simp only [hf] at x6
          rw [x6]
          refine q4 ?_
          rintro (hd | ⟨x, hx, id', a1, a2, a3⟩)
          · exact hD (.inl hd)
          · rcases List.mem_cons.1 hx with rfl | hx
            · rw [hf] at a3; cases a3
            · exact hD (.inr ⟨x, hx, id', a1, a2, a3⟩)
      · show (X.qers.get? (ie.qerId.getD ap.qer)).map SQer.gid = _
        cases hf : ie.qerId with
        | some i =>
          simp only [hf] at x7
          rw [x7]; exact getQer_gid hQ ((hl ie (by simp)).2 i hf)
        | none =>
          simp only [hf] at x7
          rw [x7]
          refine q5 ?_
          rintro (hd | ⟨x, hx, id', a1, a2, a3⟩)
          · exact hD (.inl hd)
          · rcases List.mem_cons.1 hx with rfl | hx
            · rw [hf] at a3; cases a3
            · exact hD (.inr ⟨x, hx, id', a1, a2, a3⟩)

theorem sim_removePdrs {X : Session} {ord : Orders} : ∀ (l : List (Option U16)) {a : ASession} {s s' : HS}, Act.each (removePdr ord) l s = (s', .ok ()) →
    PdrSim X (fun i => ∃ d ∈ l, BitVec.zeroExtend 32 (d.getD 0) = i) (fun i => ∃ d ∈ l, BitVec.zeroExtend 32 (d.getD 0) = i) a s.sess →
    PdrSim X (fun _ => False) (fun _ => False) (l.foldl ASession.removePdr a) s'.sess
  | [], a, s, s', h, hp => by cases h; exact hp.mono (fun i h => by simp at h) (fun i h => by simp at h)
  | d :: l, a, s, s', h, hp => by
    obtain ⟨s1, h1, h2⟩ := each_cons_ok h
    obtain ⟨e1, -⟩ := removePdr_rules h1
    refine sim_removePdrs l h2 ?_
    refine both_withAtI (m := a.pdrs) (w := none) (g := s.sess.pdrs) e1 (fun k hk => (hp k).mono ?_) trivial
    rintro ap q - - ⟨g1, g2, g3, g4, g5⟩
    refine ⟨g1, g2, g3, fun hD => g4 ?_, fun hD => g5 ?_⟩ <;>
    · rintro ⟨d', hd', hd2⟩
      rcases List.mem_cons.1 hd' with rfl | hd'
      · exact hk hd2.symm
      · exact hD ⟨d', hd', hd2⟩

end Eupf
