import Mathlib.Tactic.Ring
import Verif.Spec.Merge
import Verif.Props.Usage
/- Lemmas for C35, C36, C37: which steps of a modification touch which rule records. Models no code. -/
namespace Eupf
open Act

theorem each_append_ok {S α : Type} {f : α → Act S Unit} : ∀ (l1 : List α) {l2 : List α} {s s' : S},
    Act.each f (l1 ++ l2) s = (s', .ok ()) → ∃ s1, Act.each f l1 s = (s1, .ok ()) ∧ Act.each f l2 s1 = (s', .ok ())
  | [], l2, s, s', h => ⟨s, rfl, h⟩
  | x :: l1, l2, s, s', h => by
    have h' : Act.bind (f x) (fun _ => Act.each f (l1 ++ l2)) s = (s', .ok ()) := h
    unfold Act.bind at h'
    rcases hx : f x s with ⟨s1, r⟩
    rw [hx] at h'
    cases r with
    | ok _ =>
      obtain ⟨s2, e1, e2⟩ := each_append_ok l1 h'
      refine ⟨s2, ?_, e2⟩
      show Act.bind (f x) (fun _ => Act.each f l1) s = _
      unfold Act.bind; rw [hx]; exact e1
    | err => simp at h'
    | panic => simp at h'

theorem each_cons_ok {S α : Type} {f : α → Act S Unit} {x : α} {l : List α} {s s' : S}
    (h : Act.each f (x :: l) s = (s', .ok ())) : ∃ s1, f x s = (s1, .ok ()) ∧ Act.each f l s1 = (s', .ok ()) := by
  have h' : Act.bind (f x) (fun _ => Act.each f l) s = (s', .ok ()) := h
  unfold Act.bind at h'
  rcases hx : f x s with ⟨s1, r⟩
  rw [hx] at h'
  cases r with
  | ok _ => exact ⟨s1, rfl, h'⟩
  | err => simp at h'
  | panic => simp at h'

theorem pres_each_ok {α : Type} {I : HS → Prop} {f : α → Act HS Unit} {l : List α} {s s' : HS} {r : Res Unit} (h : ∀ x ∈ l, Pres I (f x))
    (he : Act.each f l s = (s', r)) (hs : I s) : I s' := by
  have := (Pres.each h).apply hs
  rwa [he] at this

/-! ### the rule records of the session -/

/-- FAR, QER records of the session are `F`, `Q` -/
def RecF (F : GoMap U32 SFar → Prop) (s : HS) : Prop := F s.sess.fars
def RecQ (Q : GoMap U32 SQer → Prop) (s : HS) : Prop := Q s.sess.qers

variable {F : GoMap U32 SFar → Prop} {Q : GoMap U32 SQer → Prop}

theorem createFar_recQ (ie) : Pres (RecQ Q) (createFar ie) := by
  apply pres_of; intro s h; unfold createFar; split <;> [skip; exact h; exact h]
  rename_i x _
  rcases s.dp.newFar x with ⟨dp, g⟩
  cases g <;> exact h
theorem updateFar_recQ (ie) : Pres (RecQ Q) (updateFar ie) := by
  apply pres_of; intro s h; unfold updateFar; repeat' split
  all_goals try exact h
  all_goals simp only []
  all_goals split
  all_goals exact h
theorem removeFar_recQ (ie) : Pres (RecQ Q) (removeFar ie) := by
  apply pres_of; intro s h; unfold removeFar; simp only []
  rcases s.dp.deleteFar (s.sess.getFar (ie.getD 0)).gid with ⟨dp, b⟩
  cases b <;> exact h
theorem createQer_recF (ie) : Pres (RecF F) (createQer ie) := by
  apply pres_of; intro s h; unfold createQer; split <;> [exact h; skip]
  simp only []
  rcases s.dp.newQer (mergeQer {} ie) with ⟨dp, g⟩
  cases g <;> exact h
theorem updateQer_recF (ie) : Pres (RecF F) (updateQer ie) := by
  apply pres_of; intro s h; unfold updateQer; split <;> [exact h; skip]
  simp only []
  split <;> exact h
theorem removeQer_recF (ie) : Pres (RecF F) (removeQer ie) := by
  apply pres_of; intro s h; unfold removeQer; split <;> [exact h; skip]
  rename_i id
  simp only []
  rcases s.dp.deleteQer (s.sess.getQer id).gid with ⟨dp, b⟩
  cases b <;> exact h

/-- a predicate on FAR and QER records only -/
def RecFQ (R : GoMap U32 SFar → GoMap U32 SQer → Prop) (s : HS) : Prop := R s.sess.fars s.sess.qers
variable {R : GoMap U32 SFar → GoMap U32 SQer → Prop}

theorem createUrr_rec (ie) : Pres (RecFQ R) (createUrr ie) := by
  apply pres_of; intro s h; unfold createUrr; split <;> [exact h; skip]
  rcases s.dp.newUrr {} with ⟨dp, g⟩
  cases g <;> exact h
theorem updateUrr_rec (ie) : Pres (RecFQ R) (updateUrr ie) := by
  apply pres_of; intro s h; unfold updateUrr; split <;> [exact h; skip]
  simp only []
  split <;> exact h
theorem removeUrr_rec (ie) : Pres (RecFQ R) (removeUrr ie) := by
  apply pres_of; intro s h; unfold removeUrr; split <;> [exact h; skip]
  rename_i id
  simp only []
  rcases s.dp.deleteUrr (s.sess.getUrr id).gid with ⟨dp, b⟩
  cases b <;> exact h
theorem extractPdr_rec (ue ie p) : Pres (RecFQ R) (extractPdr ue ie p) := by
  apply pres_of; intro s h; obtain ⟨c, rm, e⟩ := extractPdr_frame ue ie p s; rw [e]; exact h
theorem applyPdr_rec (p) : Pres (RecFQ R) (applyPdr p) := by
  apply pres_of; intro s h
  obtain ⟨_, h3⟩ := applyPdr_frame p s
  rw [h3]; exact h
theorem deletePdr_rec (ord p) : Pres (RecFQ R) (deletePdr ord p) := by
  apply pres_of; intro s h
  obtain ⟨h1, h2, h3⟩ := deletePdr_part ord p s
  unfold RecFQ; rw [h2]; exact h
theorem createPdr_rec (ue ie) : Pres (RecFQ R) (createPdr ue ie) := by
  unfold createPdr
  cases ie.pdrId with
  | none => exact Pres.fail
  | some id =>
    exact Pres.bind (extractPdr_rec _ _ _) fun _ => Pres.bind (Pres.modify fun _ h => h) fun _ =>
      Pres.bind (applyPdr_rec _) fun _ => Pres.modify fun _ h => h
theorem updatePdr_rec (ue ie) : Pres (RecFQ R) (updatePdr ue ie) := by
  unfold updatePdr
  cases ie.pdrId with
  | none => exact Pres.fail
  | some id =>
    exact Pres.bind Pres.get fun _ => Pres.bind (extractPdr_rec _ _ _) fun _ =>
      Pres.bind (Pres.modify fun _ h => h) fun _ => applyPdr_rec _
theorem removePdr_rec (ord id) : Pres (RecFQ R) (removePdr ord id) := by
  refine Pres.bind Pres.get fun s => ?_
  simp only []
  split
  · exact Pres.pure
  · exact Pres.bind (Pres.modify fun _ h => h) fun _ => deletePdr_rec _ _

/-! ### steps on other rules -/

theorem createFar_other {i : U32} {x : SFar} (ie : FarIE) (h : ie.farId.getD 0 ≠ i) :
    Pres (RecF (fun m => m.get? i = some x)) (createFar ie) := by
  apply pres_of; intro s hs; unfold createFar; split <;> [skip; exact hs; exact hs]
  rename_i y _
  rcases s.dp.newFar y with ⟨dp, g⟩
  cases g with
  | none => exact hs
  | some g => exact (GoMap.get?_set ..).trans ((if_neg (Ne.symm h)).trans hs)
theorem updateFar_other {i : U32} {x : SFar} (ie : FarIE) (h : ie.farId ≠ some i) :
    Pres (RecF (fun m => m.get? i = some x)) (updateFar ie) := by
  apply pres_of; intro s hs; unfold updateFar; split
  · exact hs
  · rename_i j hj
    split
    · simp only []
      have hne : i ≠ j := by rintro rfl; exact h hj
      split <;> exact (GoMap.get?_set ..).trans ((if_neg hne).trans hs)
    · exact hs
    · exact hs
theorem removeFar_other {i : U32} {x : SFar} (id : Option U32) (h : id.getD 0 ≠ i) :
    Pres (RecF (fun m => m.get? i = some x)) (removeFar id) := by
  apply pres_of; intro s hs; unfold removeFar; simp only []
  rcases s.dp.deleteFar (s.sess.getFar (id.getD 0)).gid with ⟨dp, b⟩
  cases b <;> exact (GoMap.get?_erase ..).trans ((if_neg (Ne.symm h)).trans hs)
theorem createQer_other {i : U32} {x : SQer} (ie : QerIE) (h : ie.qerId ≠ some i) :
    Pres (RecQ (fun m => m.get? i = some x)) (createQer ie) := by
  apply pres_of; intro s hs; unfold createQer; split
  · exact hs
  · rename_i j hj
    simp only []
    have hne : i ≠ j := by rintro rfl; exact h hj
    rcases s.dp.newQer (mergeQer {} ie) with ⟨dp, g⟩
    cases g with
    | none => exact hs
    | some g => exact (GoMap.get?_set ..).trans ((if_neg hne).trans hs)
theorem updateQer_other {i : U32} {x : SQer} (ie : QerIE) (h : ie.qerId ≠ some i) :
    Pres (RecQ (fun m => m.get? i = some x)) (updateQer ie) := by
  apply pres_of; intro s hs; unfold updateQer; split
  · exact hs
  · rename_i j hj
    simp only []
    have hne : i ≠ j := by rintro rfl; exact h hj
    split <;> exact (GoMap.get?_set ..).trans ((if_neg hne).trans hs)
theorem removeQer_other {i : U32} {x : SQer} (id : Option U32) (h : id ≠ some i) :
    Pres (RecQ (fun m => m.get? i = some x)) (removeQer id) := by
  apply pres_of; intro s hs; unfold removeQer; split
  · exact hs
  · rename_i j
    simp only []
    have hne : i ≠ j := by rintro rfl; exact h rfl
    rcases s.dp.deleteQer (s.sess.getQer j).gid with ⟨dp, b⟩
    cases b <;> exact (GoMap.get?_erase ..).trans ((if_neg hne).trans hs)

/-! ### the merges -/

theorem mul1000_toNat (k : U64) : (k.truncate 32 * (1000 : U32)).toNat = (k.toNat * 1000) % 2 ^ 32 := by
  rw [BitVec.toNat_mul, BitVec.truncate_eq_setWidth, BitVec.toNat_setWidth]
  show (k.toNat % 2 ^ 32 * 1000) % 2 ^ 32 = _
  omega

theorem mergeQer_merged (q : QerInfo) (ie : QerIE) : QerMerged q ie (mergeQer q ie) := by
  refine ⟨⟨?_, ?_⟩, ⟨?_, ?_⟩, ⟨?_, ?_⟩, ⟨?_, ?_⟩, ⟨?_, ?_⟩⟩
  all_goals intros; simp_all [mergeQer]

theorem digits4 (a b c d : Nat) (ha : a < 256) (hb : b < 256) (hc : c < 256) (hd : d < 256) :
    (d * 2 ^ 24 + c * 2 ^ 16 + b * 2 ^ 8 + a) / 256 ^ 0 % 256 = a ∧ (d * 2 ^ 24 + c * 2 ^ 16 + b * 2 ^ 8 + a) / 256 ^ 1 % 256 = b ∧
    (d * 2 ^ 24 + c * 2 ^ 16 + b * 2 ^ 8 + a) / 256 ^ 2 % 256 = c ∧ (d * 2 ^ 24 + c * 2 ^ 16 + b * 2 ^ 8 + a) / 256 ^ 3 % 256 = d := by
  refine ⟨?_, ?_, ?_, ?_⟩ <;> omega

theorem bswap32_octet (ip : U32) : ∀ k, k < 4 → ((bswap32 ip).toNat / 256 ^ k) % 256 = (ip.toNat / 256 ^ (3 - k)) % 256 := by
  have hb : (bswap32 ip).toNat = (ip.toNat % 256) * 2 ^ 24 + (ip.toNat / 2 ^ 8 % 256) * 2 ^ 16 + (ip.toNat / 2 ^ 16 % 256) * 2 ^ 8
      + (ip.toNat / 2 ^ 24 % 256) := by
    unfold bswap32
    simp only [BitVec.toNat_append, BitVec.extractLsb'_toNat, Nat.shiftRight_eq_div_pow]
    have h8 : ∀ a b : Nat, b < 256 → a <<< 8 ||| b = a * 256 + b := by
      intro a b hb; rw [← Nat.shiftLeft_add_eq_or_of_lt (show b < 2 ^ 8 from hb), Nat.shiftLeft_eq]
    have hm : ∀ x : Nat, x % 2 ^ 8 < 256 := fun x => Nat.mod_lt _ (by norm_num)
    rw [h8 _ _ (hm _), h8 _ _ (hm _), h8 _ _ (hm _)]
    simp only [Nat.pow_zero, Nat.div_one]
    ring_nf
  intro k hk
  have hlt := ip.isLt
  rw [hb]
  have e0 : ip.toNat / 256 ^ (3 - 3) % 256 = ip.toNat % 256 := by simp
  have e1 : ip.toNat / 256 ^ (3 - 2) % 256 = ip.toNat / 2 ^ 8 % 256 := by norm_num
  have e2 : ip.toNat / 256 ^ (3 - 1) % 256 = ip.toNat / 2 ^ 16 % 256 := by norm_num
  have e3 : ip.toNat / 256 ^ (3 - 0) % 256 = ip.toNat / 2 ^ 24 % 256 := by norm_num
  have l0 : ip.toNat % 256 < 256 := Nat.mod_lt _ (by norm_num)
  have l1 : ip.toNat / 2 ^ 8 % 256 < 256 := Nat.mod_lt _ (by norm_num)
  have l2 : ip.toNat / 2 ^ 16 % 256 < 256 := Nat.mod_lt _ (by norm_num)
  have l3 : ip.toNat / 2 ^ 24 % 256 < 256 := Nat.mod_lt _ (by norm_num)
  have key := digits4 (ip.toNat / 2 ^ 24 % 256) (ip.toNat / 2 ^ 16 % 256) (ip.toNat / 2 ^ 8 % 256) (ip.toNat % 256) l3 l2 l1 l0
  match k, hk with
  | 0, _ => exact key.1.trans e3.symm
  | 1, _ => exact key.2.1.trans e2.symm
  | 2, _ => exact key.2.2.1.trans e1.symm
  | 3, _ => exact key.2.2.2.trans e0.symm

theorem hi8 (d : U16) : ((d >>> 8).truncate 8 : U8).toNat = d.toNat / 256 := by
  have := d.isLt
  simp only [BitVec.truncate_eq_setWidth, BitVec.toNat_setWidth, BitVec.toNat_ushiftRight, Nat.shiftRight_eq_div_pow]
  omega

theorem composeFarInfo_merged {ie : FarIE} {f f' : FarInfo} (h : composeFarInfo ie f = .ok f') : FarMerged f ie f' := by
  unfold composeFarInfo at h
  split at h
  · rename_i f1 h1
    split at h
    · rename_i f2 h2
      cases h
      -- action
      have hA : (∀ a as, ie.applyAction = some (a :: as) → f1 = { f with action := a }) ∧ ((ie.applyAction.bind List.head?) = none → f1 = f) ∧
          ∃ a, f1 = { f with action := a } := by
        unfold composeAction at h1
        split at h1
        · cases h1; rename_i e; exact ⟨by simp [e], fun _ => rfl, f.action, rfl⟩
        · cases h1
        · cases h1; rename_i a as e
          exact ⟨by rintro a' as' h'; rw [e] at h'; cases h'; rfl, by simp [e], a, rfl⟩
      have hO : (∀ o, ie.forward = some (some (some o)) → 
            f2 = { f1 with ohc := (o.desc >>> 8).truncate 8, teid := o.teid, remoteIP := (o.ipv4.map bswap32).getD f1.remoteIP }) ∧
          ((∀ o, ie.forward ≠ some (some (some o))) → f2 = f1) := by
        unfold composeForward at h2
        split at h2
        · cases h2
        · split at h2
          · cases h2; rename_i e; exact ⟨by simp [e], fun _ => rfl⟩
          · cases h2; rename_i e; exact ⟨by simp [e], fun _ => rfl⟩
          · cases h2
          · rename_i o e
            simp only [] at h2
            split at h2
            · cases h2
            · have h3 := Res.ok.inj h2
              refine ⟨?_, fun hh => absurd e (hh o)⟩
              intro o' ho'
              rw [e] at ho'
              cases ho'
              rw [← h3]
              cases hi : o.ipv4 <;> simp
      obtain ⟨hA1, hA2, a0, hA3⟩ := hA
      have hT : (composeTlm ie f2).action = f2.action ∧ (composeTlm ie f2).ohc = f2.ohc ∧ (composeTlm ie f2).teid = f2.teid ∧
          (composeTlm ie f2).remoteIP = f2.remoteIP ∧ (∀ t, ie.tlm = some t → (composeTlm ie f2).tlm = t) ∧
          (ie.tlm = none → (composeTlm ie f2).tlm = f2.tlm) := by
        unfold composeTlm; cases ie.tlm <;> simp
      obtain ⟨t1, t2, t3, t4, t5, t6⟩ := hT
      have hact : f2.action = f1.action ∧ f2.tlm = f1.tlm := by
        by_cases hh : ∀ o, ie.forward ≠ some (some (some o))
        · rw [hO.2 hh]; exact ⟨rfl, rfl⟩
        · simp only [not_forall, ne_eq, not_not] at hh
          obtain ⟨o, ho⟩ := hh
          rw [hO.1 o ho]; exact ⟨rfl, rfl⟩
      refine ⟨⟨?_, ?_⟩, ?_, ?_, ?_, ?_, ?_, ?_⟩
      · intro a as e; rw [t1, hact.1, hA1 a as e]
      · intro e; rw [t1, hact.1, hA2 e]
      · intro o ho; rw [t3, t2, hO.1 o ho]; exact ⟨rfl, hi8 o.desc⟩
      · intro o ip ho hip; rw [t4, hO.1 o ho, hip]; exact bswap32_octet ip
      · intro o ho hip; rw [t4, hO.1 o ho, hip, hA3]; rfl
      · intro hh; rw [t2, t3, t4, hO.2 hh, hA3]; exact ⟨rfl, rfl, rfl⟩
      · exact t5
      · intro e; rw [t6 e, hact.2, hA3]
    · cases h
    · cases h
  · cases h
  · cases h

end Eupf
