import Verif.Spec.Billing
import Verif.Props.Usage
import Verif.TimerLemmas
import Verif.Props.Accounting
/- What requests and packets do to the usage counters. Models no code. -/
namespace Eupf
open Act

/-! ### packets -/

theorem addUrr_size (b : BpfObjects) (g : U32) (u d : U64) : (b.addUrr g u d).urr.size = b.urr.size := by unfold BpfObjects.addUrr; split <;> rfl
theorem chargeUl_size (b : BpfObjects) (p : PdrEntry) (q : U32) (t : U64) (n : Nat) : (chargeUl b p q t n).urr.size = b.urr.size := by
  unfold chargeUl; rw [addUrr_size, addUrr_size]; rfl
theorem chargeDl_size (b : BpfObjects) (p : PdrEntry) (q : U32) (t : U64) (n : Nat) : (chargeDl b p q t n).urr.size = b.urr.size := by
  unfold chargeDl; rw [addUrr_size, addUrr_size]; rfl
theorem addUrr_zero {b : BpfObjects} {id : U32} {u d : U64} {g : U32} (h : id = 0) (hg : g ≠ 0) : (b.addUrr id u d).urr.val g = b.urr.val g := by
  unfold BpfObjects.addUrr
  split
  · simp only []; rw [if_neg (by rw [h]; exact hg)]
  · rfl
theorem urrTimes_zero {p : PdrEntry} (h : p.urr1 = 0 ∧ p.urr2 = 0) : p.urrTimes 0 = 2 := by unfold PdrEntry.urrTimes; rw [h.1, h.2]; decide

/-- The counter of slot 0 goes up by twice `u` and `d`, the others stay. -/
structure Billed (b dp : BpfObjects) (u d : Nat) : Prop where
  size : dp.urr.size = b.urr.size
  rest : ∀ g, g ≠ 0 → dp.urr.val g = b.urr.val g
  zero : 0 < b.urr.size.toNat → dp.urr.val 0 = ⟨(b.urr.val 0).ul + 2 * BitVec.ofNat 64 u, (b.urr.val 0).dl + 2 * BitVec.ofNat 64 d⟩

theorem two_zero (x : U64) : x + 2 * BitVec.ofNat 64 0 = x := by simp
theorem Billed.none (b : BpfObjects) : Billed b b 0 0 := ⟨rfl, fun _ _ => rfl, fun _ => by rw [two_zero, two_zero]⟩
theorem Billed.ul {b : BpfObjects} {p : PdrEntry} (h : p.urr1 = 0 ∧ p.urr2 = 0) (q : U32) (t : U64) (n : Nat) : Billed b (chargeUl b p q t n) n 0 where
  size := chargeUl_size ..
  rest g hg := by unfold chargeUl; rw [addUrr_zero h.2 hg, addUrr_zero h.1 hg]; rfl
  zero hz := by rw [chargeUl_urr b p q t n 0 (by simpa using hz), urrTimes_zero h, two_zero]
theorem Billed.dl {b : BpfObjects} {p : PdrEntry} (h : p.urr1 = 0 ∧ p.urr2 = 0) (q : U32) (t : U64) (n : Nat) : Billed b (chargeDl b p q t n) 0 n where
  size := chargeDl_size ..
  rest g hg := by unfold chargeDl; rw [addUrr_zero h.2 hg, addUrr_zero h.1 hg]; rfl
  zero hz := by rw [chargeDl_urr b p q t n 0 (by simpa using hz), urrTimes_zero h, two_zero]
theorem Billed.both {b b' b'' : BpfObjects} {u d : Nat} (h : Billed b b' u 0) (h' : Billed b' b'' 0 d) : Billed b b'' u d where
  size := h'.size.trans h.size
  rest g hg := (h'.rest g hg).trans (h.rest g hg)
  zero hz := by rw [h'.zero (by rw [h.size]; exact hz), h.zero hz]; simp only [two_zero]

theorem down_billed {e : Env} {b : BpfObjects} {f : List U8} {p : Option PdrEntry} {rule : Option Rule} {n : U16} {fr : List U8} {dp : BpfObjects} {a : XAction}
    (hq : ∀ q, p = some q → q.urr1 = 0 ∧ q.urr2 = 0) (d : DownRes e b f p rule n fr dp a) :
    ∃ k, k ≤ f.length ∧ Billed b dp 0 k ∧ (a.sent = true → k = f.length) := by
  cases d with
  | unclassified _ | denied _ _ | policed _ => exact ⟨0, Nat.zero_le _, .none _, fun h => (by cases h)⟩
  | noRoom h1 => exact ⟨_, Nat.le_refl _, .dl (hq _ h1) .., fun h => (by cases h)⟩
  | sent _ h1 => exact ⟨_, Nat.le_refl _, .dl (hq _ h1) .., fun _ => rfl⟩

/-- **What a packet does to the counters** if no entry names a URR. -/
theorem packet_billed {e : Env} {b : BpfObjects} {f fr : List U8} {dp : BpfObjects} {a : XAction} (res : PacketRes e b f fr dp a) (inv : NoUrrs b) :
    ∃ u d, u ≤ f.length ∧ d ≤ f.length ∧ Billed b dp u d ∧ (IsGtpMsg e f 255 ∧ a.sent = true → u = f.length) ∧
      ((IsDown4 e f ∨ IsDown6 f) ∧ a.sent = true → d = f.length) := by
  have notDown : ∀ {t}, IsGtpMsg e f t → ¬ (IsDown4 e f ∨ IsDown6 f) := by
    rintro t hm (hd | hd)
    · exact hd.notGtpu hm.gtpu
    · exact absurd (hd.ip.type.symm.trans hm.gtpu.ip.type) (by decide)
  have up : ∀ {p}, b.pdrUl.lookup (gtpTeid f) = some p → p.urr1 = 0 ∧ p.urr2 = 0 := fun h => inv (.ul _) _ h
  cases res with
  | foreign _ | otherMsg _ _ _ => exact ⟨0, 0, Nat.zero_le _, Nat.zero_le _, .none _, fun h => (by cases h.2), fun h => (by cases h.2)⟩
  | echo hm =>
    refine ⟨0, 0, Nat.zero_le _, Nat.zero_le _, .none _, fun h => ?_, fun h => absurd h.1 (notDown hm)⟩
    have := hm.type.symm.trans h.1.type
    exact absurd this (by decide)
  | down4 hm d =>
    obtain ⟨k, h1, h2, h3⟩ := down_billed (fun q hq => inv (.dl4 _) _ hq) d
    exact ⟨0, k, Nat.zero_le _, h1, h2, fun h => absurd (.inl hm) (notDown h.1), fun h => h3 h.2⟩
  | down6 hm d =>
    obtain ⟨k, h1, h2, h3⟩ := down_billed (fun q hq => inv (.dl6 _) _ hq) d
    exact ⟨0, k, Nat.zero_le _, h1, h2, fun h => absurd (.inr hm) (notDown h.1), fun h => h3 h.2⟩
  | gpdu hm res =>
    cases res with
    | unclassified _ | denied _ _ | policed _ => exact ⟨0, 0, Nat.zero_le _, Nat.zero_le _, .none _, fun h => (by cases h.2), fun h => (by cases h.2)⟩
    | n9 _ h1 | kept h1 | cut4 _ h1 | cut6 _ h1 | garbled _ h1 | selfOther _ _ h1 =>
      exact ⟨_, 0, Nat.le_refl _, Nat.zero_le _, .ul (up h1) .., fun _ => rfl, fun h => absurd h.1 (notDown hm)⟩
    | ping g h1 _ _ _ _ _ hcut _ hg _ hping d =>
      have eff : ∀ x q t m, (chargeUl b x q t m).pdrDl4 = b.pdrDl4 := fun x q t m => (chargeUl_effect b x q t m).pdrDl4
      obtain ⟨k, g1, g2, -⟩ := down_billed (fun q hq => inv (.dl4 _) q (by rw [eff] at hq; exact hq)) d
      refine ⟨_, k, Nat.le_refl _, Nat.le_trans g1 ?_, (Billed.ul (up h1) ..).both g2, fun _ => rfl, fun h => absurd h.1 (notDown hm)⟩
      rw [pingReply_length hping.1, hg]
      unfold cutFrame
      simp only [List.length_append, List.length_take, List.length_drop, bytes16_length]
      have := hm.len; have := hm.gtpu.ip.len
      have : 2 ≤ cutLen f := by unfold cutLen; omega
      omega

/-! ### requests -/

/-- Records say nothing was counted, slots other than 0 have counted nothing; if `b` then there is at most one report that says
something, and if there is one then slot 0 has counted nothing since; and if `c` then slot 0 has counted nothing and no report says anything. -/
structure Bill (b c : Bool) (s : HS) : Prop where
  info : ∀ i u, s.sess.urrs.get? i = some u → u.info = {}
  rest : ∀ g, g ≠ 0 → s.dp.urr.val g = {}
  one : b = true → (s.reports.filter UsageReport.nonzero).length ≤ 1
  spent : b = true → s.reports.filter UsageReport.nonzero ≠ [] → s.dp.urr.val 0 = {}
  mute : c = true → s.dp.urr.val 0 = {} ∧ s.reports.filter UsageReport.nonzero = []

theorem bill_us {b c : Bool} {α : Type} {m : Act HS α} (h : ∀ d M R, Pres (UrrSame d M R) m) : Pres (Bill b c) m :=
  pres_of fun s hs => by
    obtain ⟨h1, h2, h3⟩ := (h s.dp.urr s.sess.urrs s.reports).apply (s := s) ⟨rfl, rfl, rfl⟩
    exact ⟨by rw [h2]; exact hs.info, by rw [h1]; exact hs.rest, by rw [h3]; exact hs.one, by rw [h1, h3]; exact hs.spent, by rw [h1, h3]; exact hs.mute⟩

theorem update_val {arr arr' : ArrMap UrrInfo} {g : U32} (hu : arr.update g {} = some arr') {k : U32} (h : arr.val k = {} ∨ k = g) : arr'.val k = {} := by
  unfold ArrMap.update at hu
  split at hu
  · cases hu
    show (if k = g then _ else arr.val k) = _
    split
    · rfl
    · rename_i hk; exact h.resolve_right hk
  · cases hu

theorem bill_createUrr {b c : Bool} (ie) : Pres (Bill b c) (createUrr ie) := by
  apply pres_of; intro s hs
  unfold createUrr
  split
  · exact hs
  · rename_i id
    unfold BpfObjects.newUrr
    simp only []
    cases hg : s.dp.urrIds.getNext.2 with
    | none => exact ⟨hs.1, hs.2, hs.3, hs.4, hs.5⟩
    | some g =>
      simp only
      cases hu : s.dp.urr.update g {} with
      | none => exact ⟨hs.1, hs.2, hs.3, hs.4, hs.5⟩
      | some arr =>
        refine ⟨?_, fun k hk => update_val hu (.inl (hs.rest k hk)), hs.one, fun h1 h2 => update_val hu (.inl (hs.spent h1 h2)), fun hc => ⟨update_val hu (.inl (hs.mute hc).1), (hs.mute hc).2⟩⟩
        intro i u hi
        simp only [Session.newUrr, GoMap.get?_set] at hi
        split at hi
        · cases hi; rfl
        · exact hs.info i u hi

theorem getUrr_info {b c : Bool} {s : HS} (hs : Bill b c s) (i : U32) : (s.sess.getUrr i).info = {} := by
  unfold Session.getUrr
  cases h : s.sess.urrs.get? i with
  | none => rfl
  | some u => exact hs.info i u h

theorem bill_updateUrr {b c : Bool} (ie) : Pres (Bill b c) (updateUrr ie) := by
  apply pres_of; intro s hs
  unfold updateUrr
  split
  · exact hs
  · rename_i id
    simp only []
    have hi := getUrr_info hs id
    have info : ∀ i u, (s.sess.updateUrr id (s.sess.getUrr id).info).urrs.get? i = some u → u.info = {} := by
      intro i u h
      simp only [Session.updateUrr, GoMap.get?_set] at h
      split at h
      · cases h; exact hi
      · exact hs.info i u h
    cases hu : s.dp.updateUrr (s.sess.getUrr id).gid (s.sess.getUrr id).info with
    | none => exact ⟨info, hs.2, hs.3, hs.4, hs.5⟩
    | some dp =>
      unfold BpfObjects.updateUrr at hu
      obtain ⟨arr, ha, rfl⟩ := Option.map_eq_some_iff.1 hu
      rw [hi] at ha
      exact ⟨info, fun k hk => update_val ha (.inl (hs.rest k hk)), hs.one, fun h1 h2 => update_val ha (.inl (hs.spent h1 h2)), fun hc => ⟨update_val ha (.inl (hs.mute hc).1), (hs.mute hc).2⟩⟩

/-- taking the counters of a slot -/
theorem bill_take {b c : Bool} {s : HS} (hs : Bill b c s) (g : U32) : ∀ dp v, s.dp.deleteUrr g = (dp, v) →
    (∀ k, k ≠ 0 → dp.urr.val k = {}) ∧ (s.dp.urr.val 0 = {} → dp.urr.val 0 = {}) ∧ ∀ w, v = some w → w = {} ∨ (w = s.dp.urr.val 0 ∧ dp.urr.val 0 = {}) := by
  intro dp v hd
  unfold BpfObjects.deleteUrr at hd
  cases hl : s.dp.urr.lookup g with
  | none => rw [hl] at hd; cases hd; exact ⟨hs.rest, id, fun w h => (by cases h)⟩
  | some w =>
    rw [hl] at hd
    simp only at hd
    have hw : w = s.dp.urr.val g := by
      unfold ArrMap.lookup at hl; split at hl
      · exact (Option.some.inj hl).symm
      · cases hl
    cases hu : s.dp.urr.update g {} with
    | none => rw [hu] at hd; cases hd; exact ⟨hs.rest, id, fun w h => (by cases h)⟩
    | some arr =>
      rw [hu] at hd; cases hd
      refine ⟨fun k hk => update_val hu (.inl (hs.rest k hk)), fun h => update_val hu (.inl h), ?_⟩
      intro w' h; cases h
      by_cases hg : g = 0
      · subst hg; exact .inr ⟨hw, update_val hu (.inr rfl)⟩
      · exact .inl (hw.trans (hs.rest g hg))

theorem mkReport_zero (id : U32) (u : SUrr) : (mkReport id u {}).nonzero = false := rfl

theorem bill_report {b c : Bool} {s : HS} (hs : Bill b c s) {dp : BpfObjects} {v : UrrInfo} (id : U32) (u : SUrr) (sess : Session)
    (hi : ∀ i u, sess.urrs.get? i = some u → u.info = {}) (h1 : ∀ k, k ≠ 0 → dp.urr.val k = {}) (h2 : s.dp.urr.val 0 = {} → dp.urr.val 0 = {})
    (h3 : v = {} ∨ (v = s.dp.urr.val 0 ∧ dp.urr.val 0 = {})) :
    Bill b c { s with dp := dp, sess := sess, reports := s.reports ++ [mkReport id u v] } := by
  rcases h3 with rfl | ⟨rfl, h3⟩
  · have e : (s.reports ++ [mkReport id u {}]).filter UsageReport.nonzero = s.reports.filter UsageReport.nonzero := by
      rw [List.filter_append, List.filter_cons_of_neg (by rw [mkReport_zero]; decide)]; simp
    exact ⟨hi, h1, fun hb => by rw [e]; exact hs.one hb, fun hb hne => h2 (hs.spent hb (by rw [← e]; exact hne)), fun hc => ⟨h2 (hs.mute hc).1, by rw [e]; exact (hs.mute hc).2⟩⟩
  · refine ⟨hi, h1, fun hb => ?_, fun _ _ => h3, fun hc => ⟨h3, ?_⟩⟩
    · show (List.filter _ (s.reports ++ _)).length ≤ 1
      rw [List.filter_append, List.length_append]
      by_cases hne : s.reports.filter UsageReport.nonzero = []
      · rw [hne]
        have := List.length_filter_le UsageReport.nonzero [mkReport id u (s.dp.urr.val 0)]
        simpa using this
      · rw [hs.spent hb hne, List.filter_cons_of_neg (by rw [mkReport_zero]; decide)]
        exact hs.one hb
    · show List.filter _ (s.reports ++ _) = []
      rw [List.filter_append, (hs.mute hc).2, (hs.mute hc).1]; rfl

theorem bill_removeUrr {b c : Bool} (ie) : Pres (Bill b c) (removeUrr ie) := by
  apply pres_of; intro s hs
  unfold removeUrr
  split
  · exact hs
  · rename_i id
    simp only []
    have hi : ∀ i u, (s.sess.removeUrr id).urrs.get? i = some u → u.info = {} := by
      intro i u h
      simp only [Session.removeUrr, GoMap.get?_erase] at h
      split at h
      · cases h
      · exact hs.info i u h
    rcases hd : s.dp.deleteUrr (s.sess.getUrr id).gid with ⟨dp, v⟩
    obtain ⟨h1, h2, h3⟩ := bill_take hs _ dp v hd
    cases v with
    | none => exact ⟨hi, h1, hs.one, fun hb hne => h2 (hs.spent hb hne), fun hc => ⟨h2 (hs.mute hc).1, (hs.mute hc).2⟩⟩
    | some v => exact bill_report hs id _ _ hi h1 h2 (h3 v rfl)

theorem bill_dropUrr {b c : Bool} (e) : Pres (Bill b c) (dropUrr e) := by
  apply pres_of; intro s hs
  unfold dropUrr
  rcases hd : s.dp.deleteUrr e.2.gid with ⟨dp, v⟩
  obtain ⟨h1, h2, h3⟩ := bill_take hs _ dp v hd
  cases v with
  | none => exact ⟨hs.info, h1, hs.one, fun hb hne => h2 (hs.spent hb hne), fun hc => ⟨h2 (hs.mute hc).1, (hs.mute hc).2⟩⟩
  | some v => exact bill_report hs e.1 _ s.sess hs.info h1 h2 (h3 v rfl)

theorem dropFar_us {d M R} (e) : Pres (UrrSame d M R) (dropFar e) := by
  apply pres_of; intro s h
  rw [dropFar_dp]
  obtain ⟨_, _, e⟩ := deleteFar_frame s.dp e.2.gid
  rw [e]; exact h
theorem dropQer_us {d M R} (e) : Pres (UrrSame d M R) (dropQer e) := by
  apply pres_of; intro s h
  rw [dropQer_dp]
  obtain ⟨_, _, e⟩ := deleteQer_frame s.dp e.2.gid
  rw [e]; exact h

theorem bill_est {b c : Bool} (ue r) : Pres (Bill b c) (establishBody ue r) :=
  establishBody_pres (fun _ _ => bill_us fun _ _ _ => createFar_us _) (fun _ _ => bill_us fun _ _ _ => createQer_us _) (fun _ _ => bill_createUrr _)
    (fun _ _ => bill_us fun _ _ _ => createPdr_us _ _)
theorem bill_mod {b c : Bool} (ue ord r) : Pres (Bill b c) (modifyBody ue ord r) :=
  modifyBody_pres (fun _ _ => bill_us fun _ _ _ => createFar_us _) (fun _ _ => bill_us fun _ _ _ => updateFar_us _) (fun _ _ => bill_us fun _ _ _ => removeFar_us _)
    (fun _ _ => bill_us fun _ _ _ => createQer_us _) (fun _ _ => bill_us fun _ _ _ => updateQer_us _) (fun _ _ => bill_us fun _ _ _ => removeQer_us _)
    (fun _ _ => bill_createUrr _) (fun _ _ => bill_updateUrr _) (fun _ _ => bill_removeUrr _)
    (fun _ _ => bill_us fun _ _ _ => createPdr_us _ _) (fun _ _ => bill_us fun _ _ _ => updatePdr_us _ _) (fun _ _ => bill_us fun _ _ _ => removePdr_us _ _)
theorem bill_del {b c : Bool} (ord sess) : Pres (Bill b c) (deleteBody ord sess) :=
  deleteBody_pres (fun _ _ => bill_us fun _ _ _ => deletePdr_us _ _) (fun _ _ => bill_us fun _ _ _ => dropFar_us _) (fun _ _ => bill_us fun _ _ _ => dropQer_us _)
    (fun _ _ => bill_dropUrr _)
theorem bill_dels {b c : Bool} (ord sess) : Pres (Bill b c) (deleteSessionBody ord sess) :=
  deleteSessionBody_pres (fun _ _ => bill_us fun _ _ _ => deletePdr_us _ _) (fun _ _ => bill_us fun _ _ _ => dropFar_us _) (fun _ _ => bill_us fun _ _ _ => dropQer_us _)

abbrev NoInfo (x : Session) : Prop := ∀ i u, x.urrs.get? i = some u → u.info = {}
abbrev NoneElse (_ : Option ResourceManager) (dp : BpfObjects) : Prop := ∀ g, g ≠ 0 → dp.urr.val g = {}

theorem bill_keeps {α : Type} {m : Act HS α} (h : Pres (Bill false false) m) : Keeps NoInfo NoneElse m := fun s _ hs => by
  have := h.apply (s := s) ⟨hs.1, hs.2, fun h => (by cases h), fun h => (by cases h), fun h => (by cases h)⟩
  exact ⟨this.info, this.rest⟩

theorem bill_step : BodiesStep (fun _ => True) NoInfo NoneElse where
  new _ _ := fun i u h => (by cases h)
  remote s x h := fun i u hi => h i u (by unfold Session.setRemote at hi; split at hi <;> exact hi)
  est _ _ _ _ := bill_keeps (bill_est _ _)
  mod _ _ _ _ _ := bill_keeps (bill_mod _ _ _)
  del _ _ _ := bill_keeps (bill_del _ _)
  dels _ _ _ := bill_keeps (bill_dels _ _)
  rel _ _ _ _ h := h

/-- A node whose counters say nothing but in slot 0. -/
structure BillNode (n : Node) : Prop where
  bill : NI NoInfo NoneElse n
  none : NoUrrs n.dp

theorem BillNode.step {n : Node} (h : BillNode n) (e : Ev) : BillNode (n.step e).1 :=
  ⟨ni_step bill_step e trivial h.bill, (ni_step nu_keep.toBodiesStep e trivial (S := fun _ => True) ⟨fun _ _ _ _ => trivial, h.none⟩).2⟩
theorem BillNode.packet {n : Node} (h : BillNode n) {e : Env} {f fr : List U8} {dp : BpfObjects} {a : XAction} (res : PacketRes e n.dp f fr dp a) :
    BillNode { n with dp := dp } := by
  obtain ⟨u, d, -, -, hb, -⟩ := packet_billed res h.none
  exact ⟨⟨h.bill.1, fun g hg => (hb.rest g hg).trans (h.bill.2 g hg)⟩, nu_keep.traffic n.rm _ _ h.none (packetRes_effect res)⟩

theorem BillNode.line {P : Node → Ev → Prop} {h0 h : List (Ev × Outcome)} {n0 n : Node} {l : List Passed} (T : Timeline P h0 n0 h l n) (hn : BillNode n0) : BillNode n := by
  induction T with
  | start => exact hn
  | packet _ hrun ih => exact ih.packet (entry_det hrun)
  | request e _ _ _ ih => exact ih.step e

theorem BillNode.init (cfg : NodeCfg) (rm : Option ResourceManager) (p f q u : U32) : BillNode (Node.init cfg rm (BpfObjects.load p f q u)) := by
  refine ⟨⟨?_, fun _ _ => rfl⟩, ?_⟩
  · intro a s x hx; cases hx
  · intro k p hp; cases k <;> cases hp

/-- **A response has at most one report that says something.** -/
theorem BillNode.reports {n : Node} (h : BillNode n) {e : Ev} {resp : Resp} (hr : (n.step e).2 = .reply resp) :
    (resp.reports.filter UsageReport.nonzero).length ≤ 1 := by
  have start : ∀ x, NoInfo x → Bill true false (n.hs x) := fun x hx => ⟨hx, h.bill.2, fun _ => Nat.zero_le _, fun _ h => absurd rfl h, fun h => (by cases h)⟩
  have zero : resp.reports = [] → (resp.reports.filter UsageReport.nonzero).length ≤ 1 := fun h => by rw [h]; exact Nat.zero_le _
  cases e with
  | establish a r =>
    have hr : (n.establish a r).2 = .reply resp := hr
    cases establish_cases n a r with
    | refused c hcc he => rw [he] at hr; cases hr; exact zero rfl
    | ran remote as hs res hid hcp ha hbody hl hrem he =>
      rw [he] at hr
      cases res <;> simp only [Node.estResult] at hr <;> cases hr <;> exact zero rfl
  | modify a r ord =>
    have hr : (n.modify a r ord).2 = .reply resp := hr
    cases modify_cases n a r ord with
    | refused c x hcc hs he => rw [he] at hr; cases hr; exact zero rfl
    | ran as sess hs res ha hsess hbody hl hrem he =>
      have B := (bill_mod (b := true) (c := false) n.ueip ord r).apply (start _ (bill_step.remote sess r.cpFseid (h.bill.1 a r.seid sess (by simp [Node.session?, ha, hsess]))))
      rw [hbody] at B
      rw [he] at hr
      cases res <;> simp only [Node.modResult] at hr <;> cases hr
      · exact B.one rfl
      · first | exact zero rfl | exact B.one rfl
  | delete a r ord =>
    have hr : (n.delete a r ord).2 = .reply resp := hr
    cases delete_cases n a r ord with
    | refused c hcc hs he => rw [he] at hr; cases hr; exact zero rfl
    | ran as sess hs res ha hsess hbody he =>
      have B := (bill_del (b := true) (c := false) ord sess).apply (start _ (h.bill.1 a r.seid sess (by simp [Node.session?, ha, hsess])))
      rw [hbody] at B
      rw [he] at hr
      cases res <;> simp only [Node.delResult] at hr <;> cases hr
      exact B.one rfl
  | assocSetup a s i r =>
    have hr : (n.assocSetup a s i r).2 = .reply resp := hr
    unfold Node.assocSetup at hr
    repeat' split at hr
    all_goals (cases hr; exact zero rfl)
  | assocSetupResp a i c f =>
    have hr : (n.assocSetupResp a i c f).2 = .reply resp := hr
    unfold Node.assocSetupResp at hr
    repeat' split at hr
    all_goals (cases hr)
  | assocUpdate a s i =>
    have hr : (n.assocUpdate a s i).2 = .reply resp := hr
    unfold Node.assocUpdate at hr
    repeat' split at hr
    all_goals (cases hr; exact zero rfl)
  | heartbeatReq a s r =>
    have hr : (n.heartbeatReq s r).2 = .reply resp := hr
    unfold Node.heartbeatReq at hr
    repeat' split at hr
    all_goals (cases hr)
    exact zero rfl
  | heartbeatResp a s r =>
    have hr : (n.heartbeatResp r).2 = .reply resp := hr
    unfold Node.heartbeatResp at hr
    repeat' split at hr
    all_goals (cases hr)
  | peerLost a ord =>
    have hr : (n.deleteAssociation a ord).2 = .reply resp := hr
    unfold Node.deleteAssociation at hr
    repeat' split at hr
    all_goals (cases hr)
  | setConfig => cases hr

/-! ### modifications that do not name the URR -/

/-- Compares the slot of URR `j` of `k` with `V`, which must not be written. -/
def SlotCmp.stillUrr (k : Option (Addr × U64)) (j : U32) (V : UrrInfo) : SlotCmp :=
  ⟨fun _ _ _ => True, fun o v _ => o = (k, j) → v = V, fun _ => False, fun o => o = (k, j), fun _ _ _ => trivial, fun _ _ h e => absurd e h⟩

/-- the invariant of the session -/
abbrev HasUrr (j : U32) (u : SUrr) (s : HS) : Prop := s.sess.urrs.get? j = some u

theorem hasUrr_us {j u} {α : Type} {m : Act HS α} (h : ∀ d M R, Pres (UrrSame d M R) m) : Pres (HasUrr j u) m :=
  pres_of fun s hs => by
    obtain ⟨-, h2, -⟩ := (h s.dp.urr s.sess.urrs s.reports).apply (s := s) ⟨rfl, rfl, rfl⟩
    show (m s).1.sess.urrs.get? j = some u
    rw [h2]; exact hs
theorem hasUrr_create {j u} {ie : Option U32} (hne : ie ≠ some j) : Pres (HasUrr j u) (createUrr ie) := by
  apply pres_of; intro s hs
  unfold createUrr
  split
  · exact hs
  · rename_i id
    rcases hd : s.dp.newUrr {} with ⟨dp, g⟩
    cases g with
    | none => exact hs
    | some g =>
      show (s.sess.urrs.set id _).get? j = some u
      rw [GoMap.get?_set, if_neg (by rintro rfl; exact hne rfl)]; exact hs
theorem hasUrr_update {j u} {ie : Option U32} (hne : ie ≠ some j) : Pres (HasUrr j u) (updateUrr ie) := by
  apply pres_of; intro s hs
  unfold updateUrr
  split
  · exact hs
  · rename_i id
    have h2 : ((s.sess.updateUrr id (s.sess.getUrr id).info).urrs).get? j = some u := by
      simp only [Session.updateUrr]
      rw [GoMap.get?_set, if_neg (by rintro rfl; exact hne rfl)]; exact hs
    simp only []
    cases hu : s.dp.updateUrr (s.sess.getUrr id).gid (s.sess.getUrr id).info with
    | none => exact h2
    | some dp => exact h2
theorem hasUrr_remove {j u} {id : Option U32} (hne : id ≠ some j) : Pres (HasUrr j u) (removeUrr id) := by
  apply pres_of; intro s hs
  unfold removeUrr
  split
  · exact hs
  · rename_i id
    have h2 : ((s.sess.removeUrr id).urrs).get? j = some u := by
      simp only [Session.removeUrr]
      rw [GoMap.get?_erase, if_neg (by rintro rfl; exact hne rfl)]; exact hs
    simp only []
    rcases he : s.dp.deleteUrr (s.sess.getUrr id).gid with ⟨dp, b⟩
    cases b <;> exact h2

/-- A modification that does not name the URR leaves its slot exactly as it was. -/
theorem own_frame_urr {n : Node} {a : Addr} {r : ModReq} {ord : Orders} (S : Slots n.view n.dp) {x : Session} (hk : RefsKnown r x)
    (hx : n.session? a r.seid = some x) {j : U32} {u : SUrr} (hq : x.urrs.get? j = some u) (hc : some j ∉ r.createUrr)
    (hu : some j ∉ r.updateUrr) (hd : some j ∉ r.removeUrr) :
    (∃ x', (n.modify a r ord).1.session? a r.seid = some x' ∧ x'.urrs.get? j = some u) ∧
    (n.modify a r ord).1.dp.urr.val u.gid = n.dp.urr.val u.gid := by
  cases modify_cases n a r ord with
  | refused c y hcc hs he => rw [hx] at hs; cases hs
  | ran as sess hs res ha hsess hbody hl hrem he =>
    have hx' : sess = x := by
      have : n.session? a r.seid = some sess := by simp [Node.session?, ha, hsess]
      rw [hx] at this; exact (Option.some.inj this).symm
    subst hx'
    have hv : n.view (some (a, r.seid)) = some sess := hx
    have hk' : RefsKnown r (sess.setRemote r.cpFseid) := by
      unfold Session.setRemote; split
      · exact ⟨hk.1, hk.2, hk.3, hk.4, hk.5, hk.6, hk.7, hk.8, hk.9⟩
      · exact hk
    have S' : SlotsX (.stillUrr (some (a, r.seid)) j (n.dp.urr.val u.gid)) n.view n.dp := by
      refine ⟨S.far, ⟨S.qer.size, S.qer.excl, fun k g v h => ⟨(S.qer.ok k g v h).1, (S.qer.ok k g v h).2.1, trivial⟩⟩, ⟨S.urr.size, S.urr.excl, ?_⟩⟩
      intro k g v h
      refine ⟨(S.urr.ok k g v h).1, (S.urr.ok k g v h).2.1, ?_⟩
      rintro rfl
      have : ownUrr n.view (some (a, r.seid), j) = some (u.gid, u.info) := by simp [ownUrr, hv, hq]
      rw [this] at h; cases h; rfl
    have hi := modifyBody_slots (c := .stillUrr (some (a, r.seid)) j (n.dp.urr.val u.gid)) (view := n.view) (k := some (a, r.seid)) n.ueip ord r
      (sess.setRemote r.cpFseid) hk' (n.hs (sess.setRemote r.cpFseid)) rfl (by
        refine slots_of (s := sess) (by rw [upd_self hv]; exact S') ?_ ?_ ?_ <;>
        · unfold Session.setRemote Node.hs; split <;> rfl)
      (fun _ _ _ _ h => h) (fun _ _ _ _ h => h) (by intro i hi h; cases h; exact hc hi) (by intro i hi h; cases h; exact hu hi)
    have hp : Pres (HasUrr j u) (modifyBody n.ueip ord r) :=
      modifyBody_pres (fun _ _ => hasUrr_us fun _ _ _ => createFar_us _) (fun _ _ => hasUrr_us fun _ _ _ => updateFar_us _) (fun _ _ => hasUrr_us fun _ _ _ => removeFar_us _)
        (fun _ _ => hasUrr_us fun _ _ _ => createQer_us _) (fun _ _ => hasUrr_us fun _ _ _ => updateQer_us _) (fun _ _ => hasUrr_us fun _ _ _ => removeQer_us _)
        (fun id h => hasUrr_create (by rintro rfl; exact hc h)) (fun id h => hasUrr_update (by rintro rfl; exact hu h)) (fun id h => hasUrr_remove (by rintro rfl; exact hd h))
        (fun _ _ => hasUrr_us fun _ _ _ => createPdr_us _ _) (fun _ _ => hasUrr_us fun _ _ _ => updatePdr_us _ _) (fun _ _ => hasUrr_us fun _ _ _ => removePdr_us _ _)
    have hp' : HasUrr j u (modifyBody n.ueip ord r (n.hs (sess.setRemote r.cpFseid))).1 := hp.apply (show ((sess.setRemote r.cpFseid).urrs).get? j = some u by
      rw [(setRemote_rules sess r.cpFseid).2.2.1]; exact hq)
    rw [hbody] at hi hp'
    rw [he]
    refine ⟨⟨hs.sess, by simp [Node.modResult, Node.session?, GoMap.get?_set], hp'⟩, ?_⟩
    exact (hi.urr.ok (some (a, r.seid), j) u.gid u.info (by rw [ownUrr_upd, hp']; rfl)).2.2 rfl

/-- **A request that does not touch the URR** leaves the session its URR and the counters of it exactly as they were. -/
theorem urr_still {n : Node} {e : Ev} (S : Slots n.view n.dp) (hr : e.refsKnown n) {a : Addr} {s : U64} {j : U32} (ht : ¬ e.touchesUrr a s j)
    (hfresh : ∀ as, n.assocs.get? a = some as → s ≠ as.nextSessionID + 1) {x : Session} (hx : n.session? a s = some x) {u : SUrr} (hq : x.urrs.get? j = some u) :
    (∃ x', (n.step e).1.session? a s = some x' ∧ x'.urrs.get? j = some u) ∧ (n.step e).1.dp.urr.val u.gid = n.dp.urr.val u.gid := by
  by_cases hab : e.about a s
  · cases e with
    | modify a' r ord =>
      obtain ⟨rfl, rfl⟩ := hab
      exact own_frame_urr S (hr x hx) hx hq (fun h => ht ⟨rfl, rfl, .inl h⟩) (fun h => ht ⟨rfl, rfl, .inr (.inl h)⟩)
        (fun h => ht ⟨rfl, rfl, .inr (.inr h)⟩)
    | delete => exact absurd hab ht
    | peerLost => exact absurd hab ht
    | establish => exact absurd hab id
    | setConfig => exact absurd hab id
    | assocSetup => exact absurd hab id
    | assocSetupResp => exact absurd hab id
    | assocUpdate => exact absurd hab id
    | heartbeatReq => exact absurd hab id
    | heartbeatResp => exact absurd hab id
  · exact ⟨⟨x, (session_kept hfresh hab).trans hx, hq⟩, (step_frame S hr hab hx).2 j u hq⟩

end Eupf
