import Verif.PdrTables
import Verif.Props.RateLimit
/-
C38: which URR a packet is charged to. C60: TEIDs nobody configured.
-/
namespace Eupf
open Act

/-! ### C38, the forwarding plane -/

/-- How often an entry names URR slot `i`. -/
def PdrEntry.urrTimes (p : PdrEntry) (i : U32) : U64 := (if i = p.urr1 then 1 else 0) + (if i = p.urr2 then 1 else 0)

theorem addUrr_val (b : BpfObjects) (id : U32) (u d : U64) (i : U32) (hi : i.toNat < b.urr.size.toNat) :
    (b.addUrr id u d).urr.val i = ⟨(b.urr.val i).ul + (if i = id then 1 else 0) * u, (b.urr.val i).dl + (if i = id then 1 else 0) * d⟩ ∧
    (b.addUrr id u d).urr.size = b.urr.size := by
  unfold BpfObjects.addUrr
  by_cases h : i = id
  · subst h
    rw [if_pos hi]
    simp
  · rw [if_neg h]
    split
    · simp [h]
    · simp
theorem setStart_urr (b : BpfObjects) (q : U32) (f) : (b.setStart q f).urr = b.urr := rfl

theorem chargeUl_urr (b : BpfObjects) (p : PdrEntry) (q : U32) (t : U64) (n : Nat) (i : U32) (hi : i.toNat < b.urr.size.toNat) :
    (chargeUl b p q t n).urr.val i = ⟨(b.urr.val i).ul + p.urrTimes i * BitVec.ofNat 64 n, (b.urr.val i).dl⟩ := by
  unfold chargeUl
  generalize hb : b.setStart q (fun x => { x with startUL := t }) = b1
  have e1 : b1.urr = b.urr := by rw [← hb]; rfl
  obtain ⟨h1, h2⟩ := addUrr_val b1 p.urr1 (BitVec.ofNat 64 n) 0 i (by rw [e1]; exact hi)
  obtain ⟨h3, _⟩ := addUrr_val (b1.addUrr p.urr1 (BitVec.ofNat 64 n) 0) p.urr2 (BitVec.ofNat 64 n) 0 i (by rw [h2, e1]; exact hi)
  rw [h3, h1, e1]
  unfold PdrEntry.urrTimes
  generalize (if i = p.urr1 then (1 : U64) else 0) = c1
  generalize (if i = p.urr2 then (1 : U64) else 0) = c2
  have z : ∀ c x : U64, x + c * 0 = x := fun c x => by simp
  simp only [z]
  rw [BitVec.add_assoc, BitVec.add_mul]
theorem chargeDl_urr (b : BpfObjects) (p : PdrEntry) (q : U32) (t : U64) (n : Nat) (i : U32) (hi : i.toNat < b.urr.size.toNat) :
    (chargeDl b p q t n).urr.val i = ⟨(b.urr.val i).ul, (b.urr.val i).dl + p.urrTimes i * BitVec.ofNat 64 n⟩ := by
  unfold chargeDl
  generalize hb : b.setStart q (fun x => { x with startDL := t }) = b1
  have e1 : b1.urr = b.urr := by rw [← hb]; rfl
  obtain ⟨h1, h2⟩ := addUrr_val b1 p.urr1 0 (BitVec.ofNat 64 n) i (by rw [e1]; exact hi)
  obtain ⟨h3, _⟩ := addUrr_val (b1.addUrr p.urr1 0 (BitVec.ofNat 64 n)) p.urr2 0 (BitVec.ofNat 64 n) i (by rw [h2, e1]; exact hi)
  rw [h3, h1, e1]
  unfold PdrEntry.urrTimes
  generalize (if i = p.urr1 then (1 : U64) else 0) = c1
  generalize (if i = p.urr2 then (1 : U64) else 0) = c2
  have z : ∀ c x : U64, x + c * 0 = x := fun c x => by simp
  simp only [z]
  rw [BitVec.add_assoc, BitVec.add_mul]

/-- **C38, forwarding plane, uplink.** A G-PDU of `n` octets that is sent on (and is not a ping of the UPF, whose answer is charged too)
adds `n` to the uplink volume of each URR slot its table entry names, and changes no other volume. -/
theorem C38_uplink_partial (e : Env) (s s' : PS) (a : XAction) (hrun : runPacket e s = (s', .ok a)) (hs : a.sent = true)
    (hm : IsGtpMsg e s.frame 255) {pdr : PdrEntry} (hp : s.dp.pdrUl.lookup (gtpTeid s.frame) = some pdr)
    (hping : ¬ (innerType s.frame = some 0x0800 ∧ ToSelf e (cutFrame s.frame 0x0800))) (i : U32) (hi : i.toNat < s.dp.urr.size.toNat) :
    s'.dp.urr.val i = ⟨(s.dp.urr.val i).ul + pdr.urrTimes i * BitVec.ofNat 64 s.frame.length, (s.dp.urr.val i).dl⟩ := by
  have res := entry_det hrun
  clear hrun
  generalize s'.frame = fr at res
  generalize s'.dp = dp at res ⊢
  have hx : ∀ {t}, IsGtpMsg e s.frame t → t = 255 := fun h => by rw [← h.type, hm.type]
  cases res with
  | foreign _ | otherMsg _ _ _ => cases hs
  | echo h => exact absurd (hx h) (by decide)
  | down4 h _ => exact absurd hm.gtpu h.notGtpu
  | down6 h _ => exact absurd (h.ip.type.symm.trans hm.gtpu.ip.type) (by decide)
  | gpdu _ res =>
    cases res with
    | unclassified _ | denied _ _ | policed _ | garbled _ _ _ _ | selfOther _ _ _ _ _ => cases hs
    | n9 _ h1 | kept h1 | cut4 _ h1 | cut6 _ h1 => rw [hp] at h1; cases h1; exact chargeUl_urr _ _ _ _ _ i hi
    | ping _ _ _ _ _ _ _ _ h1 hg h2 => subst hg; exact absurd ⟨h1, h2⟩ hping

/-- **C38, forwarding plane, downlink.** -/
theorem C38_downlink_partial (e : Env) (s s' : PS) (a : XAction) (hrun : runPacket e s = (s', .ok a)) (hs : a.sent = true) {pdr : PdrEntry}
    (hm : (IsDown4 e s.frame ∧ s.dp.pdrDl4.lookup (be32 s.frame 30) = some pdr) ∨
      (IsDown6 s.frame ∧ s.dp.pdrDl6.lookup (be128 (slice s.frame 38 16)) = some pdr))
    (i : U32) (hi : i.toNat < s.dp.urr.size.toNat) :
    s'.dp.urr.val i = ⟨(s.dp.urr.val i).ul, (s.dp.urr.val i).dl + pdr.urrTimes i * BitVec.ofNat 64 s.frame.length⟩ := by
  have res := entry_det hrun
  clear hrun
  generalize s'.frame = fr at res
  generalize s'.dp = dp at res ⊢
  have main : ∀ {p rule n}, p = some pdr → DownRes e s.dp s.frame p rule n fr dp a →
      dp.urr.val i = ⟨(s.dp.urr.val i).ul, (s.dp.urr.val i).dl + pdr.urrTimes i * BitVec.ofNat 64 s.frame.length⟩ := by
    intro p rule n hp d
    cases d with
    | unclassified _ | denied _ _ | policed _ | noRoom => cases hs
    | sent _ h1 => rw [hp] at h1; cases h1; exact chargeDl_urr _ _ _ _ _ i hi
  cases res with
  | foreign _ | otherMsg _ _ _ => cases hs
  | echo h | gpdu h _ =>
    rcases hm with ⟨hm, _⟩ | ⟨hm, _⟩
    · exact absurd h.gtpu hm.notGtpu
    · exact absurd (hm.ip.type.symm.trans h.gtpu.ip.type) (by decide)
  | down4 h d =>
    rcases hm with ⟨hm, hp⟩ | ⟨hm, _⟩
    · exact main hp d
    · exact absurd (hm.ip.type.symm.trans h.ip.type) (by decide)
  | down6 h d =>
    rcases hm with ⟨hm, hp⟩ | ⟨hm, hp⟩
    · exact absurd (h.ip.type.symm.trans hm.ip.type) (by decide)
    · exact main hp d

/-- Tables whose entries name URR slots 3 and 4: what a packet does. -/
example : let dp := { DemoDp.dp with pdrUl := ⟨(GoMap.empty : GoMap U32 PdrEntry).set 0x100 { urr1 := 3, urr2 := 4 }, 16⟩ }
    let r := runPacket DemoDp.env ⟨DemoDp.up, dp, {}, {}⟩
    r.2 = .ok (.redirect 7) ∧ r.1.dp.urr.val 3 = ⟨82, 0⟩ ∧ r.1.dp.urr.val 4 = ⟨82, 0⟩ ∧ r.1.dp.urr.val 0 = ⟨0, 0⟩ := by decide +kernel

/-! ### C38, what user space puts in the tables -/

/-- No entry names a URR slot. -/
def NoUrrs (dp : BpfObjects) : Prop := ∀ k p, dp.entry? k = some p → p.urr1 = 0 ∧ p.urr2 = 0

theorem pdrToStore_urr (cur : Option PdrEntry) (p : PdrInfo) : (pdrToStore cur p).urr1 = 0 ∧ (pdrToStore cur p).urr2 = 0 := by
  unfold pdrToStore
  split
  · unfold combineWithSdf; cases cur <;> exact ⟨rfl, rfl⟩
  · exact ⟨rfl, rfl⟩

/-- `NoUrrs`, as an invariant of bodies -/
abbrev NU (s : HS) : Prop := HI (fun _ => True) (fun _ dp => NoUrrs dp) s

theorem nu_frame {s s' : HS} (h : RuleFrame s s') (hs : NU s) : NU s' :=
  ⟨trivial, fun k p hp => hs.2 k p (by rw [← h.entry k]; exact hp)⟩
theorem nu_apply (p : SPdr) : Pres NU (applyPdr p) := by
  apply pres_of; intro s h
  rcases applyPdr_entries p s with ⟨dp, e, hk⟩ | e
  · rw [e]
    refine ⟨trivial, fun k q hq => ?_⟩
    have hq : dp.entry? k = some q := hq
    rw [hk] at hq
    split at hq
    · cases hq; exact pdrToStore_urr ..
    · exact h.2 k q hq
  · rw [e]; exact h
theorem nu_create (ue ie) : Pres NU (createPdr ue ie) := by
  unfold createPdr
  cases ie.pdrId with
  | none => exact Pres.fail
  | some id =>
    refine Pres.bind (pres_of fun s h => ?_) fun _ => Pres.bind (Pres.modify fun _ h => h) fun _ => Pres.bind (nu_apply _) fun _ => Pres.modify fun _ h => h
    obtain ⟨c, rm, e⟩ := extractPdr_frame ue ie { pdrId := id.zeroExtend 32 } s; rw [e]; exact h
theorem nu_update (ue ie) : Pres NU (updatePdr ue ie) := by
  unfold updatePdr
  cases ie.pdrId with
  | none => exact Pres.fail
  | some id =>
    refine Pres.bind Pres.get fun s0 => Pres.bind (pres_of fun s h => ?_) fun _ => Pres.bind (Pres.modify fun _ h => h) fun _ => nu_apply _
    obtain ⟨c, rm, e⟩ := extractPdr_frame ue ie (s0.sess.getPdr (id.zeroExtend 32)) s; rw [e]; exact h
theorem nu_delete (ord p) : Pres NU (deletePdr ord p) := by
  apply pres_of; intro s h
  obtain ⟨rm, e⟩ := deletePdr_dp ord p s
  rw [e]
  cases deletePdrEntry_cases p s with
  | gone dp c hd _ hdp _ =>
    rw [hd]
    refine ⟨trivial, fun k q hq => ?_⟩
    have hq : dp.entry? k = some q := hq
    rw [hdp] at hq
    split at hq
    · cases hq
    · exact h.2 k q hq
  | absent hd _ => rw [hd]; exact h
  | skipped hd _ _ => rw [hd]; exact h
theorem nu_remove (ord id) : Pres NU (removePdr ord id) := by
  refine Pres.bind Pres.get fun s => ?_
  simp only []
  split
  · exact Pres.pure
  · exact Pres.bind (Pres.modify fun _ h => h) fun _ => nu_delete _ _

theorem nu_keep : BodiesKeep (fun _ => True) (fun _ => True) (fun _ dp => NoUrrs dp) where
  new _ _ := trivial
  remote _ _ _ := trivial
  est _ _ _ _ := (establishBody_rf nu_frame (fun _ _ => nu_create _ _)).keeps
  mod _ _ _ _ _ := (modifyBody_rf nu_frame (fun _ _ => nu_create _ _) (fun _ _ => nu_update _ _) (fun _ _ => nu_remove _ _)).keeps
  del _ _ _ := (deleteBody_rf nu_frame (fun _ _ => nu_delete _ _)).keeps
  dels _ _ _ := (deleteSessionBody_rf nu_frame (fun _ _ => nu_delete _ _)).keeps
  rel _ _ _ _ h := h
  traffic _ _ _ h t k p hp := h k p (by rw [← entry_pdr t.pdrUl t.pdrDl4 t.pdrDl6 k]; exact hp)

/-- **C38, negation, for all histories.** After any history of requests and packets that starts with empty PDR tables, whatever URRs the PDRs
name: no packet changes the volume of any URR slot but slot 0, and a G-PDU that is sent on adds twice its length to slot 0. -/
theorem C38_all_to_slot_zero {cfg : NodeCfg} {rm : Option ResourceManager} {dp : BpfObjects} (h0 : ∀ k, dp.entry? k = none)
    {h : List (Ev × Outcome)} {n : Node} (H : Hist (Node.init cfg rm dp) h n)
    (e : Env) (s s' : PS) (a : XAction) (hdp : s.dp = n.dp) (hrun : runPacket e s = (s', .ok a)) :
    (∀ i, i ≠ 0 → s'.dp.urr.val i = s.dp.urr.val i) ∧
    (IsGtpMsg e s.frame 255 → a.sent = true → ¬ (innerType s.frame = some 0x0800 ∧ ToSelf e (cutFrame s.frame 0x0800)) → 0 < s.dp.urr.size.toNat →
      s'.dp.urr.val 0 = ⟨(s.dp.urr.val 0).ul + 2 * BitVec.ofNat 64 s.frame.length, (s.dp.urr.val 0).dl⟩) := by
  have inv : NoUrrs n.dp := (ni_hist nu_keep (S := fun _ => True) (G := fun _ dp => NoUrrs dp)
    (fun k p hp => by rw [h0] at hp; cases hp) H (fun _ _ => trivial)).2
  rw [← hdp] at inv
  have zero : ∀ {b : BpfObjects} {id : U32} {u d i}, id = 0 → i ≠ 0 → (b.addUrr id u d).urr.val i = b.urr.val i := by
    intro b id u d i h hi
    unfold BpfObjects.addUrr
    split
    · simp only []; rw [if_neg (by rw [h]; exact hi)]
    · rfl
  have cu : ∀ {b : BpfObjects} {p q t m i}, p.urr1 = 0 ∧ p.urr2 = 0 → i ≠ 0 → (chargeUl b p q t m).urr.val i = b.urr.val i := by
    intro b p q t m i h hi
    unfold chargeUl; rw [zero h.2 hi, zero h.1 hi]; rfl
  have cd : ∀ {b : BpfObjects} {p q t m i}, p.urr1 = 0 ∧ p.urr2 = 0 → i ≠ 0 → (chargeDl b p q t m).urr.val i = b.urr.val i := by
    intro b p q t m i h hi
    unfold chargeDl; rw [zero h.2 hi, zero h.1 hi]; rfl
  have down : ∀ {b : BpfObjects} {f p rule n fr dp}, (∀ q, p = some q → q.urr1 = 0 ∧ q.urr2 = 0) → DownRes e b f p rule n fr dp a →
      ∀ i, i ≠ 0 → dp.urr.val i = b.urr.val i := by
    intro b f p rule n fr dp hq d i hi
    cases d with
    | unclassified _ | denied _ _ | policed _ => rfl
    | noRoom h1 => exact cd (hq _ h1) hi
    | sent _ h1 => exact cd (hq _ h1) hi
  constructor
  · intro i hi
    have res := entry_det hrun
    clear hrun
    generalize s'.frame = fr at res
    generalize s'.dp = dp' at res ⊢
    have up : ∀ {p}, s.dp.pdrUl.lookup (gtpTeid s.frame) = some p → p.urr1 = 0 ∧ p.urr2 = 0 := fun h => inv (.ul _) _ h
    cases res with
    | foreign _ | otherMsg _ _ _ | echo _ => rfl
    | down4 _ d => exact down (fun q hq => inv (.dl4 _) _ hq) d i hi
    | down6 _ d => exact down (fun q hq => inv (.dl6 _) _ hq) d i hi
    | gpdu _ res =>
      cases res with
      | unclassified _ | denied _ _ | policed _ => rfl
      | n9 _ h1 | kept h1 | cut4 _ h1 | cut6 _ h1 | garbled _ h1 | selfOther _ _ h1 => exact cu (up h1) hi
      | ping _ h1 _ _ _ _ _ _ _ _ _ _ d =>
        have eff : ∀ x q t m, (chargeUl s.dp x q t m).pdrDl4 = s.dp.pdrDl4 := fun x q t m => (chargeUl_effect s.dp x q t m).pdrDl4
        refine (down ?_ d i hi).trans (cu (up h1) hi)
        intro q hq
        exact inv (.dl4 _) q (by rw [eff] at hq; exact hq)
  · intro hm hs hping hsz
    have hsome : ∃ pdr, s.dp.pdrUl.lookup (gtpTeid s.frame) = some pdr := by
      cases hl : s.dp.pdrUl.lookup (gtpTeid s.frame) with
      | some p => exact ⟨p, rfl⟩
      | none =>
        obtain ⟨t, ht, _⟩ := C25_unknown_teid e s hm hl
        rw [hrun] at ht
        cases ht; cases hs
    obtain ⟨pdr, hp⟩ := hsome
    have := C38_uplink_partial e s s' a hrun hs hm hp hping 0 (by simpa using hsz)
    obtain ⟨z1, z2⟩ := inv (.ul _) _ hp
    have hz : pdr.urrTimes 0 = 2 := by unfold PdrEntry.urrTimes; rw [z1, z2]; decide
    rw [this, hz]

end Eupf
