import Verif.MergeLemmas
/-
C35 (conversion), C36, C37: what an accepted modification does to FARs and QERs.
-/
namespace Eupf
open Act

/-- `modify` was accepted: the body ran through. -/
theorem modify_accepted {n : Node} {addr : Addr} {r : ModReq} {ord : Orders} {sess : Session} (hs : n.session? addr r.seid = some sess)
    {n' : Node} {resp : Resp} (hstep : n.step (.modify addr r ord) = (n', .reply resp)) (hacc : resp.cause = 1) :
    ∃ hs', modifyBody n.ueip ord r (n.hs (sess.setRemote r.cpFseid)) = (hs', .ok ()) ∧
      n'.session? addr r.seid = some hs'.sess ∧ n'.dp = hs'.dp ∧ n'.rm = hs'.rm ∧ resp.reports = hs'.reports ∧
      resp.created = createdIEs n.cfg.n3 hs'.created := by
  have hstep' : n.modify addr r ord = (n', .reply resp) := hstep
  cases modify_cases n addr r ord with
  | refused c x hcc hs' he => rw [hs] at hs'; cases hs'
  | ran a sess' hs' res ha hsess hbody hl hrem he =>
    have : sess' = sess := by
      have h := hs
      simp only [Node.session?, ha, Option.bind_some, hsess] at h; exact Option.some.inj h
    subst this
    rw [hstep'] at he
    have hres : res = .ok () := by
      have hsnd := congrArg Prod.snd he
      cases res with
      | ok _ => rfl
      | err => simp only [Node.modResult] at hsnd; cases hsnd; simp [causeRuleFailure] at hacc
      | panic => simp [Node.modResult] at hsnd
    subst hres
    simp only [Node.modResult] at he
    cases he
    exact ⟨hs', hbody, by simp [Node.session?], rfl, rfl, rfl, rfl⟩

theorem setRemote_rules (s : Session) (x : Option (Option U64)) :
    (s.setRemote x).fars = s.fars ∧ (s.setRemote x).qers = s.qers ∧ (s.setRemote x).urrs = s.urrs ∧ (s.setRemote x).pdrs = s.pdrs := by
  unfold Session.setRemote; split <;> exact ⟨rfl, rfl, rfl, rfl⟩

/-- The states between the phases of an accepted modification. -/
theorem modify_phases {ue : Bool} {ord : Orders} {r : ModReq} {s0 s' : HS} (h : modifyBody ue ord r s0 = (s', .ok ())) :
    ∃ s1 s2 s3 s4 s5 s6 s7 s8 s9 s10 s11,
      Act.each createFar r.createFar s0 = (s1, .ok ()) ∧ Act.each updateFar r.updateFar s1 = (s2, .ok ()) ∧
      Act.each removeFar r.removeFar s2 = (s3, .ok ()) ∧ Act.each createQer r.createQer s3 = (s4, .ok ()) ∧
      Act.each updateQer r.updateQer s4 = (s5, .ok ()) ∧ Act.each removeQer r.removeQer s5 = (s6, .ok ()) ∧
      Act.each createUrr r.createUrr s6 = (s7, .ok ()) ∧ Act.each updateUrr r.updateUrr s7 = (s8, .ok ()) ∧
      Act.each removeUrr r.removeUrr s8 = (s9, .ok ()) ∧ Act.each (createPdr ue) r.createPdr s9 = (s10, .ok ()) ∧
      Act.each (updatePdr ue) r.updatePdr s10 = (s11, .ok ()) ∧ Act.each (removePdr ord) r.removePdr s11 = (s', .ok ()) := by
  unfold modifyBody at h
  obtain ⟨_, x1, d1, hx1⟩ := bind_ok h
  obtain rfl := display_ok d1
  obtain ⟨_, x2, d2, hx2⟩ := bind_ok hx1
  obtain rfl := display_ok d2
  obtain ⟨_, s1, e1, h1⟩ := bind_ok hx2
  obtain ⟨_, s2, e2, h2⟩ := bind_ok h1
  obtain ⟨_, s3, e3, h3⟩ := bind_ok h2
  obtain ⟨_, s4, e4, h4⟩ := bind_ok h3
  obtain ⟨_, s5, e5, h5⟩ := bind_ok h4
  obtain ⟨_, s6, e6, h6⟩ := bind_ok h5
  obtain ⟨_, s7, e7, h7⟩ := bind_ok h6
  obtain ⟨_, s8, e8, h8⟩ := bind_ok h7
  obtain ⟨_, s9, e9, h9⟩ := bind_ok h8
  obtain ⟨_, s10, e10, h10⟩ := bind_ok h9
  obtain ⟨_, s11, e11, h11⟩ := bind_ok h10
  exact ⟨s1, s2, s3, s4, s5, s6, s7, s8, s9, s10, s11, e1, e2, e3, e4, e5, e6, e7, e8, e9, e10, e11, h11⟩

/-- the PDR and URR phases keep FAR and QER records -/
theorem late_phases_rec {R : GoMap U32 SFar → GoMap U32 SQer → Prop} {ue : Bool} {ord : Orders} {r : ModReq} {s6 s7 s8 s9 s10 s11 s' : HS}
    (e7 : Act.each createUrr r.createUrr s6 = (s7, .ok ())) (e8 : Act.each updateUrr r.updateUrr s7 = (s8, .ok ()))
    (e9 : Act.each removeUrr r.removeUrr s8 = (s9, .ok ())) (e10 : Act.each (createPdr ue) r.createPdr s9 = (s10, .ok ()))
    (e11 : Act.each (updatePdr ue) r.updatePdr s10 = (s11, .ok ())) (e12 : Act.each (removePdr ord) r.removePdr s11 = (s', .ok ()))
    (h : RecFQ R s6) : RecFQ R s' := by
  have a7 := pres_each_ok (fun x _ => createUrr_rec x) e7 h
  have a8 := pres_each_ok (fun x _ => updateUrr_rec x) e8 a7
  have a9 := pres_each_ok (fun x _ => removeUrr_rec x) e9 a8
  have a10 := pres_each_ok (fun x _ => createPdr_rec ue x) e10 a9
  have a11 := pres_each_ok (fun x _ => updatePdr_rec ue x) e11 a10
  exact pres_each_ok (fun x _ => removePdr_rec ord x) e12 a11

/-- **C36.** A session has QER `i`; an accepted modification contains exactly one Update QER for `i` and neither creates
nor removes QER `i` (it may contain anything else). Afterwards the session has QER `i` in the same slot, and its
parameters are the old ones with exactly the fields of the request replaced. -/
theorem C36_update {n : Node} {addr : Addr} {r : ModReq} {ord : Orders} {sess : Session} {n' : Node} {resp : Resp}
    (hs : n.session? addr r.seid = some sess) (hstep : n.step (.modify addr r ord) = (n', .reply resp)) (hacc : resp.cause = 1)
    {i : U32} {old : SQer} (hold : sess.qers.get? i = some old) {l1 l2 : List QerIE} {ie : QerIE}
    (hu : r.updateQer = l1 ++ ie :: l2) (hi : ie.qerId = some i) (h1 : ∀ x ∈ l1, x.qerId ≠ some i) (h2 : ∀ x ∈ l2, x.qerId ≠ some i)
    (hc : ∀ x ∈ r.createQer, x.qerId ≠ some i) (hr : some i ∉ r.removeQer) :
    ∃ sess' new, n'.session? addr r.seid = some sess' ∧ sess'.qers.get? i = some new ∧ new.gid = old.gid ∧
      QerMerged old.info ie new.info := by
  obtain ⟨hs', hb, hn, -⟩ := modify_accepted hs hstep hacc
  obtain ⟨s1, s2, s3, s4, s5, s6, s7, s8, s9, s10, s11, e1, e2, e3, e4, e5, e6, e7, e8, e9, e10, e11, e12⟩ := modify_phases hb
  have a0 : RecQ (fun m => m.get? i = some old) (n.hs (sess.setRemote r.cpFseid)) := by
    unfold RecQ Node.hs; rw [(setRemote_rules sess _).2.1]; exact hold
  have a1 := pres_each_ok (fun x _ => createFar_recQ x) e1 a0
  have a2 := pres_each_ok (fun x _ => updateFar_recQ x) e2 a1
  have a3 := pres_each_ok (fun x _ => removeFar_recQ x) e3 a2
  have a4 := pres_each_ok (fun x hx => createQer_other x (hc x hx)) e4 a3
  rw [hu] at e5
  obtain ⟨t1, f1, f2⟩ := each_append_ok l1 e5
  have b1 := pres_each_ok (fun x hx => updateQer_other x (h1 x hx)) f1 a4
  obtain ⟨t2, f3, f4⟩ := each_cons_ok f2
  have b2 : RecQ (fun m => m.get? i = some { old with info := mergeQer old.info ie }) t2 := by
    have hg : t1.sess.getQer i = old := by
      have : t1.sess.qers.get? i = some old := b1
      simp [Session.getQer, this]
    unfold updateQer at f3
    rw [hi] at f3
    simp only [hg] at f3
    split at f3
    · cases f3
      show (GoMap.set _ i _).get? i = _
      rw [GoMap.get?_set, if_pos rfl, hg]
    · cases f3
  have b3 := pres_each_ok (fun x hx => updateQer_other x (h2 x hx)) f4 b2
  have b4 := pres_each_ok (fun x hx => removeQer_other x (by rintro rfl; exact hr hx)) e6 b3
  have b5 := late_phases_rec (R := fun _ q => q.get? i = some { old with info := mergeQer old.info ie }) e7 e8 e9 e10 e11 e12 b4
  exact ⟨hs'.sess, _, hn, b5, rfl, mergeQer_merged _ _⟩

/-- **C36, other QERs.** A QER that the request does not mention keeps its slot and parameters. -/
theorem C36_untouched {n : Node} {addr : Addr} {r : ModReq} {ord : Orders} {sess : Session} {n' : Node} {resp : Resp}
    (hs : n.session? addr r.seid = some sess) (hstep : n.step (.modify addr r ord) = (n', .reply resp)) (hacc : resp.cause = 1)
    {i : U32} {old : SQer} (hold : sess.qers.get? i = some old)
    (hu : ∀ x ∈ r.updateQer, x.qerId ≠ some i) (hc : ∀ x ∈ r.createQer, x.qerId ≠ some i) (hr : some i ∉ r.removeQer) :
    ∃ sess', n'.session? addr r.seid = some sess' ∧ sess'.qers.get? i = some old := by
  obtain ⟨hs', hb, hn, -⟩ := modify_accepted hs hstep hacc
  obtain ⟨s1, s2, s3, s4, s5, s6, s7, s8, s9, s10, s11, e1, e2, e3, e4, e5, e6, e7, e8, e9, e10, e11, e12⟩ := modify_phases hb
  have a0 : RecQ (fun m => m.get? i = some old) (n.hs (sess.setRemote r.cpFseid)) := by
    unfold RecQ Node.hs; rw [(setRemote_rules sess _).2.1]; exact hold
  have a1 := pres_each_ok (fun x _ => createFar_recQ x) e1 a0
  have a2 := pres_each_ok (fun x _ => updateFar_recQ x) e2 a1
  have a3 := pres_each_ok (fun x _ => removeFar_recQ x) e3 a2
  have a4 := pres_each_ok (fun x hx => createQer_other x (hc x hx)) e4 a3
  have b3 := pres_each_ok (fun x hx => updateQer_other x (hu x hx)) e5 a4
  have b4 := pres_each_ok (fun x hx => removeQer_other x (by rintro rfl; exact hr hx)) e6 b3
  have b5 := late_phases_rec (R := fun _ q => q.get? i = some old) e7 e8 e9 e10 e11 e12 b4
  exact ⟨hs'.sess, hn, b5⟩

/-- **C35, conversion.** With the bounds under which `1000 * k` fits in 32 bits, the enforced rate after the update of
C36 is exactly 1000 times the rate in the request. -/
theorem C35_conversion_partial {old new : QerInfo} {ie : QerIE} (h : QerMerged old ie new) :
    (∀ k, ie.mbrUL = some k → k.toNat ≤ 4294967 → new.mbrUL.toNat = 1000 * k.toNat) ∧
    (∀ k, ie.mbrDL = some k → k.toNat ≤ 4294967 → new.mbrDL.toNat = 1000 * k.toNat) := by
  constructor
  · intro k hk hb; rw [h.mbrUL.1 k hk]; omega
  · intro k hk hb; rw [h.mbrDL.1 k hk]; omega

/-- **C37.** The same for FARs: an accepted modification with exactly one Update FAR for `i` replaces exactly the
parameters present in the request. -/
theorem C37_update {n : Node} {addr : Addr} {r : ModReq} {ord : Orders} {sess : Session} {n' : Node} {resp : Resp}
    (hs : n.session? addr r.seid = some sess) (hstep : n.step (.modify addr r ord) = (n', .reply resp)) (hacc : resp.cause = 1)
    {i : U32} {old : SFar} (hold : sess.fars.get? i = some old) {l1 l2 : List FarIE} {ie : FarIE}
    (hu : r.updateFar = l1 ++ ie :: l2) (hi : ie.farId = some i) (h1 : ∀ x ∈ l1, x.farId ≠ some i) (h2 : ∀ x ∈ l2, x.farId ≠ some i)
    (hc : ∀ x ∈ r.createFar, x.farId.getD 0 ≠ i) (hr : ∀ x ∈ r.removeFar, x.getD 0 ≠ i) :
    ∃ sess' new, n'.session? addr r.seid = some sess' ∧ sess'.fars.get? i = some new ∧ new.gid = old.gid ∧
      FarMerged old.info ie new.info := by
  obtain ⟨hs', hb, hn, -⟩ := modify_accepted hs hstep hacc
  obtain ⟨s1, s2, s3, s4, s5, s6, s7, s8, s9, s10, s11, e1, e2, e3, e4, e5, e6, e7, e8, e9, e10, e11, e12⟩ := modify_phases hb
  have a0 : RecF (fun m => m.get? i = some old) (n.hs (sess.setRemote r.cpFseid)) := by
    unfold RecF Node.hs; rw [(setRemote_rules sess _).1]; exact hold
  have a1 := pres_each_ok (fun x hx => createFar_other x (hc x hx)) e1 a0
  rw [hu] at e2
  obtain ⟨t1, f1, f2⟩ := each_append_ok l1 e2
  have b1 := pres_each_ok (fun x hx => updateFar_other x (h1 x hx)) f1 a1
  obtain ⟨t2, f3, f4⟩ := each_cons_ok f2
  have b2 : ∃ f, composeFarInfo ie old.info = .ok f ∧ RecF (fun m => m.get? i = some { old with info := f }) t2 := by
    have hg : t1.sess.getFar i = old := by
      have : t1.sess.fars.get? i = some old := b1
      simp [Session.getFar, this]
    unfold updateFar at f3
    rw [hi] at f3
    simp only [hg] at f3
    split at f3
    · rename_i f hf
      refine ⟨f, hf, ?_⟩
      split at f3
      · cases f3
        show (GoMap.set _ i _).get? i = _
        rw [GoMap.get?_set, if_pos rfl, hg]
      · cases f3
    · cases f3
    · cases f3
  obtain ⟨f, hf, b2⟩ := b2
  have b3 := pres_each_ok (fun x hx => updateFar_other x (h2 x hx)) f4 b2
  have b4 := pres_each_ok (fun x hx => removeFar_other x (hr x hx)) e3 b3
  have c4 := pres_each_ok (fun x _ => createQer_recF x) e4 b4
  have c5 := pres_each_ok (fun x _ => updateQer_recF x) e5 c4
  have c6 := pres_each_ok (fun x _ => removeQer_recF x) e6 c5
  have b5 := late_phases_rec (R := fun m _ => m.get? i = some { old with info := f }) e7 e8 e9 e10 e11 e12 c6
  exact ⟨hs'.sess, _, hn, b5, rfl, composeFarInfo_merged hf⟩

/-- **C37, other FARs.** -/
theorem C37_untouched {n : Node} {addr : Addr} {r : ModReq} {ord : Orders} {sess : Session} {n' : Node} {resp : Resp}
    (hs : n.session? addr r.seid = some sess) (hstep : n.step (.modify addr r ord) = (n', .reply resp)) (hacc : resp.cause = 1)
    {i : U32} {old : SFar} (hold : sess.fars.get? i = some old)
    (hu : ∀ x ∈ r.updateFar, x.farId ≠ some i) (hc : ∀ x ∈ r.createFar, x.farId.getD 0 ≠ i) (hr : ∀ x ∈ r.removeFar, x.getD 0 ≠ i) :
    ∃ sess', n'.session? addr r.seid = some sess' ∧ sess'.fars.get? i = some old := by
  obtain ⟨hs', hb, hn, -⟩ := modify_accepted hs hstep hacc
  obtain ⟨s1, s2, s3, s4, s5, s6, s7, s8, s9, s10, s11, e1, e2, e3, e4, e5, e6, e7, e8, e9, e10, e11, e12⟩ := modify_phases hb
  have a0 : RecF (fun m => m.get? i = some old) (n.hs (sess.setRemote r.cpFseid)) := by
    unfold RecF Node.hs; rw [(setRemote_rules sess _).1]; exact hold
  have a1 := pres_each_ok (fun x hx => createFar_other x (hc x hx)) e1 a0
  have b3 := pres_each_ok (fun x hx => updateFar_other x (hu x hx)) e2 a1
  have b4 := pres_each_ok (fun x hx => removeFar_other x (hr x hx)) e3 b3
  have c4 := pres_each_ok (fun x _ => createQer_recF x) e4 b4
  have c5 := pres_each_ok (fun x _ => updateQer_recF x) e5 c4
  have c6 := pres_each_ok (fun x _ => removeQer_recF x) e6 c5
  have b5 := late_phases_rec (R := fun m _ => m.get? i = some old) e7 e8 e9 e10 e11 e12 c6
  exact ⟨hs'.sess, hn, b5⟩

/-- **C37, rejection.** A modification that consists of one Update FAR and is rejected (or kills the node) leaves every
FAR record of the session and every FAR slot of the forwarding plane as it was. -/
theorem C37_rejected {cfg : NodeCfg} {rm : Option ResourceManager} {p f q u : U32} (hf : 0 < f.toNat) (hq : 0 < q.toNat)
    (hu : 0 < u.toNat) {h : List (Ev × Outcome)} {n : Node} (H : Hist (Node.init cfg rm (BpfObjects.load p f q u)) h n)
    {addr : Addr} {seid : U64} {seq : U32} {ie : FarIE} {ord : Orders} {sess : Session} (hs : n.session? addr seid = some sess)
    {n' : Node} {o : Outcome} (hstep : n.step (.modify addr { seid := seid, seq := seq, updateFar := [ie] } ord) = (n', o))
    (hrej : ∀ resp, o = .reply resp → resp.cause ≠ 1) :
    (∃ sess', n'.session? addr seid = some sess' ∧ sess'.fars = sess.fars) ∧ n'.dp.far = n.dp.far := by
  obtain ⟨hR, hz⟩ := ranges_hist hf hq hu H
  generalize hr : ({ seid := seid, seq := seq, updateFar := [ie] } : ModReq) = r at hstep
  have hseid : r.seid = seid := by rw [← hr]
  have hstep' : n.modify addr r ord = (n', o) := hstep
  cases modify_cases n addr r ord with
  | refused c x hcc hs' he => rw [hseid] at hs'; rw [hs] at hs'; cases hs'
  | ran a sess' hs' res ha hsess hbody hl hrem he =>
    have : sess' = sess := by
      have h := hs
      rw [hseid] at hsess
      simp only [Node.session?, ha, Option.bind_some, hsess] at h; exact Option.some.inj h
    subst this
    rw [hstep'] at he
    have key : hs' = n.hs (sess'.setRemote r.cpFseid) := by
      rw [← hr] at hbody
      have hb : Act.bind (updateFar ie) (fun _ => Act.pure ()) (n.hs (sess'.setRemote none)) = (hs', res) := by
        have := hbody
        unfold modifyBody at this
        simp only [Act.each, Act.bind_def] at this
        have hp : ∀ {α : Type} (m : Unit → Act HS α), Act.bind (Act.pure ()) m = m () := fun _ => rfl
        simp only [hp] at this
        unfold Act.bind at this ⊢
        rcases hx : updateFar ie (n.hs (sess'.setRemote none)) with ⟨s1, r1⟩
        have hx' : updateFar ie (n.hs (sess'.setRemote ({ seid := seid, seq := seq, updateFar := [ie] } : ModReq).cpFseid)) = (s1, r1) := hx
        rw [hx'] at this
        cases r1 <;> exact this
      have hres : res ≠ .ok () := by
        rintro rfl
        have hsnd := congrArg Prod.snd he
        simp only [Node.modResult] at hsnd
        exact hrej _ hsnd (by rfl)
      rw [← hr]
      show hs' = n.hs (sess'.setRemote none)
      unfold Act.bind updateFar at hb
      split at hb
      · rename_i s1 _ hh
        split at hh
        · cases hh
        · split at hh
          · simp only [] at hh
            split at hh
            · cases hb; exact absurd rfl hres
            · cases hh
          · cases hh
          · cases hh
      · rename_i s1 hh
        cases hb
        split at hh
        · cases hh; rfl
        · split at hh
          · simp only [] at hh
            split at hh
            · cases hh
            · rename_i j _ _ x _ _ hnone
              exfalso
              have hlt : ((sess'.setRemote none).getFar j).gid.toNat < f.toNat := by
                show (sess'.getFar j).gid.toNat < f.toNat
                unfold Session.getFar
                cases hg : sess'.fars.get? j with
                | none => simpa using hf
                | some y => exact (hR _ _ _ hs).far j y hg
              have hlt2 : ((n.hs (sess'.setRemote none)).sess.getFar j).gid.toNat < n.dp.far.size.toNat := by
                rw [hz.far]; exact hlt
              have : n.dp.updateFar ((n.hs (sess'.setRemote none)).sess.getFar j).gid x ≠ none := by
                unfold BpfObjects.updateFar ArrMap.update
                rw [if_pos hlt2]; simp
              exact this hnone
          · cases hh; rfl
          · cases hh
      · rename_i s1 hh
        cases hb
        split at hh
        · cases hh
        · split at hh
          · simp only [] at hh
            split at hh <;> cases hh
          · cases hh
          · cases hh; rfl
    subst key
    have hrules := setRemote_rules sess' r.cpFseid
    have hn' : n' = (n.modResult addr r a (n.hs (sess'.setRemote r.cpFseid)) res).1 := congrArg Prod.fst he
    rw [hn', ← hseid]
    cases res <;>
      exact ⟨⟨sess'.setRemote r.cpFseid, by simp [Node.modResult, Node.session?, Node.hs], hrules.1⟩, rfl⟩

/-! ### concrete cases -/

/-- an accepted modification of session (1,3) of the demo: FAR 1 gets a new action, QER 1 a new uplink rate -/
def Demo.mergeReq : ModReq :=
  { seid := 3, seq := 6, updateFar := [{ kind := .update, farId := some 1, applyAction := some [4] }],
    updateQer := [{ qerId := some 1, mbrUL := some 2000 }] }

/-- Non-vacuity of C36, C37: all hypotheses are met; the QFI 9 and the tunnel are kept. -/
example : ∃ n' resp, Demo.nEnd.step (.modify 1 Demo.mergeReq default) = (n', .reply resp) ∧ resp.cause = 1 ∧
    ((n'.session? 1 3).bind (fun s => s.qers.get? 1)).map (fun x => (x.info.mbrUL, x.info.qfi)) = some (2000000, 9) ∧
    ((n'.session? 1 3).bind (fun s => s.fars.get? 1)).map (fun x => (x.info.action, x.info.teid)) = some (4, 77) := by
  refine ⟨(Demo.nEnd.step (.modify 1 Demo.mergeReq default)).1, { type := .modification, seid := 101, seq := 6, cause := 1 },
    ?_, rfl, by decide +kernel, by decide +kernel⟩
  rw [show Outcome.reply _ = (Demo.nEnd.step (.modify 1 Demo.mergeReq default)).2 from by decide +kernel]

/-- Non-vacuity of the rejection: an Update FAR with an IPv6 outer header is rejected with cause 73. -/
example : (Demo.nEnd.step (.modify 1 { seid := 3, seq := 6, updateFar := [FarIE.mk .update (some 1) (some [4])
      (some (some (some ⟨0x0200, 5, none, true⟩))) none] } default)).2 =
    .reply { type := .modification, seid := 101, seq := 6, cause := 73 } := by decide +kernel

/-- **C35, negation above the bound.** 4294968 kbit/s (4.3 Gbit/s) is enforced as 704 bit/s. -/
theorem C35_overflow : ∃ n', (∃ resp, Demo.nEnd.step (.modify 1 { seid := 3, seq := 6, updateQer := [{ qerId := some 1, mbrUL := some 4294968 }] } default)
      = (n', .reply resp) ∧ resp.cause = 1) ∧
    ((n'.session? 1 3).bind (fun s => s.qers.get? 1)).map (fun x => n'.dp.qer.lookup x.gid) =
      some (some { qfi := 9, mbrUL := 704 }) := by
  refine ⟨(Demo.nEnd.step (.modify 1 { seid := 3, seq := 6, updateQer := [{ qerId := some 1, mbrUL := some 4294968 }] } default)).1,
    ⟨{ type := .modification, seid := 101, seq := 6, cause := 1 }, ?_, rfl⟩, by decide +kernel⟩
  rw [show Outcome.reply _ = (Demo.nEnd.step (.modify 1 { seid := 3, seq := 6, updateQer := [{ qerId := some 1, mbrUL := some 4294968 }] } default)).2
    from by decide +kernel]

end Eupf
