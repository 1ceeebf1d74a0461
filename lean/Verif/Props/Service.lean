import Verif.Props.EndToEnd
import Verif.Spec.Service
/-
C93: what the peer last said about a session's FAR and QER is what happens to its packets.
-/
namespace Eupf
open Act

/-! ### what was last said -/

theorem latest_snoc {α β : Type} (sel : α → Option β) (l : List α) (x : α) : latest sel (l ++ [x]) = (sel x).or (latest sel l) := by
  unfold latest
  rw [List.reverse_append, List.reverse_singleton, List.singleton_append, List.findSome?_cons]
  cases sel x <;> rfl

/-- a FAR that says at once what a list of FARs says -/
def FarIE.told (l : List FarIE) : FarIE :=
  { kind := .create, farId := none, applyAction := (latest FarIE.action? l).map fun x => [x],
    forward := (latest FarIE.ohc? l).map fun o => some (some ⟨o.desc, o.teid, latest (fun f => f.ohc?.bind (·.ipv4)) l, false⟩),
    tlm := latest FarIE.tlm l }
def QerIE.told (l : List QerIE) : QerIE :=
  { qerId := none, gateDL := latest QerIE.gateDL l, gateUL := latest QerIE.gateUL l, mbrDL := latest QerIE.mbrDL l, mbrUL := latest QerIE.mbrUL l,
    qfi := latest QerIE.qfi l }

theorem addr_none {l : List FarIE} (h : latest FarIE.ohc? l = none) : latest (fun f : FarIE => f.ohc?.bind (·.ipv4)) l = none := by
  unfold latest at h ⊢
  rw [List.findSome?_eq_none_iff] at h ⊢
  intro x hx
  rw [h x hx]; rfl

theorem far_told_nil : FarMerged {} (FarIE.told []) {} :=
  ⟨⟨by simp [FarIE.told, latest], fun _ => rfl⟩, by simp [FarIE.told, latest], by simp [FarIE.told, latest], by simp [FarIE.told, latest],
    fun _ => ⟨rfl, rfl, rfl⟩, by simp [FarIE.told, latest]⟩

theorem far_told_step {l : List FarIE} {ie : FarIE} {old new : FarInfo} (h : FarMerged {} (FarIE.told l) old) (hm : FarMerged old ie new) :
    FarMerged {} (FarIE.told (l ++ [ie])) new := by
  have noOhc : ie.ohc? = none ↔ ∀ o, ie.forward ≠ some (some (some o)) := by
    unfold FarIE.ohc?
    rcases ie.forward with _ | _ | _ | o <;> simp
  have isOhc : ∀ o, ie.ohc? = some o ↔ ie.forward = some (some (some o)) := by
    intro o
    unfold FarIE.ohc?
    rcases ie.forward with _ | _ | _ | o' <;> simp
  have nold : latest FarIE.ohc? l = none → old.teid = 0 ∧ old.ohc = 0 ∧ old.remoteIP = 0 := fun hl =>
    h.noTunnel (by intro o; simp [FarIE.told, hl])
  have sold : ∀ o, latest FarIE.ohc? l = some o → old.teid = o.teid ∧ old.ohc.toNat = o.desc.toNat / 256 := by
    intro o ho
    have := h.tunnel ⟨o.desc, o.teid, latest (fun f => f.ohc?.bind (·.ipv4)) l, false⟩ (by simp [FarIE.told, ho])
    exact this
  have aold : ∀ ip, latest (fun f : FarIE => f.ohc?.bind (·.ipv4)) l = some ip →
      ∀ k, k < 4 → (old.remoteIP.toNat / 256 ^ k) % 256 = (ip.toNat / 256 ^ (3 - k)) % 256 := by
    intro ip hip
    cases ho : latest FarIE.ohc? l with
    | none => rw [addr_none ho] at hip; cases hip
    | some o => exact h.addr ⟨o.desc, o.teid, latest (fun f => f.ohc?.bind (·.ipv4)) l, false⟩ ip (by simp [FarIE.told, ho]) hip
  have zold : latest (fun f : FarIE => f.ohc?.bind (·.ipv4)) l = none → old.remoteIP = 0 := by
    intro hip
    cases ho : latest FarIE.ohc? l with
    | none => exact (nold ho).2.2
    | some o => exact h.noAddr ⟨o.desc, o.teid, latest (fun f => f.ohc?.bind (·.ipv4)) l, false⟩ (by simp [FarIE.told, ho]) hip
  -- the address after the step
  have anew : ∀ ip, (ie.ohc?.bind (·.ipv4)).or (latest (fun f : FarIE => f.ohc?.bind (·.ipv4)) l) = some ip →
      ∀ k, k < 4 → (new.remoteIP.toNat / 256 ^ k) % 256 = (ip.toNat / 256 ^ (3 - k)) % 256 := by
    intro ip hip
    cases ho : ie.ohc? with
    | none =>
      rw [(hm.noTunnel (noOhc.1 ho)).2.2]
      exact aold ip (by simpa [ho] using hip)
    | some o =>
      cases hi : o.ipv4 with
      | none => rw [hm.noAddr o ((isOhc o).1 ho) hi]; exact aold ip (by simpa [ho, hi] using hip)
      | some ip' =>
        have : ip' = ip := by simpa [ho, hi] using hip
        subst this
        exact hm.addr o ip' ((isOhc o).1 ho) hi
  have znew : (ie.ohc?.bind (·.ipv4)).or (latest (fun f : FarIE => f.ohc?.bind (·.ipv4)) l) = none → new.remoteIP = 0 := by
    intro hip
    cases ho : ie.ohc? with
    | none =>
      rw [(hm.noTunnel (noOhc.1 ho)).2.2]
      exact zold (by simpa [ho] using hip)
    | some o =>
      cases hi : o.ipv4 with
      | none => rw [hm.noAddr o ((isOhc o).1 ho) hi]; exact zold (by simpa [ho, hi] using hip)
      | some ip' => simp [ho, hi] at hip
  have tnew : ∀ o, (ie.ohc?).or (latest FarIE.ohc? l) = some o → new.teid = o.teid ∧ new.ohc.toNat = o.desc.toNat / 256 := by
    intro o ho
    cases hi : ie.ohc? with
    | some o' =>
      have : o' = o := by simpa [hi] using ho
      subst this
      exact hm.tunnel _ ((isOhc _).1 hi)
    | none =>
      obtain ⟨e1, e2, -⟩ := hm.noTunnel (noOhc.1 hi)
      rw [e1, e2]
      exact sold o (by simpa [hi] using ho)
  have fwd : ∀ o, (FarIE.told (l ++ [ie])).forward = some (some (some o)) →
      ∃ o', (ie.ohc?).or (latest FarIE.ohc? l) = some o' ∧ o = ⟨o'.desc, o'.teid, (ie.ohc?.bind (·.ipv4)).or (latest (fun f : FarIE => f.ohc?.bind (·.ipv4)) l), false⟩ := by
    intro o ho
    simp only [FarIE.told, latest_snoc, Option.map_eq_some_iff, Option.some.injEq] at ho
    obtain ⟨o', h1, h2⟩ := ho
    exact ⟨o', h1, h2.symm⟩
  refine ⟨⟨?_, ?_⟩, ?_, ?_, ?_, ?_, ⟨?_, ?_⟩⟩
  · intro a as ha
    simp only [FarIE.told, latest_snoc, Option.map_eq_some_iff] at ha
    obtain ⟨x, hx, hx'⟩ := ha
    cases hx'
    cases ha : ie.action? with
    | some y =>
      have : y = a := by simpa [ha] using hx
      subst this
      unfold FarIE.action? at ha
      rcases hp : ie.applyAction with _ | _ | ⟨z, zs⟩
      · rw [hp] at ha; cases ha
      · rw [hp] at ha; cases ha
      · rw [hp] at ha; cases ha; exact hm.action.1 _ _ hp
    | none =>
      rw [hm.action.2 ha]
      exact h.action.1 a [] (by simpa [FarIE.told, ha] using hx)
  · intro ha
    simp only [FarIE.told, latest_snoc] at ha
    cases ha' : ie.action? with
    | some y => simp [ha'] at ha
    | none =>
      rw [hm.action.2 ha']
      refine h.action.2 ?_
      simpa [FarIE.told, ha'] using ha
  · intro o ho
    obtain ⟨o', h1, rfl⟩ := fwd o ho
    exact tnew o' h1
  · intro o ip ho hip
    obtain ⟨o', h1, rfl⟩ := fwd o ho
    exact anew ip hip
  · intro o ho hip
    obtain ⟨o', h1, rfl⟩ := fwd o ho
    exact znew hip
  · intro ho
    have hn : (ie.ohc?).or (latest FarIE.ohc? l) = none := by
      cases hc : (ie.ohc?).or (latest FarIE.ohc? l) with
      | none => rfl
      | some o => exact absurd (by simp [FarIE.told, latest_snoc, hc]) (ho ⟨o.desc, o.teid, (ie.ohc?.bind (·.ipv4)).or (latest (fun f : FarIE => f.ohc?.bind (·.ipv4)) l), false⟩)
    rw [Option.or_eq_none_iff] at hn
    obtain ⟨e1, e2, e3⟩ := hm.noTunnel (noOhc.1 hn.1)
    rw [e1, e2, e3]
    exact nold hn.2
  · intro t ht
    simp only [FarIE.told, latest_snoc] at ht
    cases hc : ie.tlm with
    | some t' =>
      have : t' = t := by simpa [hc] using ht
      subst this
      exact hm.tlm.1 _ hc
    | none =>
      rw [hm.tlm.2 hc]
      exact h.tlm.1 t (by simpa [FarIE.told, hc] using ht)
  · intro ht
    simp only [FarIE.told, latest_snoc, Option.or_eq_none_iff] at ht
    rw [hm.tlm.2 ht.1]
    exact h.tlm.2 ht.2

theorem qer_told_nil : QerMerged {} (QerIE.told []) {} :=
  ⟨by simp [QerIE.told, latest], by simp [QerIE.told, latest], by simp [QerIE.told, latest], by simp [QerIE.told, latest], by simp [QerIE.told, latest]⟩

theorem qer_told_step {l : List QerIE} {ie : QerIE} {old new : QerInfo} (h : QerMerged {} (QerIE.told l) old) (hm : QerMerged old ie new) :
    QerMerged {} (QerIE.told (l ++ [ie])) new := by
  have fld : ∀ {α β : Type} (sel : QerIE → Option α) (R : α → β → Prop) (n o z : β),
      (∀ g, sel ie = some g → R g n) ∧ (sel ie = none → n = o) → (∀ g, latest sel l = some g → R g o) ∧ (latest sel l = none → o = z) →
      (∀ g, latest sel (l ++ [ie]) = some g → R g n) ∧ (latest sel (l ++ [ie]) = none → n = z) := by
    intro α β sel R n o z h1 h2
    rw [latest_snoc]
    cases hs : sel ie with
    | some x => exact ⟨fun g hg => by cases hg; exact h1.1 _ hs, fun hg => by cases hg⟩
    | none => rw [h1.2 hs]; exact h2
  exact ⟨fld QerIE.gateUL (fun g x => x = g) _ _ _ hm.gateUL h.gateUL, fld QerIE.gateDL (fun g x => x = g) _ _ _ hm.gateDL h.gateDL,
    fld QerIE.qfi (fun g x => x = g) _ _ _ hm.qfi h.qfi, fld QerIE.mbrUL (fun (k : U64) (x : U32) => x.toNat = (k.toNat * 1000) % 2 ^ 32) _ _ _ hm.mbrUL h.mbrUL,
    fld QerIE.mbrDL (fun (k : U64) (x : U32) => x.toNat = (k.toNat * 1000) % 2 ^ 32) _ _ _ hm.mbrDL h.mbrDL⟩

/-! ### one modification of the session -/

/-- the FAR phase -/
theorem far_updates {i : U32} : ∀ (l : List FarIE) {s s' : HS} {ts : List FarIE} {x : SFar}, s.sess.fars.get? i = some x → FarMerged {} (FarIE.told ts) x.info →
    Act.each updateFar l s = (s', .ok ()) →
    ∃ x', s'.sess.fars.get? i = some x' ∧ x'.gid = x.gid ∧ FarMerged {} (FarIE.told (ts ++ l.filter (fun y => y.farId = some i))) x'.info
  | [], s, s', ts, x, hx, hm, he => by cases he; exact ⟨x, hx, rfl, by simpa using hm⟩
  | y :: l, s, s', ts, x, hx, hm, he => by
    obtain ⟨s1, h1, h2⟩ := each_cons_ok he
    by_cases hy : y.farId = some i
    · have hg : s.sess.getFar i = x := by simp [Session.getFar, hx]
      have : ∃ f, FarMerged x.info y f ∧ s1.sess.fars.get? i = some { x with info := f } := by
        unfold updateFar at h1
        rw [hy] at h1
        simp only [hg] at h1
        split at h1
        · rename_i f hf
          refine ⟨f, composeFarInfo_merged hf, ?_⟩
          split at h1
          · cases h1
            show (GoMap.set _ i _).get? i = _
            rw [GoMap.get?_set, if_pos rfl, hg]
          · cases h1
        · cases h1
        · cases h1
      obtain ⟨f, hf, hx1⟩ := this
      obtain ⟨x', a1, a2, a3⟩ := far_updates l hx1 (far_told_step hm hf) h2
      refine ⟨x', a1, a2, ?_⟩
      rw [List.filter_cons_of_pos (by simpa using hy)]
      simpa using a3
    · have hx1 : s1.sess.fars.get? i = some x := by
        have := (updateFar_other y hy).apply (s := s) hx
        rw [h1] at this; exact this
      obtain ⟨x', a1, a2, a3⟩ := far_updates l hx1 hm h2
      refine ⟨x', a1, a2, ?_⟩
      rw [List.filter_cons_of_neg (by simpa using hy)]
      exact a3

/-- the QER phase -/
theorem qer_updates {j : U32} : ∀ (l : List QerIE) {s s' : HS} {ts : List QerIE} {x : SQer}, s.sess.qers.get? j = some x → QerMerged {} (QerIE.told ts) x.info →
    Act.each updateQer l s = (s', .ok ()) →
    ∃ x', s'.sess.qers.get? j = some x' ∧ x'.gid = x.gid ∧ QerMerged {} (QerIE.told (ts ++ l.filter (fun y => y.qerId = some j))) x'.info
  | [], s, s', ts, x, hx, hm, he => by cases he; exact ⟨x, hx, rfl, by simpa using hm⟩
  | y :: l, s, s', ts, x, hx, hm, he => by
    obtain ⟨s1, h1, h2⟩ := each_cons_ok he
    by_cases hy : y.qerId = some j
    · have hg : s.sess.getQer j = x := by simp [Session.getQer, hx]
      have hx1 : s1.sess.qers.get? j = some { x with info := mergeQer x.info y } := by
        unfold updateQer at h1
        rw [hy] at h1
        simp only [hg] at h1
        split at h1
        · cases h1
          show (GoMap.set _ j _).get? j = _
          rw [GoMap.get?_set, if_pos rfl, hg]
        · cases h1
      obtain ⟨x', a1, a2, a3⟩ := qer_updates l hx1 (qer_told_step hm (mergeQer_merged _ _)) h2
      refine ⟨x', a1, a2, ?_⟩
      rw [List.filter_cons_of_pos (by simpa using hy)]
      simpa using a3
    · have hx1 : s1.sess.qers.get? j = some x := by
        have := (updateQer_other y hy).apply (s := s) hx
        rw [h1] at this; exact this
      obtain ⟨x', a1, a2, a3⟩ := qer_updates l hx1 hm h2
      refine ⟨x', a1, a2, ?_⟩
      rw [List.filter_cons_of_neg (by simpa using hy)]
      exact a3

/-- the record of another PDR -/
def RecP (I : U32) (p : SPdr) (s : HS) : Prop := s.sess.pdrs.get? I = some p

theorem put_other {I i : U32} {p q : SPdr} (h : i ≠ I) {s : HS} (hs : RecP I p s) : RecP I p { s with sess := s.sess.putPdr i q } := by
  show (GoMap.set _ i _).get? I = _
  rw [GoMap.get?_set, if_neg (fun e => h e.symm)]; exact hs

theorem modify_keeps_pdr {ue : Bool} {ord : Orders} {r : ModReq} {id : U16} {p : SPdr} (hu : ∀ x ∈ r.createPdr ++ r.updatePdr, x.pdrId ≠ some id)
    (hr : ∀ x ∈ r.removePdr, x.getD 0 ≠ id) : Pres (RecP (id.zeroExtend 32) p) (modifyBody ue ord r) := by
  have ex : ∀ ie q, Pres (RecP (id.zeroExtend 32) p) (extractPdr ue ie q) := by
    intro ie q; apply pres_of; intro s h
    obtain ⟨c, rm, e⟩ := extractPdr_frame ue ie q s
    rw [e]; exact h
  have ap : ∀ q, Pres (RecP (id.zeroExtend 32) p) (applyPdr q) := by
    intro q; apply pres_of; intro s h
    obtain ⟨_, h3⟩ := applyPdr_frame q s
    rw [h3]; exact h
  refine modifyBody_rf (fun {s s'} h hs => ?_) ?_ ?_ ?_
  · show s'.sess.pdrs.get? _ = _
    rw [h.pdrs]; exact hs
  · intro ie hie
    have := hu ie (List.mem_append_left _ hie)
    unfold createPdr
    cases hid : ie.pdrId with
    | none => exact Pres.fail
    | some k =>
      have hk : (k.zeroExtend 32 : U32) ≠ id.zeroExtend 32 := fun e => this (by rw [hid, zext_inj e])
      apply pres_of; intro s h
      simp only [Act.bind_def, Act.bind]
      have h1 := (ex ie { pdrId := k.zeroExtend 32 }).apply h
      rcases hx : extractPdr ue ie { pdrId := k.zeroExtend 32 } s with ⟨s1, res⟩
      rw [hx] at h1
      cases res with
      | err => exact h1
      | panic => exact h1
      | ok q =>
        have hq : q.pdrId = k.zeroExtend 32 := (extractPdr_ok hx).1
        have hput : RecP (id.zeroExtend 32) p { s1 with sess := s1.sess.putPdr q.pdrId q } := put_other (by rw [hq]; exact hk) h1
        simp only [Act.modify]
        have h2 := (ap q).apply hput
        rcases hy : applyPdr q { s1 with sess := s1.sess.putPdr q.pdrId q } with ⟨s2, res⟩
        rw [hy] at h2
        cases res <;> exact h2
  · intro ie hie
    have := hu ie (List.mem_append_right _ hie)
    unfold updatePdr
    cases hid : ie.pdrId with
    | none => exact Pres.fail
    | some k =>
      have hk : (k.zeroExtend 32 : U32) ≠ id.zeroExtend 32 := fun e => this (by rw [hid, zext_inj e])
      exact Pres.bind Pres.get fun _ => Pres.bind (ex _ _) fun _ => Pres.bind (Pres.modify fun _ h => put_other hk h) fun _ => ap _
  · intro k hk
    have hne : (BitVec.zeroExtend 32 (k.getD 0) : U32) ≠ id.zeroExtend 32 := fun e => hr k hk (zext_inj e)
    refine Pres.bind Pres.get fun s => ?_
    simp only []
    split
    · exact Pres.pure
    · refine Pres.bind (Pres.modify fun s h => ?_) fun _ => ?_
      · show (GoMap.erase _ _).get? _ = _
        rw [GoMap.get?_erase, if_neg (fun e => hne e.symm)]; exact h
      · apply pres_of; intro s h
        obtain ⟨h1, h2, h3⟩ := deletePdr_part ord _ s
        unfold RecP; rw [h2]; exact h

/-! ### the service -/

/-- Session `s` of `a` has the PDR `id` with key `K`, alone in the whole node; packets with key `K` that satisfy `G` get its rule; its FAR and
its QER are what the lists of FARs and QERs say. -/
structure Svc (n : Node) (a : Addr) (s : U64) (K : PdrKey) (id : U16) (i j : U32) (ohr : U8) (G : (KFilter → Bool) → Prop) (fs : List FarIE) (qs : List QerIE) : Prop where
  here : ∃ sess pr sf sq, n.session? a s = some sess ∧ sess.pdrs.get? (id.zeroExtend 32) = some pr ∧ pr.info.ohr = ohr ∧
    (∀ m, G m → classify (n.dp.entry? K) m = some pr.info.rule) ∧
    sess.fars.get? i = some sf ∧ pr.info.farId = sf.gid ∧ FarMerged {} (FarIE.told fs) sf.info ∧
    sess.qers.get? j = some sq ∧ pr.info.qerId = sq.gid ∧ QerMerged {} (QerIE.told qs) sq.info ∧
    ∀ i' p', i' ≠ id.zeroExtend 32 → sess.pdrs.get? i' = some p' → p'.key ≠ K
  alone : ¬ n.usedElsewhere a s K

theorem svc_own {n : Node} {a : Addr} {s : U64} {K : PdrKey} {id : U16} {i j : U32} {ohr : U8} {G : (KFilter → Bool) → Prop} {fs : List FarIE} {qs : List QerIE}
    (h : Svc n a s K id i j ohr G fs qs) (hK : K ≠ .ul 0) (hfree : ¬ K.freeIn n.rm) {r : ModReq} {ord : Orders} {resp : Resp} (hse : r.seid = s)
    (hr : r.steers K id i j) (hstep : (n.step (.modify a r ord)).2 = .reply resp) (hacc : resp.cause = 1) :
    Svc (n.step (.modify a r ord)).1 a s K id i j ohr G (fs ++ r.updateFar.filter (fun x => x.farId = some i)) (qs ++ r.updateQer.filter (fun x => x.qerId = some j)) := by
  obtain ⟨⟨sess, pr, sf, sq, h1, h2, h3, h4, h5, h6, h7, h8, h9, h10, h11⟩, h12⟩ := h
  subst hse
  have hst : n.step (.modify a r ord) = ((n.step (.modify a r ord)).1, .reply resp) := by rw [← hstep]
  generalize (n.step (.modify a r ord)).1 = n' at hst ⊢
  obtain ⟨hs', hb, hn, hdp, -⟩ := modify_accepted h1 hst hacc
  have rules := setRemote_rules sess r.cpFseid
  -- the PDR
  have p1 : hs'.sess.pdrs.get? (id.zeroExtend 32) = some pr := by
    have := (modify_keeps_pdr (ue := n.ueip) (ord := ord) (p := pr) (fun x hx => (hr.pdr x hx).1) hr.noPdr).apply (s := n.hs (sess.setRemote r.cpFseid))
      (by show (sess.setRemote r.cpFseid).pdrs.get? _ = _; rw [rules.2.2.2]; exact h2)
    rw [hb] at this; exact this
  have p2 : KB K (fun x => x ≠ id.zeroExtend 32) (n.dp.entry? K) hs' := by
    have := kb_modify (K := K) (D := fun x => x ≠ id.zeroExtend 32) (e0 := n.dp.entry? K) (ue := n.ueip) (ord := ord) (r := r)
      (s := n.hs (sess.setRemote r.cpFseid)) ?_ ?_ hK (fun ie hie => (hr.pdr ie hie).2) ⟨⟨rfl, ?_⟩, hfree, ?_⟩
    · rw [hb] at this; exact this
    · intro ie hie k hk e
      exact (hr.pdr ie (List.mem_append_right _ hie)).1 (by rw [hk, zext_inj e])
    · intro k hk e
      exact hr.noPdr k hk (zext_inj e)
    · intro k q hk hq
      refine h11 k q hk ?_
      have hq' : (sess.setRemote r.cpFseid).pdrs.get? k = some q := hq
      rw [rules.2.2.2] at hq'; exact hq'
    · intro c v hv
      simp [Node.hs] at hv
  -- the FAR and the QER
  obtain ⟨s1, s2, s3, s4, s5, s6, s7, s8, s9, s10, s11, e1, e2, e3, e4, e5, e6, e7, e8, e9, e10, e11, e12⟩ := modify_phases hb
  have a0 : RecF (fun m => m.get? i = some sf) (n.hs (sess.setRemote r.cpFseid)) := by
    unfold RecF Node.hs; rw [rules.1]; exact h5
  have a1 := pres_each_ok (fun x hx => createFar_other x (hr.far x hx)) e1 a0
  obtain ⟨sf', b1, b2, b3⟩ := far_updates r.updateFar a1 h7 e2
  have b4 : RecF (fun m => m.get? i = some sf') s3 := pres_each_ok (fun x hx => removeFar_other x (hr.noFar x hx)) e3 b1
  have c4 := pres_each_ok (fun x _ => createQer_recF x) e4 b4
  have c5 := pres_each_ok (fun x _ => updateQer_recF x) e5 c4
  have c6 := pres_each_ok (fun x _ => removeQer_recF x) e6 c5
  have c7 := late_phases_rec (R := fun m _ => m.get? i = some sf') e7 e8 e9 e10 e11 e12 c6
  have d0 : RecQ (fun m => m.get? j = some sq) (n.hs (sess.setRemote r.cpFseid)) := by
    unfold RecQ Node.hs; rw [rules.2.1]; exact h8
  have d1 := pres_each_ok (fun x _ => createFar_recQ x) e1 d0
  have d2 := pres_each_ok (fun x _ => updateFar_recQ x) e2 d1
  have d3 := pres_each_ok (fun x _ => removeFar_recQ x) e3 d2
  have d4 := pres_each_ok (fun x hx => createQer_other x (hr.qer x hx)) e4 d3
  obtain ⟨sq', f1, f2, f3⟩ := qer_updates r.updateQer d4 h10 e5
  have f4 : RecQ (fun m => m.get? j = some sq') s6 := pres_each_ok (fun x hx => removeQer_other x (by rintro rfl; exact hr.noQer hx)) e6 f1
  have f5 := late_phases_rec (R := fun _ m => m.get? j = some sq') e7 e8 e9 e10 e11 e12 f4
  refine ⟨⟨hs'.sess, pr, sf', sq', hn, p1, h3, ?_, c7, h6.trans b2.symm, b3, f5, h9.trans f2.symm, f3, fun k q hk hq => p2.recs k q hk hq⟩, ?_⟩
  · intro m hm
    rw [hdp, p2.ent]; exact h4 m hm
  · rintro ⟨a', s', x, k, p, hne, hx, hp, hk⟩
    refine h12 ⟨a', s', x, k, p, hne, ?_, hp, hk⟩
    have := (C05_isolation n a a' s').2.1 r ord hne
    rw [hst] at this
    rw [← this]; exact hx

theorem farUpdates_other {a : Addr} {s : U64} {i : U32} {e : Ev} {o : Outcome} {h : List (Ev × Outcome)} (he : ¬ e.about a s) :
    farUpdates a s i ((e, o) :: h) = farUpdates a s i h := by
  cases e with
  | modify a' r ord =>
    cases o with
    | reply resp => rw [farUpdates, if_neg (fun hh => he ⟨hh.1, hh.2.1⟩), List.append_nil]
    | _ => rfl
  | _ => rfl
theorem qerUpdates_other {a : Addr} {s : U64} {j : U32} {e : Ev} {o : Outcome} {h : List (Ev × Outcome)} (he : ¬ e.about a s) :
    qerUpdates a s j ((e, o) :: h) = qerUpdates a s j h := by
  cases e with
  | modify a' r ord =>
    cases o with
    | reply resp => rw [qerUpdates, if_neg (fun hh => he ⟨hh.1, hh.2.1⟩), List.append_nil]
    | _ => rfl
  | _ => rfl

/-- the service goes on -/
theorem svc_hist {cfg : NodeCfg} {rm : Option ResourceManager} {dp : BpfObjects} {h1 : List (Ev × Outcome)} {n1 : Node}
    (H1 : Hist (Node.init cfg rm dp) h1 n1) {a : Addr} {s : U64} {K : PdrKey} (hK : K ≠ .ul 0) {id : U16} {i j : U32} {ohr : U8} {G : (KFilter → Bool) → Prop}
    {fs : List FarIE} {qs : List QerIE} (hs : Svc n1 a s K id i j ohr G fs qs) {h2 : List (Ev × Outcome)} {n2 : Node}
    (H2 : HistP (Steered a s K id i j) n1 h2 n2) (hb : attempts (h2 ++ h1) < 2 ^ 64 - 2) :
    Svc n2 a s K id i j ohr G (fs ++ farUpdates a s i h2) (qs ++ qerUpdates a s j h2) := by
  induction H2 with
  | init => simpa [farUpdates, qerUpdates] using hs
  | @step h n e H hp hc ih =>
    have hb' : attempts (h ++ h1) < 2 ^ 64 - 2 := by
      have := attempts_cons (e, (n.step e).2) (h ++ h1)
      rw [List.cons_append] at hb; omega
    have ih := ih hb'
    rcases hp.what with ⟨w1, w2⟩ | ⟨r, ord, resp, rfl, w1, w2, w3, w4⟩
    · rw [farUpdates_other w1, qerUpdates_other w1]
      obtain ⟨⟨sess, pr, sf, sq, g1, g2, g3, g4, g5, g6, g7, g8, g9, g10, g11⟩, g12⟩ := ih
      have L := linv_hist (H1.append H.hist) hb'
      obtain ⟨j1, j2, j3⟩ := guard_step hK e (L.fresh hb' (by rw [g1]; simp)) w1 w2 hp.notFree g12
      exact ⟨⟨sess, pr, sf, sq, j2.trans g1, g2, g3, fun m hm => by rw [j1]; exact g4 m hm, g5, g6, g7, g8, g9, g10, g11⟩, j3⟩
    · have := svc_own ih hK hp.notFree w1 w2 w3 w4
      rw [w3]
      simp only [farUpdates, qerUpdates, w1, w4, and_self, if_true]
      rwa [List.append_assoc, List.append_assoc] at this
  | @traffic h n dp' H t ih =>
    obtain ⟨⟨sess, pr, sf, sq, g1, g2, g3, g4, g5⟩, g12⟩ := ih hb
    refine ⟨⟨sess, pr, sf, sq, g1, g2, g3, fun m hm => ?_, g5⟩, g12⟩
    rw [entry_pdr t.pdrUl t.pdrDl4 t.pdrDl6 K]; exact g4 m hm

/-- a service begins -/
theorem svc_establish {n1 : Node} {a : Addr} {r : EstReq} {n2 : Node} {resp : Resp} (hstep : n1.step (.establish a r) = (n2, .reply resp)) (hacc : resp.cause = 1)
    {pie : PdrIE} {fie : FarIE} {qie : QerIE} {K : PdrKey} (hask : AsksRule r pie fie qie K) (honly : ∀ x ∈ r.createPdr, x.names K → x = pie) (hK : K ≠ .ul 0)
    (hfree : ¬ K.freeIn n1.rm) (hused : ¬ n1.used K) {id : U16} {i j : U32} (hid : pie.pdrId = some id) (hi : pie.farId = some i) (hj : pie.qerId = some j)
    {seid : U64} (hse : resp.fseid = some seid) :
    Svc n2 a seid K id i j (pie.ohr.getD 0) pie.fits [fie] [qie] := by
  obtain ⟨l1, l2, hr, hl2⟩ := hask.pdr
  obtain ⟨id', seid', sess, pr, g1, hs1, hs2, hrec, hg, hkey, heff, halone⟩ := establish_in_effect_alone hstep hacc hask.ids hr hK hask.key hl2 hfree
  have : seid' = seid := Option.some.inj (hs1.symm.trans hse)
  subst this
  have : id' = id := Option.some.inj (g1.symm.trans hid)
  subst this
  obtain ⟨i', m1, m2, fi1, fi2, fi3, fi4⟩ := hask.far
  have : i' = i := Option.some.inj (fi1.symm.trans hi)
  subst this
  obtain ⟨_, sess1, sf, x1, x2, x3, hfm⟩ := C37_create hstep hacc fi3 (by simpa [fi2] using fi4)
  have : sess1 = sess := by
    rw [hs1] at x1; cases x1
    rw [hs2] at x2; exact (Option.some.inj x2).symm
  rw [this] at x3
  simp only [fi2, Option.getD_some] at x3
  obtain ⟨j', m3, m4, qi1, qi2, qi3, qi4⟩ := hask.qer
  have : j' = j := Option.some.inj (qi1.symm.trans hj)
  subst this
  obtain ⟨j2, _, sess2, sq, y0, y1, y2, y3, hqm⟩ := C36_create hstep hacc qi3 (by simpa [qi2] using qi4)
  have : sess2 = sess := by
    rw [hs1] at y1; cases y1
    rw [hs2] at y2; exact (Option.some.inj y2).symm
  rw [this] at y3
  have : j2 = j' := by rw [qi2] at y0; exact (Option.some.inj y0).symm
  subst this
  refine ⟨⟨sess, pr, sf, sq, hs2, hrec, hg.ohr, ?_, x3, hg.far _ sf hi x3, far_told_step far_told_nil hfm, y3, hg.qer _ sq hj y3,
    qer_told_step qer_told_nil hqm, halone ?_⟩, establish_usedElsewhere hstep hs1 hused⟩
  · intro m hm
    rw [← hkey]
    refine heff m ?_
    intro flt hflt
    rcases hsd : pie.sdf with _ | _ | ⟨c, cs⟩
    · rw [hg.noSdf (.inl hsd)] at hflt; cases hflt
    · rw [hg.noSdf (.inr hsd)] at hflt; cases hflt
    · obtain ⟨g, g1, g2⟩ := hg.sdf c cs hsd
      rw [g2] at hflt; cases hflt
      exact hm c cs _ hsd g1
  · intro x hx hn
    have hxp := honly x (by rw [hr]; exact List.mem_append_left _ hx) hn
    have hnd := hask.ids
    rw [hr, List.map_append, List.map_cons, List.nodup_append] at hnd
    exact hnd.2.2 x.pdrId (List.mem_map.2 ⟨x, hx, rfl⟩) pie.pdrId List.mem_cons_self (by rw [hxp])

/-- the tables of a service -/
theorem svc_rule {cfg : NodeCfg} {rm : Option ResourceManager} {p f q u : U32} {n : Node} (Gd : GoodReach (Node.init cfg rm (BpfObjects.load p f q u)) n)
    {a : Addr} {s : U64} {K : PdrKey} {id : U16} {i j : U32} {ohr : U8} {G : (KFilter → Bool) → Prop} {fs : List FarIE} {qs : List QerIE}
    (h : Svc n a s K id i j ohr G fs qs) :
    ∃ rr far qi k, rr.ohr = ohr ∧ (∀ m, G m → classify (n.dp.entry? K) m = some rr) ∧
      n.dp.far.lookup rr.far = some far ∧ FarMerged {} (FarIE.told fs) far ∧
      n.dp.qer.lookup rr.qer = some k ∧ QerMerged {} (QerIE.told qs) qi ∧
      k.gateUL = qi.gateUL ∧ k.gateDL = qi.gateDL ∧ k.qfi = qi.qfi ∧ k.mbrUL = qi.mbrUL ∧ k.mbrDL = qi.mbrDL := by
  obtain ⟨⟨sess, pr, sf, sq, g1, g2, g3, g4, g5, g6, g7, g8, g9, g10, g11⟩, g12⟩ := h
  have e1 := (C09_agrees_partial Gd g1 i).1 sf g5
  obtain ⟨k, k1, k2, k3, k4, k5, k6⟩ := (C09_agrees_partial Gd g1 j).2 sq g8
  refine ⟨pr.info.rule, sf.info, sq.info, k, g3, g4, ?_, g7, ?_, g10, k2, k3, k4, k5, k6⟩
  · show n.dp.far.lookup pr.info.farId = _
    rw [g6]; exact e1
  · show n.dp.qer.lookup pr.info.qerId = _
    rw [g9]; exact k1

theorem LastTunnel.into {l : List FarIE} {peer : Ip4} {teid : U32} {tos : U8} (h : LastTunnel l peer teid tos) : (FarIE.told l).intoTunnel peer teid tos := by
  obtain ⟨x, x1, x2⟩ := h.forw
  obtain ⟨o, o1, o2, o3⟩ := h.ohc
  refine ⟨⟨x, [], by simp [FarIE.told, x1], x2⟩, ⟨⟨o.desc, o.teid, latest (fun f => f.ohc?.bind (·.ipv4)) l, false⟩, by simp [FarIE.told, o1], o2, h.addr, o3⟩, h.tos⟩

theorem LastPlain.into {l : List FarIE} (h : LastPlain l) : (FarIE.told l).plain := by
  obtain ⟨x, x1, x2⟩ := h.forw
  exact ⟨⟨x, [], by simp [FarIE.told, x1], x2⟩, by intro o; simp [FarIE.told, h.noOhc]⟩

section
variable {cfg : NodeCfg} {rm : Option ResourceManager} {p f q u : U32} {h1 : List (Ev × Outcome)} {n1 : Node}
    (H1 : HistP (fun n e => e.refsKnown n) (Node.init cfg rm (BpfObjects.load p f q u)) h1 n1)
    {a : Addr} {r : EstReq} {n2 : Node} {resp : Resp} (hstep : n1.step (.establish a r) = (n2, .reply resp)) (hacc : resp.cause = 1)
    {pie : PdrIE} {fie : FarIE} {qie : QerIE} {id : U16} {i j : U32} (hid : pie.pdrId = some id) (hi : pie.farId = some i) (hj : pie.qerId = some j)
    {seid : U64} (hse : resp.fseid = some seid) {h2 : List (Ev × Outcome)} {n3 : Node} (hb : attempts h2 + attempts h1 + 1 < 2 ^ 64 - 2)
include H1 hstep hacc hid hi hj hse hb

theorem steered_rule {K : PdrKey} (hask : AsksRule r pie fie qie K) (honly : ∀ x ∈ r.createPdr, x.names K → x = pie) (hK : K ≠ .ul 0)
    (hfree : ¬ K.freeIn n1.rm) (hused : ¬ n1.used K) (H2 : HistP (Steered a seid K id i j) n2 h2 n3) :
    ∃ rr far qi k, rr.ohr = pie.ohr.getD 0 ∧ (∀ m, pie.fits m → classify (n3.dp.entry? K) m = some rr) ∧
      n3.dp.far.lookup rr.far = some far ∧ FarMerged {} (FarIE.told (fie :: farUpdates a seid i h2)) far ∧
      n3.dp.qer.lookup rr.qer = some k ∧ QerMerged {} (QerIE.told (qie :: qerUpdates a seid j h2)) qi ∧
      k.gateUL = qi.gateUL ∧ k.gateDL = qi.gateDL ∧ k.qfi = qi.qfi ∧ k.mbrUL = qi.mbrUL ∧ k.mbrDL = qi.mbrDL := by
  have Hs : HistP (fun n e => e.refsKnown n) (Node.init cfg rm (BpfObjects.load p f q u)) ((.establish a r, .reply resp) :: h1) n2 := by
    have := HistP.step (.establish a r) H1 trivial (by rw [hstep]; simp)
    rwa [hstep] at this
  have hb' : attempts (h2 ++ (Ev.establish a r, Outcome.reply resp) :: h1) < 2 ^ 64 - 2 := by
    rw [attempts_append]
    have : attempts ((Ev.establish a r, Outcome.reply resp) :: h1) = attempts h1 + 1 := by simp [attempts]
    omega
  have S := svc_hist Hs.hist hK (svc_establish hstep hacc hask honly hK hfree hused hid hi hj hse) H2 hb'
  exact svc_rule ((Hs.append (H2.mono fun n e (h : Steered a seid K id i j n e) => h.known)).good fun _ _ h => h) S

/-- **C93, downlink (IPv4).** A session was established with a PDR for the UE address `ip`, a FAR and a QER (as in C65; no other PDR of the request
gives `ip`). Then came any history of packets, of messages that are not about the session and do not give `ip`, and of accepted modifications of
the session that contain any Update FARs and Update QERs, and what they like about other rules. If what was *last* said in the establishment and
those modifications is, field by field: forward, in the tunnel to `peer` with TEID `teid` and traffic class `tos`, gate open, no rate limit - then
every downlink frame to `ip` leaves towards `peer` as the unchanged packet in exactly that tunnel, with the QFI last given. -/
theorem C93_downlink {ip : Ip4} (hask : AsksRule r pie fie qie (.dl4 ip)) (honly : ∀ x ∈ r.createPdr, x.names (.dl4 ip) → x = pie)
    (hfree : ip ∉ freeIps n1.rm) (hused : ¬ n1.used (.dl4 ip)) (H2 : HistP (Steered a seid (.dl4 ip) id i j) n2 h2 n3)
    {peer : Ip4} {teid : U32} {tos : U8} (hfar : LastTunnel (fie :: farUpdates a seid i h2) peer teid tos)
    (hgate : (latest QerIE.gateDL (qie :: qerUpdates a seid j h2)).getD 0 = 0) (hmbr : (latest QerIE.mbrDL (qie :: qerUpdates a seid j h2)).getD 0 = 0)
    (e : Env) (s : PS) (hdp : s.dp = n3.dp) (hd : IsDown4 e s.frame) (hip : be32 s.frame 30 = ip) (hfit : pie.fits (downFlow4 s.frame).sat)
    (hroom : e.headroom ≠ none) :
    ∃ s' fib, runPacket e s = (s', .ok (routeAct e (e.fib fib))) ∧ fib.dst = slice s'.frame 30 4 ∧
      IsTunnelled ⟨e.n3Ip, peer, tos, (latest QerIE.qfi (qie :: qerUpdates a seid j h2)).getD 0, teid⟩ (be16 s.frame 16) (s.frame.drop 14) s'.frame :=
  downlink_served (pie := pie) (qie := QerIE.told (qie :: qerUpdates a seid j h2)) hfar.into hgate hmbr
    (steered_rule H1 hstep hacc hid hi hj hse hb hask honly (by simp) hfree hused H2) e s hdp hd hip hfit hroom

/-- **C93, downlink (IPv6).** -/
theorem C93_downlink6 {ip : Ip6} (hask : AsksRule r pie fie qie (.dl6 ip)) (honly : ∀ x ∈ r.createPdr, x.names (.dl6 ip) → x = pie)
    (hused : ¬ n1.used (.dl6 ip)) (H2 : HistP (Steered a seid (.dl6 ip) id i j) n2 h2 n3)
    {peer : Ip4} {teid : U32} {tos : U8} (hfar : LastTunnel (fie :: farUpdates a seid i h2) peer teid tos)
    (hgate : (latest QerIE.gateDL (qie :: qerUpdates a seid j h2)).getD 0 = 0) (hmbr : (latest QerIE.mbrDL (qie :: qerUpdates a seid j h2)).getD 0 = 0)
    (e : Env) (s : PS) (hdp : s.dp = n3.dp) (hd : IsDown6 s.frame) (hip : be128 (slice s.frame 38 16) = ip) (hfit : pie.fits (downFlow6 s.frame).sat)
    (hroom : e.headroom ≠ none) :
    ∃ s' fib, runPacket e s = (s', .ok (routeAct e (e.fib fib))) ∧ fib.dst = slice s'.frame 30 4 ∧
      IsTunnelled ⟨e.n3Ip, peer, tos, (latest QerIE.qfi (qie :: qerUpdates a seid j h2)).getD 0, teid⟩ (be16 s.frame 18 + 40) (s.frame.drop 14) s'.frame :=
  downlink_served6 (pie := pie) (qie := QerIE.told (qie :: qerUpdates a seid j h2)) hfar.into hgate hmbr
    (steered_rule H1 hstep hacc hid hi hj hse hb hask honly (by simp) (fun h => h) hused H2) e s hdp hd hip hfit hroom

/-- **C93, uplink** (for G-PDUs as in `C28_forwarded_partial`). If what was last said is: forward (and no outer header was ever asked for), gate open, no rate
limit, every G-PDU with the TEID leaves as its payload. -/
theorem C93_uplink_partial {t : U32} (ht : t ≠ 0) (hask : AsksRule r pie fie qie (.ul t)) (honly : ∀ x ∈ r.createPdr, x.names (.ul t) → x = pie)
    (hohr : pie.ohr.getD 0 = 0) (hfree : t ∉ freeTeids n1.rm) (hused : ¬ n1.used (.ul t)) (H2 : HistP (Steered a seid (.ul t) id i j) n2 h2 n3)
    (hfar : LastPlain (fie :: farUpdates a seid i h2))
    (hgate : (latest QerIE.gateUL (qie :: qerUpdates a seid j h2)).getD 0 = 0) (hmbr : (latest QerIE.mbrUL (qie :: qerUpdates a seid j h2)).getD 0 = 0)
    (e : Env) (s : PS) (hdp : s.dp = n3.dp) (hm : IsGtpMsg e s.frame 255) (hteid : gtpTeid s.frame = t)
    {fl : Flow} (hfl : innerFlow s.frame = some fl) (hfit : pie.fits fl.sat)
    (h34 : l4Off s.frame = 34) {o : Nat} (hpay : PayloadAt s.frame o) (ho : o = gtpOff s.frame + 8 ∨ o = gtpOff s.frame + 16)
    (hin : ((oct s.frame o).toNat / 16 = 4 ∧ o + 20 ≤ s.frame.length) ∨ ((oct s.frame o).toNat / 16 = 6 ∧ o + 40 ≤ s.frame.length))
    (hself : ¬ ((oct s.frame o).toNat / 16 = 4 ∧ oct s.frame (o + 9) = 1 ∧ (be32 s.frame (o + 16) = e.n3Ip ∨ be32 s.frame (o + 16) = e.n9Ip))) :
    ∃ s' fib m ty, runPacket e s = (s', .ok (routeAct e (e.fib fib))) ∧ m.length = 12 ∧ etherTypeOf (s.frame.drop o) = some ty ∧
      s'.frame = m ++ ty ++ s.frame.drop o ∧
      fib.dst = if (oct s.frame o).toNat / 16 = 4 then slice s.frame (o + 16) 4 else slice s.frame (o + 24) 16 :=
  uplink_served (pie := pie) (qie := QerIE.told (qie :: qerUpdates a seid j h2)) hohr hfar.into hgate hmbr
    (steered_rule H1 hstep hacc hid hi hj hse hb hask honly (by simpa using ht) hfree hused H2) e s hdp hm hteid hfl hfit h34 hpay ho hin hself

/-- **C93, stopping (downlink, IPv4).** If the last Apply Action given does not say FORW, or the last downlink gate given is closed, every downlink frame to
`ip` is dropped. -/
theorem C93_stopped {ip : Ip4} (hask : AsksRule r pie fie qie (.dl4 ip)) (honly : ∀ x ∈ r.createPdr, x.names (.dl4 ip) → x = pie)
    (hfree : ip ∉ freeIps n1.rm) (hused : ¬ n1.used (.dl4 ip)) (H2 : HistP (Steered a seid (.dl4 ip) id i j) n2 h2 n3)
    (hstop : ((latest FarIE.action? (fie :: farUpdates a seid i h2)).getD 0).getLsbD 1 = false ∨ (latest QerIE.gateDL (qie :: qerUpdates a seid j h2)).getD 0 ≠ 0)
    (e : Env) (s : PS) (hdp : s.dp = n3.dp) (hd : IsDown4 e s.frame) (hip : be32 s.frame 30 = ip) (hfit : pie.fits (downFlow4 s.frame).sat) :
    ∃ s', runPacket e s = (s', .ok .drop) ∧ s'.frame = s.frame ∧ s'.dp = s.dp := by
  obtain ⟨rr, far, qi, k, r1, r2, r3, r4, r5, r6, k1, k2, k3, k4, k5⟩ := steered_rule H1 hstep hacc hid hi hj hse hb hask honly (by simp) hfree hused H2
  have hr : dlRule4 s.dp s.frame = some rr := by
    unfold dlRule4
    rw [hdp, hip]
    exact r2 _ hfit
  refine C26_not_permitted_dropped e s rr (.inr (.inl ⟨hd, hr, ?_⟩))
  rintro ⟨far', qer', w⟩
  have e1 : far' = far := Option.some.inj (w.hasFar.symm.trans (by rw [hdp]; exact r3))
  have e2 : qer' = k := Option.some.inj (w.hasQer.symm.trans (by rw [hdp]; exact r5))
  subst e1; subst e2
  rcases hstop with h | h
  · have hf := w.forw
    cases hl : latest FarIE.action? (fie :: farUpdates a seid i h2) with
    | none =>
      rw [r4.action.2 (by simp [FarIE.told, hl])] at hf
      exact absurd hf (by decide)
    | some x =>
      rw [r4.action.1 x [] (by simp [FarIE.told, hl])] at hf
      rw [hl] at h
      exact absurd (hf.symm.trans h) (by decide)
  · apply h
    have hg := w.gate
    rw [k2] at hg
    cases hl : latest QerIE.gateDL (qie :: qerUpdates a seid j h2) with
    | none => rfl
    | some g => rw [r6.gateDL.1 g (by simp [QerIE.told, hl])] at hg; exact hg

/-- **C93, stopping (uplink).** The same for G-PDUs with the TEID and the uplink gate. -/
theorem C93_stopped_uplink {t : U32} (ht : t ≠ 0) (hask : AsksRule r pie fie qie (.ul t)) (honly : ∀ x ∈ r.createPdr, x.names (.ul t) → x = pie)
    (hfree : t ∉ freeTeids n1.rm) (hused : ¬ n1.used (.ul t)) (H2 : HistP (Steered a seid (.ul t) id i j) n2 h2 n3)
    (hstop : ((latest FarIE.action? (fie :: farUpdates a seid i h2)).getD 0).getLsbD 1 = false ∨ (latest QerIE.gateUL (qie :: qerUpdates a seid j h2)).getD 0 ≠ 0)
    (e : Env) (s : PS) (hdp : s.dp = n3.dp) (hm : IsGtpMsg e s.frame 255) (hteid : gtpTeid s.frame = t)
    {fl : Flow} (hfl : innerFlow s.frame = some fl) (hfit : pie.fits fl.sat) :
    ∃ s', runPacket e s = (s', .ok .drop) ∧ s'.frame = s.frame ∧ s'.dp = s.dp := by
  obtain ⟨rr, far, qi, k, r1, r2, r3, r4, r5, r6, k1, k2, k3, k4, k5⟩ := steered_rule H1 hstep hacc hid hi hj hse hb hask honly (by simpa using ht) hfree hused H2
  have hr : ulRule s.dp s.frame = some rr := by
    have hc := r2 _ hfit
    unfold ulRule
    rw [hdp, hteid]
    have he : n3.dp.entry? (.ul t) = n3.dp.pdrUl.lookup t := rfl
    rw [he] at hc
    cases hl : n3.dp.pdrUl.lookup t with
    | none => rw [hl] at hc; cases hc
    | some pe =>
      rw [hl] at hc
      simp only []
      split
      · rename_i h0
        rw [← hc]; simp [classify, h0]
      · rw [hfl]; exact hc
  refine C26_not_permitted_dropped e s rr (.inl ⟨hm, hr, ?_⟩)
  rintro ⟨far', qer', w⟩
  have e1 : far' = far := Option.some.inj (w.hasFar.symm.trans (by rw [hdp]; exact r3))
  have e2 : qer' = k := Option.some.inj (w.hasQer.symm.trans (by rw [hdp]; exact r5))
  subst e1; subst e2
  rcases hstop with h | h
  · have hf := w.forw
    cases hl : latest FarIE.action? (fie :: farUpdates a seid i h2) with
    | none =>
      rw [r4.action.2 (by simp [FarIE.told, hl])] at hf
      exact absurd hf (by decide)
    | some x =>
      rw [r4.action.1 x [] (by simp [FarIE.told, hl])] at hf
      rw [hl] at h
      exact absurd (hf.symm.trans h) (by decide)
  · apply h
    have hg := w.gate
    rw [k1] at hg
    cases hl : latest QerIE.gateUL (qie :: qerUpdates a seid j h2) with
    | none => rfl
    | some g => rw [r6.gateUL.1 g (by simp [QerIE.told, hl])] at hg; exact hg

end

/-! ### a concrete case -/

/-- handover of the session of `Demo.svc`: the downlink tunnel now goes to 10.0.3.21 with TEID 0x300, and the QFI is 5 -/
def Demo.handover : ModReq :=
  { seid := 2, seq := 8, updateFar := [{ kind := .update, farId := some 2, forward := some (some (some ⟨0x0100, 0x300, some 0x0A000315, false⟩)) }],
    updateQer := [{ qerId := some 1, qfi := some 5 }] }
/-- the UE goes idle: packets to it are no longer to be forwarded -/
def Demo.idle : ModReq := { seid := 2, seq := 9, updateFar := [{ kind := .update, farId := some 2, applyAction := some [0x0C] }] }
def Demo.nMoved : Node := (Demo.nSvc3.step (.modify 1 Demo.handover default)).1
def Demo.nIdle : Node := (Demo.nMoved.step (.modify 1 Demo.idle default)).1

theorem Demo.moved_step : (Demo.nSvc3.step (.modify 1 Demo.handover default)).2 = .reply { type := .modification, seid := 100, seq := 8, cause := 1 } := by decide +kernel
theorem Demo.idle_step : (Demo.nMoved.step (.modify 1 Demo.idle default)).2 = .reply { type := .modification, seid := 100, seq := 9, cause := 1 } := by decide +kernel

theorem Demo.svc3_has : (Demo.nSvc3.session? 1 2).map (fun s => ((s.fars.get? 2).isSome, (s.qers.get? 1).isSome)) = some (true, true) := by decide +kernel
theorem Demo.moved_has : (Demo.nMoved.session? 1 2).map (fun s => ((s.fars.get? 2).isSome, (s.qers.get? 1).isSome)) = some (true, true) := by decide +kernel

theorem Demo.moved_steered : Steered 1 2 (.dl4 0x0A3C0001) 2 2 1 Demo.nSvc3 (.modify 1 Demo.handover default) := by
  refine ⟨?_, ?_, .inr ⟨_, _, _, rfl, rfl, ⟨by simp [Demo.handover], by simp [Demo.handover], by simp [Demo.handover], by simp [Demo.handover],
    by simp [Demo.handover], by simp [Demo.handover]⟩, Demo.moved_step, rfl⟩⟩
  · intro sess hs
    have hs' : Demo.nSvc3.session? 1 2 = some sess := hs
    have := Demo.svc3_has
    rw [hs'] at this
    simp only [Option.map_some, Option.some.injEq, Prod.mk.injEq] at this
    exact ⟨by simpa [Demo.handover] using this.1, by simp [Demo.handover], by simp [Demo.handover], by simpa [Demo.handover] using this.2, by simp [Demo.handover],
      by simp [Demo.handover], by simp [Demo.handover], by simp [Demo.handover], by simp [Demo.handover]⟩
  · show ¬ (0x0A3C0001 : Ip4) ∈ freeIps Demo.nSvc3.rm; decide +kernel
theorem Demo.idle_steered : Steered 1 2 (.dl4 0x0A3C0001) 2 2 1 Demo.nMoved (.modify 1 Demo.idle default) := by
  refine ⟨?_, ?_, .inr ⟨_, _, _, rfl, rfl, ⟨by simp [Demo.idle], by simp [Demo.idle], by simp [Demo.idle], by simp [Demo.idle],
    by simp [Demo.idle], by simp [Demo.idle]⟩, Demo.idle_step, rfl⟩⟩
  · intro sess hs
    have hs' : Demo.nMoved.session? 1 2 = some sess := hs
    have := Demo.moved_has
    rw [hs'] at this
    simp only [Option.map_some, Option.some.injEq, Prod.mk.injEq] at this
    exact ⟨by simpa [Demo.idle] using this.1, by simp [Demo.idle], by simp [Demo.idle], by simp [Demo.idle], by simp [Demo.idle],
      by simp [Demo.idle], by simp [Demo.idle], by simp [Demo.idle], by simp [Demo.idle]⟩
  · show ¬ (0x0A3C0001 : Ip4) ∈ freeIps Demo.nMoved.rm; decide +kernel

theorem Demo.moved_hist : ∃ h, HistP (Steered 1 2 (.dl4 0x0A3C0001) 2 2 1) Demo.nSvc h Demo.nMoved ∧ attempts h = 1 ∧
    farUpdates 1 2 2 h = Demo.handover.updateFar ∧ qerUpdates 1 2 1 h = Demo.handover.updateQer := by
  have hm : ∀ n e, Elsewhere 1 2 (.dl4 0x0A3C0001) n e → Steered 1 2 (.dl4 0x0A3C0001) 2 2 1 n e := fun n e h => ⟨h.known, h.notFree, .inl ⟨h.other, h.unnamed⟩⟩
  have hp : Elsewhere 1 2 (.dl4 0x0A3C0001) Demo.nSvc (.establish 2 (Demo.est 200)) ∧ Elsewhere 1 2 (.dl4 0x0A3C0001) Demo.nSvc2 (.delete 2 ⟨2, 9⟩ default) := by
    constructor
    · refine ⟨trivial, id, ?_, ?_⟩
      · rintro ⟨ie, hie, h⟩
        simp only [Demo.est, List.mem_cons, List.not_mem_nil, or_false] at hie
        obtain ⟨pdi, f, a1, a2, a3, a4⟩ := h
        rcases hie with rfl | rfl
        · cases a1; cases a2
        · cases a1; cases a3; cases a4
      · show ¬ (0x0A3C0001 : Ip4) ∈ freeIps Demo.nSvc.rm; decide +kernel
    · refine ⟨trivial, ?_, id, ?_⟩
      · rintro ⟨h, -⟩; revert h; decide
      · show ¬ (0x0A3C0001 : Ip4) ∈ freeIps Demo.nSvc2.rm; decide +kernel
  have s1 := HistP.step (P := Steered 1 2 (.dl4 0x0A3C0001) 2 2 1) (n0 := Demo.nSvc) (.establish 2 (Demo.est 200)) .init (hm _ _ hp.1) (by decide +kernel)
  have s2 := HistP.step (.delete 2 ⟨2, 9⟩ default) s1 (hm _ _ hp.2) (by decide +kernel)
  have s3 := HistP.step (.modify 1 Demo.handover default) s2 Demo.moved_steered
    (fun h => by have h' := Demo.moved_step.symm.trans h; cases h')
  refine ⟨_, s3, by simp [attempts], ?_, ?_⟩
  · have : (Node.step (Node.step (Node.step Demo.nSvc (Ev.establish 2 (Demo.est 200))).1 (Ev.delete 2 ⟨2, 9⟩ default)).1 (.modify 1 Demo.handover default)).2 =
        .reply { type := .modification, seid := 100, seq := 8, cause := 1 } := Demo.moved_step
    rw [this, farUpdates, farUpdates_other hp.2.other, farUpdates_other hp.1.other]
    rfl
  · have : (Node.step (Node.step (Node.step Demo.nSvc (Ev.establish 2 (Demo.est 200))).1 (Ev.delete 2 ⟨2, 9⟩ default)).1 (.modify 1 Demo.handover default)).2 =
        .reply { type := .modification, seid := 100, seq := 8, cause := 1 } := Demo.moved_step
    rw [this, qerUpdates, qerUpdates_other hp.2.other, qerUpdates_other hp.1.other]
    rfl

theorem Demo.idle_hist : ∃ h, HistP (Steered 1 2 (.dl4 0x0A3C0001) 2 2 1) Demo.nSvc h Demo.nIdle ∧ attempts h = 1 ∧
    farUpdates 1 2 2 h = Demo.handover.updateFar ++ Demo.idle.updateFar ∧ qerUpdates 1 2 1 h = Demo.handover.updateQer := by
  obtain ⟨h, H, b1, b2, b3⟩ := Demo.moved_hist
  have s1 := HistP.step (.modify 1 Demo.idle default) H Demo.idle_steered (fun h => by have h' := Demo.idle_step.symm.trans h; cases h')
  refine ⟨_, s1, by simpa [attempts] using b1, ?_, ?_⟩
  · rw [Demo.idle_step, farUpdates, b2]; rfl
  · rw [Demo.idle_step, qerUpdates, b3]; rfl

theorem Demo.svc_only : ∀ x ∈ Demo.svc.createPdr, x.names (.dl4 0x0A3C0001) → x = Demo.svc.createPdr[1] := by
  intro x hx hn
  simp only [Demo.svc, List.mem_cons, List.not_mem_nil, or_false] at hx
  rcases hx with rfl | rfl
  · obtain ⟨pdi, u, a1, a2, -⟩ := hn
    cases a1; cases a2
  · rfl
theorem Demo.svc_asks : AsksRule Demo.svc Demo.svc.createPdr[1] Demo.svc.createFar[1] { qerId := some 1, qfi := some 9 } (.dl4 0x0A3C0001) :=
  ⟨by decide, ⟨_, _, rfl, rfl, rfl, rfl, rfl⟩, ⟨[_], [], rfl, by simp⟩, ⟨2, [_], [], rfl, rfl, rfl, by simp⟩, ⟨1, [], [], rfl, rfl, rfl, by simp⟩⟩

/-- C93 applied to the handover: every downlink frame of the session now goes to 10.0.3.21, TEID 0x300, QFI 5, with the traffic class given at
establishment. -/
example (e : Env) (s : PS) (hdp : s.dp = Demo.nMoved.dp) (hd : IsDown4 e s.frame) (hip : be32 s.frame 30 = 0x0A3C0001) (hroom : e.headroom ≠ none) :
    ∃ s' fib, runPacket e s = (s', .ok (routeAct e (e.fib fib))) ∧ fib.dst = slice s'.frame 30 4 ∧
      IsTunnelled ⟨e.n3Ip, 0x0A000315, 0x1C, 5, 0x300⟩ (be16 s.frame 16) (s.frame.drop 14) s'.frame := by
  obtain ⟨h1, H1, b1⟩ := Demo.two_hist
  obtain ⟨h2, H2, b2, b3, b4⟩ := Demo.moved_hist
  have := C93_downlink (peer := 0x0A000315) (teid := 0x300) (tos := 0x1C) H1 Demo.svc_step rfl (fie := Demo.svc.createFar[1]) (qie := { qerId := some 1, qfi := some 9 })
    (pie := Demo.svc.createPdr[1]) rfl rfl rfl rfl (h2 := h2) (by omega) Demo.svc_asks Demo.svc_only (by decide +kernel) (Demo.two_unused _) H2
    (by rw [b3]; exact ⟨⟨2, rfl, rfl⟩, ⟨_, rfl, by decide, rfl⟩, rfl, by decide⟩) (by rw [b4]; rfl) (by rw [b4]; rfl) e s hdp hd hip
    (fun c cs f h => by cases h) hroom
  rw [b4] at this
  exact this

/-- And when the UE is idle they are dropped. -/
example (e : Env) (s : PS) (hdp : s.dp = Demo.nIdle.dp) (hd : IsDown4 e s.frame) (hip : be32 s.frame 30 = 0x0A3C0001) :
    ∃ s', runPacket e s = (s', .ok .drop) ∧ s'.frame = s.frame ∧ s'.dp = s.dp := by
  obtain ⟨h1, H1, b1⟩ := Demo.two_hist
  obtain ⟨h2, H2, b2, b3, b4⟩ := Demo.idle_hist
  exact C93_stopped H1 Demo.svc_step rfl (fie := Demo.svc.createFar[1]) (qie := { qerId := some 1, qfi := some 9 })
    (pie := Demo.svc.createPdr[1]) rfl rfl rfl rfl (h2 := h2) (by omega) Demo.svc_asks Demo.svc_only (by decide +kernel) (Demo.two_unused _) H2
    (by rw [b3]; exact .inl rfl) e s hdp hd hip (fun c cs f h => by cases h)

/-- The demonstration frame, before the handover, after it, and when the UE is idle. -/
example : be32 (runPacket DemoDp.env ⟨DemoDp.down, Demo.nSvc3.dp, {}, {}⟩).1.frame 30 = 0x0A000314 ∧
    be32 (runPacket DemoDp.env ⟨DemoDp.down, Demo.nMoved.dp, {}, {}⟩).1.frame 30 = 0x0A000315 ∧
    be32 (runPacket DemoDp.env ⟨DemoDp.down, Demo.nMoved.dp, {}, {}⟩).1.frame 46 = 0x300 ∧
    (runPacket DemoDp.env ⟨DemoDp.down, Demo.nIdle.dp, {}, {}⟩).2 = .ok .drop := by
  refine ⟨by decide +kernel, by decide +kernel, by decide +kernel, by decide +kernel⟩

end Eupf
