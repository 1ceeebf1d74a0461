import Verif.Props.Chosen
import Verif.Props.ChosenAddress
/-
C17: the Created PDR IEs of modifications, and the UEIP feature.
-/
namespace Eupf

/-! ### specification -/

/-- Is the node to choose UE addresses? What was last posted, at first what it was started with. -/
def ueipSaid (cfg : NodeCfg) : List (Ev × Outcome) → Bool
  | [] => cfg.featUEIP
  | (.setConfig u, _) :: _ => u
  | _ :: h => ueipSaid cfg h

/-! ### proofs -/

theorem ueip_step (n : Node) (e : Ev) (he : ∀ u, e ≠ .setConfig u) : (n.step e).1.ueip = n.ueip := by
  cases hi : e.isNodeMsg with
  | true => rcases other_step n e hi with h | ⟨b, -, h⟩ <;> rw [h]
  | false =>
    cases e with
    | establish a r =>
      show (n.establish a r).1.ueip = _
      rcases establish_cases n a r with ⟨c, -, h⟩ | ⟨remote, as, hs, res, -, -, -, -, -, -, h⟩
      · rw [h]
      · rw [h]; cases res <;> rfl
    | modify a r o =>
      show (n.modify a r o).1.ueip = _
      rcases modify_cases n a r o with ⟨c, x, -, -, h⟩ | ⟨as, se, hs, res, -, -, -, -, -, h⟩
      · rw [h]
      · rw [h]; cases res <;> rfl
    | delete a r o =>
      show (n.delete a r o).1.ueip = _
      unfold Node.delete
      split
      · rfl
      · split
        · rfl
        · simp only []; split <;> rfl
    | peerLost a o =>
      show (n.deleteAssociation a o).1.ueip = _
      unfold Node.deleteAssociation
      split
      · rfl
      · split <;> rfl
    | setConfig u => exact absurd rfl (he u)
    | _ => cases hi

/-- The setting the handlers use is what was last posted. -/
theorem ueip_hist {cfg : NodeCfg} {rm : Option ResourceManager} {dp : BpfObjects} {h : List (Ev × Outcome)} {n : Node} (H : Hist (Node.init cfg rm dp) h n) :
    n.ueip = ueipSaid cfg h := by
  induction H with
  | init => rfl
  | @step h n e H hc ih =>
    cases e with
    | setConfig u => rfl
    | _ => exact (ueip_step n _ (by simp)).trans ih
  | traffic H ht ih => exact ih

theorem allocTeid_ips {s : U64} {p : U32} {rm : Option ResourceManager} (h : freeIps rm = []) : freeIps (allocTeid s p rm).1 = [] := by
  cases rm with
  | none => rfl
  | some r => exact h
theorem allocIp_ips {s : U64} {rm : Option ResourceManager} (h : freeIps rm = []) : freeIps (allocIp s rm).1 = [] := by
  rcases allocIp_cases s rm with ⟨rm', ip, -, hf, -⟩ | ⟨hx, -⟩
  · rw [h] at hf; cases hf
  · rw [hx]; exact h

theorem extractPdr_noips (ue ie p) : Act.Pres (fun s : HS => freeIps s.rm = []) (extractPdr ue ie p) := by
  apply pres_of; intro s h
  unfold extractPdr
  simp only []
  split
  · exact h
  · split
    · exact h
    · split
      · exact h
      · unfold pdrFteid
        split
        · split
          · exact h
          · have := allocTeid_ips (s := s.sess.remoteSEID) (p := p.pdrId) h
            rcases hx : allocTeid s.sess.remoteSEID p.pdrId s.rm with ⟨rm, r⟩
            rw [hx] at this
            cases r with
            | none => exact this
            | some t => simp only []; split <;> exact this
        · exact h
      · split
        · exact h
        · unfold pdrUeIp
          have := allocIp_ips (s := s.sess.remoteSEID) h
          rcases hx : allocIp s.sess.remoteSEID s.rm with ⟨rm, r⟩
          rw [hx] at this
          simp only []
          cases r <;> (simp only []; split <;> (simp only []; split <;> first | exact this | exact h))
        · exact h

open Act in
theorem updatePdr_noips (ue ie) : Act.Pres (fun s : HS => freeIps s.rm = []) (updatePdr ue ie) := by
  unfold updatePdr
  cases ie.pdrId with
  | none => exact Pres.fail
  | some id => exact Pres.bind Pres.get fun _ => Pres.bind (extractPdr_noips _ _ _) fun _ => Pres.bind (Pres.modify fun _ h => h) fun _ =>
      (pres_of fun s h => (by obtain ⟨dp, e⟩ := applyPdr_frame _ s; rw [e]; exact h))
open Act in
theorem removePdr_noips (ord id) : Act.Pres (fun s : HS => freeIps s.rm = []) (removePdr ord id) := by
  refine Pres.bind Pres.get fun s => ?_
  simp only []
  split
  · exact Pres.pure
  · refine Pres.bind (Pres.modify fun _ h => h) fun _ => deletePdr_pres (pres_of fun s h => ?_) (pres_of fun s h => ?_)
    · obtain ⟨_, _, e⟩ := deletePdrEntry_frame _ s; rw [e]; exact h
    · unfold releaseTeids
      split
      · exact h
      · rename_i r hr; rw [hr] at h; exact h

/-- **C17, modifications.** The Created PDR IEs of an accepted modification: each stands for a Create PDR that asked, with a value that was free in the pool;
each Create PDR that asked for a TEID is reported, each that asked for an address is, unless the pool ran empty. -/
theorem C17_modification {n : Node} {addr : Addr} {r : ModReq} {ord : Orders} {sess0 : Session} {n' : Node} {resp : Resp}
    (hs : n.session? addr r.seid = some sess0) (hstep : n.step (.modify addr r ord) = (n', .reply resp)) (hacc : resp.cause = 1) :
    (∀ i t a, .fteid i t a ∈ resp.created → a = n.cfg.n3 ∧ t ∈ freeTeids n.rm ∧ ∃ ie ∈ r.createPdr, ie.pdrId = some i ∧ ie.asksTeid.isSome = true) ∧
    (∀ i ip, .ueIp i ip ∈ resp.created → ip ∈ freeIps n.rm ∧ ∃ ie ∈ r.createPdr, ie.pdrId = some i ∧ ie.asksIp = true ∧ n.ueip = true) ∧
    (∀ ie ∈ r.createPdr, ie.asksTeid.isSome = true → ∃ i t, ie.pdrId = some i ∧ .fteid i t n.cfg.n3 ∈ resp.created) ∧
    (∀ ie ∈ r.createPdr, ie.asksIp = true → n.ueip = true → (∃ i ip, ie.pdrId = some i ∧ .ueIp i ip ∈ resp.created) ∨ freeIps n'.rm = []) := by
  obtain ⟨hs', hb, h3, h4, h5, -, h6⟩ := modify_accepted hs hstep hacc
  obtain ⟨s1, s2, s3, s4, s5, s6, s7, s8, s9, s10, s11, e1, e2, e3, e4, e5, e6, e7, e8, e9, e10, e11, e12⟩ := modify_phases hb
  have fr : s9.cache = GoMap.empty ∧ s9.rm = n.rm ∧ s9.created = [] := by
    have hI : ∀ {s s' : HS}, RuleFrame s s' → (s.cache = GoMap.empty ∧ s.rm = n.rm ∧ s.created = []) →
        s'.cache = GoMap.empty ∧ s'.rm = n.rm ∧ s'.created = [] := fun h h' => ⟨h.cache.trans h'.1, h.rm.trans h'.2.1, h.created.trans h'.2.2⟩
    have f1 := pres_each_ok (fun _ _ => pres_of fun s h => hI (createFar_rf _ s) h) e1 ⟨rfl, rfl, rfl⟩
    have f2 := pres_each_ok (fun _ _ => pres_of fun s h => hI (updateFar_rf _ s) h) e2 f1
    have f3 := pres_each_ok (fun _ _ => pres_of fun s h => hI (removeFar_rf _ s) h) e3 f2
    have f4 := pres_each_ok (fun _ _ => pres_of fun s h => hI (createQer_rf _ s) h) e4 f3
    have f5 := pres_each_ok (fun _ _ => pres_of fun s h => hI (updateQer_rf _ s) h) e5 f4
    have f6 := pres_each_ok (fun _ _ => pres_of fun s h => hI (removeQer_rf _ s) h) e6 f5
    have f7 := pres_each_ok (fun _ _ => pres_of fun s h => hI (createUrr_rf _ s) h) e7 f6
    have f8 := pres_each_ok (fun _ _ => pres_of fun s h => hI (updateUrr_rf _ s) h) e8 f7
    exact pres_each_ok (fun _ _ => pres_of fun s h => hI (removeUrr_rf _ s) h) e9 f8
  have c1 : s11.created = s10.created := pres_each_ok (I := fun s => s.created = s10.created) (fun _ _ => updatePdr_created _ _) e11 rfl
  have c2 : hs'.created = s10.created := pres_each_ok (I := fun s => s.created = s10.created) (fun _ _ => removePdr_created _ _) e12 c1
  obtain ⟨ps, j1, j2, j3, j4, j5, j6⟩ := answered_all (F0 := freeTeids n.rm) (I0 := freeIps n.rm) r.createPdr
    (fun c t h => by rw [fr.1] at h; simp at h) (by rw [fr.2.1]; exact fun _ h => h) (by rw [fr.2.1]; exact fun _ h => h) e10
  rw [fr.2.2, List.nil_append] at j1
  rw [h6, c2, j1]
  have mem : ∀ c, c ∈ createdIEs n.cfg.n3 ps ↔ ∃ p ∈ ps, p.allocated = true ∧
      ((∃ ip, p.ipv4 = some ip ∧ c = .ueIp (p.pdrId.truncate 16) ip) ∨ (p.ipv4 = none ∧ p.ipv6 = none ∧ c = .fteid (p.pdrId.truncate 16) p.teid n.cfg.n3)) := by
    intro c
    unfold createdIEs
    rw [List.mem_filterMap]
    constructor
    · rintro ⟨p, hp, h⟩
      split at h
      · rename_i hal
        refine ⟨p, hp, hal, ?_⟩
        split at h
        · rename_i ip h4; cases h; exact .inl ⟨ip, h4, rfl⟩
        · cases h
        · rename_i h4 h6; cases h; exact .inr ⟨h4, h6, rfl⟩
      · cases h
    · rintro ⟨p, hp, hal, ⟨ip, h4, rfl⟩ | ⟨h4, h6, rfl⟩⟩
      · exact ⟨p, hp, by rw [if_pos hal, h4]⟩
      · exact ⟨p, hp, by rw [if_pos hal, h4, h6]⟩
  refine ⟨?_, ?_, ?_, ?_⟩
  · intro i t a hc
    obtain ⟨p, hp, hal, ⟨ip, _, hc⟩ | ⟨p4, p6, hc⟩⟩ := (mem _).1 hc
    · cases hc
    · obtain ⟨ie, hie, ans⟩ := forall2_right j2 p hp
      obtain ⟨i', hid, hpid⟩ := ans.id
      cases hc
      rcases ans.only hal with ⟨ask, _, _, hin⟩ | ⟨_, _, ip, hx, _⟩
      · exact ⟨rfl, hin, ie, hie, by rw [hid, hpid, trunc_zext], ask⟩
      · rw [p4] at hx; cases hx
  · intro i a hc
    obtain ⟨p, hp, hal, ⟨ip, p4, hc⟩ | ⟨p4, p6, hc⟩⟩ := (mem _).1 hc
    · obtain ⟨ie, hie, ans⟩ := forall2_right j2 p hp
      obtain ⟨i', hid, hpid⟩ := ans.id
      cases hc
      rcases ans.only hal with ⟨_, hx, _⟩ | ⟨ask, hu, ip, hx, hin⟩
      · rw [p4] at hx; cases hx
      · rw [p4] at hx; cases hx
        exact ⟨hin, ie, hie, by rw [hid, hpid, trunc_zext], ask, hu⟩
    · cases hc
  · intro ie hie ask
    obtain ⟨p, hp, ans⟩ := forall2_left j2 ie hie
    obtain ⟨i, hid, hpid⟩ := ans.id
    obtain ⟨al, p4, p6⟩ := ans.teid ask
    exact ⟨i, p.teid, hid, (mem _).2 ⟨p, hp, al, .inr ⟨p4, p6, by rw [hpid, trunc_zext]⟩⟩⟩
  · intro ie hie ask hu
    obtain ⟨p, hp, ans⟩ := forall2_left j2 ie hie
    obtain ⟨i, hid, hpid⟩ := ans.id
    rcases ans.ip ask hu with ⟨al, p4⟩ | hx
    · cases h : p.ipv4 with
      | none => exact absurd h p4
      | some ip => exact .inl ⟨i, ip, hid, (mem _).2 ⟨p, hp, al, .inl ⟨ip, h, by rw [hpid, trunc_zext]⟩⟩⟩
    · refine .inr ?_
      have hx1 := pres_each_ok (I := fun s : HS => freeIps s.rm = []) (fun _ _ => updatePdr_noips _ _) e11 hx
      have hx2 := pres_each_ok (I := fun s : HS => freeIps s.rm = []) (fun _ _ => removePdr_noips _ _) e12 hx1
      rw [h5]; exact hx2

/-- **C17, the feature.** Whether the node chooses addresses depends on the configuration alone, as last posted: with the feature off no response reports an
address, with the feature on every accepted request is answered with an address for each Create PDR that asks for one, unless the pool has run empty. -/
theorem C17_feature {cfg : NodeCfg} {rm : Option ResourceManager} {dp : BpfObjects} {h : List (Ev × Outcome)} {n : Node} (H : Hist (Node.init cfg rm dp) h n)
    {e : Ev} {pdrs : List PdrIE} (he : (∃ a r, e = .establish a r ∧ pdrs = r.createPdr) ∨ ∃ a r o, e = .modify a r o ∧ pdrs = r.createPdr) {n' : Node} {resp : Resp}
    (hstep : n.step e = (n', .reply resp)) (hacc : resp.cause = 1) :
    (ueipSaid cfg h = false → ∀ i ip, .ueIp i ip ∉ resp.created) ∧
    (ueipSaid cfg h = true → ∀ ie ∈ pdrs, ie.asksIp = true → (∃ i ip, ie.pdrId = some i ∧ .ueIp i ip ∈ resp.created) ∨ freeIps n'.rm = []) := by
  rw [← ueip_hist H]
  rcases he with ⟨a, r, rfl, rfl⟩ | ⟨a, r, o, rfl, rfl⟩
  · obtain ⟨seid, sess, -, -, -, h1, -, h2⟩ := C17_created hstep hacc
    refine ⟨fun hu i ip hc => ?_, fun hu ie hie ask => h2 ie hie ask hu⟩
    obtain ⟨-, -, ⟨ie, -, -, -, hx⟩, -⟩ := h1 i ip hc
    rw [hu] at hx; cases hx
  · have hs : ∃ x, n.session? a r.seid = some x := by
      have hstep' : n.modify a r o = _ := hstep
      rcases modify_cases n a r o with ⟨c, x, hc, -, h⟩ | ⟨as, se, hs, res, h1, h2, -, -, -, h⟩
      · rw [h] at hstep'
        cases hstep'
        have hacc' : c = 1 := hacc
        rcases hc with rfl | rfl <;> cases hacc'
      · exact ⟨se, by unfold Node.session?; rw [h1]; exact h2⟩
    obtain ⟨x, hs⟩ := hs
    obtain ⟨-, h1, -, h2⟩ := C17_modification hs hstep hacc
    refine ⟨fun hu i ip hc => ?_, fun hu ie hie ask => h2 ie hie ask hu⟩
    obtain ⟨-, ie, -, -, -, hx⟩ := h1 i ip hc
    rw [hu] at hx; cases hx

/-! ### examples -/

/-- A PDR that asks for an address and also gives one. -/
def Demo.both17 : EstReq :=
  { seq := 5, nodeId := some (some ()), cpFseid := some (some 300), createFar := [Demo.fwd], createQer := [{ qerId := some 1 }],
    createPdr := [{ pdrId := some 1, farId := some 1, qerId := some 1, pdi := some { ueip := some (some { chv4 := true, ipv4 := some 0x0A3C0009 }) } }] }
/-- the configuration with the feature off is posted -/
def Demo.nOff : Node := (Demo.nSvc0.step (.setConfig false)).1
theorem Demo.off_out : (Demo.nOff.step (.establish 1 Demo.both17)).2 = .reply { type := .establishment, seid := 300, seq := 5, cause := 1, fseid := some 2 } := by decide +kernel
theorem Demo.on_out : (Demo.nSvc0.step (.establish 1 Demo.both17)).2 =
    .reply { type := .establishment, seid := 300, seq := 5, cause := 1, fseid := some 2, created := [.ueIp 1 0x0a2d0001] } := by decide +kernel
theorem Demo.off_hist : ∃ h, Hist Demo.n0 ((.setConfig false, .silent) :: h) Demo.nOff := by
  obtain ⟨h, H, -⟩ := Demo.two_hist
  exact ⟨h, Hist.step (.setConfig false) H.hist (by intro h; cases h)⟩
/-- the feature off: no address is reported (the same request gets one with the feature on) -/
example : ∃ n' resp, Demo.nOff.step (.establish 1 Demo.both17) = (n', .reply resp) ∧ resp.cause = 1 ∧ ∀ i ip, .ueIp i ip ∉ resp.created := by
  obtain ⟨h, H⟩ := Demo.off_hist
  have ho := Demo.off_out
  generalize Demo.nOff = n at H ho ⊢
  have hst : n.step (.establish 1 Demo.both17) = ((n.step (.establish 1 Demo.both17)).1, .reply { type := .establishment, seid := 300, seq := 5, cause := 1, fseid := some 2 }) :=
    Prod.ext rfl ho
  exact ⟨_, _, hst, rfl, (C17_feature H (.inl ⟨_, _, rfl, rfl⟩) hst rfl).1 rfl⟩
example : ueipSaid Demo.cfg [] = true ∧ ∃ ie ∈ Demo.both17.createPdr, ie.asksIp = true := ⟨rfl, _, List.mem_singleton.2 rfl, rfl⟩

/-- C17_modification: a modification that asks for a TEID and an address -/
def Demo.mod17 : ModReq :=
  { seid := 2, seq := 9, createPdr := [{ pdrId := some 7, farId := some 1, qerId := some 1, pdi := some { ueip := some (some { chv4 := true }) } },
      { pdrId := some 8, farId := some 1, qerId := some 1, pdi := some { fteid := some (some ⟨0, true, none⟩) } }] }
theorem Demo.mod17_out : (Demo.nSvc.step (.modify 1 Demo.mod17 default)).2 =
    .reply { type := .modification, seid := 100, seq := 9, cause := 1, created := [.ueIp 7 0x0a2d0001, .fteid 8 1 0x0a000001] } := by decide +kernel
theorem Demo.mod17_has : (Demo.nSvc.session? 1 2).isSome = true := by decide +kernel
example : ∃ sess0 n' resp, Demo.nSvc.session? 1 Demo.mod17.seid = some sess0 ∧ Demo.nSvc.step (.modify 1 Demo.mod17 default) = (n', .reply resp) ∧ resp.cause = 1 ∧
    .ueIp 7 0x0a2d0001 ∈ resp.created := by
  obtain ⟨x, hx⟩ := Option.isSome_iff_exists.1 Demo.mod17_has
  have ho := Demo.mod17_out
  generalize Demo.nSvc = n at hx ho ⊢
  exact ⟨x, _, _, hx, Prod.ext rfl ho, rfl, by simp⟩

end Eupf
