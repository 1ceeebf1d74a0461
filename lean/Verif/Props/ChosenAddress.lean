import Verif.Props.ChosenService
import Verif.Props.Leaks
/-
C90, downlink: a UE address the UPF chose.
-/
namespace Eupf
open Act

/-! ### addresses that only the UPF hands out -/

/-- no PDR of the session has this address as its key -/
abbrev NoKey (ip : Ip4) (s : Session) : Prop := ∀ i p, s.pdrs.get? i = some p → p.key ≠ .dl4 ip
/-- while the address is free, the session does not have it -/
structure NK (ip : Ip4) (s : HS) : Prop where
  nodup : (freeIps s.rm).Nodup
  free : ip ∈ freeIps s.rm → NoKey ip s.sess

section
variable {ip : Ip4}

theorem nk_frame {s s' : HS} (h : RuleFrame s s') (hs : NK ip s) : NK ip s' :=
  ⟨by rw [h.rm]; exact hs.nodup, fun hi i p hp => hs.free (by rw [← h.rm]; exact hi) i p (by rw [← h.pdrs]; exact hp)⟩

theorem nk_rm {s : HS} {rm : Option ResourceManager} {c : GoMap U8 U32} (hs : NK ip s) (hsuf : ∃ pre, freeIps s.rm = pre ++ freeIps rm) :
    NK ip { s with rm := rm, cache := c } := by
  obtain ⟨pre, e⟩ := hsuf
  refine ⟨?_, fun hi => hs.free (by rw [e]; exact List.mem_append_right _ hi)⟩
  have := hs.nodup
  rw [e] at this
  exact (List.nodup_append.1 this).2.1

/-- What `extractPdr` does to the pool of addresses and the key of the record. -/
theorem nk_extract {ue : Bool} {ie : PdrIE} (hie : ¬ ie.names (.dl4 ip)) {p : SPdr} {s s1 : HS} {res : Res SPdr} (hn : (freeIps s.rm).Nodup)
    (hp : ip ∈ freeIps s.rm → p.key ≠ .dl4 ip) (h : extractPdr ue ie p s = (s1, res)) :
    (∃ pre, freeIps s.rm = pre ++ freeIps s1.rm) ∧ ∀ p', res = .ok p' → ip ∈ freeIps s1.rm → p'.key ≠ .dl4 ip := by
  have keyTeid : ∀ (q : SPdr) (t : U32) (b : Bool) (i : PdrInfo), q.key ≠ .dl4 ip → ({ q with info := i, teid := t, allocated := b } : SPdr).key ≠ .dl4 ip := by
    intro q t b i hq hk
    apply hq
    unfold SPdr.key at hk ⊢
    simp only at hk
    cases h4 : q.ipv4 with
    | some x => rw [h4] at hk; exact hk
    | none => rw [h4] at hk; cases h6 : q.ipv6 <;> rw [h6] at hk <;> cases hk
  unfold extractPdr at h
  simp only [] at h
  split at h
  · cases h; exact ⟨⟨[], rfl⟩, by rintro p' e; cases e⟩
  · rename_i pdi hpdi
    split at h
    · cases h; exact ⟨⟨[], rfl⟩, by rintro p' e; cases e⟩
    · rename_i info _
      split at h
      · cases h; exact ⟨⟨[], rfl⟩, by rintro p' e; cases e⟩
      · rename_i f hf
        unfold pdrFteid at h
        split at h
        · split at h
          · cases h; exact ⟨⟨[], rfl⟩, by rintro p' e hi; cases e; exact keyTeid p _ _ _ (hp hi)⟩
          · rcases hal : allocTeid s.sess.remoteSEID p.pdrId s.rm with ⟨rm, _ | t⟩
            · rw [hal] at h
              obtain ⟨e1, -⟩ := allocTeid_none hal
              cases h
              exact ⟨⟨[], by rw [e1]; rfl⟩, by rintro p' e; cases e⟩
            · rw [hal] at h
              obtain ⟨-, f2⟩ := allocTeid_takes hal
              simp only [] at h
              cases hc : f.chooseId with
              | none =>
                rw [hc] at h; cases h
                exact ⟨⟨[], by simp [f2]⟩, by rintro p' e hi; cases e; exact keyTeid p _ _ _ (hp (by rw [← f2]; exact hi))⟩
              | some c =>
                rw [hc] at h; cases h
                exact ⟨⟨[], by simp [f2]⟩, by rintro p' e hi; cases e; exact keyTeid p _ _ _ (hp (by rw [← f2]; exact hi))⟩
        · cases h; exact ⟨⟨[], rfl⟩, by rintro p' e hi; cases e; exact keyTeid p _ _ _ (hp hi)⟩
      · rename_i hnf
        split at h
        · cases h; exact ⟨⟨[], rfl⟩, by rintro p' e; cases e⟩
        · rename_i u hu
          have h4 : ∀ x, u.ipv4 = some x → x ≠ ip := by rintro x hx rfl; exact hie ⟨pdi, u, hpdi, hnf, hu, hx⟩
          have key : ∀ r : Option ResourceManager × Option Ip4 × Bool, (∃ pre, freeIps s.rm = pre ++ freeIps r.1) →
              (∀ x, r.2.1 = some x → ip ∈ freeIps r.1 → x ≠ ip) → ∀ q : SPdr, q.ipv4 = p.ipv4 →
              (match r.2.1, u.ipv6 with
                | some ip, _ => (({ s with rm := r.1 }, .ok { q with ipv4 := some ip, allocated := r.2.2 }) : HS × Res SPdr)
                | none, some ip6 => ({ s with rm := r.1 }, .ok { q with ipv6 := some ip6, allocated := r.2.2 })
                | none, none => ({ s with rm := r.1 }, .err)) = (s1, res) →
              (∃ pre, freeIps s.rm = pre ++ freeIps s1.rm) ∧ ∀ p', res = .ok p' → ip ∈ freeIps s1.rm → p'.key ≠ .dl4 ip := by
            intro r hr hx q hq he
            split at he
            · rename_i x hx'
              cases he
              refine ⟨hr, ?_⟩
              rintro p' e hi; cases e
              intro hk
              exact hx x hx' hi (PdrKey.dl4.inj hk)
            · cases he
              refine ⟨hr, ?_⟩
              rintro p' e hi; cases e
              intro hk
              obtain ⟨pre, e⟩ := hr
              apply hp (by rw [e]; exact List.mem_append_right _ hi)
              unfold SPdr.key at hk ⊢
              simp only [hq] at hk
              cases h4 : p.ipv4 with
              | some x => rw [h4] at hk; exact hk
              | none => rw [h4] at hk; cases hk
            · cases he
              exact ⟨hr, by rintro p' e; cases e⟩
          unfold pdrUeIp at h
          refine key _ ?_ ?_ { p with info := info } rfl h
          · split
            · rcases allocIp_cases s.sess.remoteSEID s.rm with ⟨rm', x, e, h1, -⟩ | ⟨e, -⟩
              · rw [e]; exact ⟨[x], h1⟩
              · rw [e]; exact ⟨[], rfl⟩
            · exact ⟨[], rfl⟩
          · split
            · rcases allocIp_cases s.sess.remoteSEID s.rm with ⟨rm', x, e, h1, -⟩ | ⟨e, -⟩
              · rw [e]
                rintro y hy hi rfl
                cases hy
                rw [h1, List.nodup_cons] at hn
                exact hn.1 hi
              · rw [e]; exact fun y hy _ => h4 y hy
            · exact fun y hy _ => h4 y hy
        · cases h; exact ⟨⟨[], rfl⟩, by rintro p' e hi; cases e; exact hp hi⟩

theorem nk_put (i : U32) {p : SPdr} {s : HS} (hp : ip ∈ freeIps s.rm → p.key ≠ .dl4 ip) (h : NK ip s) : NK ip { s with sess := s.sess.putPdr i p } := by
  refine ⟨h.nodup, ?_⟩
  intro hi j q hq
  simp only [Session.putPdr, GoMap.get?_set] at hq
  split at hq
  · cases hq; exact hp hi
  · exact h.free hi j q hq

theorem nk_apply (p : SPdr) : Pres (NK ip) (applyPdr p) := by
  apply pres_of; intro s h
  obtain ⟨dp, e⟩ := applyPdr_frame p s
  rw [e]; exact ⟨h.nodup, h.free⟩

theorem nk_extracted {ue : Bool} {ie : PdrIE} {p : SPdr} {s s1 : HS} {res : Res SPdr} (hs : NK ip s)
    (hsuf : ∃ pre, freeIps s.rm = pre ++ freeIps s1.rm) (h : extractPdr ue ie p s = (s1, res)) : NK ip s1 := by
  obtain ⟨c, rm, e⟩ := extractPdr_frame ue ie p s
  rw [h] at e
  simp only at e
  subst e
  exact nk_rm hs hsuf

theorem nk_create {ue : Bool} {ie : PdrIE} (hie : ¬ ie.names (.dl4 ip)) : Pres (NK ip) (createPdr ue ie) := by
  apply pres_of; intro s hs
  unfold createPdr
  cases ie.pdrId with
  | none => exact hs
  | some id =>
    simp only [Act.bind_def, Act.bind]
    rcases hx : extractPdr ue ie { pdrId := id.zeroExtend 32 } s with ⟨s1, res⟩
    obtain ⟨h1, h2⟩ := nk_extract hie hs.nodup (by intro _ h; cases h) hx
    have h3 := nk_extracted hs h1 hx
    cases res with
    | err => exact h3
    | panic => exact h3
    | ok p =>
      simp only [Act.modify]
      have h4 := (nk_apply p).apply (nk_put p.pdrId (h2 p rfl) h3)
      rcases ha : applyPdr p { s1 with sess := s1.sess.putPdr p.pdrId p } with ⟨s2, r2⟩
      rw [ha] at h4
      cases r2 <;> exact ⟨h4.nodup, h4.free⟩

theorem nk_update {ue : Bool} {ie : PdrIE} (hie : ¬ ie.names (.dl4 ip)) : Pres (NK ip) (updatePdr ue ie) := by
  apply pres_of; intro s hs
  unfold updatePdr
  cases ie.pdrId with
  | none => exact hs
  | some id =>
    simp only [Act.bind_def, Act.bind, Act.get]
    rcases hx : extractPdr ue ie (s.sess.getPdr (id.zeroExtend 32)) s with ⟨s1, res⟩
    have hp : ip ∈ freeIps s.rm → (s.sess.getPdr (id.zeroExtend 32)).key ≠ .dl4 ip := by
      intro hi
      unfold Session.getPdr
      cases hg : s.sess.pdrs.get? (id.zeroExtend 32) with
      | none => intro h; cases h
      | some p => exact hs.free hi _ p hg
    obtain ⟨h1, h2⟩ := nk_extract hie hs.nodup hp hx
    have h3 := nk_extracted hs h1 hx
    cases res with
    | err => exact h3
    | panic => exact h3
    | ok p => exact (nk_apply p).apply (nk_put _ (h2 p rfl) h3)

theorem nk_delete (ord : Orders) (p : SPdr) : Pres (NK ip) (deletePdr ord p) := by
  refine deletePdr_pres (pres_of fun s h => ?_) (pres_of fun s h => ?_)
  · obtain ⟨_, _, e⟩ := deletePdrEntry_frame p s; rw [e]; exact ⟨h.nodup, h.free⟩
  · unfold releaseTeids
    split
    · exact h
    · rename_i r hr
      have e : freeIps s.rm = freeIps (some r) := by rw [hr]
      exact ⟨by have := h.nodup; rw [e] at this; exact this, fun hi => h.free (by rw [e]; exact hi)⟩

theorem nk_remove (ord : Orders) (id) : Pres (NK ip) (removePdr ord id) := by
  refine Pres.bind Pres.get fun s => ?_
  simp only []
  split
  · exact Pres.pure
  · refine Pres.bind (Pres.modify fun s h => ?_) fun _ => nk_delete _ _
    refine ⟨h.nodup, ?_⟩
    intro hi j q hq
    simp only [Session.removePdr, GoMap.get?_erase] at hq
    split at hq
    · cases hq
    · exact h.free hi j q hq

/-- One event that does not give the address: if it is free before and after and no session had it, no session has it. -/
theorem nk_step {n : Node} (e : Ev) (hnm : ¬ e.names (.dl4 ip)) (hn : (freeIps n.rm).Nodup) (hc : (n.step e).2 ≠ .crash)
    (hS : ∀ a s x, n.session? a s = some x → NoKey ip x) (hi : ip ∈ freeIps (n.step e).1.rm) :
    ∀ a s x, (n.step e).1.session? a s = some x → NoKey ip x := by
  have other : e.isNodeMsg = true → ∀ a s x, (n.step e).1.session? a s = some x → NoKey ip x := by
    intro he
    rcases other_step n e he with h1 | ⟨b, hbn, h1⟩
    · rw [h1]; exact hS
    · rw [h1]
      intro a s x hx
      simp only [Node.session?, GoMap.get?_set] at hx
      split at hx
      · simp [Assoc.new] at hx
      · exact hS a s x hx
  cases e with
  | assocSetup => exact other rfl
  | assocSetupResp => exact other rfl
  | assocUpdate => exact other rfl
  | heartbeatReq => exact other rfl
  | heartbeatResp => exact other rfl
  | setConfig => exact hS
  | establish addr r =>
    simp only [Node.step] at hc hi ⊢
    cases establish_cases n addr r with
    | refused c hcc he => rw [he]; exact hS
    | ran remote a hs res hid hcp ha hbody hl hrem he =>
      have b := (establishBody_rf (I := NK ip) (ue := n.ueip) (r := r) nk_frame (fun ie hie => nk_create fun h => hnm ⟨ie, hie, h⟩)).apply
        (s := n.hs (Session.new (a.nextSessionID + 1) remote)) ⟨hn, fun _ i p hp => by simp [Session.new, Node.hs] at hp⟩
      rw [hbody] at b
      rw [he] at hc hi ⊢
      cases res with
      | panic => exact absurd rfl hc
      | ok _ =>
        intro b' s x hx
        have hset := session_set n addr a ha (a.nextSessionID + 1) a.nextSequenceID (a.nextSessionID + 1) hs.sess hs.rm hs.dp b' s
        have hx : _ = some x := hset.symm.trans hx
        split at hx
        · cases hx; exact b.free hi
        · exact hS _ _ _ hx
      | err =>
        intro b' s x hx
        simp only [Node.estResult, Node.session?, GoMap.get?_set] at hx
        split at hx
        · subst b'; exact hS addr s x (by simp only [Node.session?, ha]; exact hx)
        · exact hS _ _ _ hx
  | modify addr r ord =>
    simp only [Node.step] at hc hi ⊢
    cases modify_cases n addr r ord with
    | refused c x hcc hs he => rw [he]; exact hS
    | ran a sess hs res ha hsess hbody hl hrem he =>
      have hx : n.session? addr r.seid = some sess := by simp [Node.session?, ha, hsess]
      have hset : NoKey ip (sess.setRemote r.cpFseid) := by
        have := hS _ _ _ hx
        unfold Session.setRemote
        split <;> exact this
      have b := (modifyBody_rf (I := NK ip) (ue := n.ueip) (ord := ord) (r := r) nk_frame
        (fun ie hie => nk_create fun h => hnm ⟨ie, List.mem_append_left _ hie, h⟩)
        (fun ie hie => nk_update fun h => hnm ⟨ie, List.mem_append_right _ hie, h⟩)
        (fun _ _ => nk_remove _ _)).apply (s := n.hs (sess.setRemote r.cpFseid)) ⟨hn, fun _ => hset⟩
      rw [hbody] at b
      rw [he] at hi ⊢
      intro b' s x hx
      have hset := session_set n addr a ha a.nextSessionID a.nextSequenceID r.seid hs.sess hs.rm hs.dp b' s
      have hx : _ = some x := hset.symm.trans hx
      split at hx
      · cases hx; exact b.free hi
      · exact hS _ _ _ hx
  | delete addr r ord =>
    simp only [Node.step] at hc ⊢
    cases delete_cases n addr r ord with
    | refused c hcc hs he => rw [he]; exact hS
    | ran a sess hs res ha hsess hbody he =>
      rw [he] at hc ⊢
      cases res with
      | panic => exact absurd rfl hc
      | err => exact hS
      | ok _ =>
        intro b' s x hx'
        simp only [Node.delResult, Node.session?, GoMap.get?_set] at hx'
        split at hx'
        · subst b'
          simp only [Option.bind_some, GoMap.get?_erase] at hx'
          split at hx'
          · cases hx'
          · exact hS addr s x (by simp only [Node.session?, ha]; exact hx')
        · exact hS _ _ _ hx'
  | peerLost addr ord =>
    simp only [Node.step, Node.deleteAssociation] at hc ⊢
    cases ha : n.assocs.get? addr with
    | none => rw [ha] at hc; exact absurd rfl hc
    | some a =>
      simp only [ha] at hc ⊢
      rcases hdr : dropSessions ord (ord.sessions.run a.sessions.entries) n.rm n.dp with ⟨rm, dp', b⟩
      rw [hdr] at hc
      cases b with
      | false => exact absurd rfl hc
      | true =>
        intro b' s x hx
        simp only [Node.session?, GoMap.get?_erase] at hx
        split at hx
        · cases hx
        · exact hS _ _ _ hx
end

/-- Over a history, from any node. -/
theorem ib_hist {C : U64 → Prop} {F : List Ip4} {n0 : Node} (i1 : IB C F n0.rm) (i2 : ∀ a s x, n0.session? a s = some x → C x.remoteSEID)
    {h : List (Ev × Outcome)} {n : Node} (H : Hist n0 h n) (hC : ∀ x ∈ h, ∀ c, x.1.givesCpSeid c → C c)
    (hd : ∀ x ∈ h, ∀ a r o, x.1 = .delete a r o → ¬ C r.seid) : IB C F n.rm ∧ ∀ a s x, n.session? a s = some x → C x.remoteSEID := by
  induction H with
  | init => exact ⟨i1, i2⟩
  | traffic _ _ ih => exact ih hC hd
  | step e H hc ih =>
    obtain ⟨j1, j2⟩ := ih (fun x hx => hC x (.tail _ hx)) (fun x hx => hd x (.tail _ hx))
    exact ib_step e (hC _ (.head _)) (hd _ (.head _)) hc j1 j2

/-- A free address that nobody gave is not used. -/
theorem free_address_unused {C : U64 → Prop} {cfg : NodeCfg} {ips : List Ip4} (hips : ips.Nodup) {range : U32} {dp : BpfObjects} {h : List (Ev × Outcome)} {n : Node}
    (H : Hist (Node.init cfg (some (newResourceManager ips range)) dp) h n) (hC : ∀ x ∈ h, ∀ c, x.1.givesCpSeid c → C c)
    (hd : ∀ x ∈ h, ∀ a r o, x.1 = .delete a r o → ¬ C r.seid) {ip : Ip4} (hg : ∀ x ∈ h, ¬ x.1.names (.dl4 ip)) :
    IB C ips n.rm ∧ (∀ a s x, n.session? a s = some x → C x.remoteSEID) ∧ (ip ∈ freeIps n.rm → ∀ a s x, n.session? a s = some x → NoKey ip x) := by
  have init : IB C ips (Node.init cfg (some (newResourceManager ips range)) dp).rm ∧
      ∀ a s x, (Node.init cfg (some (newResourceManager ips range)) dp).session? a s = some x → C x.remoteSEID := by
    refine ⟨⟨?_, [], rfl⟩, ?_⟩
    · intro r k ip e hk; cases e; simp [newResourceManager] at hk
    · intro a s x hx; simp [Node.session?, Node.init] at hx
  obtain ⟨r1, r2⟩ := ib_hist init.1 init.2 H hC hd
  refine ⟨r1, r2, ?_⟩
  clear r1 r2
  induction H with
  | init => intro _ a s x hx; simp [Node.session?, Node.init] at hx
  | traffic _ _ ih => exact ih hC hd hg
  | @step h n e H hc ih =>
    intro hi
    obtain ⟨j1, j2⟩ := ib_hist init.1 init.2 H (fun x hx => hC x (.tail _ hx)) (fun x hx => hd x (.tail _ hx))
    obtain ⟨k1, -⟩ := ib_step (ips := freeIps n.rm) e (hC _ (.head _)) (hd _ (.head _)) hc ⟨j1.keys, [], rfl⟩ j2
    obtain ⟨pre, hp⟩ := k1.suf
    exact nk_step e (hg _ (.head _)) (pool_ips hips H) hc
      (ih (fun x hx => hC x (.tail _ hx)) (fun x hx => hd x (.tail _ hx)) (fun x hx => hg x (.tail _ hx)) (by rw [hp]; exact List.mem_append_right _ hi)) hi

theorem asksIp_noTeid {ie : PdrIE} (h : ie.asksIp = true) : ie.asksTeid = none := by
  unfold PdrIE.asksIp at h
  unfold PdrIE.asksTeid
  split at h
  · rename_i hp; rw [hp]
  · cases h

/-- A Create PDR of an accepted establishment that leaves its UE address to the UPF, where no later Create PDR gives the address
reported: the session has the record with this address, it is in effect, and the address is no longer free. -/
theorem establish_chosen_ip {n : Node} {addr : Addr} {r : EstReq} {n' : Node} {resp : Resp} (hpool : (freeIps n.rm).Nodup)
    (hstep : n.step (.establish addr r) = (n', .reply resp)) (hacc : resp.cause = 1)
    (hnd : (r.createPdr.map (·.pdrId)).Nodup) {l1 l2 : List PdrIE} {ie : PdrIE} (hr : r.createPdr = l1 ++ ie :: l2)
    (hask : ie.asksIp = true) {i : U16} (hi : ie.pdrId = some i) {ip : Ip4} (hrep : .ueIp i ip ∈ resp.created)
    (hl2 : ∀ x ∈ l2, ¬ x.names (.dl4 ip)) :
    ∃ seid sess p, resp.fseid = some seid ∧ n'.session? addr seid = some sess ∧
      sess.pdrs.get? (i.zeroExtend 32) = some p ∧ PdrGiven ie sess p ∧ p.key = .dl4 ip ∧ InEffect n'.dp p ∧ ip ∉ freeIps n'.rm := by
  obtain ⟨seid', sess', c1, c2, -, c3, -⟩ := C17_created hstep hacc
  obtain ⟨-, -, ⟨_, -, -, -, hue⟩, c4⟩ := c3 i ip hrep
  obtain ⟨p0, c5, c6⟩ := c4 hnd
  obtain ⟨seid, remote, hs', h1, h2, hb, h3, h4, h5, -⟩ := establish_accepted hstep hacc
  have : seid' = seid := Option.some.inj (c1.symm.trans h1)
  subst this
  have : sess' = hs'.sess := Option.some.inj (c2.symm.trans h3)
  subst this
  unfold establishBody at hb
  obtain ⟨_, s0, e0, hb⟩ := bind_ok hb
  obtain rfl := display_ok e0
  obtain ⟨_, s1, e1, hb⟩ := bind_ok hb
  obtain ⟨_, s2, e2, hb⟩ := bind_ok hb
  obtain ⟨_, s3, e3, e4⟩ := bind_ok hb
  have fr : (freeIps s3.rm).Nodup := by
    have hI : ∀ {s s' : HS}, RuleFrame s s' → (freeIps s.rm).Nodup → (freeIps s'.rm).Nodup := fun h h' => by rw [h.rm]; exact h'
    have f1 := pres_each_ok (I := fun s : HS => (freeIps s.rm).Nodup) (fun _ _ => pres_of fun s h => hI (createFar_rf _ s) h) e1 hpool
    have f2 := pres_each_ok (I := fun s : HS => (freeIps s.rm).Nodup) (fun _ _ => pres_of fun s h => hI (createQer_rf _ s) h) e2 f1
    exact pres_each_ok (I := fun s : HS => (freeIps s.rm).Nodup) (fun _ _ => pres_of fun s h => hI (createUrr_rf _ s) h) e3 f2
  rw [hr] at e4 hnd
  obtain ⟨t1, f1, f2⟩ := each_append_ok l1 e4
  obtain ⟨t2, f3, f4⟩ := each_cons_ok f2
  have step : ∀ {x : PdrIE} {s s' : HS}, createPdr n.ueip x s = (s', .ok ()) → (freeIps s.rm).Nodup → (freeIps s'.rm).Nodup := by
    intro x s s' hc hs
    obtain ⟨id, p, v, hid, hx, hsess, hcr, hrm, hca, hent⟩ := createPdr_ok hc
    rw [hrm]
    cases got hx with
    | shared c ha hc e al h4 h6 => subst e; exact hs
    | fresh c ha hmiss hf hi hcache al h4 h6 => rw [hi]; exact hs
    | address ip hn ha hu hf hi hcache al h4 => rw [hf, List.nodup_cons] at hs; exact hs.2
    | given hn ha e al => subst e; exact hs
  have all : ∀ (l : List PdrIE) {s s' : HS}, Act.each (createPdr n.ueip) l s = (s', .ok ()) → (freeIps s.rm).Nodup → (freeIps s'.rm).Nodup := by
    intro l
    induction l with
    | nil => intro s s' he hs; cases he; exact hs
    | cons x l ih =>
      intro s s' he hs
      obtain ⟨s1, g1, g2⟩ := each_cons_ok he
      exact ih g2 (step g1 hs)
  have nd1 := all l1 f1 fr
  obtain ⟨id, p, v, hid, hx, hsess, -, hrm, hca, hent⟩ := createPdr_ok f3
  have : id = i := by rw [hi] at hid; exact (Option.some.inj hid).symm
  subst this
  simp only [List.map_append, List.map_cons] at hnd
  have hnd2 := (List.nodup_append.1 hnd).2.1
  rw [List.nodup_cons] at hnd2
  obtain ⟨i1, i2, i3, i4⟩ := puts_later (createPdr_puts _) l2 t2 hs' f4 hnd2.2
  have hrec : hs'.sess.pdrs.get? (id.zeroExtend 32) = some p := by
    rw [i2 id ?_, hsess]
    · exact (GoMap.get?_set ..).trans (if_pos rfl)
    · intro y hy he
      exact hnd2.1 (List.mem_map.2 ⟨y, hy, he.trans hid.symm⟩)
  have : p0 = p := Option.some.inj (c5.symm.trans hrec)
  subst this
  have hg : PdrGiven ie hs'.sess p0 := given_of hx _ (by rw [i3, hsess]; rfl) (by rw [i4, hsess]; rfl)
  have hout : ip ∉ freeIps t2.rm := by
    rw [hrm]
    cases got hx with
    | shared c ha hc e al h4 h6 => rw [asksIp_noTeid hask] at ha; cases ha
    | fresh c ha hmiss hf hi hcache al h4 h6 => rw [asksIp_noTeid hask] at ha; cases ha
    | address x hn ha hu hf hi hcache al h4 =>
      have hk := c6
      unfold SPdr.key at hk; rw [h4] at hk
      cases hk
      rw [hf, List.nodup_cons] at nd1
      exact nd1.1
    | given hn ha e al =>
      subst e
      rw [ha hask hue]; simp
  have kf : KF (.dl4 ip) (fun _ => False) (t2.dp.entry? (.dl4 ip)) t2 := ⟨⟨rfl, fun _ _ h => h.elim⟩, hout, fun _ _ _ => by simp⟩
  have kf' := pres_each_ok (fun x hx => kf_create (ue := n.ueip) (by simp) (hl2 x hx)) f4 kf
  refine ⟨seid', hs'.sess, p0, h1, h3, hrec, hg, c6, ?_, ?_⟩
  · rw [h4]
    apply inEffect_of (cur := t1.dp.entry? p0.key)
    rw [c6, kf'.ent, hent, c6, if_pos rfl]
  · rw [h5]; exact kf'.free

/-- The peers do not name, in deletions, a SEID (of this node) that some request gave as CP SEID. -/
def NoSeidMixup (h : List (Ev × Outcome)) : Prop := ∀ a r o out e out', (Ev.delete a r o, out) ∈ h → (e, out') ∈ h → ¬ e.givesCpSeid r.seid

/-- **C90, downlink** (peers as in `NoSeidMixup`). A Session Establishment Request that was accepted asked the UPF to choose the UE address for
packets (fitting the PDR's SDF filter, if it has one) to be forwarded in the tunnel to `peer`, TEID `teid`, with an open gate, QFI `qfi`
and no rate limit. Then after every later history of messages that are not about this session, and packets, every downlink frame to the
address that the response reported for this PDR leaves towards `peer` as the unchanged packet in exactly that tunnel - as long as no message
of the whole history gives this address to a PDR. -/
theorem C90_chosen_address_partial {cfg : NodeCfg} {ips : List Ip4} (hips : ips.Nodup) {range : U32} {p f q u : U32} {h1 : List (Ev × Outcome)} {n1 : Node}
    (H1 : HistP (fun n e => e.refsKnown n) (Node.init cfg (some (newResourceManager ips range)) (BpfObjects.load p f q u)) h1 n1)
    {a : Addr} {r : EstReq} {n2 : Node} {resp : Resp} (hstep : n1.step (.establish a r) = (n2, .reply resp)) (hacc : resp.cause = 1)
    {pie : PdrIE} {fie : FarIE} {qie : QerIE} {ip : Ip4} (hask : AsksAddress r pie fie qie ip)
    {i : U16} (hi : pie.pdrId = some i) (hrep : .ueIp i ip ∈ resp.created)
    {peer : Ip4} {teid : U32} {tos : U8} (hfar : fie.intoTunnel peer teid tos)
    (hgate : qie.gateDL.getD 0 = 0) (hmbr : qie.mbrDL.getD 0 = 0) (hgiven : ∀ x ∈ h1, ¬ x.1.names (.dl4 ip))
    {seid : U64} (hse : resp.fseid = some seid) {h2 : List (Ev × Outcome)} {n3 : Node} (H2 : HistP (NotGiving a seid (.dl4 ip)) n2 h2 n3)
    (hd : NoSeidMixup (h2 ++ (.establish a r, .reply resp) :: h1)) (hb : attempts h2 + attempts h1 + 1 < 2 ^ 64 - 2)
    (e : Env) (s : PS) (hdp : s.dp = n3.dp) (hdn : IsDown4 e s.frame) (hip : be32 s.frame 30 = ip) (hfit : pie.fits (downFlow4 s.frame).sat)
    (hroom : e.headroom ≠ none) :
    ∃ s' fib, runPacket e s = (s', .ok (routeAct e (e.fib fib))) ∧ fib.dst = slice s'.frame 30 4 ∧
      IsTunnelled ⟨e.n3Ip, peer, tos, qie.qfi.getD 0, teid⟩ (be16 s.frame 16) (s.frame.drop 14) s'.frame := by
  let C : U64 → Prop := fun c => ∃ x ∈ h2 ++ (Ev.establish a r, Outcome.reply resp) :: h1, x.1.givesCpSeid c
  have hC : ∀ x ∈ h2 ++ (Ev.establish a r, Outcome.reply resp) :: h1, ∀ c, x.1.givesCpSeid c → C c := fun x hx c h => ⟨x, hx, h⟩
  have hD : ∀ x ∈ h2 ++ (Ev.establish a r, Outcome.reply resp) :: h1, ∀ a r o, x.1 = .delete a r o → ¬ C r.seid := by
    rintro ⟨e, out⟩ hx a r o rfl ⟨⟨e', out'⟩, hx', hg⟩
    exact hd a r o out e' out' hx hx' hg
  have in1 : ∀ x ∈ h1, x ∈ h2 ++ (Ev.establish a r, Outcome.reply resp) :: h1 := fun x hx => List.mem_append_right _ (.tail _ hx)
  obtain ⟨j1, j2, j3⟩ := free_address_unused (C := C) hips H1.hist (fun x hx => hC x (in1 x hx)) (fun x hx => hD x (in1 x hx)) hgiven
  obtain ⟨_, _, -, -, -, c3, -⟩ := C17_created hstep hacc
  have hfree := (c3 i ip hrep).1
  have hused : ¬ n1.used (.dl4 ip) := by
    rintro ⟨a', s', x, i', p', hx, hp, hk⟩
    exact j3 hfree a' s' x hx i' p' hp hk
  obtain ⟨l1, l2, hr, hl2⟩ := hask.pdr
  obtain ⟨seid', sess, pr, hs1, hs2, hrec, hg, hkey, heff, hout⟩ := establish_chosen_ip (pool_ips hips H1.hist) hstep hacc hask.ids hr hask.asks hi hrep hl2
  have : seid' = seid := Option.some.inj (hs1.symm.trans hse)
  subst this
  have k := ib_step (C := C) (ips := ips) (n := n1) (.establish a r) (hC _ (List.mem_append_right _ (.head _)))
    (hD (.establish a r, .reply resp) (List.mem_append_right _ (.head _))) (by rw [hstep]; simp) j1 j2
  rw [hstep] at k
  have H2' : HistP (Elsewhere a seid' (.dl4 ip)) n2 h2 n3 := by
    have hC2 : ∀ x ∈ h2, ∀ c, x.1.givesCpSeid c → C c := fun x hx => hC x (List.mem_append_left _ hx)
    have hD2 : ∀ x ∈ h2, ∀ a r o, x.1 = .delete a r o → ¬ C r.seid := fun x hx => hD x (List.mem_append_left _ hx)
    clear hC hD in1
    clear_value C
    clear hdp hb hd
    induction H2 with
    | init => exact .init
    | traffic H tr ih => exact .traffic (ih hC2 hD2) tr
    | @step h n e H hP hc ih =>
      refine .step e (ih (fun x hx => hC2 x (.tail _ hx)) (fun x hx => hD2 x (.tail _ hx))) ⟨hP.known, hP.other, hP.unnamed, ?_⟩ hc
      have := (ib_hist (C := C) (F := freeIps n2.rm) ⟨k.1.keys, [], rfl⟩ k.2 H.hist (fun x hx => hC2 x (.tail _ hx))
        (fun x hx => hD2 x (.tail _ hx))).1.suf
      obtain ⟨pre, hpre⟩ := this
      intro hin
      exact hout (by rw [hpre]; exact List.mem_append_right _ hin)
  exact downlink_served hfar hgate hmbr (rule_after H1 hstep hacc (by simp) hused hask.far hask.qer hs1 hs2 hg hkey heff H2' hb) e s hdp hdn hip hfit hroom

/-! ### a concrete case -/

/-- Establishment of a session for which the UPF is to choose the uplink TEID and the UE address; downlink tunnel to 10.0.3.20 with TEID 0x200. -/
def Demo.svcCh : EstReq :=
  { Demo.svc with createPdr := [{ pdrId := some 1, farId := some 1, qerId := some 1, ohr := some 0, pdi := some { fteid := some (some ⟨0, true, some 5⟩) } },
                  { pdrId := some 2, farId := some 2, qerId := some 1, pdi := some { ueip := some (some { chv4 := true }) } }] }
def Demo.nCh : Node := (Demo.nSvc0.step (.establish 1 Demo.svcCh)).1
def Demo.nCh2 : Node := (Demo.nCh.step (.establish 2 (Demo.est 200))).1
def Demo.nCh3 : Node := (Demo.nCh2.step (.delete 2 ⟨2, 9⟩ default)).1
def Demo.chResp : Resp := { type := .establishment, seid := 100, seq := 7, cause := 1, fseid := some 2, created := [.fteid 1 1 0x0a000001, .ueIp 2 0x0a2d0001] }
theorem Demo.ch_step : Demo.nSvc0.step (.establish 1 Demo.svcCh) = (Demo.nCh, .reply Demo.chResp) := by
  have : (Demo.nSvc0.step (.establish 1 Demo.svcCh)).2 = .reply Demo.chResp := by decide +kernel
  exact Prod.ext (by simp only [Demo.nCh]) this

/-- The history of the node, and what happens later: peer 2 establishes a session (with a chosen TEID and address) and deletes it. -/
theorem Demo.ch_hist : ∃ o1 o2 o3 o4, o4 ≠ Outcome.silent ∧
    HistP (fun n e => e.refsKnown n) Demo.n0 [(Demo.assoc 2, o2), (Demo.assoc 1, o1)] Demo.nSvc0 ∧
    ∀ k, (k = .ul 1 ∨ k = .dl4 0x0a2d0001) →
      HistP (NotGiving 1 2 k) Demo.nCh [(.delete 2 ⟨2, 9⟩ default, o4), (.establish 2 (Demo.est 200), o3)] Demo.nCh3 := by
  have s1 := HistP.step (P := fun n e => e.refsKnown n) (n0 := Demo.n0) (Demo.assoc 1) .init trivial (by decide +kernel)
  have s2 := HistP.step (Demo.assoc 2) s1 trivial (by decide +kernel)
  refine ⟨_, _, (Demo.nCh.step (.establish 2 (Demo.est 200))).2, (Demo.nCh2.step (.delete 2 ⟨2, 9⟩ default)).2, by decide +kernel, s2, ?_⟩
  intro k hk
  have h1 : NotGiving 1 2 k Demo.nCh (.establish 2 (Demo.est 200)) := by
    refine ⟨trivial, id, ?_⟩
    rintro ⟨ie, hie, h⟩
    simp only [Demo.est, List.mem_cons, List.not_mem_nil, or_false] at hie
    rcases hk with rfl | rfl
    · obtain ⟨pdi, f, a1, a2, a3, -⟩ := h
      rcases hie with rfl | rfl
      · cases a1; cases a2; cases a3
      · cases a1; cases a2
    · obtain ⟨pdi, f, a1, a2, a3, a4⟩ := h
      rcases hie with rfl | rfl
      · cases a1; cases a2
      · cases a1; cases a3; cases a4
  have h2 : NotGiving 1 2 k Demo.nCh2 (.delete 2 ⟨2, 9⟩ default) := ⟨trivial, (by rintro ⟨h, -⟩; revert h; decide), id⟩
  have t1 := HistP.step (P := NotGiving 1 2 k) (n0 := Demo.nCh) (.establish 2 (Demo.est 200)) .init h1 (by decide +kernel)
  exact HistP.step (.delete 2 ⟨2, 9⟩ default) t1 h2 (by decide +kernel)

/-- C90 applied to this history: every G-PDU with the reported TEID 1 (as in `C28_forwarded_partial`) is served by the node `Demo.nCh3`. -/
example (e : Env) (s : PS) (hdp : s.dp = Demo.nCh3.dp) (hm : IsGtpMsg e s.frame 255) (hteid : gtpTeid s.frame = 1)
    {fl : Flow} (hfl : innerFlow s.frame = some fl)
    (h34 : l4Off s.frame = 34) {o : Nat} (hpay : PayloadAt s.frame o) (ho : o = gtpOff s.frame + 8 ∨ o = gtpOff s.frame + 16)
    (hin : ((oct s.frame o).toNat / 16 = 4 ∧ o + 20 ≤ s.frame.length) ∨ ((oct s.frame o).toNat / 16 = 6 ∧ o + 40 ≤ s.frame.length))
    (hself : ¬ ((oct s.frame o).toNat / 16 = 4 ∧ oct s.frame (o + 9) = 1 ∧ (be32 s.frame (o + 16) = e.n3Ip ∨ be32 s.frame (o + 16) = e.n9Ip))) :
    ∃ s' fib m ty, runPacket e s = (s', .ok (routeAct e (e.fib fib))) ∧ m.length = 12 ∧ etherTypeOf (s.frame.drop o) = some ty ∧
      s'.frame = m ++ ty ++ s.frame.drop o ∧
      fib.dst = if (oct s.frame o).toNat / 16 = 4 then slice s.frame (o + 16) 4 else slice s.frame (o + 24) 16 := by
  obtain ⟨o1, o2, o3, o4, ho4, H1, H2⟩ := Demo.ch_hist
  refine C90_chosen_uplink_partial (pie := Demo.svcCh.createPdr[0]) (fie := Demo.svcCh.createFar[0]) (qie := { qerId := some 1, qfi := some 9 }) (co := some 5) (t := 1) (i := 1)
    (n3ip := 0x0a000001) (seid := 2) H1 Demo.ch_step rfl
    ⟨by decide, rfl, ⟨[], _, rfl, ?_⟩, ⟨1, [], _, rfl, rfl, rfl, by decide⟩, ⟨1, [], [], rfl, rfl, rfl, by simp⟩⟩
    rfl (by decide) rfl ⟨⟨2, [], rfl, rfl⟩, by simp [Demo.svcCh, Demo.svc]⟩ rfl rfl ?_ rfl (H2 _ (.inl rfl)) ?_ (by simp [attempts, Demo.assoc]) e s hdp hm hteid hfl
    (fun c cs f h => by cases h) h34 hpay ho hin hself
  · intro x hx
    simp only [List.mem_singleton] at hx
    subst hx
    refine ⟨?_, ?_⟩
    · rintro ⟨pdi, f, a1, a2, -⟩; cases a1; cases a2
    · intro c _ h; cases h
  · intro x hx
    simp only [List.mem_cons, List.not_mem_nil, or_false] at hx
    rcases hx with rfl | rfl <;> exact id
  · refine ⟨by simp [cpSeids, Demo.assoc, Demo.svcCh, Demo.svc, Demo.est], ?_, ?_⟩
    · intro a r o out h
      simp [Demo.assoc] at h
    · intro a r o out h
      simp only [List.cons_append, List.nil_append, List.mem_cons, Prod.mk.injEq, List.not_mem_nil, or_false, Demo.assoc, reduceCtorEq, false_and] at h
      obtain ⟨h, rfl⟩ := h
      cases h
      exact ⟨ho4, by simp [cpSeids, Demo.assoc, Demo.svcCh, Demo.svc, Demo.est]⟩

/-- And every downlink frame to the reported address 10.45.0.1. -/
example (e : Env) (s : PS) (hdp : s.dp = Demo.nCh3.dp) (hd : IsDown4 e s.frame) (hip : be32 s.frame 30 = 0x0a2d0001) (hroom : e.headroom ≠ none) :
    ∃ s' fib, runPacket e s = (s', .ok (routeAct e (e.fib fib))) ∧ fib.dst = slice s'.frame 30 4 ∧
      IsTunnelled ⟨e.n3Ip, 0x0A000314, 0x1C, 9, 0x200⟩ (be16 s.frame 16) (s.frame.drop 14) s'.frame := by
  obtain ⟨o1, o2, o3, o4, ho4, H1, H2⟩ := Demo.ch_hist
  refine C90_chosen_address_partial (ips := [0x0a2d0001, 0x0a2d0002, 0x0a2d0003, 0x0a2d0004]) (by decide) (pie := Demo.svcCh.createPdr[1]) (fie := Demo.svcCh.createFar[1]) (qie := { qerId := some 1, qfi := some 9 })
    (ip := 0x0a2d0001) (i := 2) (seid := 2) H1 Demo.ch_step rfl
    ⟨by decide, rfl, ⟨[_], [], rfl, by simp⟩, ⟨2, [_], [], rfl, rfl, rfl, by simp⟩, ⟨1, [], [], rfl, rfl, rfl, by simp⟩⟩
    rfl (by decide) ⟨⟨2, [], rfl, rfl⟩, ⟨_, rfl, by decide, rfl, rfl⟩, by decide⟩ rfl rfl ?_ rfl (H2 _ (.inr rfl)) ?_ (by simp [attempts, Demo.assoc]) e s hdp hd hip
    (fun c cs f h => by cases h) hroom
  · intro x hx
    simp only [List.mem_cons, List.not_mem_nil, or_false] at hx
    rcases hx with rfl | rfl <;> exact id
  · intro a r o out e' out' h1 h2
    simp only [List.cons_append, List.nil_append, List.mem_cons, Prod.mk.injEq, List.not_mem_nil, or_false, Demo.assoc, reduceCtorEq, false_and] at h1 h2
    obtain ⟨h, rfl⟩ := h1
    cases h
    rcases h2 with ⟨rfl, -⟩ | ⟨rfl, -⟩ | ⟨rfl, -⟩ | ⟨rfl, -⟩ | ⟨rfl, -⟩
    · exact fun h => h
    · intro h; simp [Ev.givesCpSeid, Demo.est] at h
    · intro h; simp [Ev.givesCpSeid, Demo.svcCh, Demo.svc] at h
    · exact fun h => h
    · exact fun h => h

/-- The frames are there: a G-PDU with TEID 1 and a downlink packet to 10.45.0.1 (as the tables of `Demo.nCh3` treat them). -/
example : (runPacket DemoDp.env ⟨DemoDp.gpdu [0, 0, 0, 1] DemoDp.ueUp, Demo.nCh3.dp, {}, {}⟩).2 = .ok (.redirect 7) ∧
    (runPacket DemoDp.env ⟨(DemoDp.down.set 31 0x2d), Demo.nCh3.dp, {}, {}⟩).2 = .ok (.redirect 7) := by
  constructor <;> decide +kernel

end Eupf
