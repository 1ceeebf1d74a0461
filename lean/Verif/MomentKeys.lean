import Verif.MomentSlots
/- The PDR tables at every moment of a request. Models no code. -/
namespace Eupf
open Act

theorem entry?_traffic {b b' : BpfObjects} (h : TrafficEffect b b') (K : PdrKey) : b'.entry? K = b.entry? K := by
  cases K with
  | ul t => show b'.pdrUl.lookup t = _; rw [h.pdrUl]; rfl
  | dl4 t => show b'.pdrDl4.lookup t = _; rw [h.pdrDl4]; rfl
  | dl6 t => show b'.pdrDl6.lookup t = _; rw [h.pdrDl6]; rfl

/-- **At every moment of an event that does not touch `K`** the entry of `K` is as it was. -/
theorem moment_entry {n : Node} {e : Ev} {K : PdrKey} (hK : K ≠ .ul 0) (hnm : ¬ e.names K) (hfree : e.asksFor K → ¬ K.freeIn n.rm) {a : Addr} {s : U64}
    (hab : ¬ e.about a s) (hoth : ¬ n.usedElsewhere a s K) {b : BpfObjects} (hb : n.moment e b) : b.entry? K = n.dp.entry? K := by
  have avoid : ∀ a' s' x, (a', s') ≠ (a, s) → n.session? a' s' = some x → ∀ i p, x.pdrs.get? i = some p → p.key ≠ K := by
    intro a' s' x hne hx i p hp hk
    exact hoth ⟨a', s', x, i, p, hne, hx, hp, hk⟩
  have fr : ∀ {s s' : HS}, RuleFrame s s' → KB K (fun _ => True) (n.dp.entry? K) s → KB K (fun _ => True) (n.dp.entry? K) s' := kb_frame
  cases hj : n.job e with
  | none =>
    unfold Node.moment at hb
    rw [hj] at hb
    exact entry?_traffic hb K
  | some x =>
    obtain ⟨s0, l⟩ := x
    obtain ⟨l1, l2, rfl, ht⟩ := moment_cut hj hb
    rw [entry?_traffic ht K]
    cases e with
    | establish addr r =>
      simp only [Node.job] at hj
      cases hv : validateRequest r.nodeId r.cpFseid with
      | none => rw [hv] at hj; cases hj
      | some remote =>
        cases ha : n.assocs.get? addr with
        | none => rw [hv, ha] at hj; cases hj
        | some as =>
          rw [hv, ha] at hj
          simp only [Option.some.injEq, Prod.mk.injEq] at hj
          obtain ⟨rfl, hl⟩ := hj
          obtain ⟨r', cut, e1, -⟩ := est_cut hl (n.hs (Session.new (as.nextSessionID + 1) remote))
          rw [e1]
          have hnm' : ∀ ie ∈ r'.createPdr, ¬ ie.names K := fun ie hie h => hnm ⟨ie, cut.pdr.subset hie, h⟩
          have hb : KB K (fun _ => True) (n.dp.entry? K) (n.hs (Session.new (as.nextSessionID + 1) remote)) :=
            ⟨rfl, fun i p _ hp => by simp [Node.hs, Session.new] at hp⟩
          by_cases hq : Ev.asksFor K (.establish addr r)
          · have h0 : KF K (fun _ => True) (n.dp.entry? K) (n.hs (Session.new (as.nextSessionID + 1) remote)) :=
              ⟨hb, hfree hq, fun c v hv => by simp [Node.hs] at hv⟩
            exact ((establishBody_rf (ue := n.ueip) kf_frame (fun ie hie => kf_create hK (hnm' ie hie))).apply h0).toKB.ent
          · exact ((establishBody_rf (ue := n.ueip) kb_frame (fun ie hie => kb_create hK (hnm' ie hie) fun h => hq ⟨ie, cut.pdr.subset hie, h⟩)).apply hb).ent
    | modify addr r ord =>
      simp only [Node.job] at hj
      cases ha : n.assocs.get? addr with
      | none => rw [ha] at hj; cases hj
      | some as =>
        cases hs : as.sessions.get? r.seid with
        | none => rw [ha] at hj; simp only [Option.bind_some, hs] at hj; cases hj
        | some sess =>
          rw [ha] at hj
          simp only [Option.bind_some, hs, Option.some.injEq, Prod.mk.injEq] at hj
          obtain ⟨rfl, hl⟩ := hj
          obtain ⟨r', cut, e1, -⟩ := mod_cut hl (n.hs (sess.setRemote r.cpFseid))
          rw [e1]
          have hne : (addr, r.seid) ≠ (a, s) := by
            intro h; cases h; exact hab ⟨rfl, rfl⟩
          have hb : KB K (fun _ => True) (n.dp.entry? K) (n.hs (sess.setRemote r.cpFseid)) := by
            refine ⟨rfl, fun i p _ hp => ?_⟩
            refine avoid addr r.seid sess hne (by simp [Node.session?, ha, hs]) i p ?_
            have : (sess.setRemote r.cpFseid).pdrs = sess.pdrs := by unfold Session.setRemote; split <;> rfl
            rw [← this]; exact hp
          have sub : ∀ ie ∈ r'.createPdr ++ r'.updatePdr, ie ∈ r.createPdr ++ r.updatePdr := by
            intro ie hi
            rcases List.mem_append.1 hi with hi | hi
            · exact List.mem_append.2 (.inl (cut.createPdr.subset hi))
            · exact List.mem_append.2 (.inr (cut.updatePdr.subset hi))
          by_cases hq : Ev.asksFor K (.modify addr r ord)
          · exact (kb_modify (fun _ _ _ _ => trivial) (fun _ _ => trivial) hK (fun ie hie h => hnm ⟨ie, sub ie hie, h⟩)
              ⟨hb, hfree hq, fun c v hv => by simp [Node.hs] at hv⟩).ent
          · exact (kb_modify' (fun _ _ _ _ => trivial) (fun _ _ => trivial) hK (fun ie hie h => hnm ⟨ie, sub ie hie, h⟩)
              (fun ie hie h => hq ⟨ie, sub ie hie, h⟩) hb).ent
    | delete addr r ord =>
      simp only [Node.job] at hj
      cases ha : n.assocs.get? addr with
      | none => rw [ha] at hj; cases hj
      | some as =>
        cases hs : as.sessions.get? r.seid with
        | none => rw [ha] at hj; simp only [Option.bind_some, hs] at hj; cases hj
        | some sess =>
          rw [ha] at hj
          simp only [Option.bind_some, hs, Option.some.injEq, Prod.mk.injEq] at hj
          obtain ⟨rfl, hl⟩ := hj
          have hne : (addr, r.seid) ≠ (a, s) := by
            intro h; cases h; exact hab ⟨rfl, rfl⟩
          have hav := avoid addr r.seid sess hne (by simp [Node.session?, ha, hs])
          have hp : Pres (KB K (fun _ => True) (n.dp.entry? K)) (Act.all l1) := by
            apply pres_all
            intro m hm
            have hm' : m ∈ delPieces ord sess := by rw [hl]; exact List.mem_append_left _ hm
            simp only [delPieces, List.mem_append, List.mem_map] at hm'
            rcases hm' with ⟨x, hx, rfl⟩ | ⟨x, hx, rfl⟩ | ⟨x, hx, rfl⟩ | ⟨x, hx, rfl⟩
            · exact kb_delete ord (hav x.1 x.2 (mem_run_get _ _ x hx))
            · exact pres_of fun _ h => fr (dropFar_rf ..) h
            · exact pres_of fun _ h => fr (dropQer_rf ..) h
            · exact pres_of fun _ h => fr (dropUrr_rf ..) h
          exact (hp.apply (s := n.hs sess) ⟨rfl, fun i p _ => hav i p⟩).ent
    | peerLost addr ord =>
      simp only [Node.job] at hj
      cases ha : n.assocs.get? addr with
      | none => rw [ha] at hj; cases hj
      | some as =>
        rw [ha] at hj
        simp only [Option.some.injEq, Prod.mk.injEq] at hj
        obtain ⟨rfl, hl⟩ := hj
        have hne : addr ≠ a := hab
        have hp : Pres (KB K (fun _ => True) (n.dp.entry? K)) (Act.all l1) := by
          apply pres_all
          intro m hm
          have hm' : m ∈ (ord.sessions.run as.sessions.entries).flatMap (fun e => dropPieces ord e.2) := by rw [hl]; exact List.mem_append_left _ hm
          obtain ⟨e, he, hm'⟩ := List.mem_flatMap.1 hm'
          have hget := (as.sessions.mem_entries_iff e.1 e.2).1 ((ord.sessions.perm _).mem_iff.1 he)
          have hav := avoid addr e.1 e.2 (fun h => hne (by cases h; rfl)) (by simp [Node.session?, ha, hget])
          simp only [dropPieces, List.mem_cons, List.mem_append, List.mem_map] at hm'
          rcases hm' with rfl | ⟨x, hx, rfl⟩ | ⟨x, hx, rfl⟩ | ⟨x, hx, rfl⟩
          · exact pres_of fun s h => (by exact ⟨h.ent, fun i p _ => hav i p⟩)
          · exact Pres.ignore (pres_of fun _ h => fr (dropFar_rf ..) h)
          · exact Pres.ignore (pres_of fun _ h => fr (dropQer_rf ..) h)
          · exact Pres.ignore (kb_delete ord (hav x.1 x.2 (mem_run_get _ _ x hx)))
        exact (hp.apply (s := n.hs Session.nil) ⟨rfl, fun i p _ hp => by simp [Node.hs, Session.nil, Session.new] at hp⟩).ent
    | assocSetup => cases hj
    | assocSetupResp => cases hj
    | assocUpdate => cases hj
    | heartbeatReq => cases hj
    | heartbeatResp => cases hj
    | setConfig => cases hj

end Eupf
