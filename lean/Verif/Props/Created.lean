import Verif.Props.PdrInstall
/-
C36, C37 for rules created with a session: the recorded parameters are those of the request.
-/
namespace Eupf
open Act

/-- **C37, establishment.** A Create FAR of an accepted establishment whose id no other Create FAR of the request has (an absent id counts
as 0): the session has the FAR, and its parameters are those given, zero where nothing is given. -/
theorem C37_create {n : Node} {addr : Addr} {r : EstReq} {n' : Node} {resp : Resp}
    (hstep : n.step (.establish addr r) = (n', .reply resp)) (hacc : resp.cause = 1) {l1 l2 : List FarIE} {ie : FarIE}
    (hr : r.createFar = l1 ++ ie :: l2) (h2 : ∀ x ∈ l2, x.farId.getD 0 ≠ ie.farId.getD 0) :
    ∃ seid sess f, resp.fseid = some seid ∧ n'.session? addr seid = some sess ∧ sess.fars.get? (ie.farId.getD 0) = some f ∧ FarMerged {} ie f.info := by
  obtain ⟨seid, remote, hs', q1, -, hb, q3, -⟩ := establish_accepted hstep hacc
  unfold establishBody at hb
  obtain ⟨_, s0, e0, hb⟩ := bind_ok hb
  obtain rfl := display_ok e0
  obtain ⟨_, s1, e1, hb⟩ := bind_ok hb
  obtain ⟨_, s2, e2, hb⟩ := bind_ok hb
  obtain ⟨_, s3, e3, e4⟩ := bind_ok hb
  rw [hr] at e1
  obtain ⟨t1, f1, f2⟩ := each_append_ok l1 e1
  obtain ⟨t2, f3, f4⟩ := each_cons_ok f2
  have : ∃ f : SFar, FarMerged {} ie f.info ∧ RecF (fun m => m.get? (ie.farId.getD 0) = some f) t2 := by
    unfold createFar at f3
    split at f3
    · rename_i f hf
      rcases hx : t1.dp.newFar f with ⟨dp, g⟩
      rw [hx] at f3
      cases g with
      | none => cases f3
      | some g =>
        cases f3
        refine ⟨⟨f, g⟩, composeFarInfo_merged hf, ?_⟩
        exact (GoMap.get?_set ..).trans (if_pos rfl)
    · cases f3
    · cases f3
  obtain ⟨f, hf, a1⟩ := this
  have a2 := pres_each_ok (fun x hx => createFar_other x (h2 x hx)) f4 a1
  have a3 := pres_each_ok (fun x _ => createQer_recF x) e2 a2
  have a4 := pres_each_ok (fun x _ => createUrr_rec (R := fun m _ => m.get? (ie.farId.getD 0) = some f) x) e3 a3
  have a5 := pres_each_ok (fun x _ => createPdr_rec _ x) e4 a4
  exact ⟨seid, hs'.sess, f, q1, q3, a5, hf⟩

/-- **C36, establishment.** The same for a Create QER. -/
theorem C36_create {n : Node} {addr : Addr} {r : EstReq} {n' : Node} {resp : Resp}
    (hstep : n.step (.establish addr r) = (n', .reply resp)) (hacc : resp.cause = 1) {l1 l2 : List QerIE} {ie : QerIE}
    (hr : r.createQer = l1 ++ ie :: l2) (h2 : ∀ x ∈ l2, x.qerId ≠ ie.qerId) :
    ∃ j seid sess q, ie.qerId = some j ∧ resp.fseid = some seid ∧ n'.session? addr seid = some sess ∧ sess.qers.get? j = some q ∧ QerMerged {} ie q.info := by
  obtain ⟨seid, remote, hs', q1, -, hb, q3, -⟩ := establish_accepted hstep hacc
  unfold establishBody at hb
  obtain ⟨_, s0, e0, hb⟩ := bind_ok hb
  obtain rfl := display_ok e0
  obtain ⟨_, s1, e1, hb⟩ := bind_ok hb
  obtain ⟨_, s2, e2, hb⟩ := bind_ok hb
  obtain ⟨_, s3, e3, e4⟩ := bind_ok hb
  rw [hr] at e2
  obtain ⟨t1, f1, f2⟩ := each_append_ok l1 e2
  obtain ⟨t2, f3, f4⟩ := each_cons_ok f2
  have : ∃ (j : U32) (q : SQer), ie.qerId = some j ∧ QerMerged {} ie q.info ∧ RecQ (fun m => m.get? j = some q) t2 := by
    unfold createQer at f3
    split at f3
    · cases f3
    · rename_i j hj
      simp only [] at f3
      rcases hx : t1.dp.newQer (mergeQer {} ie) with ⟨dp, g⟩
      rw [hx] at f3
      cases g with
      | none => cases f3
      | some g =>
        cases f3
        refine ⟨j, ⟨mergeQer {} ie, g⟩, hj, mergeQer_merged _ _, ?_⟩
        exact (GoMap.get?_set ..).trans (if_pos rfl)
  obtain ⟨j, q, hj, hq, a1⟩ := this
  have a2 := pres_each_ok (fun x hx => createQer_other x (by rw [← hj]; exact h2 x hx)) f4 a1
  have a4 := pres_each_ok (fun x _ => createUrr_rec (R := fun _ m => m.get? j = some q) x) e3 a2
  have a5 := pres_each_ok (fun x _ => createPdr_rec _ x) e4 a4
  exact ⟨j, seid, hs'.sess, q, hj, q1, q3, a5, hq⟩

/-- Non-vacuity of C36 and C37 for establishments: the demo session got tunnel endpoint 192.168.0.1, TEID 77, and QFI 9. -/
example : (match (Demo.nAssoc.step (.establish 1 (Demo.est 100))).2 with | .reply r => some (r.cause, r.fseid) | _ => none) = some (1, some 2) ∧
    (((Demo.nAssoc.step (.establish 1 (Demo.est 100))).1.session? 1 2).bind (fun s => s.fars.get? 1)).map (·.info) =
      some { action := 2, ohc := 1, teid := 77, remoteIP := 0x0100a8c0, tlm := 0 } ∧
    (((Demo.nAssoc.step (.establish 1 (Demo.est 100))).1.session? 1 2).bind (fun s => s.qers.get? 1)).map (·.info.qfi) = some 9 := by
  decide +kernel

end Eupf
