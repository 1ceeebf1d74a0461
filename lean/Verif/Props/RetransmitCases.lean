import Verif.Props.Retransmit
import Verif.Props.Service
/-
C103: concrete cases, and what goes wrong.
-/
namespace Eupf

def Demo.setup : Ev := .assocSetup 1 1 (some (some ())) (some (some ()))
def Demo.newFar : ModReq := { seid := 2, seq := 6, createFar := [{ kind := .create, farId := some 2, applyAction := some [2] }] }

/-- **C103, negation (establishment)**: a new session of one request that arrives twice: the second answer has another F-SEID, another TEID, another UE address, and
two sessions exist. -/
theorem C103_not_once : ∃ (h : List (Ev × Outcome)) (n : Node) (e : Ev) (resp : Resp), Hist Demo.n0 h n ∧ (n.step e).2 = .reply resp ∧ resp.cause = 1 ∧ ¬ n.once e ∧
    resp.fseid = some 2 ∧ resp.created = [.fteid 1 1 0x0a000001, .ueIp 2 0x0a2d0001] ∧
    ∃ resp', ((n.step e).1.step e).2 = .reply resp' ∧ resp'.cause = 1 ∧ resp'.fseid = some 3 ∧ resp'.created = [.fteid 1 2 0x0a000001, .ueIp 2 0x0a2d0002] ∧
      ((n.step e).1.step e).1.sessionCount = 2 := by
  refine ⟨Demo.n0.observed [Demo.setup], (Demo.n0.run [Demo.setup]).1, .establish 1 (Demo.est 100),
    { type := .establishment, seid := 100, seq := 5, cause := 1, fseid := some 2, created := [.fteid 1 1 0x0a000001, .ueIp 2 0x0a2d0001] },
    hist_run_init _ (by decide +kernel), by decide +kernel, rfl, ?_, rfl, rfl,
    { type := .establishment, seid := 100, seq := 5, cause := 1, fseid := some 3, created := [.fteid 1 2 0x0a000001, .ueIp 2 0x0a2d0002] }, by decide +kernel, rfl, rfl, rfl, by decide +kernel⟩
  intro h
  exact absurd h.1 (by decide +kernel)

/-- **C103, negation (modification)**: a modification that creates a FAR and arrives twice takes two slots, and is answered "accepted" both times. -/
theorem C103_far_taken_twice : ∃ (h : List (Ev × Outcome)) (n : Node), Hist Demo.n0 h n ∧ n.freeFars = 3 ∧
    (n.step (.modify 1 Demo.newFar default)).2 = .reply { type := .modification, seid := 100, seq := 6, cause := 1 } ∧
    (n.step (.modify 1 Demo.newFar default)).1.freeFars = 2 ∧
    ((n.step (.modify 1 Demo.newFar default)).1.step (.modify 1 Demo.newFar default)).2 = .reply { type := .modification, seid := 100, seq := 6, cause := 1 } ∧
    ((n.step (.modify 1 Demo.newFar default)).1.step (.modify 1 Demo.newFar default)).1.freeFars = 1 :=
  ⟨Demo.n0.observed [Demo.setup, .establish 1 (Demo.est 100)], (Demo.n0.run [Demo.setup, .establish 1 (Demo.est 100)]).1,
    hist_run_init _ (by decide +kernel), by decide +kernel, by decide +kernel, by decide +kernel, by decide +kernel, by decide +kernel⟩

/-- **C103, negation (deletion)**: the second arrival of a deletion that was accepted is answered "session context not found". -/
theorem C103_delete_answered_differently : ∃ (h : List (Ev × Outcome)) (n : Node), Hist Demo.n0 h n ∧
    (∃ resp, (n.step (.delete 1 ⟨2, 9⟩ default)).2 = .reply resp ∧ resp.cause = 1) ∧
    ((n.step (.delete 1 ⟨2, 9⟩ default)).1.step (.delete 1 ⟨2, 9⟩ default)).2 = .reply { type := .deletion, seq := 9, cause := 65 } :=
  ⟨Demo.n0.observed [Demo.setup, .establish 1 (Demo.est 100)], (Demo.n0.run [Demo.setup, .establish 1 (Demo.est 100)]).1,
    hist_run_init _ (by decide +kernel), ⟨{ type := .deletion, seid := 100, seq := 9, cause := 1, reports := [⟨1, 1, 0, 0, 0⟩] }, by decide +kernel, rfl⟩, by decide +kernel⟩

/-- the peer's session 2 is deleted, the peer is lost and comes back, and its first new session is called 2 again -/
def Demo.lateEvs : List Ev :=
  [Demo.setup, .establish 1 (Demo.est 100), .delete 1 ⟨2, 9⟩ default, .peerLost 1 default, Demo.setup, .establish 1 (Demo.est 101)]

/-- **C103, negation (late duplicate)**: SEIDs start anew with the association, so a late duplicate of a deletion request deletes a session that it was not meant for:
the history contains the deletion of the peer's session (of the control plane's F-SEID 100) with the same request, and the session deleted now is that of 101. -/
theorem C103_late_duplicate : ∃ (h : List (Ev × Outcome)) (n : Node), Hist Demo.n0 h n ∧ (∃ resp, (Ev.delete 1 ⟨2, 9⟩ default, .reply resp) ∈ h ∧ resp.cause = 1 ∧ resp.seid = 100) ∧
    (∃ sess, n.session? 1 2 = some sess ∧ sess.remoteSEID = 101) ∧
    (∃ resp, (n.step (.delete 1 ⟨2, 9⟩ default)).2 = .reply resp ∧ resp.cause = 1) ∧ (n.step (.delete 1 ⟨2, 9⟩ default)).1.session? 1 2 = none := by
  refine ⟨Demo.n0.observed Demo.lateEvs, (Demo.n0.run Demo.lateEvs).1, hist_run_init _ (by decide +kernel),
    ⟨{ type := .deletion, seid := 100, seq := 9, cause := 1, reports := [⟨1, 1, 0, 0, 0⟩] }, ?_, rfl, rfl⟩, ?_,
    ⟨{ type := .deletion, seid := 101, seq := 9, cause := 1, reports := [⟨1, 1, 0, 0, 0⟩] }, by decide +kernel, rfl⟩, ?_⟩
  · have : (Demo.n0.run Demo.lateEvs).2[2]? = some (.reply { type := .deletion, seid := 100, seq := 9, cause := 1, reports := [⟨1, 1, 0, 0, 0⟩] }) := by decide +kernel
    unfold Node.observed
    rw [List.mem_reverse]
    generalize (Demo.n0.run Demo.lateEvs).2 = l at this ⊢
    rw [List.mem_iff_getElem?]
    exact ⟨2, by rw [List.getElem?_zip_eq_some]; exact ⟨rfl, this⟩⟩
  · have h1 : ((Demo.n0.run Demo.lateEvs).1.session? 1 2).map (·.remoteSEID) = some 101 := by decide +kernel
    obtain ⟨x, h2, h3⟩ := Option.map_eq_some_iff.1 h1
    exact ⟨x, h2, h3⟩
  · have h1 : (((Demo.n0.run Demo.lateEvs).1.step (.delete 1 ⟨2, 9⟩ default)).1.session? 1 2).isNone = true := by decide +kernel
    exact Option.isNone_iff_eq_none.1 h1

/-! ### the hypotheses are met -/

/-- C103_updates_once: the handover of C93 arrives twice. -/
example : ∃ n'', Demo.nMoved.step (.modify 1 Demo.handover default) = (n'', .reply { type := .modification, seid := 100, seq := 8, cause := 1 }) ∧
    TrafficEffect Demo.nMoved.dp n''.dp ∧ ∀ b s x, Demo.nMoved.session? b s = some x → ∃ y, n''.session? b s = some y ∧ y.same x := by
  have hs : Demo.nSvc3.step (.modify 1 Demo.handover default) = (Demo.nMoved, .reply { type := .modification, seid := 100, seq := 8, cause := 1 }) :=
    Prod.ext (by simp only [Demo.nMoved]) Demo.moved_step
  have hu : Demo.handover.updatesOnly := ⟨rfl, rfl, rfl, rfl, rfl, rfl, rfl, rfl, rfl, rfl, by decide, by decide⟩
  generalize Demo.nMoved = m at hs ⊢
  generalize Demo.nSvc3 = n at hs
  obtain ⟨n'', h1, h2, -, -, -, -, h3, -⟩ := C103_updates_once_partial (ord' := default) (dp1 := m.dp) hu hs rfl ⟨rfl, rfl, rfl, rfl, rfl, fun _ => rfl, rfl, rfl, rfl, rfl⟩
  exact ⟨n'', h1, h2, h3⟩

def Demo.n103 : Node := (Demo.n0.run [Demo.setup]).1
def Demo.n103a : Node := (Demo.n103.step (.establish 1 (Demo.est 100))).1

/-- C103_establish_twice: there is room for the second session of `C103_not_once`. -/
example : (∃ resp, Demo.n103.step (.establish 1 (Demo.est 100)) = (Demo.n103a, .reply resp) ∧ resp.cause = 1) ∧ 1 ≤ Demo.n103a.freeFars ∧ 1 ≤ Demo.n103a.freeQers ∧ 1 ≤ Demo.n103a.freeUrrs ∧
    teidsNeeded (Demo.est 100).createPdr ≤ (freeTeids Demo.n103a.rm).length ∧ ((Demo.est 100).createPdr.filter (·.asksIp)).length ≤ (freeIps Demo.n103a.rm).length ∧
    Demo.n103a.dp.pdrUl.m.size + ((Demo.est 100).createPdr.filter (·.uplink)).length ≤ Demo.n103a.dp.pdrUl.cap ∧
    Demo.n103a.dp.pdrDl4.m.size + ((Demo.est 100).createPdr.filter (!·.uplink)).length ≤ Demo.n103a.dp.pdrDl4.cap ∧
    Demo.n103a.dp.pdrDl6.m.size + ((Demo.est 100).createPdr.filter (!·.uplink)).length ≤ Demo.n103a.dp.pdrDl6.cap := by
  have h : (Demo.n103.step (.establish 1 (Demo.est 100))).2 = .reply { type := .establishment, seid := 100, seq := 5, cause := 1, fseid := some 2, created := [.fteid 1 1 0x0a000001, .ueIp 2 0x0a2d0001] } := by
    decide +kernel
  exact ⟨⟨_, Prod.ext (by simp only [Demo.n103a]) h, rfl⟩, by decide +kernel⟩

/-- C103_deleted_once: a deletion, then another session, then the deletion again. -/
example : ∃ (h1 h2 : List (Ev × Outcome)) (resp : Resp) (n : Node), Hist Demo.n0 (h2 ++ (.delete 1 ⟨2, 9⟩ default, .reply resp) :: h1) n ∧ resp.cause = 1 ∧
    (∀ o x, (Ev.peerLost 1 o, x) ∉ h2) ∧ attempts (h2 ++ (.delete 1 ⟨2, 9⟩ default, .reply resp) :: h1) < 2 ^ 64 - 2 ∧ h2.length = 1 := by
  have H1 : Hist Demo.n0 (Demo.n0.observed [Demo.setup, .establish 1 (Demo.est 100)]) (Demo.n0.run [Demo.setup, .establish 1 (Demo.est 100)]).1 := hist_run_init _ (by decide +kernel)
  have e1 : ((Demo.n0.run [Demo.setup, .establish 1 (Demo.est 100)]).1.step (.delete 1 ⟨2, 9⟩ default)).2 = .reply { type := .deletion, seid := 100, seq := 9, cause := 1, reports := [⟨1, 1, 0, 0, 0⟩] } := by
    decide +kernel
  have a1 : attempts (Demo.n0.observed [Demo.setup, .establish 1 (Demo.est 100)]) ≤ 1 := by decide +kernel
  have e2 : (((Demo.n0.run [Demo.setup, .establish 1 (Demo.est 100)]).1.step (.delete 1 ⟨2, 9⟩ default)).1.step (.establish 1 (Demo.est 101))).2 ≠ .crash := by decide +kernel
  generalize (Demo.n0.run [Demo.setup, .establish 1 (Demo.est 100)]).1 = n at *
  generalize Demo.n0.observed [Demo.setup, .establish 1 (Demo.est 100)] = h1 at *
  have H2 := Hist.step (.delete 1 ⟨2, 9⟩ default) H1 (by rw [e1]; intro h; cases h)
  have H3 := Hist.step (.establish 1 (Demo.est 101)) H2 e2
  rw [e1] at H3
  refine ⟨h1, [_], _, _, H3, rfl, ?_, ?_, rfl⟩
  · intro o x hx
    rcases List.mem_cons.1 hx with hx | hx
    · cases hx
    · cases hx
  · rw [List.cons_append, List.nil_append, attempts_est]
    have : attempts ((Ev.delete 1 ⟨2, 9⟩ default, Outcome.reply { type := .deletion, seid := 100, seq := 9, cause := 1, reports := [⟨1, 1, 0, 0, 0⟩] }) :: h1) = attempts h1 := by simp [attempts]
    rw [this]; omega

/-- C103_node_messages, C103_refused: messages of these kinds exist. -/
example : Demo.setup.isNodeMsg = true ∧ (Demo.n0.step (.establish 1 (Demo.est 100))).2 = .reply { type := .establishment, seq := 5, cause := 72 } := by decide +kernel

end Eupf
