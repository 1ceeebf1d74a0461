import Verif.Props.Heartbeat
import Verif.Props.NoCrash
/-
C44: can the main loop always go on? C59 for the goroutines, C61: dead peers.
-/
namespace Eupf

/-- proof device: a wedged system after a step -/
theorem wedged_step {s s' : Sys} {l : Lab} {a : Addr} {q : U32} (hm : s.main = some (a, q))
    (hs : s.sched.get? a = none ∨ s.sched.get? a = some .failed) (h : Sys.Step s l s') :
    s'.main = some (a, q) ∧ (s'.sched.get? a = none ∨ s'.sched.get? a = some .failed) ∧ l.served = false ∧
      s'.node.assocs = s.node.assocs := by
  have upd : ∀ (b : Addr) (x y : Sched), s.sched.get? b = some x → x ≠ .failed →
      ((s.sched.set b y).get? a = none ∨ (s.sched.set b y).get? a = some .failed) := by
    intro b x y hb hx
    by_cases e : a = b
    · subst e
      rcases hs with h | h <;> rw [h] at hb
      · simp at hb
      · exact absurd (Option.some.inj hb).symm hx
    · rw [GoMap.get?_set, if_neg e]; exact hs
  cases h with
  | msg h => rw [hm] at h; simp at h
  | hbIgnored h => rw [hm] at h; simp at h
  | hbResp h => rw [hm] at h; simp at h
  | dropped h => rw [hm] at h; simp at h
  | sent h => exact ⟨hm, upd _ _ _ h (by simp), rfl, rfl⟩
  | expired h _ => exact ⟨hm, upd _ _ _ h (by simp), rfl, rfl⟩
  | gaveUp h _ => exact ⟨hm, upd _ _ _ h (by simp), rfl, rfl⟩
  | @answered b q2 next f h1 h2 =>
    rw [hm] at h1
    simp only [Option.some.injEq, Prod.mk.injEq] at h1
    rw [← h1.1] at h2
    rcases hs with h | h <;> rw [h] at h2 <;> simp at h2
  | due h => exact ⟨hm, upd _ _ _ h (by simp), rfl, rfl⟩
  | config => exact ⟨hm, hs, rfl, rfl⟩
  | traffic _ => exact ⟨hm, hs, rfl, rfl⟩

/-- **C44, negation (what a wedge is).** From a wedged state, whatever happens, no message is ever taken from the network
again and no peer is removed again; the set of associations and sessions is frozen; it stays wedged. -/
theorem C44_wedged_forever {s s' : Sys} {tr : List Lab} (hw : s.Wedged) (hx : Sys.Exec s tr s') :
    s'.Wedged ∧ (∀ l ∈ tr, l.served = false) ∧ s'.node.assocs = s.node.assocs := by
  obtain ⟨a, q, hm, hs⟩ := hw
  suffices s'.main = some (a, q) ∧ (s'.sched.get? a = none ∨ s'.sched.get? a = some .failed) ∧ (∀ l ∈ tr, l.served = false) ∧
      s'.node.assocs = s.node.assocs from ⟨⟨a, q, this.1, this.2.1⟩, this.2.2⟩
  induction hx with
  | nil => exact ⟨hm, hs, by simp, rfl⟩
  | step _ h ih =>
    have := wedged_step ih.1 ih.2.1 h
    refine ⟨this.1, this.2.1, ?_, this.2.2.2.trans ih.2.2.2⟩
    intro l hl
    rcases List.mem_cons.1 hl with rfl | hl
    · exact this.2.2.1
    · exact ih.2.2.1 l hl

/-- **C44, exactly when.** The main loop can get back to serving messages if and only if the system is not wedged. -/
theorem C44_proceeds_iff (s : Sys) : (∃ tr s', Sys.Exec s tr s' ∧ s'.main = none) ↔ ¬ s.Wedged := by
  constructor
  · rintro ⟨tr, s', hx, hm⟩ hw
    obtain ⟨⟨a, q, h, _⟩, _⟩ := C44_wedged_forever hw hx
    rw [hm] at h
    simp at h
  · intro hw
    rcases hm : s.main with _ | ⟨a, q⟩
    · exact ⟨[], s, .nil, hm⟩
    · have fromWaiting : ∀ (t : Sys) (nx f : U32), t.main = some (a, q) → t.sched.get? a = some (.waiting nx f) →
          ∃ tr s', Sys.Exec t tr s' ∧ s'.main = none := fun t nx f h1 h2 => ⟨_, _, .one (.answered h1 h2), rfl⟩
      have fromReady : ∀ (t : Sys) (nx f : U32), t.main = some (a, q) → t.sched.get? a = some (.ready nx f) →
          ∃ tr s', Sys.Exec t tr s' ∧ s'.main = none := by
        intro t nx f h1 h2
        obtain ⟨tr, s', hx, h⟩ := fromWaiting { t with sched := t.sched.set a (.waiting (nx + 1) f) } (nx + 1) f h1 (by simp)
        exact ⟨_, s', (Sys.Exec.one (.sent h2)).append hx, h⟩
      rcases hst : s.sched.get? a with _ | st
      · exact absurd ⟨a, q, hm, Or.inl hst⟩ hw
      · cases st with
        | failed => exact absurd ⟨a, q, hm, Or.inr hst⟩ hw
        | waiting nx f => exact fromWaiting s nx f hm hst
        | ready nx f => exact fromReady s nx f hm hst
        | pausing nx =>
          obtain ⟨tr, s', hx, h⟩ := fromReady { s with sched := s.sched.set a (.ready nx 0) } nx 0 hm (by simp)
          exact ⟨_, s', (Sys.Exec.one (.due hst)).append hx, h⟩

/-- proof device: a scheduler that is left alone reaches the point of giving up, while the main loop is elsewhere -/
theorem reach_failed : ∀ (k : Nat) (s : Sys) (a : Addr) (st : Sched), s.sched.get? a = some st →
    (∀ nx f, st = .waiting nx f → f.toNat < 2 ^ 32 - 1 ∧ s.cfg.retries.toNat - f.toNat ≤ k) →
    (∀ nx f, st = .ready nx f → f.toNat < 2 ^ 32 - 1 ∧ s.cfg.retries.toNat - f.toNat ≤ k) → (∀ nx, st = .pausing nx → s.cfg.retries.toNat ≤ k) →
    ∃ tr s', Sys.Exec s tr s' ∧ s'.sched.get? a = some .failed ∧ s'.main = s.main ∧ s'.node = s.node ∧
      (∀ l ∈ tr, l.served = false ∧ ∀ q, l ≠ .answered a q) := by
  have waiting : ∀ (k : Nat) (s : Sys) (a : Addr) (nx f : U32), s.sched.get? a = some (.waiting nx f) →
      f.toNat < 2 ^ 32 - 1 ∧ s.cfg.retries.toNat - f.toNat ≤ k →
      ∃ tr s', Sys.Exec s tr s' ∧ s'.sched.get? a = some .failed ∧ s'.main = s.main ∧ s'.node = s.node ∧
        (∀ l ∈ tr, l.served = false ∧ ∀ q, l ≠ .answered a q) := by
    intro k
    induction k with
    | zero =>
      intro s a nx f h hk
      by_cases hf : s.cfg.retries ≤ f + 1
      · exact ⟨_, _, .one (.gaveUp h hf), by simp, rfl, rfl, by simp [Lab.served]⟩
      · exfalso
        have h2 := hf
        rw [BitVec.le_def, toNat_succ hk.1] at h2
        omega
    | succ k ih =>
      intro s a nx f h hk
      by_cases hf : s.cfg.retries ≤ f + 1
      · exact ⟨_, _, .one (.gaveUp h hf), by simp, rfl, rfl, by simp [Lab.served]⟩
      · have h2 := hf
        rw [BitVec.le_def, toNat_succ hk.1] at h2
        have hr := s.cfg.retries.isLt
        have hstep1 := Sys.Step.expired h hf
        have hstep2 : Sys.Step { s with sched := s.sched.set a (.ready nx (f + 1)) } (.sent a (nx + 1)) _ :=
          .sent (next := nx) (fails := f + 1) (by simp)
        obtain ⟨tr, s', hx, h3, h4, h5, h6⟩ := ih
          { s with sched := (s.sched.set a (.ready nx (f + 1))).set a (.waiting (nx + 1) (f + 1)) } a (nx + 1) (f + 1) (by simp)
          (by
            show (f + 1).toNat < 2 ^ 32 - 1 ∧ s.cfg.retries.toNat - (f + 1).toNat ≤ k
            rw [toNat_succ (by omega)]; omega)
        refine ⟨_, s', ((Sys.Exec.one hstep1).step hstep2).append hx, h3, h4, h5, ?_⟩
        intro l hl
        simp only [List.mem_append, List.mem_cons, List.not_mem_nil, or_false] at hl
        rcases hl with hl | rfl | rfl
        · exact h6 l hl
        · exact ⟨rfl, by simp⟩
        · exact ⟨rfl, by simp⟩
  have ready : ∀ (k : Nat) (s : Sys) (a : Addr) (nx f : U32), s.sched.get? a = some (.ready nx f) →
      f.toNat < 2 ^ 32 - 1 ∧ s.cfg.retries.toNat - f.toNat ≤ k →
      ∃ tr s', Sys.Exec s tr s' ∧ s'.sched.get? a = some .failed ∧ s'.main = s.main ∧ s'.node = s.node ∧
        (∀ l ∈ tr, l.served = false ∧ ∀ q, l ≠ .answered a q) := by
    intro k s a nx f h hk
    obtain ⟨tr, s', hx, h3, h4, h5, h6⟩ := waiting k { s with sched := s.sched.set a (.waiting (nx + 1) f) } a (nx + 1) f (by simp) hk
    refine ⟨_, s', (Sys.Exec.one (.sent h)).append hx, h3, h4, h5, ?_⟩
    intro l hl
    simp only [List.mem_append, List.mem_cons, List.not_mem_nil, or_false] at hl
    rcases hl with hl | rfl
    · exact h6 l hl
    · exact ⟨rfl, by simp⟩
  intro k s a st h h1 h2 h3
  cases st with
  | failed => exact ⟨[], s, .nil, h, rfl, rfl, by simp⟩
  | waiting nx f => exact waiting k s a nx f h (h1 nx f rfl)
  | ready nx f => exact ready k s a nx f h (h2 nx f rfl)
  | pausing nx =>
    obtain ⟨tr, s', hx, h4, h5, h6, h7⟩ := ready k { s with sched := s.sched.set a (.ready nx 0) } a nx 0 (by simp)
      ⟨by decide, by show s.cfg.retries.toNat - 0 ≤ k; have := h3 nx rfl; omega⟩
    refine ⟨_, s', (Sys.Exec.one (.due h)).append hx, h4, h5, h6, ?_⟩
    intro l hl
    simp only [List.mem_append, List.mem_cons, List.not_mem_nil, or_false] at hl
    rcases hl with hl | rfl
    · exact h7 l hl
    · exact ⟨rfl, by simp⟩

/-- **C44, negation.** From every reachable state in which the main loop serves and some peer has an association, the system can
get wedged, with nothing but that peer's silence followed by one late heartbeat response. -/
theorem C44_any_peer_can_wedge {n : Node} {c : HbCfg} {tr0 : List Lab} {s : Sys} (hr : Sys.Exec (Sys.init n c) tr0 s) (a : Addr) (ha : (s.node.assocs.get? a).isSome) (hm : s.main = none) :
    ∃ tr s', Sys.Exec s tr s' ∧ s'.Wedged := by
  rcases hst : s.sched.get? a with _ | st
  · exact ⟨_, _, .one (.hbResp (q := 0) hm ha), a, 0, rfl, Or.inl hst⟩
  · obtain ⟨tr, s', hx, h1, h2, h3, _⟩ := reach_failed (s.cfg.retries.toNat) s a st hst 
      (fun _ _ h => ⟨by have := schedTrace_exec hr a; rw [hst, h] at this; exact this.2.1, by omega⟩)
      (fun _ _ h => ⟨by have := schedTrace_exec hr a; rw [hst, h] at this; exact this.2, by omega⟩) (fun _ _ => Nat.le_refl _)
    refine ⟨_, _, hx.step (.hbResp (a := a) (q := 0) (h2.trans hm) (by rw [h3]; exact ha)), a, 0, rfl, Or.inr h1⟩

/-- **C44, negation, heartbeats off.** With heartbeat timeout 0 a peer with an association has no scheduler, and then
every heartbeat response of that peer wedges the node at once. -/
theorem C44_heartbeats_off {n : Node} {c : HbCfg} (hc : c.timeout = 0) {tr : List Lab} {s : Sys}
    (hx : Sys.Exec (Sys.init n c) tr s) (hcfg : ∀ c', .config c' ∉ tr) (a : Addr) (ha : (s.node.assocs.get? a).isSome)
    (q : U32) (s' : Sys) (hs : Sys.Step s (.hbResp a q (some (some ()))) s') : s'.Wedged := by
  have inv : s.cfg = c ∧ ∀ a, s.sched.get? a = none := by
    clear hs ha
    induction hx with
    | nil => exact ⟨rfl, fun a => by simp [Sys.init]⟩
    | @step tr s s' l _ hs ih =>
      simp only [List.mem_cons, not_or] at hcfg
      obtain ⟨i1, i2⟩ := ih fun c' => (hcfg c').2
      cases hs with
      | @msg e h1 h2 h3 =>
        refine ⟨i1, fun a => ?_⟩
        show (startSched s.cfg _ _ _ _).get? a = none
        unfold startSched
        split
        · exact i2 a
        · rw [if_neg (by simp [i1, hc])]; exact i2 a
      | hbIgnored h1 h2 => exact ⟨i1, i2⟩
      | hbResp h1 h2 => exact ⟨i1, i2⟩
      | sent h => rw [i2] at h; simp at h
      | expired h => rw [i2] at h; simp at h
      | gaveUp h => rw [i2] at h; simp at h
      | answered h1 h => rw [i2] at h; simp at h
      | due h => rw [i2] at h; simp at h
      | dropped h1 h => rw [i2] at h; simp at h
      | config => exact absurd rfl (hcfg _).1
      | traffic _ => exact ⟨i1, i2⟩
  cases hs with
  | hbIgnored h1 h2 =>
    rcases h2 with h2 | h2
    · simp at h2
    · rw [h2] at ha; simp at ha
  | hbResp h1 h2 => exact ⟨a, q, rfl, Or.inl (inv.2 a)⟩

/-- Non-vacuity: the freshly started node with one association is not wedged, and can be wedged. -/
example : ∃ s, Sys.Exec (Sys.init Demo.n0 Demo.hb) [.msg (.assocSetup 1 1 (some (some ())) (some (some ())))] s ∧
    ¬ s.Wedged ∧ ∃ tr s', Sys.Exec s tr s' ∧ s'.Wedged := by
  refine ⟨_, Demo.associated Demo.n0 Demo.hb (by decide +kernel) (by decide), ?_, C44_any_peer_can_wedge
    (Demo.associated Demo.n0 Demo.hb (by decide +kernel) (by decide)) 1 (by decide +kernel) rfl⟩
  rintro ⟨a, q, h, _⟩
  simp at h
/-- Non-vacuity of `C44_heartbeats_off`. -/
example : ∃ s s', Sys.Exec (Sys.init Demo.n0 ⟨3, 0⟩) [.msg (.assocSetup 1 1 (some (some ())) (some (some ())))] s ∧
    Sys.Step s (.hbResp 1 7 (some (some ()))) s' ∧ s'.Wedged := by
  have h : Sys.Step (Sys.init Demo.n0 ⟨3, 0⟩) (.msg (.assocSetup 1 1 (some (some ())) (some (some ())))) _ :=
    .msg rfl trivial (by simp [Sys.init, Node.step, Node.assocSetup])
  have ha : ((((Sys.init Demo.n0 ⟨3, 0⟩).node.step (.assocSetup 1 1 (some (some ())) (some (some ())))).1).assocs.get? 1).isSome := by
    decide +kernel
  have hx := Sys.Exec.one h
  have h2 := Sys.Step.hbResp (q := 7) (a := 1) (s := { (Sys.init Demo.n0 ⟨3, 0⟩) with
      node := ((Sys.init Demo.n0 ⟨3, 0⟩).node.step (.assocSetup 1 1 (some (some ())) (some (some ())))).1
      sched := startSched ⟨3, 0⟩ Demo.n0 ((Sys.init Demo.n0 ⟨3, 0⟩).node.step (.assocSetup 1 1 (some (some ())) (some (some ())))).1 GoMap.empty (some 1) })
      rfl ha
  refine ⟨_, _, hx, h2, C44_heartbeats_off rfl hx (by simp) 1 ha 7 _ h2⟩

/-- messages without a fatal defect, in the concurrent system -/
def Lab.sound : Lab → Prop
  | .msg (.heartbeatReq _ _ rts) => rts ≠ none
  | .msg (.establish _ r) => (∀ ie ∈ r.createFar, ie.sound) ∧ (∀ ie ∈ r.createPdr, ie.sound)
  | .msg (.modify _ r _) => (∀ ie ∈ r.createFar ++ r.updateFar, ie.sound) ∧ (∀ ie ∈ r.createPdr ++ r.updatePdr, ie.sound)
  | _ => True

theorem rm_exec {n : Node} {c : HbCfg} (hrm : n.rm ≠ none) {tr : List Lab} {s : Sys} (hx : Sys.Exec (Sys.init n c) tr s)
    (hsound : ∀ l ∈ tr, l.sound) : s.node.rm ≠ none := by
  induction hx with
  | nil => exact hrm
  | @step tr s s' l hx hs ih =>
    have i := ih fun l hl => hsound l (List.mem_cons_of_mem _ hl)
    have hl := hsound l List.mem_cons_self
    cases hs with
    | @msg e hm hp hc =>
      refine (C59_no_crash_partial s.node i e ?_).2
      cases e with
      | heartbeatResp => exact hp.elim
      | peerLost => exact hp.elim
      | setConfig => exact hp.elim
      | heartbeatReq a q t => exact hl
      | establish a r => exact hl
      | modify a r o => exact hl
      | _ => trivial
    | @dropped a ord hm h hc =>
      refine (C59_no_crash_partial s.node i (.peerLost a ord) ?_).2
      exact ((sane_init n c).exec hx).sched a (by rw [h]; rfl)
    | traffic _ => exact i
    | _ => exact i

/-- **C59, goroutines.** In every execution with working pools and messages free of the fatal defects, the step the main
loop takes when a scheduler gives up a peer never kills the process: the association it is about is still there (no
peer is given up twice), and no interleaving with setups of the same peer changes that. -/
theorem C59_peer_loss_safe {n : Node} {c : HbCfg} (hrm : n.rm ≠ none) {tr : List Lab} {s : Sys}
    (hx : Sys.Exec (Sys.init n c) tr s) (hsound : ∀ l ∈ tr, l.sound) {a : Addr} (h : s.sched.get? a = some .failed) (ord : Orders) :
    (s.node.step (.peerLost a ord)).2 ≠ .crash :=
  (C59_no_crash_partial s.node (rm_exec hrm hx hsound) (.peerLost a ord)
    (((sane_init n c).exec hx).sched a (by rw [h]; rfl))).1

/-- proof device: one heartbeat answered with a wrong sequence number -/
theorem stale_round (n : Node) (c : HbCfg) (m : GoMap Addr Sched) (a : Addr) (nx f : U32) (ha : (n.assocs.get? a).isSome)
    (hm : m.get? a = some (.ready nx f)) :
    ∃ m', m'.get? a = some (.ready (nx + 1) f) ∧
      Sys.Exec ⟨n, c, m, none⟩ [.answered a nx, .hbResp a nx (some (some ())), .sent a (nx + 1)] ⟨n, c, m', none⟩ := by
  have h1 : Sys.Step ⟨n, c, m, none⟩ (.sent a (nx + 1)) ⟨n, c, m.set a (.waiting (nx + 1) f), none⟩ := .sent hm
  have h2 : Sys.Step ⟨n, c, m.set a (.waiting (nx + 1) f), none⟩ (.hbResp a nx (some (some ())))
      ⟨n, c, m.set a (.waiting (nx + 1) f), some (a, nx)⟩ := .hbResp rfl ha
  have h3 : Sys.Step ⟨n, c, m.set a (.waiting (nx + 1) f), some (a, nx)⟩ (.answered a nx)
      ⟨n, c, (m.set a (.waiting (nx + 1) f)).set a (if nx + 1 = nx then .pausing (nx + 1) else .ready (nx + 1) f), none⟩ :=
    .answered rfl (by simp)
  have hne : nx + 1 ≠ nx := by
    intro h
    have h := congrArg BitVec.toNat h
    rw [BitVec.toNat_add] at h
    change (nx.toNat + 1) % 2 ^ 32 = nx.toNat at h
    have := nx.isLt
    omega
  rw [if_neg hne] at h3
  exact ⟨_, by simp, ((Sys.Exec.one h1).step h2).step h3⟩

/-- **C61, negation.** A peer that never answers any heartbeat with the right sequence number need not ever be given up:
for every `k` there is an execution with `k` heartbeats sent, none of them answered, and no timer expired (each stale
answer restarts the wait). -/
theorem C61_stale_answers_keep_alive (n : Node) (c : HbCfg) (hn : n.assocs.get? 1 = none) (hc : c.timeout ≠ 0) (k : Nat) :
    ∃ tr s, Sys.Exec (Sys.init n c) tr s ∧ (s.node.assocs.get? 1).isSome ∧
      tr.countP (fun l => match l with | .sent 1 _ => true | _ => false) = k ∧ NoAnswer 1 tr [] ∧ tr.countP (Lab.isExpiry 1) = 0 := by
  have ha : ((n.addAssoc 1).assocs.get? 1).isSome := by simp [Node.addAssoc, hn]
  suffices ∃ tr m nx, Sys.Exec (Sys.init n c) tr ⟨n.addAssoc 1, c, m, none⟩ ∧ m.get? 1 = some (.ready nx 0) ∧
      tr.countP (fun l => match l with | .sent 1 _ => true | _ => false) = k ∧ NoAnswer 1 tr [] ∧ tr.countP (Lab.isExpiry 1) = 0 by
    obtain ⟨tr, m, nx, hx, _, h⟩ := this
    exact ⟨tr, _, hx, ha, h⟩
  induction k with
  | zero =>
    refine ⟨_, _, 1, Demo.associated n c hn hc, by simp, by simp, ?_, by simp [Lab.isExpiry]⟩
    intro x q y h
    rcases x with _ | ⟨_, x⟩ <;> simp at h
  | succ k ih =>
    obtain ⟨tr, m, nx, hx, hm, h1, h2, h3⟩ := ih
    obtain ⟨m', hm', hx'⟩ := stale_round (n.addAssoc 1) c m 1 nx 0 ha hm
    refine ⟨_, m', nx + 1, hx.append hx', hm', ?_, ?_, ?_⟩
    · simp only [List.cons_append, List.nil_append, List.countP_cons, h1]; simp
    · have g1 := h2.cons (l := .sent 1 (nx + 1)) (by simp)
      have g2 := g1.cons (l := .hbResp 1 nx (some (some ()))) (by simp)
      refine g2.cons (l := .answered 1 nx) ?_
      intro q hq
      simp only [Lab.answered.injEq, true_and] at hq
      subst hq
      simp only [lastSent, List.cons_append, if_true, ne_eq, Option.some.injEq]
      intro h
      have h := congrArg BitVec.toNat h
      rw [BitVec.toNat_add] at h
      change (nx.toNat + 1) % 2 ^ 32 = nx.toNat at h
      have := nx.isLt
      omega
    · simp only [List.cons_append, List.nil_append, List.countP_cons, h3]; simp [Lab.isExpiry]

end Eupf
