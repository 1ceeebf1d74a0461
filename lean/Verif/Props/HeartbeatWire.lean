import Verif.Props.Heartbeat
import Verif.Props.Refresh
/-
C69 (second half): a peer the UPF cannot send heartbeats to. C71: heartbeat numbers on the wire.
-/
namespace Eupf

/-- the step is one of the scheduler of `a` -/
def Lab.of (a : Addr) : Lab → Bool
  | .sent b _ => b = a
  | .expired b => b = a
  | .gaveUp b => b = a
  | .answered b _ => b = a
  | .due b => b = a
  | .dropped b => b = a
  | _ => false

/-- proof device: other steps leave the scheduler of `a` alone, or start it -/
theorem sched_step {s s' : Sys} {l : Lab} (hs : Sys.Step s l s') (hsane : s.Sane) (a : Addr) (hl : l.of a = false) :
    s'.sched.get? a = s.sched.get? a ∨ (s.sched.get? a = none ∧ s'.sched.get? a = some (.ready 1 0)) := by
  cases hs with
  | @msg e hm hp hc =>
    rcases startSched_get (c := s.cfg) (n := s.node) (n' := (s.node.step e).1) (m := s.sched) (o := e.setupAddr) (a := a) with g | ⟨_, g1, _, g2⟩
    · exact Or.inl g
    · refine Or.inr ⟨?_, g2⟩
      cases h : s.sched.get? a with
      | none => rfl
      | some x =>
        have := hsane.sched a (by rw [h]; rfl)
        rw [g1] at this; cases this
  | hbIgnored hm _ => exact Or.inl rfl
  | hbResp hm _ => exact Or.inl rfl
  | config => exact Or.inl rfl
  | traffic _ => exact Or.inl rfl
  | dropped hm h hc =>
    simp only [Lab.of, decide_eq_false_iff_not] at hl
    exact Or.inl (by simp only [GoMap.get?_erase]; rw [if_neg (fun e => hl e.symm)])
  | _ =>
    simp only [Lab.of, decide_eq_false_iff_not] at hl
    exact Or.inl (by simp only [GoMap.get?_set]; rw [if_neg (fun e => hl e.symm)])

/-- a response reaches a scheduler only after it was received -/
theorem answered_received {n : Node} {c : HbCfg} {tr : List Lab} {s : Sys} (hx : Sys.Exec (Sys.init n c) tr s) :
    (∀ a q, s.main = some (a, q) → .hbResp a q (some (some ())) ∈ tr) ∧
    ∀ a q, .answered a q ∈ tr → .hbResp a q (some (some ())) ∈ tr := by
  induction hx with
  | nil => exact ⟨fun a q h => (by cases h), fun a q h => (by cases h)⟩
  | @step tr s s' l hx hs ih =>
    have keep : (∀ a q, l ≠ .answered a q) → ∀ a q, .answered a q ∈ l :: tr → .hbResp a q (some (some ())) ∈ l :: tr := by
      intro hl a q h
      rcases List.mem_cons.1 h with h | h
      · exact absurd h.symm (hl a q)
      · exact List.mem_cons_of_mem _ (ih.2 a q h)
    cases hs with
    | hbResp hm h =>
      refine ⟨fun a q e => ?_, keep (by simp)⟩
      simp only [Option.some.injEq, Prod.mk.injEq] at e
      obtain ⟨rfl, rfl⟩ := e
      exact List.mem_cons_self
    | @answered b q next f hm h =>
      refine ⟨fun a q e => (by cases e), fun a q' e => ?_⟩
      rcases List.mem_cons.1 e with e | e
      · cases e
        exact List.mem_cons_of_mem _ (ih.1 _ _ hm)
      · exact List.mem_cons_of_mem _ (ih.2 _ _ e)
    | _ => exact ⟨fun a q e => List.mem_cons_of_mem _ (ih.1 a q e), keep (by simp)⟩

/-- **C69, negation, consequence.** A peer with an IPv6 address that answers only heartbeat requests it received, and so answers none, is
given up once the configured number of heartbeats have expired, although it may be alive. -/
theorem C69_live_peer_given_up {n : Node} {c : HbCfg} {tr : List Lab} {s : Sys} {a : Addr} (hx : Sys.Exec (Sys.init n c) tr s)
    (hcfg : ∀ c', .config c' ∉ tr) (lookup : List Char → Option Ip4) (text : List Char) (hc : ':' ∈ text) (hb : text.head? ≠ some '[')
    (honest : ∀ q r, .hbResp a q r ∈ tr → ∃ dst, requestDst lookup text = some dst)
    (hexp : max 1 c.retries.toNat ≤ tr.countP (Lab.isExpiry a)) : .gaveUp a ∈ tr := by
  apply Classical.byContradiction
  intro hg
  have := C43_detected hx hcfg hg tr [] (by simp) ?_
  · omega
  · intro x q y e
    obtain ⟨dst, hd⟩ := honest q _ ((answered_received hx).2 a q (by rw [e]; simp))
    rw [C69_ipv6_unreachable lookup text hc hb] at hd
    cases hd

/-! ### C71 -/

/-- The sequence number field of a PFCP header has three octets (TS 29.244 7.2.2): what a receiver sees of a number. -/
def wire24 (q : U32) : U32 := q &&& 0xffffff

theorem wire24_lt (q : U32) : (wire24 q).toNat < 2 ^ 24 := by
  unfold wire24
  rw [BitVec.toNat_and]
  exact Nat.lt_of_le_of_lt Nat.and_le_right (by decide)

theorem wire24_small {q : U32} (h : q.toNat < 2 ^ 24) : wire24 q = q := by
  apply BitVec.eq_of_toNat_eq
  unfold wire24
  rw [BitVec.toNat_and]
  show q.toNat &&& (2 ^ 24 - 1) = q.toNat
  rw [Nat.and_two_pow_sub_one_eq_mod]
  exact Nat.mod_eq_of_lt h

/-- proof device: a pausing scheduler got the answer to its last request -/
theorem pausing_last {n : Node} {c : HbCfg} {tr : List Lab} {s : Sys} (hx : Sys.Exec (Sys.init n c) tr s) (a : Addr) (k : U32)
    (h : s.sched.get? a = some (.pausing k)) : lastSent a tr = some k ∧ .answered a k ∈ tr := by
  induction hx generalizing k with
  | nil => simp [Sys.init] at h
  | @step tr s s' l hx hs ih =>
    have sane := (sane_init n c).exec hx
    by_cases hl : l.of a = true
    · have hst := schedTrace_exec hx a
      cases hs with
      | sent h1 => simp only [Lab.of, decide_eq_true_eq] at hl; subst hl; simp at h
      | expired h1 _ => simp only [Lab.of, decide_eq_true_eq] at hl; subst hl; simp at h
      | gaveUp h1 _ => simp only [Lab.of, decide_eq_true_eq] at hl; subst hl; simp at h
      | due h1 => simp only [Lab.of, decide_eq_true_eq] at hl; subst hl; simp at h
      | dropped _ h1 _ => simp only [Lab.of, decide_eq_true_eq] at hl; subst hl; simp at h
      | @answered b q next f hm h1 =>
        simp only [Lab.of, decide_eq_true_eq] at hl
        subst hl
        simp only [GoMap.get?_set, if_true, Option.some.injEq] at h
        split at h
        · rename_i hq
          cases h
          subst hq
          rw [h1] at hst
          exact ⟨hst.2.2, List.mem_cons_self⟩
        · cases h
      | _ => cases hl
    · have hl : l.of a = false := by cases h : l.of a <;> simp_all
      have hls : lastSent a (l :: tr) = lastSent a tr := by
        cases l with
        | sent b q =>
          simp only [Lab.of, decide_eq_false_iff_not] at hl
          simp [lastSent, hl]
        | _ => rfl
      rcases sched_step hs sane a hl with g | ⟨_, g⟩
      · rw [g] at h
        obtain ⟨h1, h2⟩ := ih k h
        exact ⟨hls.trans h1, List.mem_cons_of_mem _ h2⟩
      · rw [g] at h; cases h

/-- **C71, negation.** In every execution in which heartbeat answers carry three-octet numbers (all that fit into a message), the UPF
pauses between heartbeats only after heartbeats numbered below 2^24: once the counter of an association has passed that, no answer
is recognised and there is never a pause again. -/
theorem C71_no_pause_after_wrap {n : Node} {c : HbCfg} {tr : List Lab} {s s' : Sys} (hx : Sys.Exec (Sys.init n c) tr s) (a : Addr)
    (hw : ∀ q, .hbResp a q (some (some ())) ∈ tr → q.toNat < 2 ^ 24) (hs : Sys.Step s (.due a) s') :
    ∃ k, lastSent a tr = some k ∧ k.toNat < 2 ^ 24 := by
  cases hs with
  | due h =>
    obtain ⟨h1, h2⟩ := pausing_last hx a _ h
    exact ⟨_, h1, hw _ ((answered_received hx).2 a _ h2)⟩

/-- **C71 (part).** When the answer to the outstanding heartbeat request arrives as the peer copied it from the wire, and the request is
numbered below 2^24, the answer is recognised: the peer is sent no further heartbeat until the next one is due (or the peer is
dropped). Missing: larger numbers (false, above). -/
theorem C71_recognised_partial {n : Node} {c : HbCfg} {tr : List Lab} {s s1 : Sys} (hx : Sys.Exec (Sys.init n c) tr s) (a : Addr) (k : U32)
    (hk : lastSent a tr = some k) (hlt : k.toNat < 2 ^ 24) (hs : Sys.Step s (.answered a (wire24 k)) s1)
    {tr2 : List Lab} {s2 : Sys} (hx2 : Sys.Exec s1 tr2 s2) (h1 : .due a ∉ tr2) (h2 : .dropped a ∉ tr2) : ∀ q, .sent a q ∉ tr2 := by
  have hp : s1.sched.get? a = some (.pausing k) := by
    have hst := schedTrace_exec hx a
    cases hs with
    | answered hm h =>
      rw [h] at hst
      rw [hst.2.2] at hk
      cases hk
      simp [wire24_small hlt]
  have sane1 : s1.Sane := ((sane_init n c).exec (hx.step hs))
  suffices (∀ q, .sent a q ∉ tr2) ∧ s2.sched.get? a = some (.pausing k) from this.1
  clear hs hx hk
  induction hx2 with
  | nil => exact ⟨fun q h => (by cases h), hp⟩
  | @step tr2 s s' l hx hs ih =>
    simp only [List.mem_cons, not_or] at h1 h2
    obtain ⟨i1, i2⟩ := ih h1.2 h2.2
    have hl : l.of a = false := by
      cases hs with
      | sent h => by_cases e : ‹Addr› = a
                  · subst e; rw [i2] at h; cases h
                  · simpa [Lab.of] using e
      | expired h _ => by_cases e : ‹Addr› = a
                       · subst e; rw [i2] at h; cases h
                       · simpa [Lab.of] using e
      | gaveUp h _ => by_cases e : ‹Addr› = a
                      · subst e; rw [i2] at h; cases h
                      · simpa [Lab.of] using e
      | answered _ h => by_cases e : ‹Addr› = a
                        · subst e; rw [i2] at h; cases h
                        · simpa [Lab.of] using e
      | due h => by_cases e : ‹Addr› = a
                 · subst e; exact absurd rfl h1.1
                 · simpa [Lab.of] using e
      | dropped _ h _ => by_cases e : ‹Addr› = a
                         · subst e; exact absurd rfl h2.1
                         · simpa [Lab.of] using e
      | _ => rfl
    refine ⟨fun q hq => ?_, ?_⟩
    · rcases List.mem_cons.1 hq with e | e
      · subst e; simp [Lab.of] at hl
      · exact i1 q e
    · rcases sched_step hs (sane1.exec hx) a hl with g | ⟨g, _⟩
      · rw [g]; exact i2
      · rw [i2] at g; cases g

/-- proof device: one heartbeat answered as copied from the wire -/
theorem wire_round (n : Node) (c : HbCfg) (m : GoMap Addr Sched) (a : Addr) (nx : U32) (ha : (n.assocs.get? a).isSome)
    (hm : m.get? a = some (.ready nx 0)) :
    ∃ m' tr, m'.get? a = some (.ready (nx + 1) 0) ∧ Sys.Exec ⟨n, c, m, none⟩ tr ⟨n, c, m', none⟩ ∧ lastSent a tr = some (nx + 1) ∧
      tr.countP (Lab.isExpiry a) = 0 ∧ (∀ q, .hbResp a q (some (some ())) ∈ tr → q = wire24 (nx + 1)) := by
  have h1 : Sys.Step ⟨n, c, m, none⟩ (.sent a (nx + 1)) ⟨n, c, m.set a (.waiting (nx + 1) 0), none⟩ := .sent hm
  have h2 : Sys.Step ⟨n, c, m.set a (.waiting (nx + 1) 0), none⟩ (.hbResp a (wire24 (nx + 1)) (some (some ())))
      ⟨n, c, m.set a (.waiting (nx + 1) 0), some (a, wire24 (nx + 1))⟩ := .hbResp rfl ha
  have h3 : Sys.Step ⟨n, c, m.set a (.waiting (nx + 1) 0), some (a, wire24 (nx + 1))⟩ (.answered a (wire24 (nx + 1)))
      ⟨n, c, (m.set a (.waiting (nx + 1) 0)).set a (if nx + 1 = wire24 (nx + 1) then .pausing (nx + 1) else .ready (nx + 1) 0), none⟩ :=
    .answered rfl (by simp)
  have base := ((Sys.Exec.one h1).step h2).step h3
  by_cases he : nx + 1 = wire24 (nx + 1)
  · rw [if_pos he] at base
    exact ⟨_, _, by simp, base.step (.due (a := a) (next := nx + 1) (by simp)), by simp [lastSent], by simp [Lab.isExpiry], fun q h => by simpa using h⟩
  · rw [if_neg he] at base
    exact ⟨_, _, by simp, base, by simp [lastSent], by simp [Lab.isExpiry], fun q h => by simpa using h⟩

/-- **C71, reachable.** Heartbeats of every number are sent in executions with a peer that answers every heartbeat at once with the number
it read from the wire, and with no timer expiring. -/
theorem C71_every_number_sent (n : Node) (c : HbCfg) (hn : n.assocs.get? 1 = none) (hc : c.timeout ≠ 0) (k : Nat) :
    ∃ tr s, Sys.Exec (Sys.init n c) tr s ∧ lastSent 1 tr = some (BitVec.ofNat 32 (k + 2)) ∧ tr.countP (Lab.isExpiry 1) = 0 ∧
      ∀ q, .hbResp 1 q (some (some ())) ∈ tr → q.toNat < 2 ^ 24 := by
  have ha : ((n.addAssoc 1).assocs.get? 1).isSome := by simp [Node.addAssoc, hn]
  have lastApp : ∀ (a : Addr) (t1 t2 : List Lab) (q : U32), lastSent a t1 = some q → lastSent a (t1 ++ t2) = some q := by
    intro a t1 t2 q
    induction t1 with
    | nil => intro h; cases h
    | cons l t ih =>
      cases l with
      | sent b x =>
        simp only [List.cons_append, lastSent]
        split
        · exact id
        · exact ih
      | _ => exact ih
  suffices ∀ k : Nat, ∃ tr m, Sys.Exec (Sys.init n c) tr ⟨n.addAssoc 1, c, m, none⟩ ∧ m.get? 1 = some (.ready (BitVec.ofNat 32 (k + 1)) 0) ∧
      tr.countP (Lab.isExpiry 1) = 0 ∧ (∀ q, .hbResp 1 q (some (some ())) ∈ tr → q.toNat < 2 ^ 24) ∧
      (k ≠ 0 → lastSent 1 tr = some (BitVec.ofNat 32 (k + 1))) by
    obtain ⟨tr, m, h1, _, h3, h4, h5⟩ := this (k + 1)
    exact ⟨tr, _, h1, h5 (by omega), h3, h4⟩
  intro k
  induction k with
  | zero =>
    exact ⟨_, _, Demo.associated n c hn hc, by simp, by simp [Lab.isExpiry], by simp, fun h => absurd rfl h⟩
  | succ k ih =>
    obtain ⟨tr, m, hx, hm, h1, h2, _⟩ := ih
    obtain ⟨m', tr', g1, g2, g3, g4, g5⟩ := wire_round (n.addAssoc 1) c m 1 _ ha hm
    have e : (BitVec.ofNat 32 (k + 1) + 1 : U32) = BitVec.ofNat 32 (k + 1 + 1) := by
      rw [BitVec.ofNat_add (k + 1) 1]; rfl
    rw [e] at g1 g3 g5
    refine ⟨tr' ++ tr, m', hx.append g2, g1, ?_, ?_, fun _ => lastApp _ _ _ _ g3⟩
    · rw [List.countP_append, h1, g4]
    · intro q hq
      rcases List.mem_append.1 hq with h | h
      · rw [g5 q h]; exact wire24_lt _
      · exact h2 q h

/-! ### examples -/

/-- A heartbeat numbered 2^24 is sent in some execution of the demo node (so the hypotheses of `C71_no_pause_after_wrap` are met with a number out of range). -/
example : ∃ tr s, Sys.Exec (Sys.init Demo.n0 Demo.hb) tr s ∧ lastSent 1 tr = some 0x1000000 ∧
    ∀ q, .hbResp 1 q (some (some ())) ∈ tr → q.toNat < 2 ^ 24 := by
  obtain ⟨tr, s, h1, h2, _, h4⟩ := C71_every_number_sent Demo.n0 Demo.hb (by decide +kernel) (by decide) (2 ^ 24 - 2)
  exact ⟨tr, s, h1, h2, h4⟩

/-- A recognised answer: heartbeat 2 is answered as 2. -/
example : ∃ tr s s1, Sys.Exec (Sys.init Demo.n0 Demo.hb) tr s ∧ lastSent 1 tr = some 2 ∧ Sys.Step s (.answered 1 (wire24 2)) s1 := by
  have h0 := Demo.associated Demo.n0 Demo.hb (by decide +kernel) (by decide)
  have h1 := h0.step (.sent (a := 1) (next := 1) (fails := 0) (by simp))
  have h2 := h1.step (.hbResp (a := 1) (q := wire24 2) rfl (by simp [Node.addAssoc]; split <;> simp_all))
  exact ⟨_, _, _, h2, by simp [lastSent], .answered (next := 2) (fails := 0) rfl (by simp)⟩

/-- A silent peer: two expiries, given up (`C69_live_peer_given_up` applies with the text of an IPv6 address). -/
example : ∃ tr s, Sys.Exec (Sys.init Demo.n0 Demo.hb) tr s ∧ (∀ c', .config c' ∉ tr) ∧ (∀ q r, .hbResp 1 q r ∉ tr) ∧
    max 1 Demo.hb.retries.toNat ≤ tr.countP (Lab.isExpiry 1) := by
  have h0 := Demo.associated Demo.n0 Demo.hb (by decide +kernel) (by decide)
  have h1 := h0.step (.sent (a := 1) (next := 1) (fails := 0) (by simp))
  have h2 := h1.step (.expired (a := 1) (next := 2) (fails := 0) (by simp) (by decide))
  have h3 := h2.step (.sent (a := 1) (next := 2) (fails := 1) (by simp))
  have h4 := h3.step (.gaveUp (a := 1) (next := 3) (fails := 1) (by simp) (by decide))
  exact ⟨_, _, h4, by simp, by simp, by decide⟩

end Eupf
