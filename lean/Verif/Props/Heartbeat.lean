import Verif.HeartbeatLemmas
import Verif.Demo
/-
C43: heartbeat supervision.
-/
namespace Eupf

/-- proof device: heartbeats unanswered in a row -/
def misses (a : Addr) : List Lab → Nat
  | [] => 0
  | .expired b :: t => if b = a then misses a t + 1 else misses a t
  | .gaveUp b :: t => if b = a then misses a t + 1 else misses a t
  | .answered b q :: t => if b = a ∧ lastSent a t = some q then 0 else misses a t
  | .dropped b :: t => if b = a then 0 else misses a t
  | _ :: t => misses a t

theorem NoAnswer.cons {a : Addr} {l : Lab} {r o : List Lab} (h : NoAnswer a r o)
    (hl : ∀ q, l = .answered a q → lastSent a (r ++ o) ≠ some q) : NoAnswer a (l :: r) o := by
  intro x q y hx
  cases x with
  | nil =>
    simp only [List.nil_append, List.cons.injEq] at hx
    rw [← hx.2]
    exact hl q hx.1
  | cons z x =>
    simp only [List.cons_append, List.cons.injEq] at hx
    exact h x q y hx.2

theorem unanswered_zero (a : Addr) (tr : List Lab) : Unanswered a 0 tr :=
  ⟨[], tr, rfl, Nat.zero_le _, fun x q y h => by simp at h, by simp⟩

theorem Unanswered.cons {a : Addr} {n : Nat} {tr : List Lab} {l : Lab} (h : Unanswered a n tr)
    (hl : ∀ q, l = .answered a q → lastSent a tr ≠ some q) (hd : l ≠ .dropped a) :
    Unanswered a (n + if l.isExpiry a then 1 else 0) (l :: tr) := by
  obtain ⟨r, o, rfl, hn, hna, hdr⟩ := h
  refine ⟨l :: r, o, rfl, ?_, hna.cons hl, ?_⟩
  · rw [List.countP_cons]; omega
  · simp only [List.mem_cons, not_or]; exact ⟨fun h => hd h.symm, hdr⟩

theorem misses_unanswered (a : Addr) : ∀ tr, Unanswered a (misses a tr) tr
  | [] => unanswered_zero a []
  | l :: t => by
    have ih := misses_unanswered a t
    cases l with
    | expired b =>
      have := ih.cons (l := .expired b) (by simp) (by simp)
      unfold misses
      by_cases hb : b = a <;> simpa [Lab.isExpiry, hb] using this
    | gaveUp b =>
      have := ih.cons (l := .gaveUp b) (by simp) (by simp)
      unfold misses
      by_cases hb : b = a <;> simpa [Lab.isExpiry, hb] using this
    | answered b q =>
      unfold misses
      split
      · exact unanswered_zero a _
      · rename_i hb
        have := ih.cons (l := .answered b q) (fun q' h => by
          simp only [Lab.answered.injEq] at h
          intro h2
          exact hb ⟨h.1, by rw [h.2]; exact h2⟩) (by simp)
        simpa [Lab.isExpiry] using this
    | dropped b =>
      unfold misses
      split
      · exact unanswered_zero a _
      · rename_i hb
        have := ih.cons (l := .dropped b) (by simp) (by simpa using hb)
        simpa [Lab.isExpiry] using this
    | msg e => simpa [Lab.isExpiry, misses] using ih.cons (l := .msg e) (by simp) (by simp)
    | hbResp b q r => simpa [Lab.isExpiry, misses] using ih.cons (l := .hbResp b q r) (by simp) (by simp)
    | sent b q => simpa [Lab.isExpiry, misses] using ih.cons (l := .sent b q) (by simp) (by simp)
    | due b => simpa [Lab.isExpiry, misses] using ih.cons (l := .due b) (by simp) (by simp)
    | config c => simpa [Lab.isExpiry, misses] using ih.cons (l := .config c) (by simp) (by simp)
    | traffic => simpa [Lab.isExpiry, misses] using ih.cons (l := .traffic) (by simp) (by simp)

/-- the trace of a peer that was given up -/
def GivenUp (c : HbCfg) (a : Addr) (tr : List Lab) : Prop :=
  ∃ later before, tr = later ++ .gaveUp a :: before ∧ .dropped a ∉ later ∧
    Unanswered a (max 1 (retriesNow c before)) (.gaveUp a :: before)

/-- where a scheduler stands, told from the trace -/
def SchedTrace (c : HbCfg) (a : Addr) (tr : List Lab) : Option Sched → Prop
  | none => misses a tr = 0
  | some (.ready _ f) => f.toNat = misses a tr ∧ f.toNat < 2 ^ 32 - 1
  | some (.waiting q f) => f.toNat = misses a tr ∧ f.toNat < 2 ^ 32 - 1 ∧ lastSent a tr = some q
  | some (.pausing _) => misses a tr = 0
  | some .failed => GivenUp c a tr

theorem GivenUp.cons {c : HbCfg} {a : Addr} {tr : List Lab} {l : Lab} (h : GivenUp c a tr) (hl : l ≠ .dropped a) :
    GivenUp c a (l :: tr) := by
  obtain ⟨x, y, rfl, h1, h2⟩ := h
  exact ⟨l :: x, y, rfl, by simp only [List.mem_cons, not_or]; exact ⟨fun h => hl h.symm, h1⟩, h2⟩

/-- a step that does not concern peer `a` -/
theorem SchedTrace.other {c : HbCfg} {a : Addr} {tr : List Lab} {o : Option Sched} {l : Lab} (h : SchedTrace c a tr o)
    (h1 : misses a (l :: tr) = misses a tr) (h2 : lastSent a (l :: tr) = lastSent a tr) (h3 : l ≠ .dropped a) :
    SchedTrace c a (l :: tr) o := by
  match o, h with
  | none, h => exact h1.trans h
  | some (.ready _ f), h => exact ⟨h.1.trans h1.symm, h.2⟩
  | some (.waiting q f), h => exact ⟨h.1.trans h1.symm, h.2.1, h2.trans h.2.2⟩
  | some (.pausing _), h => exact h1.trans h
  | some .failed, h => exact GivenUp.cons h h3

theorem retries_exec {n : Node} {c : HbCfg} {tr : List Lab} {s : Sys} (hx : Sys.Exec (Sys.init n c) tr s) :
    s.cfg.retries.toNat = retriesNow c tr := by
  induction hx with
  | nil => rfl
  | step _ hs ih => cases hs <;> first | exact ih | rfl

theorem retriesNow_const (c : HbCfg) : ∀ tr : List Lab, (∀ c', .config c' ∉ tr) → retriesNow c tr = c.retries.toNat
  | [], _ => rfl
  | x :: t, h => by
    have := retriesNow_const c t (fun c' hc => h c' (List.mem_cons_of_mem _ hc))
    cases x with
    | config c' => exact absurd (List.mem_cons_self) (h c')
    | _ => exact this

theorem toNat_succ {f : U32} (h : f.toNat < 2 ^ 32 - 1) : (f + 1).toNat = f.toNat + 1 := by
  rw [BitVec.toNat_add]
  show (f.toNat + 1) % 2 ^ 32 = _
  omega

theorem schedTrace_exec {n : Node} {c : HbCfg} {tr : List Lab} {s : Sys} (hx : Sys.Exec (Sys.init n c) tr s) :
    ∀ a, SchedTrace c a tr (s.sched.get? a) := by
  induction hx with
  | nil => intro a; simp [Sys.init, SchedTrace, misses]
  | @step tr s s' l hx hs ih =>
    intro a
    have ia := ih a
    have hr := retries_exec hx
    cases hs with
    | @msg e hm hp hc =>
      have ia' : SchedTrace c a (.msg e :: tr) (s.sched.get? a) := ia.other rfl rfl (by simp)
      rcases startSched_get (c := s.cfg) (n := s.node) (n' := (s.node.step e).1) (m := s.sched) (o := e.setupAddr) (a := a) with g | ⟨_, g1, _, g2⟩
      · simp only; rw [g]; exact ia'
      · simp only; rw [g2]
        have hnone : s.sched.get? a = none := by
          rcases h : s.sched.get? a with _ | x
          · rfl
          · have := ((sane_init n c).exec hx).sched a (by rw [h]; rfl)
            rw [g1] at this; simp at this
        rw [hnone] at ia
        have ia : misses a tr = 0 := ia
        exact ⟨by simp [misses, ia], by decide⟩
    | hbIgnored hm _ => exact ia.other rfl rfl (by simp)
    | hbResp hm _ => exact ia.other rfl rfl (by simp)
    | config => exact ia.other rfl rfl (by simp)
    | traffic _ => exact ia.other rfl rfl (by simp)
    | @sent b q f h =>
      simp only [GoMap.get?_set]
      split
      · subst_vars
        rw [h] at ia
        exact ⟨by simpa [misses] using ia.1, ia.2, by simp [lastSent]⟩
      · rename_i hb
        exact ia.other rfl (by simp only [lastSent]; exact if_neg (fun h => hb h.symm)) (by simp)
    | @expired b q f h hf =>
      simp only [GoMap.get?_set]
      split
      · subst_vars
        rw [h] at ia
        have hlt : (f + 1).toNat < s.cfg.retries.toNat := by
          have h := hf; rw [BitVec.le_def] at h; omega
        have := s.cfg.retries.isLt
        exact ⟨by rw [toNat_succ ia.2.1]; simp [misses, ia.1], by omega⟩
      · rename_i hb
        have hb' : ¬ b = a := by first | exact hb | exact fun h => hb h.symm
        exact ia.other (by simp [misses, hb']) rfl (by simp)
    | @gaveUp b q f h hf =>
      simp only [GoMap.get?_set]
      by_cases hba : b = a
      · subst hba
        rw [if_pos rfl]
        rw [h] at ia
        refine ⟨[], tr, rfl, by simp, ?_⟩
        have hle : s.cfg.retries.toNat ≤ f.toNat + 1 := by
          have h := hf; rw [BitVec.le_def, toNat_succ ia.2.1] at h; exact h
        have key := misses_unanswered b (.gaveUp b :: tr)
        obtain ⟨r, o, h1, h2, h3⟩ := key
        refine ⟨r, o, h1, Nat.le_trans ?_ h2, h3⟩
        have : misses b (.gaveUp b :: tr) = misses b tr + 1 := by simp [misses]
        rw [this, ← hr, ← ia.1]
        omega
      · rw [if_neg (fun h => hba h.symm)]
        exact ia.other (by simp [misses, hba]) rfl (by simp)
    | @answered b q next f hm h =>
      simp only [GoMap.get?_set]
      by_cases hba : b = a
      · subst hba
        rw [if_pos rfl]
        rw [h] at ia
        split
        · rename_i hq
          show misses b (.answered b q :: tr) = 0
          simp [misses, ia.2.2, hq]
        · rename_i hq
          refine ⟨?_, ia.2.1⟩
          have : misses b (.answered b q :: tr) = misses b tr := by
            simp [misses, ia.2.2, hq]
          rw [this]; exact ia.1
      · rw [if_neg (fun h => hba h.symm)]
        exact ia.other (by simp [misses, hba]) rfl (by simp)
    | @due b next h =>
      simp only [GoMap.get?_set]
      split
      · subst_vars
        rw [h] at ia
        exact ⟨by have ia : misses _ tr = 0 := ia; simp [misses, ia], by decide⟩
      · exact ia.other rfl rfl (by simp)
    | @dropped b ord hm h hc =>
      simp only [GoMap.get?_erase]
      split
      · subst_vars
        simp [SchedTrace, misses]
      · rename_i hb
        have hb' : ¬ b = a := by first | exact hb | exact fun h => hb h.symm
        exact ia.other (by simp [misses, hb']) rfl (by simpa using hb')

/-- **C43.** In every execution of the control plane (any interleaving of messages, timers, schedulers, configuration
changes and packets): whenever the association of peer `a` is removed, the scheduler had given it up since the
association was made, and at that moment the last `max 1 N` heartbeats, `N` the number of retries configured then, had
all expired with no answer to the outstanding heartbeat in between. -/
theorem C43_dropped {n : Node} {c : HbCfg} {tr : List Lab} {s s' : Sys} {a : Addr} (hx : Sys.Exec (Sys.init n c) tr s)
    (hs : Sys.Step s (.dropped a) s') :
    ∃ later before, tr = later ++ .gaveUp a :: before ∧ .dropped a ∉ later ∧
      Unanswered a (max 1 (retriesNow c before)) (.gaveUp a :: before) := by
  cases hs with
  | dropped hm h hc =>
    have := schedTrace_exec hx a
    rw [h] at this
    exact this

/-- Associations disappear in no other way. -/
theorem C43_only_dropped {s s' : Sys} {l : Lab} {a : Addr}
    (hs : Sys.Step s l s') (h : (s.node.assocs.get? a).isSome)
    (h' : s'.node.assocs.get? a = none) : l = .dropped a := by
  cases hs with
  | msg hm hp hc =>
    have := (plain_assocs s.node _ hp a).1 h
    simp only at h'
    rw [h'] at this; simp at this
  | @dropped b ord hm hb hc =>
    simp only at h'
    rw [peerLost_assocs _ _ a _ hc, GoMap.get?_erase] at h'
    split at h'
    · subst_vars; rfl
    · rw [h'] at h; simp at h
  | _ => (first | rw [h'] at h | (simp only at h'; rw [h'] at h)); simp at h

/-- proof device: any window without answer has at most `misses` expiries -/
theorem count_le_misses (a : Addr) : ∀ (recent older : List Lab), NoAnswer a recent older → .dropped a ∉ recent →
    recent.countP (Lab.isExpiry a) ≤ misses a (recent ++ older)
  | [], older, _, _ => by simp
  | l :: r, older, h, hd => by
    simp only [List.mem_cons, not_or] at hd
    have h1 : NoAnswer a r older := fun x q y e => h (l :: x) q y (by rw [e]; rfl)
    have ih := count_le_misses a r older h1 hd.2
    have h2 : ∀ q, l = .answered a q → lastSent a (r ++ older) ≠ some q := fun q e => h [] q r (by rw [e]; rfl)
    rw [List.countP_cons]
    simp only [List.cons_append]
    cases l with
    | expired b => unfold misses; by_cases hb : b = a <;> simp [Lab.isExpiry, hb] <;> omega
    | gaveUp b => unfold misses; by_cases hb : b = a <;> simp [Lab.isExpiry, hb] <;> omega
    | answered b q =>
      unfold misses
      rw [if_neg (c := b = a ∧ _) (by rintro ⟨rfl, h3⟩; exact h2 q rfl h3)]
      simp [Lab.isExpiry]; exact ih
    | dropped b =>
      unfold misses
      have : ¬ b = a := fun e => hd.1 (by rw [e])
      simp [Lab.isExpiry, this]; exact ih
    | _ => simpa [Lab.isExpiry, misses] using ih

/-- **C43, the other direction.** As long as the configuration is not changed and peer `a` has not been given up, fewer
than `max 1 N` heartbeats in a row have expired: a peer that stops answering is given up at the `N`-th expiry. -/
theorem C43_detected {n : Node} {c : HbCfg} {tr : List Lab} {s : Sys} {a : Addr} (hx : Sys.Exec (Sys.init n c) tr s)
    (hcfg : ∀ c', .config c' ∉ tr) (hg : .gaveUp a ∉ tr) (recent older : List Lab) (htr : tr = recent ++ older)
    (hna : NoAnswer a recent older) : recent.countP (Lab.isExpiry a) < max 1 c.retries.toNat := by
  suffices misses a tr < max 1 c.retries.toNat ∧ .dropped a ∉ tr by
    refine Nat.lt_of_le_of_lt (count_le_misses a recent older hna ?_) (by rw [← htr]; exact this.1)
    rw [htr] at this
    exact fun h => this.2 (List.mem_append_left _ h)
  clear hna htr recent older
  induction hx with
  | nil => exact ⟨by simp only [misses]; omega, by simp⟩
  | @step tr s s' l hx hs ih =>
    simp only [List.mem_cons, not_or] at hcfg hg
    have ih := ih (fun c' h => (hcfg c').2 h) hg.2
    have hst := schedTrace_exec hx a
    have hret : s.cfg.retries.toNat = c.retries.toNat := by
      rw [retries_exec hx]
      exact retriesNow_const c tr fun c' h => (hcfg c').2 h
    have plainLab : misses a (l :: tr) = misses a tr → l ≠ .dropped a → misses a (l :: tr) < max 1 c.retries.toNat ∧ .dropped a ∉ l :: tr := by
      intro h1 h2
      rw [h1]
      exact ⟨ih.1, by simp only [List.mem_cons, not_or]; exact ⟨fun h => h2 h.symm, ih.2⟩⟩
    cases hs with
    | @expired b q f h hf =>
      by_cases hb : b = a
      · subst hb
        rw [h] at hst
        refine ⟨?_, by simp [ih.2]⟩
        have hlt : (f + 1).toNat < s.cfg.retries.toNat := by
          have h := hf; rw [BitVec.le_def] at h; omega
        rw [toNat_succ hst.2.1, hst.1] at hlt
        have : misses b (.expired b :: tr) = misses b tr + 1 := by simp [misses]
        rw [this]; omega
      · exact plainLab (by simp [misses, hb]) (by simp)
    | @gaveUp b q f h hf =>
      exact plainLab (by simp only [misses]; rw [if_neg]; intro e; exact hg.1 (by rw [e])) (by simp)
    | @answered b q next f hm h =>
      by_cases hz : b = a ∧ lastSent a tr = some q
      · have : misses a (.answered b q :: tr) = 0 := by simp [misses, hz]
        rw [this]
        exact ⟨by omega, by simp [ih.2]⟩
      · exact plainLab (by simp only [misses]; rw [if_neg hz]) (by simp)
    | @dropped b ord hm h hc =>
      by_cases hb : b = a
      · subst hb
        rw [h] at hst
        obtain ⟨x, y, e, _⟩ := hst
        exact absurd (by rw [e]; simp) hg.2
      · exact plainLab (by simp [misses, hb]) (by simpa using hb)
    | _ => exact plainLab rfl (by simp)

/-! ### non-vacuity: an execution in which a peer is dropped -/

/-- heartbeats on, two retries -/
def Demo.hb : HbCfg := ⟨2, 5⟩

/-- a new association of peer 1 starts its scheduler -/
theorem Demo.associated (n : Node) (c : HbCfg) (hn : n.assocs.get? 1 = none) (hc : c.timeout ≠ 0) :
    Sys.Exec (Sys.init n c) [.msg (.assocSetup 1 1 (some (some ())) (some (some ())))]
      ⟨n.addAssoc 1, c, GoMap.empty.set 1 (.ready 1 0), none⟩ := by
  have hstep : Sys.Step (Sys.init n c) (.msg (.assocSetup 1 1 (some (some ())) (some (some ())))) _ :=
    .msg rfl trivial (by simp [Sys.init, Node.step, Node.assocSetup])
  have : startSched c n (n.addAssoc 1) GoMap.empty (some 1) = GoMap.empty.set 1 (.ready 1 0) := by
    simp [startSched, Node.addAssoc, hn]
    exact fun h => absurd h hc
  simp only [Sys.init, Node.step, Node.assocSetup, Ev.setupAddr, this] at hstep
  exact .one hstep

/-- Peer 1 associates and never answers: it is given up after two heartbeats and dropped. -/
example : ∃ tr s s', Sys.Exec (Sys.init Demo.n0 Demo.hb) tr s ∧ Sys.Step s (.dropped 1) s' ∧
    (tr.countP (Lab.isExpiry 1) = 2) := by
  have h0 := Demo.associated Demo.n0 Demo.hb (by decide +kernel) (by decide)
  have h1 := h0.step (.sent (a := 1) (next := 1) (fails := 0) (by simp))
  have h2 := h1.step (.expired (a := 1) (next := 2) (fails := 0) (by simp) (by decide))
  have h3 := h2.step (.sent (a := 1) (next := 2) (fails := 1) (by simp))
  have h4 := h3.step (.gaveUp (a := 1) (next := 3) (fails := 1) (by simp) (by decide))
  refine ⟨_, _, _, h4, .dropped (ord := default) rfl (by simp) (by decide +kernel), ?_⟩
  decide

end Eupf
