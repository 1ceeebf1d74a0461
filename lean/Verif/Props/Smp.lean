import Verif.Xdp.Smp
import Verif.Props.RateLimit
/-
C74, C75, C76: rate limits, usage volumes and tunnels when several CPUs forward at the same time.
-/
namespace Eupf.Smp

theorem setCpu_same {α : Type} (f : Nat → α) (i : Nat) (x : α) : setCpu f i x i = x := if_pos rfl
theorem setCpu_other {α : Type} (f : Nat → α) {i j : Nat} (x : α) (h : j ≠ i) : setCpu f i x j = f j := if_neg h

/-! ### C74: rate limits -/

/-- A CPU between the load of the timer and its store. -/
def Timer.inside (t : Timer) (i : Nat) : Prop := ∃ a b c, t.cpu i = .loaded a b c
/-- At most one CPU is inside. -/
def Timer.one (t : Timer) : Prop := ∀ i j, t.inside i → t.inside j → i = j
/-- Never two CPUs inside at once. -/
def Exclusive (t : Timer) : List TEv → Prop
  | [] => True
  | e :: es => (t.step e).1.one ∧ Exclusive (t.step e).1 es

/-- bits of the packets that passed -/
def bits (l : List (U64 × U64)) : Nat := (l.map (fun x => 8 * x.1.toNat)).sum

/-- all packets enter between `t0` and `t1` and have at most `L` octets -/
def Within (t0 t1 L : Nat) (es : List TEv) : Prop :=
  ∀ i size now, .enter i size now ∈ es → size.toNat ≤ L ∧ t0 ≤ now.toNat ∧ now.toNat ≤ t1

/-- the packets under way are as those to come -/
def Timer.ok (t0 t1 L : Nat) (t : Timer) : Prop :=
  (∀ i a b, t.cpu i = .entered a b → a.toNat ≤ L ∧ t0 ≤ b.toNat ∧ b.toNat ≤ t1) ∧
  (∀ i a b c, t.cpu i = .loaded a b c → (a.toNat ≤ L ∧ t0 ≤ b.toNat ∧ b.toNat ≤ t1) ∧ c = t.mem)

theorem run_account {t0 t1 L : Nat} (hL : L < 2 ^ 29) (ht1 : t1 < 2 ^ 62) {c : Nat} (es : List TEv) (t : Timer) (hr : t.rate ≠ 0)
    (hc : c = 1000000000 / t.rate.toNat) (hw : Within t0 t1 L es) (hx : Exclusive t es) (hone : t.one) (hok : t.ok t0 t1 L)
    {B : Nat} (acc : Account c t0 t1 (8 * L * c) t.mem B) : ∃ s, Account c t0 t1 (8 * L * c) s (B + bits (t.run es).2) := by
  induction es generalizing t B with
  | nil => exact ⟨_, acc⟩
  | cons e es ih =>
    have hw' : Within t0 t1 L es := fun i s n h => hw i s n (.tail _ h)
    obtain ⟨hx1, hx2⟩ := hx
    have hc1 : c ≤ 1000000000 := by rw [hc]; exact Nat.div_le_self ..
    have hM : 8 * L * c < 2 ^ 62 := Nat.lt_of_le_of_lt (Nat.mul_le_mul_left _ hc1) (by omega)
    unfold Timer.run
    simp only [bits, List.map_append, List.sum_append]
    rw [← Nat.add_assoc]
    have keep : ∀ {t' : Timer}, t' = (t.step e).1 → (t.step e).2 = [] → t'.rate = t.rate → t'.mem = t.mem → t'.ok t0 t1 L →
        ∃ s, Account c t0 t1 (8 * L * c) s (B + ((t.step e).2.map (fun x => 8 * x.1.toNat)).sum + bits ((t.step e).1.run es).2) := by
      intro t' h1 h2 h3 h4 h5
      subst h1
      rw [h2]
      exact ih _ (by rw [h3]; exact hr) (by rw [h3]; exact hc) hw' hx2 hx1 h5 (by rw [h4]; exact acc)
    have stay : (t.step e) = (t, []) → ∃ s, Account c t0 t1 (8 * L * c) s (B + ((t.step e).2.map (fun x => 8 * x.1.toNat)).sum + bits ((t.step e).1.run es).2) :=
      fun h => keep (t' := t) (by rw [h]) (by rw [h]) rfl rfl hok
    cases e with
    | enter i size now =>
      cases hi : t.cpu i with
      | idle =>
        have hs : t.step (.enter i size now) = ({ t with cpu := setCpu t.cpu i (.entered size now) }, []) := by simp only [Timer.step, hi]
        refine keep (t' := { t with cpu := setCpu t.cpu i (.entered size now) }) (by rw [hs]) (by rw [hs]) rfl rfl ⟨?_, ?_⟩
        · intro j a b h
          by_cases hj : j = i
          · subst hj; simp only [setCpu_same] at h; cases h; exact hw _ _ _ (.head _)
          · simp only [setCpu_other _ _ hj] at h; exact hok.1 j a b h
        · intro j a b c' h
          by_cases hj : j = i
          · subst hj; simp only [setCpu_same] at h; cases h
          · simp only [setCpu_other _ _ hj] at h; exact hok.2 j a b c' h
      | entered _ _ => exact stay (by simp only [Timer.step, hi])
      | loaded _ _ _ => exact stay (by simp only [Timer.step, hi])
    | load i =>
      cases hi : t.cpu i with
      | entered size now =>
        have hs : t.step (.load i) = ({ t with cpu := setCpu t.cpu i (.loaded size now t.mem) }, []) := by simp only [Timer.step, hi]
        refine keep (t' := { t with cpu := setCpu t.cpu i (.loaded size now t.mem) }) (by rw [hs]) (by rw [hs]) rfl rfl ⟨?_, ?_⟩
        · intro j a b h
          by_cases hj : j = i
          · subst hj; simp only [setCpu_same] at h; cases h
          · simp only [setCpu_other _ _ hj] at h; exact hok.1 j a b h
        · intro j a b c' h
          by_cases hj : j = i
          · subst hj; simp only [setCpu_same] at h; cases h; exact ⟨hok.1 _ _ _ hi, rfl⟩
          · simp only [setCpu_other _ _ hj] at h; exact hok.2 j a b c' h
      | idle => exact stay (by simp only [Timer.step, hi])
      | loaded _ _ _ => exact stay (by simp only [Timer.step, hi])
    | finish i =>
      cases hi : t.cpu i with
      | idle => exact stay (by simp only [Timer.step, hi])
      | entered _ _ => exact stay (by simp only [Timer.step, hi])
      | loaded size now start =>
        obtain ⟨⟨k1, k2, k3⟩, k4⟩ := hok.2 i _ _ _ hi
        subst k4
        cases hl : limitRate size t.mem t.rate now with
        | none =>
          have hs : t.step (.finish i) = ({ t with cpu := setCpu t.cpu i .idle }, []) := by simp only [Timer.step, hi, hl]
          refine keep (t' := { t with cpu := setCpu t.cpu i .idle }) (by rw [hs]) (by rw [hs]) rfl rfl ⟨?_, ?_⟩
          · intro j a b h
            by_cases hj : j = i
            · subst hj; simp only [setCpu_same] at h; cases h
            · simp only [setCpu_other _ _ hj] at h; exact hok.1 j a b h
          · intro j a b c' h
            by_cases hj : j = i
            · subst hj; simp only [setCpu_same] at h; cases h
            · simp only [setCpu_other _ _ hj] at h; exact hok.2 j a b c' h
        | some s' =>
          have hs : t.step (.finish i) = ({ t with mem := s', cpu := setCpu t.cpu i .idle }, [(size, now)]) := by
            simp only [Timer.step, hi, hl, if_neg hr]
          rw [hs] at hx1 hx2 ⊢
          simp only [List.map_cons, List.map_nil, List.sum_cons, List.sum_nil, Nat.add_zero]
          refine ih { t with mem := s', cpu := setCpu t.cpu i .idle } hr hc hw' hx2 hx1 ⟨?_, ?_⟩ ?_
          · intro j a b h
            by_cases hj : j = i
            · subst hj; simp only [setCpu_same] at h; cases h
            · simp only [setCpu_other _ _ hj] at h; exact hok.1 j a b h
          · intro j a b c' h
            by_cases hj : j = i
            · subst hj; simp only [setCpu_same] at h; cases h
            · simp only [setCpu_other _ _ hj] at h
              exact absurd (hone j i ⟨_, _, _, h⟩ ⟨_, _, _, hi⟩) hj
          · exact acc.charge hc hr hl (by omega) ht1 k2 k3 (Nat.mul_le_mul_right _ (by omega)) hM

/-- All CPUs are outside the limiter. -/
def Timer.quiet (t : Timer) : Prop := ∀ i, t.cpu i = .idle

/-- C74, part: as long as never two CPUs are between the load of a timer and its store, the packets that pass during any interval keep to
the bound of C34: their transmission time at the configured rate exceeds the interval by at most five milliseconds or one packet. -/
theorem C74_exclusive_partial {t0 t1 L : Nat} {t : Timer} {es : List TEv} (hr : t.rate ≠ 0) (hq : t.quiet) (hx : Exclusive t es)
    (hw : Within t0 t1 L es) (hL : L < 2 ^ 29) (ht1 : t1 < 2 ^ 62) (ht : t0 ≤ t1) (hm : t.mem.toNat < 2 ^ 63) :
    bits (t.run es).2 * (1000000000 / t.rate.toNat) ≤ (t1 - t0) + max 5000000 (8 * L * (1000000000 / t.rate.toNat)) := by
  obtain ⟨s, a⟩ := run_account (B := 0) hL ht1 es t hr rfl hw hx
    (fun i j ⟨_, _, _, h⟩ => by rw [hq i] at h; cases h)
    ⟨fun i a b h => (by rw [hq i] at h; cases h), fun i a b c h => (by rw [hq i] at h; cases h)⟩
    ⟨hm, .inl rfl⟩
  rw [Nat.zero_add] at a
  rcases a.bill with h | ⟨h1, h2⟩
  · rw [h, Nat.zero_mul]; exact Nat.zero_le _
  · generalize bits (t.run es).2 * (1000000000 / t.rate.toNat) = X at *
    generalize 8 * L * (1000000000 / t.rate.toNat) = M at *
    omega

/-- The CPU of an event. -/
def TEv.on : TEv → Nat
  | .enter i _ _ | .load i | .finish i => i

theorem step_off (t : Timer) (e : TEv) {j : Nat} (h : j ≠ e.on) : (t.step e).1.cpu j = t.cpu j := by
  cases e with
  | enter i _ _ =>
    simp only [Timer.step]; cases t.cpu i <;> simp only [setCpu_other _ _ (show j ≠ i from h)]
  | load i =>
    simp only [Timer.step]; cases t.cpu i <;> simp only [setCpu_other _ _ (show j ≠ i from h)]
  | finish i =>
    simp only [Timer.step]
    cases t.cpu i with
    | loaded a b c => cases h' : limitRate a c t.rate b <;> simp only [h', setCpu_other _ _ (show j ≠ i from h)]
    | _ => rfl

theorem exclusive_one (k : Nat) (es : List TEv) (t : Timer) (h : ∀ e ∈ es, e.on = k) (hq : ∀ j, j ≠ k → t.cpu j = .idle) : Exclusive t es := by
  induction es generalizing t with
  | nil => trivial
  | cons e es ih =>
    have hk := h e (.head _)
    have hq' : ∀ j, j ≠ k → (t.step e).1.cpu j = .idle := fun j hj => by rw [step_off t e (by rw [hk]; exact hj)]; exact hq j hj
    have ins : ∀ i, (t.step e).1.inside i → i = k := fun i ⟨_, _, _, hi⟩ => by
      by_cases hik : i = k
      · exact hik
      · rw [hq' i hik] at hi; cases hi
    exact ⟨fun i j hi hj => (ins i hi).trans (ins j hj).symm, ih _ (fun e he => h e (.tail _ he)) hq'⟩

/-- C74, part: if all traffic of the timer is handled by one CPU the bound holds. -/
theorem C74_one_cpu_partial {t0 t1 L k : Nat} {t : Timer} {es : List TEv} (hr : t.rate ≠ 0) (hq : t.quiet) (hk : ∀ e ∈ es, e.on = k)
    (hw : Within t0 t1 L es) (hL : L < 2 ^ 29) (ht1 : t1 < 2 ^ 62) (ht : t0 ≤ t1) (hm : t.mem.toNat < 2 ^ 63) :
    bits (t.run es).2 * (1000000000 / t.rate.toNat) ≤ (t1 - t0) + max 5000000 (8 * L * (1000000000 / t.rate.toNat)) :=
  C74_exclusive_partial hr hq (exclusive_one k es t hk (fun j _ => hq j)) hw hL ht1 ht hm

/-- packets on one CPU, one after the other -/
example : ∃ (t : Timer) (es : List TEv), t.rate ≠ 0 ∧ t.quiet ∧ Exclusive t es ∧ Within 6000000 6000000 60 es ∧ bits (t.run es).2 = 960 :=
  ⟨⟨1000000000, 0, fun _ => .idle⟩, [.enter 3 60 6000000, .load 3, .finish 3, .enter 3 60 6000000, .load 3, .finish 3],
    by decide, fun _ => rfl, exclusive_one 3 _ _ (by decide) (fun _ _ => rfl),
    (fun i s n h => by simp at h; rcases h with ⟨_, rfl, rfl⟩; decide), by decide⟩

/-! #### the bound does not hold -/

theorem run_append (t : Timer) (a b : List TEv) :
    t.run (a ++ b) = (((t.run a).1.run b).1, (t.run a).2 ++ ((t.run a).1.run b).2) := by
  induction a generalizing t with
  | nil => rfl
  | cons e a ih => simp only [List.cons_append, Timer.run, ih, List.append_assoc]
theorem run_one (t : Timer) (e : TEv) : t.run [e] = t.step e := by simp only [Timer.run, List.append_nil]
theorem bits_append (a b : List (U64 × U64)) : bits (a ++ b) = bits a + bits b := by
  simp only [bits, List.map_append, List.sum_append]

theorem setCpu_below {α : Type} (n : Nat) (x y : α) :
    setCpu (fun j => if j < n then x else y) n x = fun j => if j < n + 1 then x else y := by
  funext j
  unfold setCpu
  by_cases h : j = n
  · subst h; rw [if_pos rfl, if_pos (Nat.lt_succ_self _)]
  · simp only [if_neg h]
    by_cases h' : j < n
    · rw [if_pos h', if_pos (by omega)]
    · rw [if_neg h', if_neg (by omega)]

theorem setCpu_swap {α : Type} (n m : Nat) (h : n < m) (x y z : α) :
    setCpu (fun j => if j < n then x else if j < m then y else z) n x = fun j => if j < n + 1 then x else if j < m then y else z := by
  funext j
  unfold setCpu
  by_cases h : j = n
  · subst h; rw [if_pos rfl, if_pos (Nat.lt_succ_self _)]
  · simp only [if_neg h]
    by_cases h' : j < n
    · rw [if_pos h', if_pos (by omega)]
    · rw [if_neg h', if_neg (show ¬ j < n + 1 by omega)]

theorem ite_self_lt {α : Type} (m : Nat) (x y : α) : (fun j : Nat => if j < m then x else y) = fun j => if j < 0 then y else if j < m then x else y := by
  funext j; rw [if_neg (Nat.not_lt_zero j)]

/-- One round: `n` CPUs receive a packet of 60 octets at the same time, all load the timer, then all store it. -/
def round (n : Nat) (now : U64) : List TEv :=
  (List.range n).map (fun i => .enter i 60 now) ++ ((List.range n).map .load ++ (List.range n).map .finish)

theorem enters (n : Nat) (r m now : U64) :
    (Timer.mk r m (fun _ => .idle)).run ((List.range n).map (fun i => .enter i 60 now)) =
    (⟨r, m, fun j => if j < n then .entered 60 now else .idle⟩, []) := by
  induction n with
  | zero => simp only [List.range_zero, List.map_nil, Timer.run, Nat.not_lt_zero, if_false]
  | succ n ih =>
    rw [List.range_succ, List.map_append, run_append, ih]
    simp only [List.map_cons, List.map_nil, run_one, Timer.step, Nat.lt_irrefl, if_false, setCpu_below, List.append_nil]
theorem loads (n N : Nat) (h : n ≤ N) (r m now : U64) :
    (Timer.mk r m (fun j => if j < N then .entered 60 now else .idle)).run ((List.range n).map .load) =
    (⟨r, m, fun j => if j < n then .loaded 60 now m else if j < N then .entered 60 now else .idle⟩, []) := by
  induction n with
  | zero => simp only [List.range_zero, List.map_nil, Timer.run, Nat.not_lt_zero, if_false]
  | succ n ih =>
    rw [List.range_succ, List.map_append, run_append, ih (by omega)]
    simp only [List.map_cons, List.map_nil, run_one, Timer.step, Nat.lt_irrefl, if_false, if_pos (show n < N by omega),
      setCpu_swap _ _ (show n < N by omega), List.append_nil]
theorem finishes (n N : Nat) (h : n ≤ N) (r m now m' : U64) (hr : r ≠ 0) (hl : limitRate 60 m r now = some m') :
    (Timer.mk r m (fun j => if j < N then .loaded 60 now m else .idle)).run ((List.range n).map .finish) =
    (⟨r, if n = 0 then m else m', fun j => if j < n then .idle else if j < N then .loaded 60 now m else .idle⟩, List.replicate n (60, now)) := by
  induction n with
  | zero => simp only [List.range_zero, List.map_nil, Timer.run, Nat.not_lt_zero, if_false, List.replicate_zero, if_true]
  | succ n ih =>
    rw [List.range_succ, List.map_append, run_append, ih (by omega)]
    simp only [List.map_cons, List.map_nil, run_one, Timer.step, Nat.lt_irrefl, if_false, if_pos (show n < N by omega), hl, if_neg hr,
      setCpu_swap _ _ (show n < N by omega), Nat.succ_ne_zero, List.replicate_succ']

theorem round_run (n : Nat) (hn : n ≠ 0) (r m now m' : U64) (hr : r ≠ 0) (hl : limitRate 60 m r now = some m') :
    (Timer.mk r m (fun _ => .idle)).run (round n now) = (⟨r, m', fun _ => .idle⟩, List.replicate n (60, now)) := by
  have e : ∀ (x y : Lim), (fun j : Nat => if j < n then x else if j < n then y else .idle) = fun j => if j < n then x else .idle := by
    intro x y; funext j; by_cases h : j < n <;> simp only [h, if_true, if_false]
  unfold round
  rw [run_append, enters, run_append, loads n n (Nat.le_refl _), e]
  simp only [finishes n n (Nat.le_refl _) r m now m' hr hl, if_neg hn, e, List.nil_append]
  congr 2
  funext j; split <;> rfl

/-- rounds of `n` packets, one every `480` nanoseconds from `now` on -/
def rounds (n : Nat) (now : Nat) : Nat → List TEv
  | 0 => []
  | k + 1 => rounds n now k ++ round n (BitVec.ofNat 64 (now + 480 * k))

theorem rounds_lim (now k : Nat) (h0 : 5000000 ≤ now) (h : now + 480 * k < 2 ^ 62) :
    limitRate 60 (BitVec.ofNat 64 (now - 5000000 + 480 * k)) 1000000000 (BitVec.ofNat 64 (now + 480 * k)) =
      some (BitVec.ofNat 64 (now - 5000000 + 480 * (k + 1))) := by
  have t1 : (60 * 8 * (1000000000 / 1000000000) : U64) = BitVec.ofNat 64 480 := by decide
  have t2 : (5000000 : U64).toNat = 5000000 := by decide
  have t3 : ((480 : Nat) : Int) = 480 := rfl
  obtain ⟨x, rfl⟩ : ∃ x, now = x + 5000000 := ⟨now - 5000000, by omega⟩
  generalize hW : (5000000 : U64) = W at *
  generalize hV : (5000000 : Nat) = V at *
  rw [Nat.add_sub_cancel, Nat.mul_succ, ← Nat.add_assoc]
  generalize 480 * k = K at *
  unfold limitRate
  rw [if_neg (by decide)]
  simp only [t1, hW]
  rw [if_neg, if_neg, ← BitVec.ofNat_add]
  · rw [BitVec.lt_def, BitVec.toNat_add, BitVec.toNat_ofNat, BitVec.toNat_ofNat, t2]; omega
  · rw [gt_iff_lt, BitVec.lt_def, BitVec.toNat_add, BitVec.toNat_ofNat, BitVec.toNat_ofNat, BitVec.toNat_ofNat]; omega

theorem rounds_run (n now k : Nat) (hn : n ≠ 0) (h0 : 5000000 ≤ now) (h : now + 480 * k < 2 ^ 62) :
    ∃ out, (Timer.mk 1000000000 (BitVec.ofNat 64 (now - 5000000)) (fun _ => .idle)).run (rounds n now k) =
      (⟨1000000000, BitVec.ofNat 64 (now - 5000000 + 480 * k), fun _ => .idle⟩, out) ∧ bits out = 480 * n * k := by
  induction k with
  | zero =>
    refine ⟨[], ?_, by rw [Nat.mul_zero]; rfl⟩
    rw [Nat.mul_zero, Nat.add_zero]
    generalize now - 5000000 = x
    rfl
  | succ k ih =>
    obtain ⟨out, h1, h2⟩ := ih (by omega)
    unfold rounds
    rw [run_append, h1]
    have hl := rounds_lim now k h0 (by omega)
    simp only [round_run n hn _ _ _ _ (show (1000000000 : U64) ≠ 0 by decide) hl]
    refine ⟨_, Prod.ext (Eq.refl _) (Eq.refl _), ?_⟩
    rw [bits_append, h2]
    have : bits (List.replicate n (60, BitVec.ofNat 64 (now + 480 * k))) = 480 * n := by
      unfold bits
      rw [List.map_replicate, List.sum_replicate_nat]
      show n * (8 * 60) = 480 * n
      omega
    rw [this, Nat.mul_succ]

/-- C74 does not hold: with `n` CPUs a rate limit of 1 Gbit/s lets `n` Gbit/s pass, for any time. (Packets of 60 octets, `n` at a time, one
each on `n` CPUs, 480 nanoseconds apart: all pass. Their transmission time at the configured rate is `n` times the interval.) -/
theorem C74_multiplied (n k now : Nat) (hn : n ≠ 0) (h0 : 5000000 ≤ now) (h : now + 480 * k < 2 ^ 62) :
    ∃ (t : Timer) (es : List TEv), t.rate = 1000000000 ∧ t.quiet ∧ t.mem.toNat < 2 ^ 63 ∧ (∀ e ∈ es, e.on < n) ∧
      Within now (now + 480 * k) 60 es ∧ bits (t.run es).2 * (1000000000 / t.rate.toNat) = n * (480 * k) := by
  obtain ⟨out, h1, h2⟩ := rounds_run n now k hn h0 h
  have mem : ∀ k, ∀ e ∈ rounds n now k, e.on < n ∧ ∀ i s x, e = .enter i s x → s = 60 ∧ ∃ q, q < k ∧ x = BitVec.ofNat 64 (now + 480 * q) := by
    intro k
    induction k with
    | zero => intro e he; cases he
    | succ k ih =>
      intro e he
      simp only [rounds, round, List.mem_append, List.mem_map, List.mem_range] at he
      rcases he with he | ⟨i, hi, rfl⟩ | ⟨i, hi, rfl⟩ | ⟨i, hi, rfl⟩
      · exact ⟨(ih e he).1, fun i s x hx => by obtain ⟨a, q, b, c⟩ := (ih e he).2 i s x hx; exact ⟨a, q, by omega, c⟩⟩
      · exact ⟨hi, fun _ _ _ hx => by cases hx; exact ⟨rfl, k, by omega, rfl⟩⟩
      · exact ⟨hi, fun _ _ _ hx => by cases hx⟩
      · exact ⟨hi, fun _ _ _ hx => by cases hx⟩
  refine ⟨_, rounds n now k, rfl, fun _ => rfl, ?_, fun e he => (mem k e he).1, ?_, by rw [h1, h2, show (1000000000 / (1000000000 : U64).toNat) = 1 from rfl, Nat.mul_one, Nat.mul_comm 480, Nat.mul_assoc]⟩
  · simp only [BitVec.toNat_ofNat]; omega
  · intro i s x he
    obtain ⟨rfl, q, hq, rfl⟩ := (mem k _ he).2 i s x rfl
    refine ⟨by decide, ?_⟩
    rw [BitVec.toNat_ofNat]; omega

/-- eight CPUs, one second: 8 Gbit against the bound's 1.005 Gbit -/
example : ∃ (t : Timer) (es : List TEv), t.rate = 1000000000 ∧ t.quiet ∧ Within 5000000 1004999840 60 es ∧
    ¬ bits (t.run es).2 * (1000000000 / t.rate.toNat) ≤ (1004999840 - 5000000) + max 5000000 (8 * 60 * (1000000000 / t.rate.toNat)) := by
  obtain ⟨t, es, a, b, _, _, c, d⟩ := C74_multiplied 8 2083333 5000000 (by decide) (by decide) (by decide)
  exact ⟨t, es, a, b, c, by rw [d, a]; decide⟩

/-! ### C75: usage volumes -/

/-- A CPU between load and store, or user space between looking up and clearing. -/
def Volume.inside (v : Volume) : Option Nat → Prop
  | some i => v.cpu i ≠ none
  | none => v.user ≠ none
/-- At most one of them at a time. -/
def Volume.one (v : Volume) : Prop := ∀ i j, v.inside i → v.inside j → i = j
/-- Never two of them at a time. -/
def VExclusive (v : Volume) : List VEv → Prop
  | [] => True
  | e :: es => (v.step e).1.one ∧ VExclusive (v.step e).1 es
/-- The volume of the packets that the CPUs count (the amounts added by the stores that take place). -/
def charged (v : Volume) : List VEv → Nat
  | [] => 0
  | e :: es => (match e with
      | .store i => match v.cpu i with
        | some (_, n) => n.toNat
        | none => 0
      | _ => 0) + charged (v.step e).1 es
/-- The sum of the volumes reported. -/
def reported (l : List U64) : Nat := (l.map (·.toNat)).sum

/-- what is loaded is still in memory -/
def Volume.fresh (v : Volume) : Prop := (∀ i x n, v.cpu i = some (x, n) → x = v.mem) ∧ (∀ x, v.user = some x → x = v.mem)

theorem vol_account (es : List VEv) (v : Volume) (hx : VExclusive v es) (ho : v.one) (hf : v.fresh)
    (hs : v.mem.toNat + charged v es < 2 ^ 64) : (v.run es).1.mem.toNat + reported (v.run es).2 = v.mem.toNat + charged v es := by
  induction es generalizing v with
  | nil => rfl
  | cons e es ih =>
    obtain ⟨hx1, hx2⟩ := hx
    have ih' := ih (v.step e).1 hx2 hx1
    clear ih
    cases e with
    | load i n =>
      cases hi : v.cpu i with
      | some y =>
        simp only [charged, Volume.run, Volume.step, hi, Option.toList, List.nil_append, Nat.zero_add] at *
        exact ih' hf hs
      | none =>
        simp only [charged, Volume.run, Volume.step, hi, Option.toList, List.nil_append, Nat.zero_add] at *
        refine ih' ⟨?_, hf.2⟩ hs
        intro j x m h
        by_cases hj : j = i
        · subst hj; simp only [setCpu_same] at h; cases h; rfl
        · simp only [setCpu_other _ _ hj] at h; exact hf.1 j x m h
    | store i =>
      cases hi : v.cpu i with
      | none =>
        simp only [charged, Volume.run, Volume.step, hi, Option.toList, List.nil_append, Nat.zero_add] at *
        exact ih' hf hs
      | some y =>
        obtain ⟨x, n⟩ := y
        have hxm := hf.1 i x n hi
        subst hxm
        have in_i : v.inside (some i) := by show v.cpu i ≠ none; rw [hi]; exact fun h => by cases h
        simp only [charged, Volume.run, Volume.step, hi, Option.toList, List.nil_append] at *
        have e1 : (v.mem + n).toNat = v.mem.toNat + n.toNat := by rw [BitVec.toNat_add]; omega
        rw [e1] at ih'
        rw [← Nat.add_assoc]
        refine ih' ⟨?_, ?_⟩ (by omega)
        · intro j x m h
          by_cases hj : j = i
          · subst hj; simp only [setCpu_same] at h; cases h
          · simp only [setCpu_other _ _ hj] at h
            have := ho (some j) (some i) (by show v.cpu j ≠ none; rw [h]; exact fun h => by cases h) in_i
            exact absurd (Option.some.inj this) hj
        · intro x h
          have := ho none (some i) (by show v.user ≠ none; rw [h]; exact fun h => by cases h) in_i
          cases this
    | lookup =>
      cases hu : v.user with
      | some y =>
        simp only [charged, Volume.run, Volume.step, hu, Option.toList, List.nil_append, Nat.zero_add] at *
        exact ih' hf hs
      | none =>
        simp only [charged, Volume.run, Volume.step, hu, Option.toList, List.nil_append, Nat.zero_add] at *
        exact ih' ⟨hf.1, fun x h => by cases h; rfl⟩ hs
    | reset =>
      cases hu : v.user with
      | none =>
        simp only [charged, Volume.run, Volume.step, hu, Option.toList, List.nil_append, Nat.zero_add] at *
        exact ih' hf hs
      | some y =>
        have hy := hf.2 y hu
        subst hy
        have in_u : v.inside none := by show v.user ≠ none; rw [hu]; exact fun h => by cases h
        simp only [charged, Volume.run, Volume.step, hu, Option.toList, List.cons_append, List.nil_append, Nat.zero_add] at *
        have := ih' ⟨?_, fun x h => by cases h⟩ (show (0 : U64).toNat + _ < _ by rw [show (0 : U64).toNat = 0 from rfl]; omega)
        · rw [show (0 : U64).toNat = 0 from rfl] at this
          have e2 : ∀ l, reported (v.mem :: l) = v.mem.toNat + reported l := fun l => rfl
          rw [e2]; omega
        · intro j x m h
          have := ho (some j) none (by show v.cpu j ≠ none; rw [h]; exact fun h => by cases h) in_u
          cases this

/-- No CPU and no user-space thread is in the middle of an access. -/
def Volume.quiet (v : Volume) : Prop := (∀ i, v.cpu i = none) ∧ v.user = none

/-- C75, part: as long as never two of the CPUs and user space are in the middle of an access to the volume, no octet is lost and none
reported twice: what is reported and what is in the table is what was there and what was counted. -/
theorem C75_exclusive_partial {v : Volume} {es : List VEv} (hq : v.quiet) (hx : VExclusive v es) (hs : v.mem.toNat + charged v es < 2 ^ 64) :
    (v.run es).1.mem.toNat + reported (v.run es).2 = v.mem.toNat + charged v es :=
  vol_account es v hx
    (fun i j hi _ => by cases i with
      | none => exact absurd hq.2 hi
      | some i => exact absurd (hq.1 i) hi)
    ⟨fun i x n h => (by rw [hq.1 i] at h; cases h), fun x h => (by rw [hq.2] at h; cases h)⟩ hs

/-- no user-space access -/
def NoReport (es : List VEv) : Prop := ∀ e ∈ es, e ≠ .reset

theorem vol_bound (es : List VEv) (v : Volume) (B : Nat) (hn : NoReport es) (hm : v.mem.toNat ≤ B) (hc : ∀ i x n, v.cpu i = some (x, n) → x.toNat ≤ B) :
    (v.run es).1.mem.toNat ≤ B + charged v es := by
  induction es generalizing v B with
  | nil => exact hm
  | cons e es ih =>
    have hn' : NoReport es := fun e he => hn e (.tail _ he)
    cases e with
    | load i n =>
      cases hi : v.cpu i with
      | some y => simp only [charged, Volume.run, Volume.step, hi, Nat.zero_add]; exact ih v B hn' hm hc
      | none =>
        simp only [charged, Volume.run, Volume.step, hi, Nat.zero_add]
        refine ih _ B hn' hm ?_
        intro j x m h
        by_cases hj : j = i
        · subst hj; simp only [setCpu_same] at h; cases h; exact hm
        · simp only [setCpu_other _ _ hj] at h; exact hc j x m h
    | store i =>
      cases hi : v.cpu i with
      | none => simp only [charged, Volume.run, Volume.step, hi, Nat.zero_add]; exact ih v B hn' hm hc
      | some y =>
        obtain ⟨x, n⟩ := y
        have h1 := hc i x n hi
        simp only [charged, Volume.run, Volume.step, hi]
        rw [← Nat.add_assoc]
        refine ih _ (B + n.toNat) hn' ?_ ?_
        · show (x + n).toNat ≤ _
          rw [BitVec.toNat_add]; exact Nat.le_trans (Nat.mod_le _ _) (by omega)
        · intro j y m h
          by_cases hj : j = i
          · subst hj; simp only [setCpu_same] at h; cases h
          · simp only [setCpu_other _ _ hj] at h; have := hc j y m h; omega
    | lookup =>
      cases hu : v.user with
      | some y => simp only [charged, Volume.run, Volume.step, hu, Nat.zero_add]; exact ih v B hn' hm hc
      | none => simp only [charged, Volume.run, Volume.step, hu, Nat.zero_add]; exact ih _ B hn' hm hc
    | reset => exact absurd rfl (hn _ (.head _))

/-- C75, part: however the CPUs interleave, between two reports the table never shows more than was counted. -/
theorem C75_never_more_partial {v : Volume} {es : List VEv} (hq : v.quiet) (hn : NoReport es) :
    (v.run es).1.mem.toNat ≤ v.mem.toNat + charged v es :=
  vol_bound es v _ hn (Nat.le_refl _) (fun i x n h => by rw [hq.1 i] at h; cases h)

/-- two packets counted, reported, one more: nothing lost, nothing twice; and the hypotheses hold -/
example : ∃ (v : Volume) (es : List VEv), v.quiet ∧ charged v es = 180 ∧ (v.run es).2 = [120] ∧ (v.run es).1.mem = 60 ∧
    NoReport (es.take 4) ∧ charged v (es.take 4) = 120 :=
  ⟨⟨0, fun _ => none, none⟩, [.load 0 60, .store 0, .load 1 60, .store 1, .lookup, .reset, .load 0 60, .store 0],
    ⟨fun _ => rfl, rfl⟩, by decide, by decide, by decide, (fun e he => by simp at he; rcases he with rfl | rfl | rfl | rfl <;> exact fun h => by cases h), by decide⟩
/-- and the accesses are one after the other -/
example : VExclusive ⟨0, fun _ => none, none⟩ [.load 0 60, .store 0, .lookup, .reset] := by
  have idle : ∀ (f : Nat → Option (U64 × U64)) j, (∀ k, f k = none) → setCpu f 0 none j = none := fun f j h => by
    unfold setCpu; split
    · rfl
    · exact h j
  have z : ∀ j, setCpu (setCpu (fun _ => none) 0 (some ((0 : U64), (60 : U64)))) 0 none j = none := fun j => by
    unfold setCpu; split <;> rfl
  refine ⟨?_, ?_, ?_, ?_, trivial⟩
  · intro i j hi hj
    have : ∀ i, (Volume.step ⟨0, fun _ => none, none⟩ (.load 0 60)).1.inside i → i = some 0 := by
      intro i hi
      cases i with
      | none => exact absurd rfl hi
      | some i =>
        by_cases h : i = 0
        · rw [h]
        · exact absurd (show setCpu _ 0 _ i = none from setCpu_other _ _ h) hi
    exact (this i hi).trans (this j hj).symm
  all_goals
    intro i j hi hj
    cases i with
    | some i => exact absurd (z i) hi
    | none =>
      cases j with
      | some j => exact absurd (z j) hj
      | none => rfl

theorem vrun_append (v : Volume) (a b : List VEv) : v.run (a ++ b) = (((v.run a).1.run b).1, (v.run a).2 ++ ((v.run a).1.run b).2) := by
  induction a generalizing v with
  | nil => rfl
  | cons e a ih => simp only [List.cons_append, Volume.run, ih, List.append_assoc]
theorem charged_append (v : Volume) (a b : List VEv) : charged v (a ++ b) = charged v a + charged (v.run a).1 b := by
  induction a generalizing v with
  | nil => simp only [List.nil_append, charged, Nat.zero_add, Volume.run]
  | cons e a ih => simp only [List.cons_append, charged, Volume.run, ih, Nat.add_assoc]

/-- `k` CPUs load, then all store -/
def together (k : Nat) (n : U64) : List VEv := (List.range k).map (fun i => .load i n) ++ (List.range k).map .store

theorem vloads (k : Nat) (m n : U64) : (Volume.mk m (fun _ => none) none).run ((List.range k).map (fun i => .load i n)) =
    (⟨m, fun j => if j < k then some (m, n) else none, none⟩, []) ∧
    charged ⟨m, fun _ => none, none⟩ ((List.range k).map (fun i => .load i n)) = 0 := by
  induction k with
  | zero => simp only [List.range_zero, List.map_nil, Volume.run, Nat.not_lt_zero, if_false, charged, and_self]
  | succ k ih =>
    rw [List.range_succ, List.map_append, vrun_append, charged_append, ih.1, ih.2]
    simp only [List.map_cons, List.map_nil, Volume.run, Volume.step, Nat.lt_irrefl, if_false, setCpu_below, List.append_nil, charged, Option.toList,
      Nat.add_zero, and_self]
theorem vstores (k K : Nat) (h : k ≤ K) (m n : U64) :
    (Volume.mk m (fun j => if j < K then some (m, n) else none) none).run ((List.range k).map .store) =
    (⟨if k = 0 then m else m + n, fun j => if j < k then none else if j < K then some (m, n) else none, none⟩, []) ∧
    charged ⟨m, fun j => if j < K then some (m, n) else none, none⟩ ((List.range k).map .store) = k * n.toNat := by
  induction k with
  | zero => simp only [List.range_zero, List.map_nil, Volume.run, Nat.not_lt_zero, if_false, charged, if_true, Nat.zero_mul, and_self]
  | succ k ih =>
    obtain ⟨i1, i2⟩ := ih (by omega)
    rw [List.range_succ, List.map_append, vrun_append, charged_append, i1, i2]
    simp only [List.map_cons, List.map_nil, Volume.run, Volume.step, Nat.lt_irrefl, if_false, if_pos (show k < K by omega),
      setCpu_swap _ _ (show k < K by omega), List.append_nil, charged, Option.toList, Nat.add_zero, Nat.succ_ne_zero, Nat.succ_mul, and_self]

/-- C75 does not hold: packets that `k` CPUs handle at the same time count as one. -/
theorem C75_lost (k : Nat) (hk : k ≠ 0) (m n : U64) :
    ∃ v es, v.quiet ∧ v.mem = m ∧ charged v es = k * n.toNat ∧ (v.run es).1.mem = m + n ∧ (v.run es).2 = [] ∧ (v.run es).1.quiet := by
  refine ⟨⟨m, fun _ => none, none⟩, together k n, ⟨fun _ => rfl, rfl⟩, rfl, ?_, ?_, ?_, ?_⟩
  all_goals unfold together
  · rw [charged_append, (vloads k m n).1, (vloads k m n).2, (vstores k k (Nat.le_refl _) m n).2, Nat.zero_add]
  all_goals
    rw [vrun_append, (vloads k m n).1]
    simp only [(vstores k k (Nat.le_refl _) m n).1, if_neg hk, List.nil_append]
  refine ⟨fun i => ?_, rfl⟩
  show (if i < k then none else if i < k then some (m, n) else none) = none
  by_cases h : i < k
  · rw [if_pos h]
  · rw [if_neg h, if_neg h]

/-- C75 does not hold: a volume that was reported is put back by a CPU that had loaded it, and is reported again. -/
theorem C75_reported_twice (m n : U64) :
    ∃ v es, v.quiet ∧ v.mem = m ∧ charged v es = n.toNat ∧ (v.run es).2 = [m, m + n] ∧ (v.run es).1.quiet := by
  refine ⟨⟨m, fun _ => none, none⟩, [.load 0 n, .lookup, .reset, .store 0, .lookup, .reset], ⟨fun _ => rfl, rfl⟩, rfl, ?_, ?_, fun i => ?_, ?_⟩
  · simp [charged, Volume.step, setCpu]
  · simp [Volume.run, Volume.step, setCpu]
  · simp [Volume.run, Volume.step, setCpu]
  · simp [Volume.run, Volume.step, setCpu]

/-- C75 does not hold: what is counted between the look-up of a report and the clearing of the table is never reported. -/
theorem C75_lost_at_report (m n : U64) :
    ∃ v es, v.quiet ∧ v.mem = m ∧ charged v es = n.toNat ∧ (v.run es).2 = [m] ∧ (v.run es).1.mem = 0 ∧ (v.run es).1.quiet := by
  refine ⟨⟨m, fun _ => none, none⟩, [.lookup, .load 0 n, .store 0, .reset], ⟨fun _ => rfl, rfl⟩, rfl, ?_, ?_, ?_, fun i => ?_, ?_⟩
  · simp [charged, Volume.step, setCpu]
  · simp [Volume.run, Volume.step, setCpu]
  · simp [Volume.run, Volume.step, setCpu]
  · simp [Volume.run, Volume.step, setCpu]
  · simp [Volume.run, Volume.step, setCpu]

/-! ### C76: a FAR that is replaced while a packet uses it -/

/-- The earliest and the latest read. -/
def Reads.between (r : Reads) (t : Nat) : Prop :=
  (r.action ≤ t ∨ r.ohc ≤ t ∨ r.tlm ≤ t ∨ r.remoteIP ≤ t ∨ r.teid ≤ t) ∧
  (t ≤ r.action ∨ t ≤ r.ohc ∨ t ≤ r.tlm ∨ t ≤ r.remoteIP ∨ t ≤ r.teid)

/-- C76, part: a packet during which the record is not replaced is treated by one record. -/
theorem C76_stable_partial (r : Reads) (v : Nat → FarInfo) (f : FarInfo) (h : ∀ t, r.between t → v t = f) : r.far v = f := by
  unfold Reads.far
  rw [h r.action ⟨.inl (Nat.le_refl _), .inl (Nat.le_refl _)⟩, h r.ohc ⟨.inr (.inl (Nat.le_refl _)), .inr (.inl (Nat.le_refl _))⟩,
    h r.tlm ⟨.inr (.inr (.inl (Nat.le_refl _))), .inr (.inr (.inl (Nat.le_refl _)))⟩,
    h r.remoteIP ⟨.inr (.inr (.inr (.inl (Nat.le_refl _)))), .inr (.inr (.inr (.inl (Nat.le_refl _))))⟩,
    h r.teid ⟨.inr (.inr (.inr (.inr (Nat.le_refl _)))), .inr (.inr (.inr (.inr (Nat.le_refl _))))⟩]

/-- C76 does not hold: whatever the old and the new tunnel, when the record is replaced once, between the reads of the address and of the
TEID, the packet goes to the old base station with the TEID of the new one, if both FARs forward. -/
theorem C76_mixed (old new : FarInfo) :
    ∃ (r : Reads) (v : Nat → FarInfo), (∀ t, v t = if t < 4 then old else new) ∧
      r.action < r.ohc ∧ r.ohc < r.tlm ∧ r.tlm < r.remoteIP ∧ r.remoteIP < r.teid ∧
      (r.far v).remoteIP = old.remoteIP ∧ (r.far v).teid = new.teid ∧ (r.far v).action = old.action :=
  ⟨⟨0, 1, 2, 3, 4⟩, fun t => if t < 4 then old else new, fun _ => rfl, by decide, by decide, by decide, by decide, rfl, rfl, rfl⟩

/-- a handover: neither tunnel is used -/
example : ∃ (r : Reads) (v : Nat → FarInfo), (r.far v) ≠ v 3 ∧ r.far v ≠ v 4 ∧ (v 3).remoteIP = 0x0100000a ∧ (v 4).remoteIP = 0x0200000a :=
  ⟨⟨0, 1, 2, 3, 4⟩, fun t => if t < 4 then ⟨2, 1, 7, 0x0100000a, 0⟩ else ⟨2, 1, 9, 0x0200000a, 0⟩, by decide, by decide, by decide, by decide⟩

end Eupf.Smp
