import Verif.TimerLemmas
/-
C116: the bit rate of a session across requests.
-/
namespace Eupf

/-! ### lists -/

theorem sentBits_cons (P : List (Ev × Outcome) → Env → List U8 → Prop) (p : Passed) (l : List Passed) :
    (P p.hist p.env p.frame ∧ p.act.sent = true → sentBits P (p :: l) = 8 * p.frame.length + sentBits P l) ∧
    (¬ (P p.hist p.env p.frame ∧ p.act.sent = true) → sentBits P (p :: l) = sentBits P l) := by
  classical
  refine ⟨fun h => ?_, fun h => ?_⟩
  · rw [sentBits, if_pos h]
  · rw [sentBits, if_neg h, Nat.zero_add]

theorem restarts_cons (a : Addr) (s : U64) (j : U32) (x : Ev × Outcome) (h : List (Ev × Outcome)) :
    (x.1.touches a s j → restarts a s j (x :: h) = restarts a s j h + 1) ∧ (¬ x.1.touches a s j → restarts a s j (x :: h) = restarts a s j h) := by
  classical
  refine ⟨fun ht => ?_, fun ht => ?_⟩
  · unfold restarts; rw [List.filter_cons_of_pos (by simpa using ht)]; rfl
  · unfold restarts; rw [List.filter_cons_of_neg (by simpa using ht)]

/-- the time of the last packet -/
def lastTime (clock : Env → U64) (t0 : Nat) : List Passed → Nat
  | [] => t0
  | p :: _ => (clock p.env).toNat

theorem Timeline.hist {P : Node → Ev → Prop} {ni n0 n : Node} {h0 h : List (Ev × Outcome)} {l : List Passed} (H0 : HistP P ni h0 n0)
    (T : Timeline P h0 n0 h l n) : HistP P ni (h ++ h0) n := by
  induction T with
  | start => exact H0
  | packet _ hrun ih => exact .traffic ih (packetRes_effect (entry_det hrun))
  | request e _ hp hc ih => exact .step e ih hp hc

theorem InTime.tail {clock : Env → U64} {t0 t1 L : Nat} {p : Passed} {l : List Passed} (h : InTime clock t0 t1 L (p :: l)) : InTime clock t0 t1 L l :=
  ⟨(List.pairwise_cons.1 h.order).2, fun x hx => h.time x (.tail _ hx), fun x hx => h.size x (.tail _ hx), h.sane, h.short⟩

theorem InTime.last {clock : Env → U64} {t0 t1 L : Nat} {l : List Passed} (h : InTime clock t0 t1 L l) (h01 : t0 ≤ t1) :
    t0 ≤ lastTime clock t0 l ∧ lastTime clock t0 l ≤ t1 := by
  cases l with
  | nil => exact ⟨Nat.le_refl _, h01⟩
  | cons p l => exact h.time p (.head _)

/-! ### accounts -/

theorem Account.later {c t0 t1 t2 M : Nat} {start : U64} {B : Nat} (a : Account c t0 t1 M start B) (h : t1 ≤ t2) : Account c t0 t2 M start B :=
  ⟨a.small, a.bill.imp id fun ⟨x, y⟩ => ⟨x, by omega⟩⟩

/-- After `k` restarts, `bits` bits were let through since `t0`. -/
structure Bank (c t0 M now k : Nat) (start : U64) (bits : Nat) : Prop where
  acc : ∃ ts Bd Bs, t0 ≤ ts ∧ ts ≤ now ∧ bits = Bd + Bs ∧ Bd * c ≤ (ts - t0) + k * max 5000000 M ∧ Account c ts now M start Bs

theorem Bank.restart {c t0 M now k : Nat} {start start' : U64} {bits : Nat} (b : Bank c t0 M now k start bits) (hs : start'.toNat < 2 ^ 63) :
    Bank c t0 M now (k + 1) start' bits := by
  obtain ⟨ts, Bd, Bs, h1, h2, h3, h4, h5⟩ := b.acc
  refine ⟨now, bits, 0, by omega, Nat.le_refl _, rfl, ?_, hs, .inl rfl⟩
  have e : bits * c = Bd * c + Bs * c := by rw [h3, Nat.add_mul]
  have hX : (k + 1) * max 5000000 M = k * max 5000000 M + max 5000000 M := by rw [Nat.add_mul, Nat.one_mul]
  rw [e, hX]
  have b0 : Bs = 0 → Bs * c = 0 := fun h => by rw [h, Nat.zero_mul]
  have hbill := h5.bill
  clear h5
  generalize Bd * c = U at *
  generalize Bs * c = V at *
  generalize k * max 5000000 M = K at *
  rcases hbill with h | ⟨g1, g2⟩
  · have := b0 h; omega
  · omega

theorem Bank.total {c t0 M now k : Nat} {start : U64} {bits : Nat} (b : Bank c t0 M now k start bits) : bits * c ≤ (now - t0) + (k + 1) * max 5000000 M := by
  obtain ⟨ts, Bd, Bs, h1, h2, h3, h4, h5⟩ := b.acc
  have e : bits * c = Bd * c + Bs * c := by rw [h3, Nat.add_mul]
  have hX : (k + 1) * max 5000000 M = k * max 5000000 M + max 5000000 M := by rw [Nat.add_mul, Nat.one_mul]
  rw [e, hX]
  have b0 : Bs = 0 → Bs * c = 0 := fun h => by rw [h, Nat.zero_mul]
  have hbill := h5.bill
  clear h5
  generalize Bd * c = U at *
  generalize Bs * c = V at *
  generalize k * max 5000000 M = K at *
  rcases hbill with h | ⟨g1, g2⟩
  · have := b0 h; omega
  · omega

theorem air_lt {L c : Nat} (hL : L < 2 ^ 29) (hc : c ≤ 1000000000) : 8 * L * c < 2 ^ 62 :=
  Nat.lt_of_le_of_lt (Nat.mul_le_mul_left _ hc) (by omega)

/-! ### one direction -/

/-- What is different for uplink and downlink. -/
structure Limiter where
  clock : Env → U64
  start : QerInfo → U64
  rate : QerInfo → U32
  told : AQer → U64
  tr : BpfObjects → U32 → Env → List U8 → XAction → Prop
  of : List (Ev × Outcome) → Addr → U64 → U32 → Env → List U8 → Prop
  zero : ∀ v : QerInfo, v.startUL = 0 → v.startDL = 0 → start v = 0
  same : ∀ {Q : AQer} {q : QerInfo}, Q.Is q → (rate q).toNat = (told Q).toNat * 1000 % 2 ^ 32
  moves : ∀ {e b f fr dp a}, PacketRes e b f fr dp a → ∀ q,
    (∃ n s', n ≤ f.length ∧ limitRate (BitVec.ofNat 64 n) (start (b.qer.val q)) ((rate (b.qer.val q)).zeroExtend 64) (clock e) = some s' ∧ start (dp.qer.val q) = s' ∧
      (tr b q e f a → n = f.length)) ∨
    (start (dp.qer.val q) = start (b.qer.val q) ∧ ¬ tr b q e f a)

def Limiter.up : Limiter where
  clock := Env.tUL
  start := QerInfo.startUL
  rate := QerInfo.mbrUL
  told := AQer.mbrUL
  tr := UpTraffic
  of := UpOf
  zero _ h _ := h
  same h := h.mbrUL
  moves h q := (packet_startUL h q).imp (fun ⟨s', x⟩ => ⟨_, s', Nat.le_refl _, x.1, x.2, fun _ => rfl⟩) id

def Limiter.down : Limiter where
  clock := Env.tDL
  start := QerInfo.startDL
  rate := QerInfo.mbrDL
  told := AQer.mbrDL
  tr := DownTraffic
  of := DownOf
  zero _ _ h := h
  same h := h.mbrDL
  moves h q := packet_startDL h q

/-- Every timer stays where it can be (in the next 146 years). -/
theorem small_packet (K : Limiter) {e : Env} {b : BpfObjects} {f fr : List U8} {dp : BpfObjects} {a : XAction} (res : PacketRes e b f fr dp a)
    (ht : (K.clock e).toNat < 2 ^ 62) (hf : f.length < 2 ^ 29) (hs : ∀ g, (K.start (b.qer.val g)).toNat < 2 ^ 63) : ∀ g, (K.start (dp.qer.val g)).toNat < 2 ^ 63 := by
  intro g
  rcases K.moves res g with ⟨n, s', h1, h2, h3, -⟩ | ⟨h1, -⟩
  · rw [h3]
    have hsz : (BitVec.ofNat 64 n : U64).toNat = n := by rw [BitVec.toNat_ofNat]; exact Nat.mod_eq_of_lt (by omega)
    by_cases hr : ((K.rate (b.qer.val g)).zeroExtend 64 : U64) = 0
    · unfold limitRate at h2; rw [if_pos hr] at h2; cases h2; exact hs g
    · obtain ⟨p, q⟩ := limitRate_nat h2 hr (by rw [hsz]; omega) (hs g) ht
      have hc : 1000000000 / ((K.rate (b.qer.val g)).zeroExtend 64 : U64).toNat ≤ 1000000000 := Nat.div_le_self ..
      have hb : 8 * (BitVec.ofNat 64 n : U64).toNat * (1000000000 / ((K.rate (b.qer.val g)).zeroExtend 64 : U64).toNat) < 2 ^ 62 := by
        rw [hsz]; exact Nat.lt_of_le_of_lt (Nat.mul_le_mul_left _ hc) (by omega)
      generalize 8 * (BitVec.ofNat 64 n : U64).toNat * (1000000000 / ((K.rate (b.qer.val g)).zeroExtend 64 : U64).toNat) = T at *
      rcases q with ⟨q1, q2⟩ | ⟨q1, q2⟩ <;> omega
  · rw [h1]; exact hs g

theorem small_request (K : Limiter) {n : Node} (e : Ev) (hs : ∀ g, (K.start (n.dp.qer.val g)).toNat < 2 ^ 63) :
    ∀ g, (K.start ((n.step e).1.dp.qer.val g)).toNat < 2 ^ 63 :=
  timers_step (P := fun v => (K.start v).toNat < 2 ^ 63) (fun v h1 h2 => by rw [K.zero v h1 h2]; decide) hs e

theorem small_timeline (K : Limiter) {P : Node → Ev → Prop} {n0 n : Node} {h0 h : List (Ev × Outcome)} {l : List Passed} (T : Timeline P h0 n0 h l n)
    (hs : ∀ g, (K.start (n0.dp.qer.val g)).toNat < 2 ^ 63) (ht : ∀ p ∈ l, (K.clock p.env).toNat < 2 ^ 62) (hf : ∀ p ∈ l, p.frame.length < 2 ^ 29) :
    ∀ g, (K.start (n.dp.qer.val g)).toNat < 2 ^ 63 := by
  induction T with
  | start => exact hs
  | packet _ hrun ih =>
    exact small_packet K (entry_det hrun) (ht _ (.head _)) (hf _ (.head _)) (ih (fun p hp => ht p (.tail _ hp)) (fun p hp => hf p (.tail _ hp)))
  | request e _ _ _ ih => exact small_request K e (ih ht hf)

section
variable {cfg : NodeCfg} {rm : Option ResourceManager} {pz fz qz uz : U32} (hfz : 0 < fz.toNat) (hqz : 0 < qz.toNat)
    (huz : 0 < uz.toNat) {h0 h : List (Ev × Outcome)} {n0 n : Node} (H0 : HistP Clean (Node.init cfg rm (BpfObjects.load pz fz qz uz)) h0 n0)
    {l : List Passed} (T : Timeline Clean h0 n0 h l n)
include hfz hqz huz H0 T

theorem bank (K : Limiter) {a : Addr} {s : U64} {j : U32}
    (hof : ∀ {h n}, HistP Clean (Node.init cfg rm (BpfObjects.load pz fz qz uz)) h n → attempts h < 2 ^ 64 - 2 → ∀ {x : Session} {q : SQer}, n.session? a s = some x →
      x.qers.get? j = some q → ∀ {e f act}, K.of h a s j e f → act.sent = true → K.tr n.dp q.gid e f act)
    {m : U64} (hm : m ≠ 0) (hbig : m.toNat * 1000 < 2 ^ 32) {t0 t1 L : Nat} (h01 : t0 ≤ t1) (hs0 : ∀ g, (K.start (n0.dp.qer.val g)).toNat < 2 ^ 63)
    (hb : attempts (h ++ h0) < 2 ^ 64 - 2) (htold : ∀ h', h' <:+ h → ∃ Q, SaidQer (h' ++ h0) a s j Q ∧ K.told Q = m) (hin : InTime K.clock t0 t1 L l) :
    ∃ x q, n.session? a s = some x ∧ x.qers.get? j = some q ∧
      Bank (1000000000 / (m.toNat * 1000)) t0 (8 * L * (1000000000 / (m.toNat * 1000))) (lastTime K.clock t0 l) (restarts a s j h) (K.start (n.dp.qer.val q.gid))
        (sentBits (fun h => K.of h a s j) l) := by
  obtain ⟨c, hc⟩ : ∃ c, c = 1000000000 / (m.toNat * 1000) := ⟨_, rfl⟩
  rw [← hc]
  have hm' : m.toNat ≠ 0 := fun h => hm (BitVec.eq_of_toNat_eq h)
  -- the slot of the QER has the rate
  have rate : ∀ {h n}, HistP Clean (Node.init cfg rm (BpfObjects.load pz fz qz uz)) h n → ∀ {Q}, SaidQer h a s j Q → K.told Q = m →
      ∃ x q, n.session? a s = some x ∧ x.qers.get? j = some q ∧ (K.rate (n.dp.qer.val q.gid)).toNat = m.toNat * 1000 := by
    intro h n H Q hs hQ
    obtain ⟨x, q, qer, hx, hq, hl, hI⟩ := said_slot hfz hqz huz H hs
    refine ⟨x, q, hx, hq, ?_⟩
    rw [← lookup_val hl, K.same hI, hQ, Nat.mod_eq_of_lt hbig]
  induction T with
  | start =>
    obtain ⟨Q, hs, hQ⟩ := htold [] List.suffix_rfl
    obtain ⟨x, q, hx, hq, -⟩ := rate H0 hs hQ
    refine ⟨x, q, hx, hq, t0, 0, 0, Nat.le_refl _, Nat.le_refl _, rfl, by rw [Nat.zero_mul]; exact Nat.zero_le _, hs0 _, .inl rfl⟩
  | @packet h l n e f st rt s' act T hrun ih =>
    obtain ⟨x, q, hx, hq, B⟩ := ih hb htold hin.tail
    refine ⟨x, q, hx, hq, ?_⟩
    obtain ⟨Q, hs, hQ⟩ := htold h List.suffix_rfl
    have H := T.hist H0
    obtain ⟨x', q', hx', hq', hr⟩ := rate H hs hQ
    rw [hx] at hx'; cases hx'
    rw [hq] at hq'; cases hq'
    have res : PacketRes e n.dp f s'.frame s'.dp act := entry_det hrun
    show Bank c t0 _ (K.clock e).toNat _ (K.start (s'.dp.qer.val q.gid)) _
    have hts : t0 ≤ (K.clock e).toNat ∧ (K.clock e).toNat ≤ t1 := hin.time _ (.head _)
    have hsz : f.length ≤ L := hin.size _ (.head _)
    have hl : lastTime K.clock t0 l ≤ (K.clock e).toNat := by
      cases l with
      | nil => exact hts.1
      | cons p l => exact (List.pairwise_cons.1 hin.order).1 p (.head _)
    have hsame := hof H hb hx hq (e := e) (f := f) (act := act)
    obtain ⟨ts, Bd, Bs, h1, h2, h3, h4, h5⟩ := B.acc
    have h5 := h5.later hl
    have hbits := sentBits_cons (fun h => K.of h a s j) ⟨h ++ h0, e, f, act⟩ l
    have hshort := hin.short
    have hsane := hin.sane
    have hrr : m.toNat * 1000 = ((K.rate (n.dp.qer.val q.gid)).zeroExtend 64 : U64).toNat := hr.symm.trans (zext_toNat _).symm
    have hz : c = 1000000000 / ((K.rate (n.dp.qer.val q.gid)).zeroExtend 64 : U64).toNat := by rw [← hrr]; exact hc
    have hne : ((K.rate (n.dp.qer.val q.gid)).zeroExtend 64 : U64) ≠ 0 := by
      refine rate_ne ?_
      intro h; rw [h] at hr; have : (0 : U32).toNat = 0 := rfl; omega
    have hc1 : c ≤ 1000000000 := by rw [hc]; exact Nat.div_le_self ..
    have hM : 8 * L * c < 2 ^ 62 := air_lt hshort hc1
    have ofNat : ∀ {k}, k ≤ f.length → (BitVec.ofNat 64 k : U64).toNat = k := by
      intro k hk; rw [BitVec.toNat_ofNat]; exact Nat.mod_eq_of_lt (by omega)
    have hq8 : ∀ {k}, k ≤ f.length → 8 * (BitVec.ofNat 64 k : U64).toNat * c ≤ 8 * L * c := by
      intro k hk; rw [ofNat hk]; exact Nat.mul_le_mul_right _ (by omega)
    rcases K.moves res q.gid with ⟨k, st', g1, g2, g3, g4⟩ | ⟨g1, g2⟩
    · rw [g3]
      have hlt : (BitVec.ofNat 64 k : U64).toNat < 2 ^ 29 := by rw [ofNat g1]; omega
      by_cases hp : K.of (h ++ h0) a s j e f ∧ act.sent = true
      · rw [hbits.1 hp]
        have hk := g4 (hsame hp.1 hp.2)
        subst hk
        have := h5.charge hz hne g2 hlt (Nat.lt_of_le_of_lt hts.2 hsane) (by omega) (Nat.le_refl _) (hq8 g1) hM
        rw [ofNat g1] at this
        exact ⟨ts, Bd, _, h1, by omega, by rw [h3]; simp only; omega, h4, this⟩
      · rw [hbits.2 hp]
        exact ⟨ts, Bd, Bs, h1, by omega, h3, h4, h5.keep hz hne g2 hlt (Nat.lt_of_le_of_lt hts.2 hsane) (Nat.le_refl _) (hq8 g1) hM⟩
    · rw [g1]
      have hp : ¬ (K.of (h ++ h0) a s j e f ∧ act.sent = true) := fun hp => g2 (hsame hp.1 hp.2)
      rw [hbits.2 hp]
      exact ⟨ts, Bd, Bs, h1, by omega, h3, h4, h5⟩
  | @request h l n e T hp hcr ih =>
    have hb' : attempts (h ++ h0) < 2 ^ 64 - 2 := by
      have := attempts_cons (e, (n.step e).2) (h ++ h0)
      rw [List.cons_append] at hb; omega
    obtain ⟨x, q, hx, hq, B⟩ := ih hb' (fun h' hh => htold h' (hh.trans (List.suffix_cons _ _))) hin
    have H := T.hist H0
    by_cases ht : e.touches a s j
    · rw [(restarts_cons a s j (e, (n.step e).2) h).1 ht]
      obtain ⟨Q, hs, hQ⟩ := htold _ List.suffix_rfl
      obtain ⟨x', q', hx', hq', -⟩ := rate (.step e H hp hcr) hs hQ
      refine ⟨x', q', hx', hq', B.restart (small_request K e (small_timeline K T hs0 ?_ ?_) _)⟩
      · intro p hp; exact Nat.lt_of_le_of_lt (hin.time p hp).2 hin.sane
      · intro p hp; exact Nat.lt_of_le_of_lt (hin.size p hp) hin.short
    · rw [(restarts_cons a s j (e, (n.step e).2) h).2 ht]
      have G := (H.mono fun n e (h : Clean n e) => h.tidy.known).good fun _ _ h => h
      obtain ⟨⟨x', hx', hq'⟩, hv⟩ := slot_still (slots_reach G) hp.tidy.known ht ((linv_hist H.hist hb').fresh hb' (by rw [hx]; simp)) hx hq
      refine ⟨x', q, hx', hq', ?_⟩
      rw [hv]; exact B

/-- **C116, uplink.** Packets and requests in any order; as long as the session has QER `j` with an uplink MBR of `m` kbit/s: the uplink
traffic of the PDRs that name this QER (at the time of the packet) that is sent on between `t0` and `t1` is at most what takes, at this rate, the time
between them plus 5 ms (or one frame) plus again 5 ms (or one frame) for every request that creates, updates or removes this very QER. All other
requests, about this and other sessions and associations, give nothing. -/
theorem C116_uplink_partial {a : Addr} {s : U64} {j : U32} {m : U64} (hm : m ≠ 0) (hbig : m.toNat * 1000 < 2 ^ 32) {t0 t1 L : Nat} (h01 : t0 ≤ t1)
    (hs0 : ∀ g, (n0.dp.qer.val g).startUL.toNat < 2 ^ 63) (hb : attempts (h ++ h0) < 2 ^ 64 - 2)
    (htold : ∀ h', h' <:+ h → ∃ Q, SaidQer (h' ++ h0) a s j Q ∧ Q.mbrUL = m) (hin : InTime Env.tUL t0 t1 L l) :
    sentBits (fun h => UpOf h a s j) l * (1000000000 / (m.toNat * 1000)) ≤
      (t1 - t0) + (restarts a s j h + 1) * max 5000000 (8 * L * (1000000000 / (m.toNat * 1000))) := by
  obtain ⟨x, q, -, -, B⟩ := bank hfz hqz huz H0 T .up (a := a) (s := s) (j := j) (by
    intro h n H hb x q hx hq e f act hof hsent
    obtain ⟨g1, g2⟩ := (slot_traffic hfz hqz huz H hb hx hq e f).1.2 hof
    exact ⟨g1, g2, hsent⟩) hm hbig h01 hs0 hb htold hin
  have := B.total
  have := (hin.last h01).2
  have hh := (hin.last h01).1
  simp only [Limiter.up] at *
  omega

/-- **C116, downlink.** -/
theorem C116_downlink_partial {a : Addr} {s : U64} {j : U32} {m : U64} (hm : m ≠ 0) (hbig : m.toNat * 1000 < 2 ^ 32) {t0 t1 L : Nat} (h01 : t0 ≤ t1)
    (hs0 : ∀ g, (n0.dp.qer.val g).startDL.toNat < 2 ^ 63) (hb : attempts (h ++ h0) < 2 ^ 64 - 2)
    (htold : ∀ h', h' <:+ h → ∃ Q, SaidQer (h' ++ h0) a s j Q ∧ Q.mbrDL = m) (hin : InTime Env.tDL t0 t1 L l) :
    sentBits (fun h => DownOf h a s j) l * (1000000000 / (m.toNat * 1000)) ≤
      (t1 - t0) + (restarts a s j h + 1) * max 5000000 (8 * L * (1000000000 / (m.toNat * 1000))) := by
  obtain ⟨x, q, -, -, B⟩ := bank hfz hqz huz H0 T .down (a := a) (s := s) (j := j) (by
    intro h n H hb x q hx hq e f act hof hsent
    exact ⟨(slot_traffic hfz hqz huz H hb hx hq e f).2.2 hof, hsent⟩) hm hbig h01 hs0 hb htold hin
  have := B.total
  have := (hin.last h01).2
  have hh := (hin.last h01).1
  simp only [Limiter.down] at *
  omega

end

/-- **C116, timers.** The hypothesis on the timers holds whenever all packets since the start of the program came in the first 146 years of
uptime. -/
theorem C116_timers {P : Node → Ev → Prop} {cfg : NodeCfg} {rm : Option ResourceManager} {pz fz qz uz : U32} {h : List (Ev × Outcome)} {l : List Passed} {n : Node}
    (T : Timeline P [] (Node.init cfg rm (BpfObjects.load pz fz qz uz)) h l n) (hu : ∀ p ∈ l, (p.env.tUL).toNat < 2 ^ 62) (hd : ∀ p ∈ l, (p.env.tDL).toNat < 2 ^ 62)
    (hf : ∀ p ∈ l, p.frame.length < 2 ^ 29) : ∀ g, (n.dp.qer.val g).startUL.toNat < 2 ^ 63 ∧ (n.dp.qer.val g).startDL.toNat < 2 ^ 63 :=
  fun g => ⟨small_timeline .up T (fun _ => (show (0 : U64).toNat < 2 ^ 63 by decide)) hu hf g, small_timeline .down T (fun _ => (show (0 : U64).toNat < 2 ^ 63 by decide)) hd hf g⟩

section
variable {cfg : NodeCfg} {rm : Option ResourceManager} {pz fz qz uz : U32}
    {h : List (Ev × Outcome)} {n : Node} {P : Node → Ev → Prop} (hP : ∀ n e, P n e → e.refsKnown n) (H : HistP P (Node.init cfg rm (BpfObjects.load pz fz qz uz)) h n)
    (hb : attempts h < 2 ^ 64 - 2)
include hP H hb

/-- **C116, QERs.** A request that does not touch a QER of a session leaves its table entry, with the times up to which traffic was admitted,
exactly as it was. -/
theorem C116_still {e : Ev} (hp : P n e) (hc : (n.step e).2 ≠ .crash) {a : Addr} {s : U64} {j : U32} (ht : ¬ e.touches a s j) {k : QerInfo} (hk : n.qerOf a s j = some k) :
    (n.step e).1.qerOf a s j = some k := by
  have S := slots_reach (H.good hP)
  unfold Node.qerOf at hk
  cases hx : n.session? a s with
  | none => rw [hx] at hk; cases hk
  | some x =>
    rw [hx] at hk
    simp only [Option.bind_some] at hk
    cases hq : x.qers.get? j with
    | none => rw [hq] at hk; cases hk
    | some q =>
      rw [hq] at hk
      simp only [Option.bind_some] at hk
      obtain ⟨⟨x', hx', hq'⟩, hv⟩ := slot_still S (hP _ _ hp) ht ((linv_hist H.hist hb).fresh hb (by rw [hx]; simp)) hx hq
      refine qerOf_of hx' hq' ?_
      have S' := slots_reach (GoodReach.step e (H.good hP) (hP _ _ hp) hc)
      have hl := (S'.qer.ok (some (a, s), j) q.gid q.info (by simp [ownQer, Node.view, hx', hq'])).1
      rw [lookup_val hk, ← hv]
      unfold ArrMap.lookup
      rw [if_pos hl]

end
end Eupf
