import Verif.Props.RateLimit
/-
C101: traffic that keeps to the maximum bit rate is carried.
-/
namespace Eupf

/-! ### specification -/

/-- The frame is uplink traffic of QER slot `q`. -/
def UpFor (b : BpfObjects) (q : U32) (e : Env) (f : List U8) : Prop := IsGtpMsg e f 255 ∧ ∃ r, ulRule b f = some r ∧ r.qer = q
/-- The frame is an echo request to the UPF's own address in a tunnel (its answer is downlink traffic). -/
def PingsUs (e : Env) (f : List U8) : Prop := IsGtpMsg e f 255 ∧ innerType f = some 0x0800 ∧ ToSelf e (cutFrame f 0x0800)
/-- The frame is downlink traffic of QER slot `q`, or an echo request to the UPF. -/
def DownFor (b : BpfObjects) (q : U32) (e : Env) (f : List U8) : Prop :=
  (IsDown4 e f ∧ ∃ r, dlRule4 b f = some r ∧ r.qer = q) ∨ (IsDown6 f ∧ ∃ r, dlRule6 b f = some r ∧ r.qer = q) ∨ PingsUs e f

open Classical in
/-- The frames of `l` that satisfy `P`. -/
noncomputable def offered (P : Env → List U8 → Prop) (l : List (Env × List U8)) : List (Env × List U8) := l.filter fun x => decide (P x.1 x.2)

/-- The bits of some frames. -/
def bitsIn : List (Env × List U8) → Nat
  | [] => 0
  | x :: l => 8 * x.2.length + bitsIn l

/-- The traffic `l` keeps to a rate at which a bit takes `c` nanoseconds, with a burst tolerance of `w` nanoseconds: any consecutive
frames fit, at that rate, in the time from the first to the last of them plus the tolerance. -/
def KeepsTo (clock : Env → U64) (c w : Nat) (l : List (Env × List U8)) : Prop :=
  ∀ x s y, (x :: s) <:+: l → (x :: s).getLast? = some y → bitsIn (x :: s) * c ≤ ((clock y.1).toNat - (clock x.1).toNat) + w

/-- Frames that arrive one after the other, not before `t0`; the sizes and times are not astronomical. -/
structure Arrivals (clock : Env → U64) (t0 : Nat) (l : List (Env × List U8)) : Prop where
  sorted : l.Pairwise fun x y => (clock x.1).toNat ≤ (clock y.1).toNat
  after : ∀ x ∈ l, t0 ≤ (clock x.1).toNat
  /-- 146 years of uptime -/
  sane : ∀ x ∈ l, (clock x.1).toNat < 2 ^ 62
  /-- half a gigabyte -/
  short : ∀ x ∈ l, x.2.length < 2 ^ 29

/-! ### the limiter -/

theorem limitRate_passes {size start rate now : U64} (hs : size.toNat < 2 ^ 29) (hst : start.toNat < 2 ^ 63)
    (h : start.toNat + 8 * size.toNat * (1000000000 / rate.toNat) ≤ now.toNat) : limitRate size start rate now ≠ none := by
  unfold limitRate
  split
  · exact Option.some_ne_none _
  have hc : 1000000000 / rate.toNat ≤ 1000000000 := Nat.div_le_self ..
  have hcn : ((1000000000 : U64) / rate).toNat = 1000000000 / rate.toNat := by rw [BitVec.toNat_udiv]; rfl
  have h8 : (size * 8).toNat = 8 * size.toNat := by
    rw [BitVec.toNat_mul, show (8 : U64).toNat = 8 from rfl, Nat.mod_eq_of_lt (by omega)]; omega
  have hb : 8 * size.toNat * (1000000000 / rate.toNat) < 2 ^ 62 :=
    Nat.lt_of_le_of_lt (Nat.mul_le_mul_left _ hc) (by omega)
  have htx : (size * 8 * (1000000000 / rate)).toNat = 8 * size.toNat * (1000000000 / rate.toNat) := by
    rw [BitVec.toNat_mul, h8, hcn]; exact Nat.mod_eq_of_lt (by omega)
  have e1 : (start + size * 8 * (1000000000 / rate)).toNat = start.toNat + 8 * size.toNat * (1000000000 / rate.toNat) := by
    rw [BitVec.toNat_add, htx]; omega
  simp only
  rw [if_neg (by rw [gt_iff_lt, BitVec.lt_def, e1]; omega)]
  split <;> exact Option.some_ne_none _

/-! ### the account of the offered traffic -/

theorem bitsIn_append (l m : List (Env × List U8)) : bitsIn (l ++ m) = bitsIn l + bitsIn m := by
  induction l with
  | nil => exact (Nat.zero_add _).symm
  | cons x l ih => show 8 * x.2.length + bitsIn (l ++ m) = _; rw [ih, ← Nat.add_assoc]; rfl

/-- What the timer owes after the offered frames `ps`: not more than some of the last of them. -/
structure Owes (clock : Env → U64) (c t0 : Nat) (start : U64) (ps : List (Env × List U8)) : Prop where
  small : start.toNat < 2 ^ 63
  owes : start.toNat + 5000000 ≤ t0 ∨ ∃ x s, (x :: s) <:+ ps ∧ start.toNat + 5000000 ≤ (clock x.1).toNat + bitsIn (x :: s) * c

theorem Owes.skip {clock : Env → U64} {c t0 : Nat} {start : U64} {ps : List (Env × List U8)} (o : Owes clock c t0 start ps) (y : Env × List U8) :
    Owes clock c t0 start (ps ++ [y]) := by
  refine ⟨o.small, o.owes.imp id ?_⟩
  rintro ⟨x, s, ⟨p, hp⟩, hle⟩
  refine ⟨x, s ++ [y], ⟨p, by rw [← hp]; simp⟩, ?_⟩
  have : bitsIn (x :: s ++ [y]) = bitsIn (x :: s) + bitsIn [y] := bitsIn_append ..
  rw [show x :: (s ++ [y]) = x :: s ++ [y] from rfl, this, Nat.add_mul]
  omega

theorem Owes.passes {clock : Env → U64} {c t0 : Nat} {start : U64} {ps : List (Env × List U8)} (o : Owes clock c t0 start ps) {y : Env × List U8}
    {rest : List (Env × List U8)} (hk : KeepsTo clock c 5000000 (ps ++ y :: rest)) (ht : t0 ≤ (clock y.1).toNat)
    (hsort : ∀ x ∈ ps, (clock x.1).toNat ≤ (clock y.1).toNat) :
    start.toNat + 8 * y.2.length * c ≤ (clock y.1).toNat := by
  rcases o.owes with h | ⟨x, s, ⟨p, hp⟩, hle⟩
  · have := hk y [] y ⟨ps, rest, by simp⟩ rfl
    rw [show bitsIn [y] = 8 * y.2.length from Nat.add_zero _] at this
    generalize 8 * y.2.length * c = T at *
    omega
  · have := hk x (s ++ [y]) y ⟨p, rest, by rw [← hp]; simp⟩ (show ((x :: s) ++ [y]).getLast? = some y from List.getLast?_concat)
    have e : bitsIn (x :: (s ++ [y])) = bitsIn (x :: s) + 8 * y.2.length := by
      rw [show x :: (s ++ [y]) = x :: s ++ [y] from rfl, bitsIn_append]; rfl
    rw [e, Nat.add_mul] at this
    have hx := hsort x (by rw [← hp]; simp)
    generalize 8 * y.2.length * c = T at *
    generalize bitsIn (x :: s) * c = S at *
    omega

theorem Owes.charge {clock : Env → U64} {c t0 : Nat} {start rate s' : U64} {ps : List (Env × List U8)} (o : Owes clock c t0 start ps) {y : Env × List U8} {n : Nat}
    (hn : n ≤ y.2.length) (hc : c = 1000000000 / rate.toNat) (hr : rate ≠ 0) (h : limitRate (BitVec.ofNat 64 n) start rate (clock y.1) = some s')
    (ht : t0 ≤ (clock y.1).toNat) (hs : y.2.length < 2 ^ 29) (hsane : (clock y.1).toNat < 2 ^ 62) :
    Owes clock c t0 s' (ps ++ [y]) := by
  have hsz : (BitVec.ofNat 64 n : U64).toNat = n := by rw [BitVec.toNat_ofNat]; exact Nat.mod_eq_of_lt (by omega)
  obtain ⟨p, q⟩ := limitRate_nat h hr (by rw [hsz]; omega) o.small hsane
  rw [hsz, ← hc] at p q
  have hle : 8 * n * c ≤ 8 * y.2.length * c := Nat.mul_le_mul_right _ (by omega)
  have one : bitsIn [y] * c = 8 * y.2.length * c := by rw [show bitsIn [y] = 8 * y.2.length from Nat.add_zero _]
  have small : s'.toNat < 2 ^ 63 := by
    generalize 8 * n * c = T at *
    rcases q with ⟨q1, q2⟩ | ⟨q1, q2⟩ <;> omega
  refine ⟨small, .inr ?_⟩
  rcases q with ⟨q1, q2⟩ | ⟨q1, q2⟩
  · refine ⟨y, [], ⟨ps, rfl⟩, ?_⟩
    rw [one, q2]; omega
  · rcases o.owes with ho | ⟨x, s, ⟨u, hu⟩, ho⟩
    · refine ⟨y, [], ⟨ps, rfl⟩, ?_⟩
      rw [one, q2]; omega
    · refine ⟨x, s ++ [y], ⟨u, by rw [← hu]; simp⟩, ?_⟩
      rw [show x :: (s ++ [y]) = x :: s ++ [y] from rfl, bitsIn_append, Nat.add_mul, one, q2]
      omega

/-! ### what a frame does to a timer -/

theorem packet_chargeUL {e : Env} {b : BpfObjects} {f fr : List U8} {dp : BpfObjects} {a : XAction} (h : PacketRes e b f fr dp a) (q : U32) :
    (UpFor b q e f ∧ ∃ n s', n ≤ f.length ∧
      limitRate (BitVec.ofNat 64 n) (b.qer.val q).startUL ((b.qer.val q).mbrUL.zeroExtend 64) e.tUL = some s' ∧ (dp.qer.val q).startUL = s') ∨
    (dp.qer.val q).startUL = (b.qer.val q).startUL := by
  rcases packet_startUL h q with ⟨s', h1, h2⟩ | h1
  · by_cases hq : UpFor b q e f
    · exact .inl ⟨hq, _, s', Nat.le_refl _, h1, h2⟩
    · refine .inr ?_
      have fin : ∀ {s'} {r : Rule} {pdr : PdrEntry} {n}, IsGtpMsg e f 255 → ulRule b f = some r →
          ((chargeUl b pdr r.qer s' n).qer.val q).startUL = (b.qer.val q).startUL := by
        intro s' r pdr n hm hr
        rw [chargeUl_val, if_neg]
        rintro rfl
        exact hq ⟨hm, r, hr, rfl⟩
      cases h with
      | foreign _ | otherMsg _ _ _ | echo _ => rfl
      | gpdu hm res =>
        cases res with
        | unclassified _ | denied _ _ | policed _ _ _ => rfl
        | n9 _ _ h1 | kept _ h1 | garbled _ _ h1 | cut4 _ _ h1 | cut6 _ _ h1 | selfOther _ _ _ h1 => exact fin hm h1
        | ping _ _ h1 _ _ _ _ _ _ _ _ _ d => rw [downRes_startUL d]; exact fin hm h1
      | down4 hm res => exact downRes_startUL res q
      | down6 hm res => exact downRes_startUL res q
  · exact .inr h1.1

theorem downRes_chargeDL {e : Env} {b : BpfObjects} {f : List U8} {p rule n fr dp a} (h : DownRes e b f p rule n fr dp a) (q : U32) :
    ((∃ r, rule = some r ∧ r.qer = q) ∧
      ∃ s', limitRate (BitVec.ofNat 64 f.length) (b.qer.val q).startDL ((b.qer.val q).mbrDL.zeroExtend 64) e.tDL = some s' ∧ (dp.qer.val q).startDL = s') ∨
    (dp.qer.val q).startDL = (b.qer.val q).startDL := by
  rcases downRes_startDL h q with h1 | h1
  · by_cases hq : ∃ r, rule = some r ∧ r.qer = q
    · exact .inl ⟨hq, h1⟩
    · refine .inr ?_
      cases h with
      | unclassified _ | denied _ _ | policed _ _ _ => rfl
      | noRoom _ hr _ _ _ =>
        rw [chargeDl_val, if_neg]
        rintro rfl
        exact hq ⟨_, hr, rfl⟩
      | sent _ _ hr _ _ _ _ =>
        rw [chargeDl_val, if_neg]
        rintro rfl
        exact hq ⟨_, hr, rfl⟩
  · exact .inr h1.1

theorem packet_chargeDL {e : Env} {b : BpfObjects} {f fr : List U8} {dp : BpfObjects} {a : XAction} (h : PacketRes e b f fr dp a) (q : U32) :
    (DownFor b q e f ∧ ∃ n s', n ≤ f.length ∧
      limitRate (BitVec.ofNat 64 n) (b.qer.val q).startDL ((b.qer.val q).mbrDL.zeroExtend 64) e.tDL = some s' ∧ (dp.qer.val q).startDL = s') ∨
    (dp.qer.val q).startDL = (b.qer.val q).startDL := by
  cases h with
  | foreign _ | otherMsg _ _ _ | echo _ => exact .inr rfl
  | gpdu hm res =>
    cases res with
    | unclassified _ | denied _ _ | policed _ _ _ => exact .inr rfl
    | n9 | kept | garbled | cut4 | cut6 | selfOther => exact .inr (chargeUl_down q).1
    | ping g _ _ _ _ _ _ hcut hit hg hself hping d =>
      rcases downRes_chargeDL d q with ⟨-, s', h1, h2⟩ | h1
      · rw [(chargeUl_down q).1, (chargeUl_down q).2] at h1
        refine .inl ⟨.inr (.inr ⟨hm, hit, by rw [← hg]; exact hself⟩), _, s', ?_, h1, h2⟩
        rw [pingReply_length hping.1, hg]
        unfold cutFrame
        simp only [List.length_append, List.length_take, List.length_drop, bytes16_length]
        have := hm.len; have := hm.gtpu.ip.len
        have : 2 ≤ cutLen f := by unfold cutLen; omega
        omega
      · exact .inr (h1.trans (chargeUl_down q).1)
  | down4 hm res =>
    rcases downRes_chargeDL res q with ⟨hr, s', h1, h2⟩ | h1
    · exact .inl ⟨.inl ⟨hm, hr⟩, _, s', Nat.le_refl _, h1, h2⟩
    · exact .inr h1
  | down6 hm res =>
    rcases downRes_chargeDL res q with ⟨hr, s', h1, h2⟩ | h1
    · exact .inl ⟨.inr (.inl ⟨hm, hr⟩), _, s', Nat.le_refl _, h1, h2⟩
    · exact .inr h1

/-! ### runs -/

/-- In a run in which the traffic offered to the slot keeps to the rate, the limiter passes each of its frames. -/
theorem run_passes (P : BpfObjects → Env → List U8 → Prop) (clock : Env → U64) (start : QerInfo → U64) (rate : QerInfo → U32) (q : U32)
    (hP : ∀ {b b'}, TrafficEffect b b' → P b' = P b)
    (hrate : ∀ {b b' : BpfObjects}, TrafficEffect b b' → rate (b'.qer.val q) = rate (b.qer.val q))
    (hstep : ∀ {e b f fr dp a}, PacketRes e b f fr dp a →
      (P b e f ∧ ∃ n s', n ≤ f.length ∧ limitRate (BitVec.ofNat 64 n) (start (b.qer.val q)) ((rate (b.qer.val q)).zeroExtend 64) (clock e) = some s' ∧
        start (dp.qer.val q) = s') ∨ start (dp.qer.val q) = start (b.qer.val q))
    {t0 : Nat} (d : Dev) (l : List (Env × List U8)) (ha : Arrivals clock t0 l) {c : Nat} (hr : rate (d.dp.qer.val q) ≠ 0)
    (hc : c = 1000000000 / (rate (d.dp.qer.val q)).toNat) {ps : List (Env × List U8)} (ho : Owes clock c t0 (start (d.dp.qer.val q)) ps)
    (hps : ∀ x ∈ ps, ∀ y ∈ l, (clock x.1).toNat ≤ (clock y.1).toNat)
    (hk : KeepsTo clock c 5000000 (ps ++ offered (P d.dp) l)) {x : Env × List U8} {a : XAction} (hx : (x, a) ∈ l.zip (d.run l).2) (hp : P d.dp x.1 x.2) :
    ∃ (d' : Dev) (s' : PS), TrafficEffect d.dp d'.dp ∧ runPacket x.1 ⟨x.2, d'.dp, d'.st, d'.rt⟩ = (s', .ok a) ∧
      limitRate (BitVec.ofNat 64 x.2.length) (start (d'.dp.qer.val q)) ((rate (d'.dp.qer.val q)).zeroExtend 64) (clock x.1) ≠ none := by
  induction l generalizing d ps with
  | nil => cases hx
  | cons z l ih =>
    obtain ⟨e, f⟩ := z
    obtain ⟨s', act, h, r, _⟩ := entry_outcome e ⟨f, d.dp, d.st, d.rt⟩
    unfold Dev.run at hx
    rw [h] at hx
    simp only [List.zip_cons_cons, List.mem_cons] at hx
    have eff := packetRes_effect r
    have ha' : Arrivals clock t0 l := ⟨(List.pairwise_cons.1 ha.sorted).2, fun x hx => ha.after x (.tail _ hx), fun x hx => ha.sane x (.tail _ hx), fun x hx => ha.short x (.tail _ hx)⟩
    have t1 := ha.after (e, f) (.head _)
    have t2 := ha.sane (e, f) (.head _)
    have t3 := ha.short (e, f) (.head _)
    have t4 : ∀ y ∈ l, (clock e).toNat ≤ (clock y.1).toNat := (List.pairwise_cons.1 ha.sorted).1
    simp only at t1 t2 t3 t4
    have hz : (rate (d.dp.qer.val q)).toNat = ((rate (d.dp.qer.val q)).zeroExtend 64 : U64).toNat := (zext_toNat _).symm
    by_cases hoff : P d.dp e f
    · have hofl : offered (P d.dp) ((e, f) :: l) = (e, f) :: offered (P d.dp) l := by
        unfold offered; rw [List.filter_cons_of_pos (by simpa using hoff)]
      rw [hofl] at hk
      rcases hx with hx | hx
      · cases hx
        refine ⟨d, s', .refl _, h, ?_⟩
        have hpass := ho.passes hk t1 (fun x hx => hps x hx (e, f) (.head _))
        simp only at hpass
        have hsz : (BitVec.ofNat 64 f.length : U64).toNat = f.length := by rw [BitVec.toNat_ofNat]; exact Nat.mod_eq_of_lt (by omega)
        exact limitRate_passes (by rw [hsz]; omega) ho.small (by rw [hsz, ← hz, ← hc]; exact hpass)
      · have ho' : Owes clock c t0 (start (s'.dp.qer.val q)) (ps ++ [(e, f)]) := by
          rcases hstep r with ⟨-, n, st', h1, h2, h3⟩ | h1
          · have h3 : start (s'.dp.qer.val q) = st' := h3
            rw [h3]
            exact ho.charge h1 (hz ▸ hc) (rate_ne hr) h2 t1 t3 t2
          · have h1 : start (s'.dp.qer.val q) = start (d.dp.qer.val q) := h1
            rw [h1]; exact ho.skip _
        obtain ⟨d', u, g1, g2, g3⟩ := ih ⟨s'.dp, s'.st, s'.rt⟩ ha' (by rw [hrate eff]; exact hr) (by rw [hrate eff]; exact hc) ho'
          (by
            intro x hx y hy
            rcases List.mem_append.1 hx with hx | hx
            · exact hps x hx y (.tail _ hy)
            · rw [List.mem_singleton.1 hx]; exact t4 y hy)
          (by rw [hP eff, List.append_assoc]; exact hk) hx (by rw [hP eff]; exact hp)
        exact ⟨d', u, eff.trans g1, g2, g3⟩
    · have hofl : offered (P d.dp) ((e, f) :: l) = offered (P d.dp) l := by
        unfold offered; rw [List.filter_cons_of_neg (by simpa using hoff)]
      rw [hofl] at hk
      rcases hx with hx | hx
      · cases hx; exact absurd hp hoff
      · have ho' : Owes clock c t0 (start (s'.dp.qer.val q)) ps := by
          rcases hstep r with ⟨h1, -⟩ | h1
          · exact absurd h1 hoff
          · have h1 : start (s'.dp.qer.val q) = start (d.dp.qer.val q) := h1
            rw [h1]; exact ho
        obtain ⟨d', u, g1, g2, g3⟩ := ih ⟨s'.dp, s'.st, s'.rt⟩ ha' (by rw [hrate eff]; exact hr) (by rw [hrate eff]; exact hc) ho'
          (fun x hx y hy => hps x hx y (.tail _ hy))
          (by rw [hP eff]; exact hk) hx (by rw [hP eff]; exact hp)
        exact ⟨d', u, eff.trans g1, g2, g3⟩

theorem TrafficEffect.permitsUl_fwd {b b' : BpfObjects} (h : TrafficEffect b b') {r : Rule} {far : FarInfo} {qer : QerInfo} (hp : PermitsUl b r far qer) :
    PermitsUl b' r far (b'.qer.val r.qer) := by
  have hq := hp.hasQer
  have hv := lookup_val hq
  unfold ArrMap.lookup at hq
  split at hq
  · rename_i hlt
    refine ⟨by rw [h.far]; exact hp.hasFar, hp.forw, by unfold ArrMap.lookup; rw [h.qerSize, if_pos hlt], ?_⟩
    have := congrArg QerInfo.gateUL (h.qerVal r.qer)
    exact this.trans (by rw [← hv]; exact hp.gate)
  · cases hq
theorem TrafficEffect.permitsDl_fwd {b b' : BpfObjects} (h : TrafficEffect b b') {r : Rule} {far : FarInfo} {qer : QerInfo} (hp : PermitsDl b r far qer) :
    PermitsDl b' r far (b'.qer.val r.qer) := by
  have hq := hp.hasQer
  have hv := lookup_val hq
  unfold ArrMap.lookup at hq
  split at hq
  · rename_i hlt
    refine ⟨by rw [h.far]; exact hp.hasFar, hp.forw, hp.tunnel, by unfold ArrMap.lookup; rw [h.qerSize, if_pos hlt], ?_⟩
    have := congrArg QerInfo.gateDL (h.qerVal r.qer)
    exact this.trans (by rw [← hv]; exact hp.gate)
  · cases hq

/-- **C101, uplink.** If the uplink traffic of a QER slot keeps to its maximum bit rate (each bit taken as `10^9 / MBR` nanoseconds) with a
tolerance of 5 ms, and the slot was idle for 5 ms before, then no frame of it that its rule lets through is dropped, unless the route
lookup says so. Whatever other traffic there is in between. -/
theorem C101_uplink_partial (d : Dev) (l : List (Env × List U8)) (q : U32) {t0 : Nat} (ha : Arrivals Env.tUL t0 l)
    (hr : (d.dp.qer.val q).mbrUL ≠ 0) (hidle : (d.dp.qer.val q).startUL.toNat + 5000000 ≤ t0) (ht0 : t0 < 2 ^ 63)
    (hk : KeepsTo Env.tUL (1000000000 / (d.dp.qer.val q).mbrUL.toNat) 5000000 (offered (UpFor d.dp q) l))
    {e : Env} {f : List U8} {a : XAction} (hx : ((e, f), a) ∈ l.zip (d.run l).2) (hm : IsGtpMsg e f 255) {r : Rule} (hrule : ulRule d.dp f = some r)
    (hq : r.qer = q) {far : FarInfo} {qer : QerInfo} (hp : PermitsUl d.dp r far qer)
    (hping : ¬ (innerType f = some 0x0800 ∧ ToSelf e (cutFrame f 0x0800))) (hdrop : a = .drop) : ∃ z, routeAct e (e.fib z) = .drop := by
  obtain ⟨d', s', g1, g2, g3⟩ := run_passes (fun b => UpFor b q) Env.tUL QerInfo.startUL QerInfo.mbrUL q
    (fun h => by funext e f; unfold UpFor; rw [ulRule_effect h])
    (fun h => (congrArg QerInfo.mbrUL (h.qerVal q) : _))
    (fun h => packet_chargeUL h q) d l ha hr rfl (ps := []) ⟨by omega, .inl hidle⟩ (fun _ h => by cases h) hk hx ⟨hm, r, hrule, hq⟩
  subst hdrop; subst hq
  exact up_not_policed g2 (r := r) (far := far) (qer := d'.dp.qer.val r.qer) hm (by rw [← hrule]; exact ulRule_effect g1 f) (g1.permitsUl_fwd hp) g3 hping

/-- **C101, downlink.** The same for downlink traffic; the answers of the UPF to echo requests, which are downlink traffic, are counted
with the size of the requests. -/
theorem C101_downlink_partial (d : Dev) (l : List (Env × List U8)) (q : U32) {t0 : Nat} (ha : Arrivals Env.tDL t0 l)
    (hr : (d.dp.qer.val q).mbrDL ≠ 0) (hidle : (d.dp.qer.val q).startDL.toNat + 5000000 ≤ t0) (ht0 : t0 < 2 ^ 63)
    (hk : KeepsTo Env.tDL (1000000000 / (d.dp.qer.val q).mbrDL.toNat) 5000000 (offered (DownFor d.dp q) l))
    {e : Env} {f : List U8} {a : XAction} (hx : ((e, f), a) ∈ l.zip (d.run l).2) {r : Rule}
    (hm : (IsDown4 e f ∧ dlRule4 d.dp f = some r) ∨ (IsDown6 f ∧ dlRule6 d.dp f = some r))
    (hq : r.qer = q) {far : FarInfo} {qer : QerInfo} (hp : PermitsDl d.dp r far qer) (hdrop : a = .drop) : ∃ z, routeAct e (e.fib z) = .drop := by
  obtain ⟨d', s', g1, g2, g3⟩ := run_passes (fun b => DownFor b q) Env.tDL QerInfo.startDL QerInfo.mbrDL q
    (fun h => by funext e f; unfold DownFor; rw [h.dlRule4, dlRule6_effect h])
    (fun h => (congrArg QerInfo.mbrDL (h.qerVal q) : _))
    (fun h => packet_chargeDL h q) d l ha hr rfl (ps := []) ⟨by omega, .inl hidle⟩ (fun _ h => by cases h) hk hx
    (by rcases hm with ⟨h1, h2⟩ | ⟨h1, h2⟩
        · exact .inl ⟨h1, r, h2, hq⟩
        · exact .inr (.inl ⟨h1, r, h2, hq⟩))
  subst hdrop; subst hq
  refine down_not_policed g2 (r := r) (far := far) (qer := d'.dp.qer.val r.qer) ?_ (g1.permitsDl_fwd hp) g3
  rcases hm with ⟨h1, h2⟩ | ⟨h1, h2⟩
  · exact .inl ⟨h1, by rw [← h2]; exact g1.dlRule4 f⟩
  · exact .inr ⟨h1, by rw [← h2]; exact dlRule6_effect g1 f⟩

/-! ### low rates

The tolerance is 5 ms whatever the rate. A frame that takes longer than that at the MBR is never within the tolerance: after such a frame
the timer is in the future, and the next one is not carried when the rate would allow it. -/

/-- A G-PDU whose rule names a slot that the limiter stops is dropped. -/
theorem up_limited {e : Env} {s s' : PS} {a : XAction} (hrun : runPacket e s = (s', .ok a)) (hm : IsGtpMsg e s.frame 255) {r : Rule}
    (hr : ulRule s.dp s.frame = some r) (hl : rateUl e (s.dp.qer.val r.qer) s.frame.length = none) : a = .drop := by
  have res := entry_det hrun
  clear hrun
  generalize s'.frame = fr at res
  generalize s'.dp = dp at res
  have no : ∀ {r' : Rule} {far qer t}, ulRule s.dp s.frame = some r' → PermitsUl s.dp r' far qer → rateUl e qer s.frame.length = some t → a = .drop := by
    intro r' far qer t h1 h2 h3
    rw [hr] at h1; cases h1
    rw [lookup_val h2.hasQer, hl] at h3; cases h3
  cases res with
  | foreign hf => exact absurd hm (hf.notMsg 255)
  | otherMsg h1 h2 h3 => exact absurd (h1.type.symm.trans hm.type) (by first | exact h2 | exact h3)
  | echo h1 => exact absurd (h1.type.symm.trans hm.type) (by decide)
  | down4 h _ => exact absurd hm.gtpu h.notGtpu
  | down6 h _ => exact absurd (h.ip.type.symm.trans hm.gtpu.ip.type) (by decide)
  | gpdu _ res =>
    cases res with
    | unclassified h => rw [hr] at h; cases h
    | denied _ _ => rfl
    | policed _ _ _ => rfl
    | n9 _ _ h1 h2 h3 | kept _ h1 h2 h3 | garbled _ _ h1 h2 h3 | cut4 _ _ h1 h2 h3 | cut6 _ _ h1 h2 h3 | selfOther _ _ _ h1 h2 h3 => exact no h1 h2 h3
    | ping _ _ h1 h2 h3 => exact no h1 h2 h3

/-- **C101, low rates.** For every state of the tables and every pair of G-PDUs of equal size that take more than 5 ms at the MBR of
their QER: if the first finds the QER idle and is sent, the second is dropped unless it comes more than twice its transmission time less
5 ms later. So such traffic gets less than its MBR: frames sent exactly at the MBR come too early. -/
theorem C101_starved (d : Dev) {e1 e2 : Env} {f1 f2 : List U8} {q : U32} (h1 : UpFor d.dp q e1 f1) (h2 : UpFor d.dp q e2 f2) (hlen : f2.length = f1.length)
    (hr : (d.dp.qer.val q).mbrUL ≠ 0) (hshort : f1.length < 2 ^ 29) (hsane : e1.tUL.toNat < 2 ^ 62 ∧ e2.tUL.toNat < 2 ^ 62)
    (hidle : (d.dp.qer.val q).startUL.toNat + 5000000 < e1.tUL.toNat) {a1 a2 : XAction} (hrun : (d.run [(e1, f1), (e2, f2)]).2 = [a1, a2]) (hsent : a1.sent = true)
    (hsoon : e2.tUL.toNat + 5000000 < e1.tUL.toNat + 2 * (8 * f1.length * (1000000000 / (d.dp.qer.val q).mbrUL.toNat))) : a2 = .drop := by
  obtain ⟨s1, b1, g1, r1, -⟩ := entry_outcome e1 ⟨f1, d.dp, d.st, d.rt⟩
  obtain ⟨s2, b2, g2, r2, -⟩ := entry_outcome e2 ⟨f2, s1.dp, s1.st, s1.rt⟩
  unfold Dev.run at hrun
  rw [g1] at hrun
  unfold Dev.run at hrun
  simp only [g2, Dev.run, List.cons.injEq, and_true] at hrun
  obtain ⟨rfl, rfl⟩ := hrun
  have eff : TrafficEffect d.dp s1.dp := packetRes_effect r1
  have hz : ∀ x : U32, (x.zeroExtend 64 : U64).toNat = x.toNat := zext_toNat
  have hsz : (BitVec.ofNat 64 f1.length : U64).toNat = f1.length := by rw [BitVec.toNat_ofNat]; exact Nat.mod_eq_of_lt (by omega)
  rcases packet_startUL r1 q with ⟨s', k1, k2⟩ | ⟨-, k⟩
  · have k2 : (s1.dp.qer.val q).startUL = s' := k2
    have k1 : limitRate (BitVec.ofNat 64 f1.length) (d.dp.qer.val q).startUL ((d.dp.qer.val q).mbrUL.zeroExtend 64) e1.tUL = some s' := k1
    obtain ⟨p1, p2⟩ := limitRate_nat k1 (rate_ne hr) (by rw [hsz]; exact hshort) (by omega) hsane.1
    rw [hsz, hz] at p1 p2
    have hs' : s'.toNat = e1.tUL.toNat - 5000000 + 8 * f1.length * (1000000000 / (d.dp.qer.val q).mbrUL.toNat) := by
      rcases p2 with ⟨-, p2⟩ | ⟨p2, -⟩
      · exact p2
      · omega
    obtain ⟨hm2, r, hr2, rfl⟩ := h2
    have hrate : (s1.dp.qer.val r.qer).mbrUL = (d.dp.qer.val r.qer).mbrUL := (congrArg QerInfo.mbrUL (eff.qerVal r.qer) : _)
    refine up_limited g2 hm2 (r := r) (by rw [← hr2]; exact ulRule_effect eff f2) ?_
    show limitRate (BitVec.ofNat 64 f2.length) (s1.dp.qer.val r.qer).startUL ((s1.dp.qer.val r.qer).mbrUL.zeroExtend 64) e2.tUL = none
    rw [k2, hrate, hlen]
    cases hres : limitRate (BitVec.ofNat 64 f1.length) s' ((d.dp.qer.val r.qer).mbrUL.zeroExtend 64) e2.tUL with
    | none => rfl
    | some t =>
      obtain ⟨w, -⟩ := limitRate_nat hres (rate_ne hr) (by rw [hsz]; exact hshort) (by omega) hsane.2
      rw [hsz, hz, hs'] at w
      generalize 8 * f1.length * (1000000000 / (d.dp.qer.val r.qer).mbrUL.toNat) = T at *
      omega
  · exact absurd ⟨h1.1, h1.2, hsent⟩ k

/-! ### cases -/

/-- The demonstration environment at another time (ns). -/
def DemoDp.at (t : U64) : Env := { DemoDp.env with tUL := t, tDL := t }

theorem DemoDp.upFor (r : U32) (t : U64) : UpFor (DemoDp.dpRate r) 0 (DemoDp.at t) DemoDp.up :=
  ⟨⟨⟨DemoDp.up_gpdu.gtpu.1, DemoDp.up_gpdu.gtpu.2, DemoDp.up_gpdu.gtpu.3, DemoDp.up_gpdu.gtpu.4, DemoDp.up_gpdu.gtpu.5⟩, DemoDp.up_gpdu.2, DemoDp.up_gpdu.3⟩,
    ⟨0, 0, 0⟩, by show ulRule DemoDp.dp DemoDp.up = _; decide +kernel, rfl⟩

theorem keeps_two {clock : Env → U64} {c w : Nat} {x y : Env × List U8} (h1 : 8 * x.2.length * c ≤ w) (h2 : 8 * y.2.length * c ≤ w)
    (h3 : (8 * x.2.length + 8 * y.2.length) * c ≤ ((clock y.1).toNat - (clock x.1).toNat) + w) : KeepsTo clock c w [x, y] := by
  rintro a s b ⟨p, t, hp⟩ hl
  have one : bitsIn [a] = 8 * a.2.length := rfl
  rcases p with _ | ⟨p1, _ | ⟨p2, p3⟩⟩
  · rcases s with _ | ⟨s1, _ | ⟨s2, s3⟩⟩
    · simp only [List.nil_append, List.cons_append, List.cons.injEq] at hp
      obtain ⟨rfl, -⟩ := hp
      rw [one]; omega
    · simp only [List.nil_append, List.cons_append, List.cons.injEq] at hp
      obtain ⟨rfl, rfl, -⟩ := hp
      cases hl
      show (8 * a.2.length + (8 * s1.2.length + 0)) * c ≤ _
      rw [Nat.add_zero]; exact h3
    · simp at hp
  · rcases s with _ | ⟨s1, s2⟩
    · simp only [List.nil_append, List.cons_append, List.cons.injEq] at hp
      obtain ⟨-, rfl, -⟩ := hp
      rw [one]; omega
    · simp at hp
  · simp at hp

/-- At 1 Mbit/s two frames of 656 bits that arrive at the same time keep to the rate (within the tolerance) and are both sent; the
hypotheses of `C101_uplink_partial` hold. At 100 kbit/s, where a frame takes 6.56 ms, the second of two frames that are 6.56 ms apart is
dropped, and 9 ms apart it is sent. -/
example :
    Arrivals Env.tUL 5000000 [(DemoDp.at 10000000, DemoDp.up), (DemoDp.at 10000000, DemoDp.up)] ∧
    KeepsTo Env.tUL (1000000000 / ((DemoDp.dpRate 1000000).qer.val 0).mbrUL.toNat) 5000000
      (offered (UpFor (DemoDp.dpRate 1000000) 0) [(DemoDp.at 10000000, DemoDp.up), (DemoDp.at 10000000, DemoDp.up)]) ∧
    ((⟨DemoDp.dpRate 1000000, {}, {}⟩ : Dev).run [(DemoDp.at 10000000, DemoDp.up), (DemoDp.at 10000000, DemoDp.up)]).2 = [.redirect 7, .redirect 7] ∧
    ((⟨DemoDp.dpRate 100000, {}, {}⟩ : Dev).run [(DemoDp.at 10000000, DemoDp.up), (DemoDp.at 16560000, DemoDp.up)]).2 = [.redirect 7, .drop] ∧
    ((⟨DemoDp.dpRate 100000, {}, {}⟩ : Dev).run [(DemoDp.at 10000000, DemoDp.up), (DemoDp.at 19000000, DemoDp.up)]).2 = [.redirect 7, .redirect 7] := by
  refine ⟨⟨by simp, ?_, ?_, ?_⟩, ?_, by decide +kernel, by decide +kernel, by decide +kernel⟩
  · intro x hx
    simp only [List.mem_cons, List.not_mem_nil, or_false, or_self] at hx
    subst hx; decide
  · intro x hx
    simp only [List.mem_cons, List.not_mem_nil, or_false, or_self] at hx
    subst hx; decide
  · intro x hx
    simp only [List.mem_cons, List.not_mem_nil, or_false, or_self] at hx
    subst hx; decide
  · have : offered (UpFor (DemoDp.dpRate 1000000) 0) [(DemoDp.at 10000000, DemoDp.up), (DemoDp.at 10000000, DemoDp.up)] =
        [(DemoDp.at 10000000, DemoDp.up), (DemoDp.at 10000000, DemoDp.up)] := by
      unfold offered
      rw [List.filter_cons_of_pos (by simpa using DemoDp.upFor ..), List.filter_cons_of_pos (by simpa using DemoDp.upFor ..)]; rfl
    rw [this]
    exact keeps_two (by decide) (by decide) (by decide)

end Eupf
