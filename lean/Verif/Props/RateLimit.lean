import Verif.Props.Packets
/-
C34, C35 (rate 0): what the rate limiter lets through.
-/
namespace Eupf

/-! ### the limiter -/

/-- What one decision of the limiter means, as long as clock (292 years of nanoseconds / 2), timer and sizes are not astronomical:
it passes a packet only if the timer, moved by the transmission time of the packet, is not in the future. -/
theorem limitRate_nat {size start rate now s' : U64} (h : limitRate size start rate now = some s') (hr : rate ≠ 0)
    (hs : size.toNat < 2 ^ 29) (hst : start.toNat < 2 ^ 63) (hn : now.toNat < 2 ^ 62) :
    start.toNat + 8 * size.toNat * (1000000000 / rate.toNat) ≤ now.toNat ∧
    ((start.toNat + 5000000 < now.toNat ∧ s'.toNat = now.toNat - 5000000 + 8 * size.toNat * (1000000000 / rate.toNat)) ∨
     (now.toNat ≤ start.toNat + 5000000 ∧ s'.toNat = start.toNat + 8 * size.toNat * (1000000000 / rate.toNat))) := by
  unfold limitRate at h
  rw [if_neg hr] at h
  simp only at h
  have hr' : 0 < rate.toNat := Nat.pos_of_ne_zero (fun x => hr (BitVec.eq_of_toNat_eq x))
  have hc : 1000000000 / rate.toNat ≤ 1000000000 := Nat.div_le_self ..
  have hcn : ((1000000000 : U64) / rate).toNat = 1000000000 / rate.toNat := by rw [BitVec.toNat_udiv]; rfl
  have h8 : (size * 8).toNat = 8 * size.toNat := by
    rw [BitVec.toNat_mul, show (8 : U64).toNat = 8 from rfl, Nat.mod_eq_of_lt (by omega)]; omega
  have hb : 8 * size.toNat * (1000000000 / rate.toNat) < 2 ^ 62 :=
    Nat.lt_of_le_of_lt (Nat.mul_le_mul_left _ hc) (by omega)
  have htx : (size * 8 * (1000000000 / rate)).toNat = 8 * size.toNat * (1000000000 / rate.toNat) := by
    rw [BitVec.toNat_mul, h8, hcn]; exact Nat.mod_eq_of_lt (by omega)
  generalize size * 8 * (1000000000 / rate) = tx at *
  generalize 8 * size.toNat * (1000000000 / rate.toNat) = T at *
  have e1 : (start + tx).toNat = start.toNat + T := by rw [BitVec.toNat_add, htx]; omega
  have e2 : (start + 5000000).toNat = start.toNat + 5000000 := by
    rw [BitVec.toNat_add, show (5000000 : U64).toNat = 5000000 from rfl]; omega
  split at h
  · cases h
  rename_i h1
  have h1' : start.toNat + T ≤ now.toNat := by rw [← e1]; exact Nat.le_of_not_lt h1
  split at h
  · rename_i h2
    have h2' : start.toNat + 5000000 < now.toNat := by rw [← e2]; exact h2
    cases h
    refine ⟨h1', .inl ⟨h2', ?_⟩⟩
    rw [BitVec.toNat_add, BitVec.toNat_sub, htx, show (5000000 : U64).toNat = 5000000 from rfl]; omega
  · rename_i h2
    have h2' : now.toNat ≤ start.toNat + 5000000 := by rw [← e2]; exact Nat.le_of_not_lt h2
    cases h
    exact ⟨h1', .inr ⟨h2', e1⟩⟩

/-- The account of one timer: between the times `t0` and `t1` with packets of at most `M` nanoseconds transmission time, after `B` bits
were let through, at `c` nanoseconds each. -/
structure Account (c t0 t1 M : Nat) (start : U64) (B : Nat) : Prop where
  small : start.toNat < 2 ^ 63
  bill : B = 0 ∨ (t0 + B * c ≤ start.toNat + 5000000 ∧ start.toNat + 5000000 ≤ t1 + max 5000000 M)

theorem Account.keep {c t0 t1 M : Nat} {rate start now size s' : U64} {B : Nat} (a : Account c t0 t1 M start B) (hc : c = 1000000000 / rate.toNat)
    (hr : rate ≠ 0) (h : limitRate size start rate now = some s') (hs : size.toNat < 2 ^ 29)
    (ht1 : t1 < 2 ^ 62) (h1 : now.toNat ≤ t1) (hM : 8 * size.toNat * c ≤ M) (hM' : M < 2 ^ 62) :
    Account c t0 t1 M s' B := by
  obtain ⟨p, q⟩ := limitRate_nat h hr hs a.small (by omega)
  rw [← hc] at p q
  have hb := a.bill
  generalize 8 * size.toNat * c = T at *
  rcases q with ⟨q1, q2⟩ | ⟨q1, q2⟩
  · exact ⟨by omega, hb.imp id (fun ⟨x, y⟩ => ⟨by omega, by omega⟩)⟩
  · exact ⟨by omega, hb.imp id (fun ⟨x, y⟩ => ⟨by omega, by omega⟩)⟩

theorem Account.charge {c t0 t1 M : Nat} {rate start now size s' : U64} {B : Nat} (a : Account c t0 t1 M start B) (hc : c = 1000000000 / rate.toNat)
    (hr : rate ≠ 0) (h : limitRate size start rate now = some s') (hs : size.toNat < 2 ^ 29)
    (ht1 : t1 < 2 ^ 62) (h0 : t0 ≤ now.toNat) (h1 : now.toNat ≤ t1) (hM : 8 * size.toNat * c ≤ M) (hM' : M < 2 ^ 62) :
    Account c t0 t1 M s' (B + 8 * size.toNat) := by
  obtain ⟨p, q⟩ := limitRate_nat h hr hs a.small (by omega)
  rw [← hc] at p q
  have hb := a.bill
  have e : (B + 8 * size.toNat) * c = B * c + 8 * size.toNat * c := Nat.add_mul ..
  have g1 : s'.toNat < 2 ^ 63 := by
    generalize 8 * size.toNat * c = T at *
    rcases q with ⟨q1, q2⟩ | ⟨q1, q2⟩ <;> omega
  refine ⟨g1, .inr ?_⟩
  have b0 : B = 0 → B * c = 0 := fun h => by rw [h, Nat.zero_mul]
  generalize (B + 8 * size.toNat) * c = X at *
  generalize B * c = Y at *
  generalize 8 * size.toNat * c = T at *
  rcases hb with hb | ⟨b1, b2⟩
  · have := b0 hb
    rcases q with ⟨q1, q2⟩ | ⟨q1, q2⟩
    · exact ⟨by omega, by omega⟩
    · exact ⟨by omega, by omega⟩
  · rcases q with ⟨q1, q2⟩ | ⟨q1, q2⟩
    · exact ⟨by omega, by omega⟩
    · exact ⟨by omega, by omega⟩

/-! ### what a packet does to the timers -/

theorem chargeUl_val (b : BpfObjects) (p : PdrEntry) (q : U32) (t : U64) (n : Nat) (i : U32) :
    (chargeUl b p q t n).qer.val i = if i = q then { b.qer.val i with startUL := t } else b.qer.val i := by
  have h : ∀ (b : BpfObjects) (i u d), (b.addUrr i u d).qer = b.qer := by intro b i u d; unfold BpfObjects.addUrr; split <;> rfl
  unfold chargeUl
  rw [h, h]
  unfold BpfObjects.setStart
  by_cases hi : i = q
  · simp [hi]
  · simp [hi]
theorem chargeDl_val (b : BpfObjects) (p : PdrEntry) (q : U32) (t : U64) (n : Nat) (i : U32) :
    (chargeDl b p q t n).qer.val i = if i = q then { b.qer.val i with startDL := t } else b.qer.val i := by
  have h : ∀ (b : BpfObjects) (i u d), (b.addUrr i u d).qer = b.qer := by intro b i u d; unfold BpfObjects.addUrr; split <;> rfl
  unfold chargeDl
  rw [h, h]
  unfold BpfObjects.setStart
  by_cases hi : i = q
  · simp [hi]
  · simp [hi]
theorem lookup_val {b : BpfObjects} {i : U32} {x : QerInfo} (h : b.qer.lookup i = some x) : x = b.qer.val i := by
  unfold ArrMap.lookup at h; split at h
  · exact (Option.some.inj h).symm
  · cases h

theorem downRes_startUL {e : Env} {b : BpfObjects} {f : List U8} {p r n fr dp a} (h : DownRes e b f p r n fr dp a) (q : U32) :
    (dp.qer.val q).startUL = (b.qer.val q).startUL := by
  cases h with
  | unclassified _ | denied _ _ | policed _ _ _ => rfl
  | noRoom | sent => rw [chargeDl_val]; split <;> rfl

/-- The frame is uplink traffic of QER slot `q` that was sent on. -/
def UpTraffic (b : BpfObjects) (q : U32) (e : Env) (f : List U8) (a : XAction) : Prop :=
  IsGtpMsg e f 255 ∧ (∃ r, ulRule b f = some r ∧ r.qer = q) ∧ a.sent = true
/-- The frame is downlink traffic of QER slot `q` that was sent on. -/
def DownTraffic (b : BpfObjects) (q : U32) (e : Env) (f : List U8) (a : XAction) : Prop :=
  ((IsDown4 e f ∧ ∃ r, dlRule4 b f = some r ∧ r.qer = q) ∨ (IsDown6 f ∧ ∃ r, dlRule6 b f = some r ∧ r.qer = q)) ∧ a.sent = true

/-- What a frame does to the uplink timer of QER slot `q`: either the frame is a G-PDU for this slot and the limiter let it pass, or
nothing (and then it is not a G-PDU for this slot that was sent on). -/
theorem packet_startUL {e : Env} {b : BpfObjects} {f fr : List U8} {dp : BpfObjects} {a : XAction} (h : PacketRes e b f fr dp a) (q : U32) :
    (∃ s', limitRate (BitVec.ofNat 64 f.length) (b.qer.val q).startUL ((b.qer.val q).mbrUL.zeroExtend 64) e.tUL = some s' ∧ (dp.qer.val q).startUL = s') ∨
    ((dp.qer.val q).startUL = (b.qer.val q).startUL ∧ ¬ UpTraffic b q e f a) := by
  have fin : ∀ {s'} {r : Rule} {far qer} {pdr : PdrEntry} {n}, ulRule b f = some r → PermitsUl b r far qer → rateUl e qer f.length = some s' →
      (∃ t, limitRate (BitVec.ofNat 64 f.length) (b.qer.val q).startUL ((b.qer.val q).mbrUL.zeroExtend 64) e.tUL = some t ∧
        ((chargeUl b pdr r.qer s' n).qer.val q).startUL = t) ∨
      (((chargeUl b pdr r.qer s' n).qer.val q).startUL = (b.qer.val q).startUL ∧
        ¬ UpTraffic b q e f a) := by
    intro s' r far qer pdr n h1 h2 h3
    by_cases hq : q = r.qer
    · subst hq
      refine .inl ⟨s', ?_, by rw [chargeUl_val, if_pos rfl]⟩
      have := lookup_val h2.hasQer
      subst this
      exact h3
    · refine .inr ⟨by rw [chargeUl_val, if_neg hq], ?_⟩
      rintro ⟨_, ⟨r', hr', hq'⟩, _⟩
      rw [h1] at hr'; cases hr'; exact hq hq'.symm
  cases h with
  | foreign hf => exact .inr ⟨rfl, fun x => by cases x.2.2⟩
  | otherMsg _ _ _ => exact .inr ⟨rfl, fun x => by cases x.2.2⟩
  | echo hm => exact .inr ⟨rfl, fun x => absurd (x.1.type.symm.trans hm.type) (by decide)⟩
  | gpdu _ res =>
    cases res with
    | unclassified _ | denied _ _ | policed _ _ _ => exact .inr ⟨rfl, fun x => by cases x.2.2⟩
    | n9 _ _ h1 h2 h3 | kept _ h1 h2 h3 | garbled _ _ h1 h2 h3 | cut4 _ _ h1 h2 h3 | cut6 _ _ h1 h2 h3 | selfOther _ _ _ h1 h2 h3 => exact fin h1 h2 h3
    | ping _ _ h1 h2 h3 _ _ _ _ _ _ _ d => rw [downRes_startUL d]; exact fin h1 h2 h3
  | down4 hm res => rw [downRes_startUL res]; exact .inr ⟨rfl, fun x => absurd x.1.gtpu hm.notGtpu⟩
  | down6 hm res => rw [downRes_startUL res]; exact .inr ⟨rfl, fun x => absurd (hm.ip.type.symm.trans x.1.gtpu.ip.type) (by decide)⟩

theorem chargeUl_down {b : BpfObjects} {p : PdrEntry} {i : U32} {t : U64} {n : Nat} (q : U32) :
    ((chargeUl b p i t n).qer.val q).startDL = (b.qer.val q).startDL ∧ ((chargeUl b p i t n).qer.val q).mbrDL = (b.qer.val q).mbrDL := by
  rw [chargeUl_val]; split <;> exact ⟨rfl, rfl⟩
theorem downRes_startDL {e : Env} {b : BpfObjects} {f : List U8} {p rule n fr dp a} (h : DownRes e b f p rule n fr dp a) (q : U32) :
    (∃ s', limitRate (BitVec.ofNat 64 f.length) (b.qer.val q).startDL ((b.qer.val q).mbrDL.zeroExtend 64) e.tDL = some s' ∧ (dp.qer.val q).startDL = s') ∨
    ((dp.qer.val q).startDL = (b.qer.val q).startDL ∧ ¬ ((∃ r, rule = some r ∧ r.qer = q) ∧ a.sent = true)) := by
  have fin : ∀ {s'} {r : Rule} {far qer} {pdr : PdrEntry} {n}, rule = some r → PermitsDl b r far qer → rateDl e qer f.length = some s' →
      (∃ t, limitRate (BitVec.ofNat 64 f.length) (b.qer.val q).startDL ((b.qer.val q).mbrDL.zeroExtend 64) e.tDL = some t ∧
        ((chargeDl b pdr r.qer s' n).qer.val q).startDL = t) ∨
      (((chargeDl b pdr r.qer s' n).qer.val q).startDL = (b.qer.val q).startDL ∧ ¬ ((∃ r, rule = some r ∧ r.qer = q) ∧ a.sent = true)) := by
    intro s' r far qer pdr n h1 h2 h3
    by_cases hq : q = r.qer
    · subst hq
      refine .inl ⟨s', ?_, by rw [chargeDl_val, if_pos rfl]⟩
      have := lookup_val h2.hasQer
      subst this
      exact h3
    · refine .inr ⟨by rw [chargeDl_val, if_neg hq], ?_⟩
      rintro ⟨⟨r', hr', hq'⟩, _⟩
      rw [h1] at hr'; cases hr'; exact hq hq'.symm
  cases h with
  | unclassified _ | denied _ _ | policed _ _ _ => exact .inr ⟨rfl, fun x => by cases x.2⟩
  | noRoom _ h1 h2 h3 => exact fin h1 h2 h3
  | sent _ _ h1 h2 h3 => exact fin h1 h2 h3

/-- What a frame does to the downlink timer of QER slot `q`: the limiter let it pass (or let the answer to a ping pass, which is no
longer than the frame), or nothing. -/
theorem packet_startDL {e : Env} {b : BpfObjects} {f fr : List U8} {dp : BpfObjects} {a : XAction} (h : PacketRes e b f fr dp a) (q : U32) :
    (∃ n s', n ≤ f.length ∧ limitRate (BitVec.ofNat 64 n) (b.qer.val q).startDL ((b.qer.val q).mbrDL.zeroExtend 64) e.tDL = some s' ∧ (dp.qer.val q).startDL = s' ∧
      (DownTraffic b q e f a → n = f.length)) ∨
    ((dp.qer.val q).startDL = (b.qer.val q).startDL ∧ ¬ DownTraffic b q e f a) := by
  have up : ∀ {t}, IsGtpMsg e f t → ¬ DownTraffic b q e f a := by
    rintro t hm ⟨⟨hd, _⟩ | ⟨hd, _⟩, _⟩
    · exact hd.notGtpu hm.gtpu
    · exact absurd (hd.ip.type.symm.trans hm.gtpu.ip.type) (by decide)
  cases h with
  | foreign hf =>
    refine .inr ⟨rfl, ?_⟩
    rintro ⟨_, h⟩; cases h
  | otherMsg hm _ _ => exact .inr ⟨rfl, up hm⟩
  | echo hm => exact .inr ⟨rfl, up hm⟩
  | gpdu hm res =>
    have stay : ∀ {p : PdrEntry} {i : U32} {t : U64} {n : Nat}, ((chargeUl b p i t n).qer.val q).startDL = (b.qer.val q).startDL := (chargeUl_down q).1
    cases res with
    | unclassified _ | denied _ _ | policed _ _ _ => exact .inr ⟨rfl, up hm⟩
    | n9 | kept | garbled | cut4 | cut6 | selfOther => exact .inr ⟨stay, up hm⟩
    | ping g _ _ _ _ _ _ hcut _ hg _ hping d =>
      rcases downRes_startDL d q with ⟨s', h1, h2⟩ | ⟨h1, _⟩
      · rw [(chargeUl_down q).1, (chargeUl_down q).2] at h1
        refine .inl ⟨_, s', ?_, h1, h2, fun x => absurd x (up hm)⟩
        rw [pingReply_length hping.1, hg]
        unfold cutFrame
        simp only [List.length_append, List.length_take, List.length_drop, bytes16_length]
        have := hm.len; have := hm.gtpu.ip.len
        have : 2 ≤ cutLen f := by unfold cutLen; omega
        omega
      · exact .inr ⟨h1.trans stay, up hm⟩
  | down4 hm res =>
    rcases downRes_startDL res q with ⟨s', h1, h2⟩ | ⟨h1, h2⟩
    · exact .inl ⟨_, s', Nat.le_refl _, h1, h2, fun _ => rfl⟩
    · refine .inr ⟨h1, ?_⟩
      rintro ⟨⟨_, hr⟩ | ⟨hd, _⟩, hs⟩
      · exact h2 ⟨hr, hs⟩
      · exact absurd (hd.ip.type.symm.trans hm.ip.type) (by decide)
  | down6 hm res =>
    rcases downRes_startDL res q with ⟨s', h1, h2⟩ | ⟨h1, h2⟩
    · exact .inl ⟨_, s', Nat.le_refl _, h1, h2, fun _ => rfl⟩
    · refine .inr ⟨h1, ?_⟩
      rintro ⟨⟨hd, _⟩ | ⟨_, hr⟩, hs⟩
      · exact absurd (hm.ip.type.symm.trans hd.ip.type) (by decide)
      · exact h2 ⟨hr, hs⟩

/-! ### C34 -/

open Classical in
/-- The bits of the frames (with their fate) that satisfy `P`. -/
noncomputable def bitsOf (P : Env → List U8 → XAction → Prop) : List ((Env × List U8) × XAction) → Nat
  | [] => 0
  | ((e, f), a) :: l => (if P e f a then 8 * f.length else 0) + bitsOf P l

/-- Frames arriving between the times `t0` and `t1` (in nanoseconds), each at most `L` octets long. -/
structure Window (clock : Env → U64) (t0 t1 L : Nat) (l : List (Env × List U8)) : Prop where
  time : ∀ x ∈ l, t0 ≤ (clock x.1).toNat ∧ (clock x.1).toNat ≤ t1
  size : ∀ x ∈ l, x.2.length ≤ L
  /-- 146 years of uptime -/
  sane : t1 < 2 ^ 62
  /-- half a gigabyte -/
  short : L < 2 ^ 29

theorem zext_toNat (x : U32) : (x.zeroExtend 64 : U64).toNat = x.toNat := by
  have := x.isLt
  rw [BitVec.toNat_setWidth]; exact Nat.mod_eq_of_lt (by omega)
theorem rate_ne {x : U32} (h : x ≠ 0) : x.zeroExtend 64 ≠ (0 : U64) := by
  intro hz
  apply h
  apply BitVec.eq_of_toNat_eq
  rw [← zext_toNat, hz]; rfl

theorem run_bits (P : BpfObjects → Env → List U8 → XAction → Prop) (clock : Env → U64) (start : QerInfo → U64) (rate : QerInfo → U32) (q : U32)
    (hP : ∀ {b b'}, TrafficEffect b b' → P b' = P b)
    (hrate : ∀ {b b' : BpfObjects}, TrafficEffect b b' → rate (b'.qer.val q) = rate (b.qer.val q))
    (hstep : ∀ {e b f fr dp a}, PacketRes e b f fr dp a →
      (∃ n s', n ≤ f.length ∧ limitRate (BitVec.ofNat 64 n) (start (b.qer.val q)) ((rate (b.qer.val q)).zeroExtend 64) (clock e) = some s' ∧ start (dp.qer.val q) = s' ∧
        (P b e f a → n = f.length)) ∨
      (start (dp.qer.val q) = start (b.qer.val q) ∧ ¬ P b e f a))
    {t0 t1 L : Nat} (d : Dev) (l : List (Env × List U8)) (hw : Window clock t0 t1 L l) {c : Nat} (hr : rate (d.dp.qer.val q) ≠ 0)
    (hc : c = 1000000000 / (rate (d.dp.qer.val q)).toNat) {B : Nat} (acc : Account c t0 t1 (8 * L * c) (start (d.dp.qer.val q)) B) :
    ∃ s, Account c t0 t1 (8 * L * c) s (B + bitsOf (P d.dp) (l.zip (d.run l).2)) := by
  induction l generalizing d B with
  | nil => exact ⟨_, acc⟩
  | cons x l ih =>
    obtain ⟨e, f⟩ := x
    obtain ⟨s', a, h, r, _⟩ := entry_outcome e ⟨f, d.dp, d.st, d.rt⟩
    unfold Dev.run
    rw [h]
    simp only [List.zip_cons_cons, bitsOf]
    have eff := packetRes_effect r
    have hw' : Window clock t0 t1 L l := ⟨fun x hx => hw.time x (.tail _ hx), fun x hx => hw.size x (.tail _ hx), hw.sane, hw.short⟩
    have ht := hw.time (e, f) (.head _)
    have hs := hw.size (e, f) (.head _)
    simp only at ht hs
    have hsz : ∀ {n}, n ≤ f.length → (BitVec.ofNat 64 n : U64).toNat = n := by
      intro n hn; have := hw.short; rw [BitVec.toNat_ofNat]; exact Nat.mod_eq_of_lt (by omega)
    have hz : (rate (d.dp.qer.val q)).toNat = ((rate (d.dp.qer.val q)).zeroExtend 64 : U64).toNat := (zext_toNat _).symm
    have hc1 : c ≤ 1000000000 := by rw [hc]; exact Nat.div_le_self ..
    have hM : 8 * L * c < 2 ^ 62 := Nat.lt_of_le_of_lt (Nat.mul_le_mul_left _ hc1) (by have := hw.short; omega)
    have hq : ∀ {n}, n ≤ f.length → 8 * (BitVec.ofNat 64 n : U64).toNat * c ≤ 8 * L * c := by
      intro n hn; rw [hsz hn]; exact Nat.mul_le_mul_right _ (by omega)
    have ih := @ih ⟨s'.dp, s'.st, s'.rt⟩ hw' (by rw [hrate eff]; exact hr) (by rw [hrate eff]; exact hc)
    rw [← hP eff, ← Nat.add_assoc]
    apply ih
    rw [hP eff]
    rcases hstep r with ⟨n, st', h1, h2, h3, h4⟩ | ⟨h1, h2⟩
    · have h1 : n ≤ f.length := h1
      have hlt : (BitVec.ofNat 64 n : U64).toNat < 2 ^ 29 := by rw [hsz h1]; have := hw.short; omega
      simp only at h3 ⊢
      rw [h3]
      split
      · rename_i hp
        rw [← h4 hp]
        have := acc.charge (hz ▸ hc) (rate_ne hr) h2 hlt hw.sane ht.1 ht.2 (hq h1) hM
        rwa [hsz h1] at this
      · exact acc.keep (hz ▸ hc) (rate_ne hr) h2 hlt hw.sane ht.2 (hq h1) hM
    · rw [if_neg h2]
      simp only at h1 ⊢
      rw [h1]
      exact acc

theorem ulRule_effect {b b' : BpfObjects} (h : TrafficEffect b b') (f : List U8) : ulRule b' f = ulRule b f := by unfold ulRule; rw [h.pdrUl]
theorem dlRule6_effect {b b' : BpfObjects} (h : TrafficEffect b b') (f : List U8) : dlRule6 b' f = dlRule6 b f := by unfold dlRule6; rw [h.pdrDl6]

/-- **C34, uplink.** In any interval of `T = t1 - t0` nanoseconds, the uplink bits of a QER slot that are sent on, each taken as `10^9 / MBR`
nanoseconds (integer division, as the program computes it), fit in the interval plus the burst tolerance of 5 ms (or one packet, if
that takes longer). Whatever else arrives, whatever timers the slot starts with, in whatever order the frames come. -/
theorem C34_uplink (d : Dev) (l : List (Env × List U8)) (q : U32) {t0 t1 L : Nat} (hw : Window Env.tUL t0 t1 L l)
    (hr : (d.dp.qer.val q).mbrUL ≠ 0) (hs : (d.dp.qer.val q).startUL.toNat < 2 ^ 63) (h01 : t0 ≤ t1) :
    bitsOf (UpTraffic d.dp q) (l.zip (d.run l).2) * (1000000000 / (d.dp.qer.val q).mbrUL.toNat) ≤
      (t1 - t0) + max 5000000 (8 * L * (1000000000 / (d.dp.qer.val q).mbrUL.toNat)) := by
  obtain ⟨s, acc⟩ := run_bits (fun b => UpTraffic b q) Env.tUL QerInfo.startUL QerInfo.mbrUL q
    (fun h => by funext e f a; unfold UpTraffic; rw [ulRule_effect h])
    (fun h => (congrArg QerInfo.mbrUL (h.qerVal q) : _))
    (fun h => (packet_startUL h q).imp (fun ⟨s', x⟩ => ⟨_, s', Nat.le_refl _, x.1, x.2, fun _ => rfl⟩) id)
    d l hw hr rfl (B := 0) ⟨hs, .inl rfl⟩
  rw [Nat.zero_add] at acc
  rcases acc.bill with h | ⟨h1, h2⟩
  · rw [h, Nat.zero_mul]; exact Nat.zero_le _
  · omega

/-- **C34, downlink.** -/
theorem C34_downlink (d : Dev) (l : List (Env × List U8)) (q : U32) {t0 t1 L : Nat} (hw : Window Env.tDL t0 t1 L l)
    (hr : (d.dp.qer.val q).mbrDL ≠ 0) (hs : (d.dp.qer.val q).startDL.toNat < 2 ^ 63) (h01 : t0 ≤ t1) :
    bitsOf (DownTraffic d.dp q) (l.zip (d.run l).2) * (1000000000 / (d.dp.qer.val q).mbrDL.toNat) ≤
      (t1 - t0) + max 5000000 (8 * L * (1000000000 / (d.dp.qer.val q).mbrDL.toNat)) := by
  obtain ⟨s, acc⟩ := run_bits (fun b => DownTraffic b q) Env.tDL QerInfo.startDL QerInfo.mbrDL q
    (fun h => by funext e f a; unfold DownTraffic; rw [h.dlRule4, dlRule6_effect h])
    (fun h => (congrArg QerInfo.mbrDL (h.qerVal q) : _))
    (fun h => packet_startDL h q) d l hw hr rfl (B := 0) ⟨hs, .inl rfl⟩
  rw [Nat.zero_add] at acc
  rcases acc.bill with h | ⟨h1, h2⟩
  · rw [h, Nat.zero_mul]; exact Nat.zero_le _
  · omega

/-- **C34 in bit/s.** `bits` that satisfy the bound of `C34_uplink` for MBR `r`: if `r` divides 10^9 then `bits ≤ r * (T + tolerance)` with
times in seconds; for other rates up to 10^9 bit/s at most twice as much. -/
theorem C34_in_bits {bits r T X : Nat} (hr : 0 < r) (hle : r ≤ 1000000000) (h : bits * (1000000000 / r) ≤ T + X) :
    bits * 1000000000 ≤ 2 * r * (T + X) ∧ (r ∣ 1000000000 → bits * 1000000000 ≤ r * (T + X)) := by
  have hm := Nat.div_add_mod 1000000000 r
  have hlt := Nat.mod_lt 1000000000 hr
  have hd : 1 ≤ 1000000000 / r := Nat.div_pos hle hr
  constructor
  · have h1 : 1000000000 ≤ 2 * (r * (1000000000 / r)) := by
      have : r ≤ r * (1000000000 / r) := Nat.le_mul_of_pos_right _ hd
      omega
    calc bits * 1000000000 ≤ bits * (2 * (r * (1000000000 / r))) := Nat.mul_le_mul_left _ h1
      _ = 2 * r * (bits * (1000000000 / r)) := by ac_rfl
      _ ≤ 2 * r * (T + X) := Nat.mul_le_mul_left _ h
  · intro hdvd
    have h1 : 1000000000 = r * (1000000000 / r) := (Nat.mul_div_cancel' hdvd).symm
    calc bits * 1000000000 = bits * (r * (1000000000 / r)) := by rw [← h1]
      _ = r * (bits * (1000000000 / r)) := by ac_rfl
      _ ≤ r * (T + X) := Nat.mul_le_mul_left _ h

/-- **C34, what the integer division does.** Every MBR above 500 Mbit/s up to 1 Gbit/s is enforced as 1 Gbit/s. -/
theorem C34_truncated (size start rate now : U64) (h : 500000000 < rate.toNat) (hle : rate.toNat ≤ 1000000000) :
    limitRate size start rate now = limitRate size start 1000000000 now := by
  have e : (1000000000 : U64) / rate = 1 := by
    apply BitVec.eq_of_toNat_eq
    rw [BitVec.toNat_udiv, show (1000000000 : U64).toNat = 1000000000 from rfl, show (1 : U64).toNat = 1 from rfl]
    have : 1000000000 / rate.toNat < 2 := Nat.div_lt_of_lt_mul (by omega)
    have : 0 < 1000000000 / rate.toNat := Nat.div_pos hle (by omega)
    omega
  have e2 : (1000000000 : U64) / 1000000000 = 1 := by decide
  unfold limitRate
  rw [if_neg (by intro h0; subst h0; simp at h), if_neg (show ¬ ((1000000000 : U64) = 0) by decide), e, e2]

/-! #### packets that are not policed -/

/-- A G-PDU that its rule lets through and that the limiter passes is dropped only if routing says so. -/
theorem up_not_policed {e : Env} {s s' : PS} (hrun : runPacket e s = (s', .ok .drop)) {r : Rule} {far : FarInfo} {qer : QerInfo}
    (hm : IsGtpMsg e s.frame 255) (hr : ulRule s.dp s.frame = some r) (hp : PermitsUl s.dp r far qer) (hl : rateUl e qer s.frame.length ≠ none)
    (hping : ¬ (innerType s.frame = some 0x0800 ∧ ToSelf e (cutFrame s.frame 0x0800))) : ∃ q, routeAct e (e.fib q) = .drop := by
  have res := entry_det hrun
  clear hrun
  generalize s'.frame = fr at res
  generalize s'.dp = dp at res
  obtain ⟨act, hact⟩ : ∃ act, act = XAction.drop := ⟨_, rfl⟩
  rw [← hact] at res
  have hx : ∀ {t}, IsGtpMsg e s.frame t → t = 255 := fun h => by rw [← h.type, hm.type]
  cases res with
  | foreign _ | otherMsg _ _ _ | echo _ => cases hact
  | down4 h _ => exact absurd hm.gtpu h.notGtpu
  | down6 h _ => exact absurd (h.ip.type.symm.trans hm.gtpu.ip.type) (by decide)
  | gpdu _ res =>
    cases res with
    | unclassified _ => cases hact
    | denied h1 h2 => rw [hr] at h1; cases h1; exact absurd ⟨_, _, hp⟩ h2
    | policed h1 h2 h3 =>
      rw [hr] at h1; cases h1
      have := Option.some.inj (h2.hasQer.symm.trans hp.hasQer)
      subst this
      exact absurd h3 hl
    | n9 | kept | cut4 | cut6 => exact ⟨_, hact⟩
    | garbled | selfOther => cases hact
    | ping _ _ _ _ _ _ _ _ h1 hg h2 => subst hg; exact absurd ⟨h1, h2⟩ hping

/-- The same for downlink frames. -/
theorem down_not_policed {e : Env} {s s' : PS} (hrun : runPacket e s = (s', .ok .drop)) {r : Rule} {far : FarInfo} {qer : QerInfo}
    (hm : (IsDown4 e s.frame ∧ dlRule4 s.dp s.frame = some r) ∨ (IsDown6 s.frame ∧ dlRule6 s.dp s.frame = some r))
    (hp : PermitsDl s.dp r far qer) (hl : rateDl e qer s.frame.length ≠ none) : ∃ q, routeAct e (e.fib q) = .drop := by
  have res := entry_det hrun
  clear hrun
  generalize s'.frame = fr at res
  generalize s'.dp = dp at res
  obtain ⟨act, hact⟩ : ∃ act, act = XAction.drop := ⟨_, rfl⟩
  rw [← hact] at res
  have main : ∀ {p rule n}, rule = some r → DownRes e s.dp s.frame p rule n fr dp act → ∃ q, routeAct e (e.fib q) = .drop := by
    intro p rule n hr d
    cases d with
    | unclassified _ => cases hact
    | denied h1 h2 => rw [hr] at h1; cases h1; exact absurd ⟨_, _, hp⟩ h2
    | policed h1 h2 h3 =>
      rw [hr] at h1; cases h1
      have := Option.some.inj (h2.hasQer.symm.trans hp.hasQer)
      subst this
      exact absurd h3 hl
    | noRoom => cases hact
    | sent => exact ⟨_, hact⟩
  cases res with
  | foreign _ | otherMsg _ _ _ | echo _ => cases hact
  | gpdu h _ =>
    rcases hm with ⟨hm, _⟩ | ⟨hm, _⟩
    · exact absurd h.gtpu hm.notGtpu
    · exact absurd (hm.ip.type.symm.trans h.gtpu.ip.type) (by decide)
  | down4 h d =>
    rcases hm with ⟨hm, hr⟩ | ⟨hm, _⟩
    · exact main hr d
    · exact absurd (hm.ip.type.symm.trans h.ip.type) (by decide)
  | down6 h d =>
    rcases hm with ⟨hm, hr⟩ | ⟨hm, hr⟩
    · exact absurd (h.ip.type.symm.trans hm.ip.type) (by decide)
    · exact main hr d

/-- **C34, no limit above 1 Gbit/s.** With an MBR above 10^9 bit/s no G-PDU is policed, however many arrive (the timer of the slot never
moves past the clock). -/
theorem C34_unlimited {e : Env} {s s' : PS} (hrun : runPacket e s = (s', .ok .drop)) {r : Rule} {far : FarInfo} {qer : QerInfo}
    (hm : IsGtpMsg e s.frame 255) (hr : ulRule s.dp s.frame = some r) (hp : PermitsUl s.dp r far qer)
    (hq : 1000000000 < qer.mbrUL.toNat) (ht : qer.startUL ≤ e.tUL)
    (hping : ¬ (innerType s.frame = some 0x0800 ∧ ToSelf e (cutFrame s.frame 0x0800))) : ∃ q, routeAct e (e.fib q) = .drop := by
  refine up_not_policed hrun hm hr hp ?_ hping
  have e0 : (1000000000 : U64) / qer.mbrUL.zeroExtend 64 = 0 := by
    apply BitVec.eq_of_toNat_eq
    rw [BitVec.toNat_udiv, zext_toNat]
    exact Nat.div_eq_of_lt hq
  unfold rateUl limitRate
  split
  · exact Option.some_ne_none _
  rw [e0]
  have h0 : BitVec.ofNat 64 s.frame.length * 8 * (0 : U64) = 0 := BitVec.mul_zero
  simp only [h0]
  rw [if_neg (by rw [show qer.startUL + 0 = qer.startUL from BitVec.add_zero _]; exact BitVec.not_lt.2 ht)]
  split <;> exact Option.some_ne_none _

/-! ### C35 -/

/-- **C35, MBR 0.** A frame whose rule lets it through and whose QER has MBR 0 in its direction is dropped only if routing says so. -/
theorem C35_zero_unlimited {e : Env} {s s' : PS} (hrun : runPacket e s = (s', .ok .drop)) {r : Rule} {far : FarInfo} {qer : QerInfo}
    (h : (IsGtpMsg e s.frame 255 ∧ ulRule s.dp s.frame = some r ∧ PermitsUl s.dp r far qer ∧ qer.mbrUL = 0 ∧
        ¬ (innerType s.frame = some 0x0800 ∧ ToSelf e (cutFrame s.frame 0x0800))) ∨
      (IsDown4 e s.frame ∧ dlRule4 s.dp s.frame = some r ∧ PermitsDl s.dp r far qer ∧ qer.mbrDL = 0) ∨
      (IsDown6 s.frame ∧ dlRule6 s.dp s.frame = some r ∧ PermitsDl s.dp r far qer ∧ qer.mbrDL = 0)) : ∃ q, routeAct e (e.fib q) = .drop := by
  rcases h with ⟨h1, h2, h3, h4, h5⟩ | ⟨h1, h2, h3, h4⟩ | ⟨h1, h2, h3, h4⟩
  · refine up_not_policed hrun h1 h2 h3 ?_ h5
    unfold rateUl limitRate; rw [h4, if_pos (by decide)]; exact Option.some_ne_none _
  · refine down_not_policed hrun (.inl ⟨h1, h2⟩) h3 ?_
    unfold rateDl limitRate; rw [h4, if_pos (by decide)]; exact Option.some_ne_none _
  · refine down_not_policed hrun (.inr ⟨h1, h2⟩) h3 ?_
    unfold rateDl limitRate; rw [h4, if_pos (by decide)]; exact Option.some_ne_none _

/-- The tables of the demonstration with other rates for QER 0. -/
def DemoDp.dpRate (r : U32) : BpfObjects :=
  { DemoDp.dp with qer := ⟨16, fun i => if i = 0 then { qfi := 9, mbrUL := r, mbrDL := r } else {}⟩ }

/-- At 100 kbit/s the first of two frames that arrive together is sent, the second is dropped, in both directions; at rate 0 both are
sent; at 600 Mbit/s too. The hypotheses of `C34_uplink` hold. -/
example :
    Window Env.tUL 10000000 10000000 82 [(DemoDp.env, DemoDp.up), (DemoDp.env, DemoDp.up)] ∧
    UpTraffic (DemoDp.dpRate 100000) 0 DemoDp.env DemoDp.up (.redirect 7) ∧
    ((⟨DemoDp.dpRate 100000, {}, {}⟩ : Dev).run [(DemoDp.env, DemoDp.up), (DemoDp.env, DemoDp.up)]).2 = [.redirect 7, .drop] ∧
    ((⟨DemoDp.dpRate 50000, {}, {}⟩ : Dev).run [(DemoDp.env, DemoDp.down), (DemoDp.env, DemoDp.down)]).2 = [.redirect 7, .drop] ∧
    ((⟨DemoDp.dpRate 0, {}, {}⟩ : Dev).run [(DemoDp.env, DemoDp.up), (DemoDp.env, DemoDp.up)]).2 = [.redirect 7, .redirect 7] ∧
    ((⟨DemoDp.dpRate 600000000, {}, {}⟩ : Dev).run [(DemoDp.env, DemoDp.up), (DemoDp.env, DemoDp.up)]).2 = [.redirect 7, .redirect 7] := by
  refine ⟨⟨?_, ?_, by decide, by decide⟩, ⟨DemoDp.up_gpdu, ⟨⟨0, 0, 0⟩, by decide +kernel, rfl⟩, rfl⟩, by decide +kernel, by decide +kernel, by decide +kernel, by decide +kernel⟩
  · intro x hx
    simp only [List.mem_cons, List.not_mem_nil, or_false, or_self] at hx
    subst hx; decide
  · intro x hx
    simp only [List.mem_cons, List.not_mem_nil, or_false, or_self] at hx
    subst hx; decide

end Eupf
