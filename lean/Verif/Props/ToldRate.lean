import Verif.Props.Conforming
import Verif.Props.AbstractPackets
/-
C102: a session gets the bit rate it was told.
-/
namespace Eupf

/-! ### specification -/

/-- It was said: session `s` of peer `a` has the QER `q` under id `j`. -/
def SaidQer (h : List (Ev × Outcome)) (a : Addr) (s : U64) (j : U32) (q : AQer) : Prop := ∃ x, said h a s = some x ∧ x.qers j = some q

/-- The frame is uplink traffic for which QER `j` of session `s` of peer `a` is responsible: the session was given a PDR that names this QER,
whose TEID the frame has and whose filter it matches. -/
def UpOf (h : List (Ev × Outcome)) (a : Addr) (s : U64) (j : U32) (e : Env) (f : List U8) : Prop :=
  ∃ i P F Q t, Said h a s i P F Q ∧ P.qer = j ∧ P.key = .ul t ∧ FrameFor e f P.key ∧ P.fits f
/-- The same for downlink traffic (UE addresses). -/
def DownOf (h : List (Ev × Outcome)) (a : Addr) (s : U64) (j : U32) (e : Env) (f : List U8) : Prop :=
  ∃ i P F Q, Said h a s i P F Q ∧ P.qer = j ∧ (∀ t, P.key ≠ .ul t) ∧ FrameFor e f P.key ∧ P.fits f

/-- The table entry of QER `j` of session `s` of peer `a` (with the times up to which traffic was admitted). -/
def Node.qerOf (n : Node) (a : Addr) (s : U64) (j : U32) : Option QerInfo :=
  ((n.session? a s).bind fun x => x.qers.get? j).bind fun q => n.dp.qer.lookup q.gid

/-! ### lists -/

theorem bitsIn_sublist {l m : List (Env × List U8)} (h : l.Sublist m) : bitsIn l ≤ bitsIn m := by
  induction h with
  | slnil => exact Nat.le_refl _
  | cons x _ ih => show _ ≤ 8 * _ + bitsIn _; omega
  | cons_cons x _ ih => show 8 * _ + bitsIn _ ≤ 8 * _ + bitsIn _; omega

/-- Part of traffic that keeps to a rate keeps to it. -/
theorem KeepsTo.sublist {clock : Env → U64} {c w : Nat} {l m : List (Env × List U8)} (hk : KeepsTo clock c w m) (h : l.Sublist m) : KeepsTo clock c w l := by
  rintro x s y ⟨p, t, hp⟩ hl
  rw [← hp] at h
  obtain ⟨m1, m2, rfl, h1, -⟩ := List.append_sublist_iff.1 h
  obtain ⟨m3, m4, rfl, -, h3⟩ := List.append_sublist_iff.1 h1
  obtain ⟨u, v, rfl, hu, hv⟩ := List.cons_sublist_iff.1 h3
  obtain ⟨u1, u2, rfl⟩ := List.append_of_mem hu
  rcases List.eq_nil_or_concat s with rfl | ⟨s0, y', rfl⟩
  · cases hl
    exact hk x [] x ⟨m3 ++ u1, u2 ++ v ++ m2, by simp⟩ rfl
  · have hy : ((x :: s0) ++ [y']).getLast? = some y' := List.getLast?_concat
    have hy' : y' = y := by
      have : (x :: s0 ++ [y']).getLast? = some y := by simpa using hl
      exact Option.some.inj (hy.symm.trans this)
    subst hy'
    have hv : (s0 ++ [y']).Sublist v := by simpa using hv
    obtain ⟨v1, v2, rfl, g1, g2⟩ := List.append_sublist_iff.1 hv
    obtain ⟨w1, w2, rfl⟩ := List.append_of_mem (List.singleton_sublist.1 g2)
    have := hk x (u2 ++ v1 ++ w1 ++ [y']) y' ⟨m3 ++ u1, w2 ++ m2, by simp⟩ (show ((x :: (u2 ++ v1 ++ w1)) ++ [y']).getLast? = some y' from List.getLast?_concat)
    refine Nat.le_trans (Nat.mul_le_mul_right _ (bitsIn_sublist ?_)) this
    refine .cons_cons _ ?_
    simp only [List.append_assoc]
    refine .trans ?_ (List.sublist_append_right u2 _)
    simp only [List.concat_eq_append]
    refine g1.append ?_
    exact List.sublist_append_right _ _

theorem offered_mono {P Q : Env → List U8 → Prop} (h : ∀ e f, P e f → Q e f) (l : List (Env × List U8)) : (offered P l).Sublist (offered Q l) := by
  classical
  unfold offered
  induction l with
  | nil => exact .slnil
  | cons x l ih =>
    by_cases hp : P x.1 x.2
    · have hq := h _ _ hp
      rw [List.filter_cons_of_pos (p := fun x : Env × List U8 => decide (P x.1 x.2)) (by simpa using hp), List.filter_cons_of_pos (p := fun x : Env × List U8 => decide (Q x.1 x.2)) (by simpa using hq)]
      exact ih.cons_cons _
    · rw [List.filter_cons_of_neg (p := fun x : Env × List U8 => decide (P x.1 x.2)) (by simpa using hp)]
      exact ih.trans ((List.sublist_cons_self x l).filter _)

theorem bitsOf_mono {P Q : Env → List U8 → XAction → Prop} (h : ∀ e f a, P e f a → Q e f a) (l : List ((Env × List U8) × XAction)) : bitsOf P l ≤ bitsOf Q l := by
  induction l with
  | nil => exact Nat.le_refl _
  | cons x l ih =>
    obtain ⟨⟨e, f⟩, a⟩ := x
    unfold bitsOf
    refine Nat.add_le_add ?_ ih
    split
    · rename_i hp; rw [if_pos (h _ _ _ hp)]
    · exact Nat.zero_le _

/-! ### the slot of a QER -/

theorem qerOf_of {n : Node} {a : Addr} {s : U64} {j : U32} {x : Session} {q : SQer} {k : QerInfo} (hx : n.session? a s = some x) (hq : x.qers.get? j = some q)
    (hl : n.dp.qer.lookup q.gid = some k) : n.qerOf a s j = some k := by
  unfold Node.qerOf; rw [hx]; show (x.qers.get? j).bind _ = _; rw [hq]; exact hl

section
variable {cfg : NodeCfg} {rm : Option ResourceManager} {pz fz qz uz : U32} (hfz : 0 < fz.toNat) (hqz : 0 < qz.toNat)
    (huz : 0 < uz.toNat) {h : List (Ev × Outcome)} {n : Node} (H : HistP Clean (Node.init cfg rm (BpfObjects.load pz fz qz uz)) h n)
    (hb : attempts h < 2 ^ 64 - 2)
include hfz hqz huz H

theorem said_slot {a : Addr} {s : U64} {j : U32} {Q : AQer} (hs : SaidQer h a s j Q) :
    ∃ x q qer, n.session? a s = some x ∧ x.qers.get? j = some q ∧ n.dp.qer.lookup q.gid = some qer ∧ Q.Is qer := by
  obtain ⟨A, hA, hQ⟩ := hs
  have hs := C100_said_partial hfz hqz huz H a s
  rw [hA] at hs
  obtain ⟨x, hx, hI⟩ := both_some hs
  have hq := hI.qers j
  rw [hQ] at hq
  obtain ⟨q, hq, hIs⟩ := both_some hq
  have G := (H.mono fun n e (h : Clean n e) => h.tidy.known).good fun _ _ h => h
  obtain ⟨-, c2⟩ := C09_agrees_partial G hx j
  obtain ⟨k, d1, d2, d3, d4, d5, d6⟩ := c2 q hq
  exact ⟨x, q, k, hx, hq, d1, by rw [d2]; exact hIs.gateUL, by rw [d3]; exact hIs.gateDL, by rw [d5]; exact hIs.mbrUL, by rw [d6]; exact hIs.mbrDL,
    by rw [d4]; exact hIs.qfi⟩

include hb in
/-- the traffic of a slot is the traffic of the QER it belongs to -/
theorem slot_traffic {a : Addr} {s : U64} {j : U32} {x : Session} {q : SQer} (hx : n.session? a s = some x) (hq : x.qers.get? j = some q) (e : Env) (f : List U8) :
    (UpFor n.dp q.gid e f ↔ UpOf h a s j e f) ∧
    (((IsDown4 e f ∧ ∃ r, dlRule4 n.dp f = some r ∧ r.qer = q.gid) ∨ (IsDown6 f ∧ ∃ r, dlRule6 n.dp f = some r ∧ r.qer = q.gid)) ↔ DownOf h a s j e f) := by
  have ex := C98_exact_partial hfz hqz huz (H.mono fun n e (h : Clean n e) => h.orderly) hb
  have G := (H.mono fun n e (h : Clean n e) => h.tidy.known).good fun _ _ h => h
  -- from a PDR with this slot to what was said
  have own : ∀ {b t i} {p : SPdr}, n.hasPdr b t i p → p.info.qerId = q.gid →
      ∃ P F Q, Said h a s i P F Q ∧ P.qer = j ∧ P.key = p.key ∧ P.sdf = p.info.sdf := by
    rintro b t i p ⟨y, hy, hp⟩ hg
    obtain ⟨P, F, Q, f', q', g1, k1, k2, -, -, -, -, q1, -, q3⟩ := said_of hfz hqz huz H hy hp
    obtain ⟨rfl, rfl, rfl⟩ := (C08_exclusive_partial G hy hx P.qer j).2.1 q' q q1 hq (q3.trans hg)
    exact ⟨P, F, Q, g1, rfl, k1, k2⟩
  -- and back
  have back : ∀ {i P F Q}, Said h a s i P F Q → P.qer = j → FrameFor e f P.key → P.fits f → ∃ r, frameRule n.dp f P.key = some r ∧ r.qer = q.gid := by
    intro i P F Q hs hj hf hfit
    have hs' := C100_said_partial hfz hqz huz H a s
    obtain ⟨A, hA, hP, hF, hQ⟩ := hs.pdr
    rw [hA, hx] at hs'
    have hpd := ASession.Is.pdrs hs' i
    rw [hP] at hpd
    obtain ⟨p, hp, hIs⟩ := both_some hpd
    have ent := (exactS_hist hfz hqz huz (H.mono fun n e (h : Clean n e) => h.orderly) hb).1.live a s i p ⟨x, hx, hp⟩
    rw [hIs.key] at ent
    obtain ⟨q', w1, w2⟩ := hIs.qer
    rw [hj, hq] at w1; cases w1
    exact ⟨_, frameRule_fits ent hf.keyOf (by intro sdf hsd; rw [hIs.sdf] at hsd; exact hfit sdf hsd), w2.symm⟩
  refine ⟨⟨?_, ?_⟩, ⟨?_, ?_⟩⟩
  · rintro ⟨hm, r, hr, hrq⟩
    obtain ⟨b, t, i, p, p1, p2, rfl, p4⟩ := ex.owner_ul hr
    obtain ⟨P, F, Q, g1, g2, g3, g4⟩ := own p1 hrq
    refine ⟨i, P, F, Q, _, g1, g2, g3.trans p2, by rw [g3, p2]; exact ⟨hm, rfl⟩, ?_⟩
    intro sdf hsd; rw [g4] at hsd; rw [g3]; exact p4 sdf hsd
  · rintro ⟨i, P, F, Q, t, hs, hj, hk, hf, hfit⟩
    obtain ⟨r, hr, hrq⟩ := back hs hj hf hfit
    rw [hk] at hf hr
    exact ⟨hf.1, r, hr, hrq⟩
  · rintro (⟨hm, r, hr, hrq⟩ | ⟨hm, r, hr, hrq⟩)
    · obtain ⟨b, t, i, p, p1, p2, rfl, p4⟩ := ex.owner (k := .dl4 (be32 f 30)) hr
      obtain ⟨P, F, Q, g1, g2, g3, g4⟩ := own p1 hrq
      refine ⟨i, P, F, Q, g1, g2, ?_, by rw [g3, p2]; exact ⟨hm, rfl⟩, ?_⟩
      · rw [g3, p2]; intro t ht; cases ht
      · intro sdf hsd; rw [g4] at hsd; rw [g3, p2]; exact ⟨_, rfl, p4 sdf hsd⟩
    · obtain ⟨b, t, i, p, p1, p2, rfl, p4⟩ := ex.owner (k := .dl6 (be128 (slice f 38 16))) hr
      obtain ⟨P, F, Q, g1, g2, g3, g4⟩ := own p1 hrq
      refine ⟨i, P, F, Q, g1, g2, ?_, by rw [g3, p2]; exact ⟨hm, rfl⟩, ?_⟩
      · rw [g3, p2]; intro t ht; cases ht
      · intro sdf hsd; rw [g4] at hsd; rw [g3, p2]; exact ⟨_, rfl, p4 sdf hsd⟩
  · rintro ⟨i, P, F, Q, hs, hj, hk, hf, hfit⟩
    obtain ⟨r, hr, hrq⟩ := back hs hj hf hfit
    cases hkk : P.key with
    | ul t => exact absurd hkk (hk t)
    | dl4 ip => rw [hkk] at hf hr; exact .inl ⟨hf.1, r, hr, hrq⟩
    | dl6 ip => rw [hkk] at hf hr; exact .inr ⟨hf.1, r, hr, hrq⟩

include hb in
/-- **C102, uplink, no more.** After a clean history in which a QER was last told an uplink MBR of `m` kbit/s (below 2^32 bit/s): in every run of
packets, whatever else is among them, the uplink traffic of the PDRs that name this QER that is sent on within any window of time is at
most what takes, at this rate, the length of the window plus 5 ms (or one frame). -/
theorem C102_uplink_at_most_partial {a : Addr} {s : U64} {j : U32} {Q : AQer} (hs : SaidQer h a s j Q) (hm : Q.mbrUL ≠ 0) (hbig : Q.mbrUL.toNat * 1000 < 2 ^ 32)
    (d : Dev) (hdp : d.dp = n.dp) (htimer : ∀ k, n.qerOf a s j = some k → k.startUL.toNat < 2 ^ 63) (l : List (Env × List U8)) {t0 t1 L : Nat} (hw : Window Env.tUL t0 t1 L l)
    (h01 : t0 ≤ t1) :
    bitsOf (fun e f act => UpOf h a s j e f ∧ act.sent = true) (l.zip (d.run l).2) * (1000000000 / (Q.mbrUL.toNat * 1000)) ≤
      (t1 - t0) + max 5000000 (8 * L * (1000000000 / (Q.mbrUL.toNat * 1000))) := by
  obtain ⟨x, q, qer, hx, hq, hl, hI⟩ := said_slot hfz hqz huz H hs
  have hv : n.dp.qer.val q.gid = qer := (lookup_val hl).symm
  have hrate : (d.dp.qer.val q.gid).mbrUL.toNat = Q.mbrUL.toNat * 1000 := by rw [hdp, hv, hI.mbrUL, Nat.mod_eq_of_lt hbig]
  have := C34_uplink d l q.gid hw (by
    intro h0; rw [h0] at hrate
    have : Q.mbrUL.toNat = 0 := by have : (0 : U32).toNat = 0 := rfl; omega
    exact hm (BitVec.eq_of_toNat_eq this)) (by rw [hdp, hv]; exact htimer _ (qerOf_of hx hq hl)) h01
  rw [hrate] at this
  refine Nat.le_trans (Nat.mul_le_mul_right _ (bitsOf_mono ?_ _)) this
  rintro e f act ⟨h1, h2⟩
  obtain ⟨g1, g2⟩ := (slot_traffic hfz hqz huz H hb hx hq e f).1.2 h1
  exact ⟨g1, by rw [hdp]; exact g2, h2⟩

include hb in
/-- **C102, downlink, no more.** -/
theorem C102_downlink_at_most_partial {a : Addr} {s : U64} {j : U32} {Q : AQer} (hs : SaidQer h a s j Q) (hm : Q.mbrDL ≠ 0) (hbig : Q.mbrDL.toNat * 1000 < 2 ^ 32)
    (d : Dev) (hdp : d.dp = n.dp) (htimer : ∀ k, n.qerOf a s j = some k → k.startDL.toNat < 2 ^ 63) (l : List (Env × List U8)) {t0 t1 L : Nat} (hw : Window Env.tDL t0 t1 L l)
    (h01 : t0 ≤ t1) :
    bitsOf (fun e f act => DownOf h a s j e f ∧ act.sent = true) (l.zip (d.run l).2) * (1000000000 / (Q.mbrDL.toNat * 1000)) ≤
      (t1 - t0) + max 5000000 (8 * L * (1000000000 / (Q.mbrDL.toNat * 1000))) := by
  obtain ⟨x, q, qer, hx, hq, hl, hI⟩ := said_slot hfz hqz huz H hs
  have hv : n.dp.qer.val q.gid = qer := (lookup_val hl).symm
  have hrate : (d.dp.qer.val q.gid).mbrDL.toNat = Q.mbrDL.toNat * 1000 := by rw [hdp, hv, hI.mbrDL, Nat.mod_eq_of_lt hbig]
  have := C34_downlink d l q.gid hw (by
    intro h0; rw [h0] at hrate
    have : Q.mbrDL.toNat = 0 := by have : (0 : U32).toNat = 0 := rfl; omega
    exact hm (BitVec.eq_of_toNat_eq this)) (by rw [hdp, hv]; exact htimer _ (qerOf_of hx hq hl)) h01
  rw [hrate] at this
  refine Nat.le_trans (Nat.mul_le_mul_right _ (bitsOf_mono ?_ _)) this
  rintro e f act ⟨h1, h2⟩
  exact ⟨by rw [hdp]; exact (slot_traffic hfz hqz huz H hb hx hq e f).2.2 h1, h2⟩

include hb in
/-- **C102, uplink, no less.** If moreover the QER has been idle for 5 ms and the traffic of its PDRs keeps to the rate with a tolerance of 5 ms,
then no frame of it that was told to be forwarded is dropped, unless the route lookup says so. -/
theorem C102_uplink_at_least_partial {a : Addr} {s : U64} {i : U32} {P : APdr} {F : AFar} {Q : AQer} (hs : Said h a s i P F Q) {t : U32} (hk : P.key = .ul t)
    (hlets : Lets P F Q) (hm : Q.mbrUL ≠ 0) (hbig : Q.mbrUL.toNat * 1000 < 2 ^ 32)
    (d : Dev) (hdp : d.dp = n.dp) {t0 : Nat} (hidle : ∀ k, n.qerOf a s P.qer = some k → k.startUL.toNat + 5000000 ≤ t0) (ht0 : t0 < 2 ^ 63)
    (l : List (Env × List U8)) (ha : Arrivals Env.tUL t0 l)
    (hkeeps : KeepsTo Env.tUL (1000000000 / (Q.mbrUL.toNat * 1000)) 5000000 (offered (UpOf h a s P.qer) l))
    {e : Env} {f : List U8} {act : XAction} (hmem : ((e, f), act) ∈ l.zip (d.run l).2) (hf : FrameFor e f P.key) (hfit : P.fits f)
    (hping : ¬ (innerType f = some 0x0800 ∧ ToSelf e (cutFrame f 0x0800))) (hdrop : act = .drop) : ∃ z, routeAct e (e.fib z) = .drop := by
  obtain ⟨A, hA, hP, hF, hQ⟩ := hs.pdr
  obtain ⟨x, q, qer, hx, hq, hl, hI⟩ := said_slot hfz hqz huz H ⟨A, hA, hQ⟩
  have hv : n.dp.qer.val q.gid = qer := (lookup_val hl).symm
  have hrate : (d.dp.qer.val q.gid).mbrUL.toNat = Q.mbrUL.toNat * 1000 := by rw [hdp, hv, hI.mbrUL, Nat.mod_eq_of_lt hbig]
  obtain ⟨g1, -⟩ := (slot_traffic hfz hqz huz H hb hx hq e f).1.2 ⟨i, P, F, Q, t, hs, rfl, hk, hf, hfit⟩
  obtain ⟨r, far, qer', hr, -, h1, h2, h3, h4⟩ := said_rule hfz hqz huz H hb hs (s := ⟨f, d.dp, d.st, d.rt⟩) hdp hf hfit
  have hg := hlets.gate
  rw [hk] at hr hg
  obtain ⟨-, r', hr', hrq⟩ := (slot_traffic hfz hqz huz H hb hx hq e f).1.2 ⟨i, P, F, Q, t, hs, rfl, hk, hf, hfit⟩
  have hr : ulRule d.dp f = some r := hr
  have hrr : r' = r := by rw [← hdp, hr] at hr'; exact (Option.some.inj hr').symm
  subst hrr
  refine C101_uplink_partial d l q.gid ha ?_ (by rw [hdp, hv]; exact hidle _ (qerOf_of hx hq hl)) ht0 ?_ hmem g1 hr hrq (far := far) (qer := qer')
    ⟨h1, by rw [h2.action]; exact hlets.forw, h3, h4.gateUL.trans hg⟩ hping hdrop
  · intro h0; rw [h0] at hrate
    have : Q.mbrUL.toNat = 0 := by have : (0 : U32).toNat = 0 := rfl; omega
    exact hm (BitVec.eq_of_toNat_eq this)
  · rw [hrate]
    refine hkeeps.sublist (offered_mono (fun e f hu => ?_) l)
    rw [hdp] at hu
    exact (slot_traffic hfz hqz huz H hb hx hq e f).1.1 hu

include hb in
/-- **C102, downlink, no less.** The UPF's own answers to echo requests in tunnels may be downlink traffic of the QER too: they are counted with
the size of the requests. -/
theorem C102_downlink_at_least_partial {a : Addr} {s : U64} {i : U32} {P : APdr} {F : AFar} {Q : AQer} (hs : Said h a s i P F Q) (hk : ∀ t, P.key ≠ .ul t)
    (hlets : Lets P F Q) (hm : Q.mbrDL ≠ 0) (hbig : Q.mbrDL.toNat * 1000 < 2 ^ 32)
    (d : Dev) (hdp : d.dp = n.dp) {t0 : Nat} (hidle : ∀ k, n.qerOf a s P.qer = some k → k.startDL.toNat + 5000000 ≤ t0) (ht0 : t0 < 2 ^ 63)
    (l : List (Env × List U8)) (ha : Arrivals Env.tDL t0 l)
    (hkeeps : KeepsTo Env.tDL (1000000000 / (Q.mbrDL.toNat * 1000)) 5000000 (offered (fun e f => DownOf h a s P.qer e f ∨ PingsUs e f) l))
    {e : Env} {f : List U8} {act : XAction} (hmem : ((e, f), act) ∈ l.zip (d.run l).2) (hf : FrameFor e f P.key) (hfit : P.fits f)
    (hdrop : act = .drop) : ∃ z, routeAct e (e.fib z) = .drop := by
  obtain ⟨A, hA, hP, hF, hQ⟩ := hs.pdr
  obtain ⟨x, q, qer, hx, hq, hl, hI⟩ := said_slot hfz hqz huz H ⟨A, hA, hQ⟩
  have hv : n.dp.qer.val q.gid = qer := (lookup_val hl).symm
  have hrate : (d.dp.qer.val q.gid).mbrDL.toNat = Q.mbrDL.toNat * 1000 := by rw [hdp, hv, hI.mbrDL, Nat.mod_eq_of_lt hbig]
  obtain ⟨r, far, qer', hr, -, h1, h2, h3, h4⟩ := said_rule hfz hqz huz H hb hs (s := ⟨f, d.dp, d.st, d.rt⟩) hdp hf hfit
  have hg := hlets.gate
  have hd := (slot_traffic hfz hqz huz H hb hx hq e f).2.2 ⟨i, P, F, Q, hs, rfl, hk, hf, hfit⟩
  have hrate0 : (d.dp.qer.val q.gid).mbrDL ≠ 0 := by
    intro h0; rw [h0] at hrate
    have : Q.mbrDL.toNat = 0 := by have : (0 : U32).toNat = 0 := rfl; omega
    exact hm (BitVec.eq_of_toNat_eq this)
  have hkeep : KeepsTo Env.tDL (1000000000 / (d.dp.qer.val q.gid).mbrDL.toNat) 5000000 (offered (DownFor d.dp q.gid) l) := by
    rw [hrate]
    refine hkeeps.sublist (offered_mono (fun e f hu => ?_) l)
    rw [hdp] at hu
    have hst := (slot_traffic hfz hqz huz H hb hx hq e f).2.1
    rcases hu with hu | hu | hu
    · exact .inl (hst (.inl hu))
    · exact .inl (hst (.inr hu))
    · exact .inr hu
  have perm : PermitsDl d.dp r far qer' := by
    refine ⟨h1, by rw [h2.action]; exact hlets.forw, h2.bit.2 (hlets.tunnel hk), h3, ?_⟩
    rw [h4.gateDL]
    cases hkk : P.key with
    | ul t => exact absurd hkk (hk t)
    | dl4 ip => rw [hkk] at hg; exact hg
    | dl6 ip => rw [hkk] at hg; exact hg
  cases hkk : P.key with
  | ul t => exact absurd hkk (hk t)
  | dl4 ip =>
    rw [hkk] at hf hr
    have hr : dlRule4 d.dp f = some r := hr
    rcases hd with ⟨-, r', k1, k2⟩ | ⟨g, -⟩
    · rw [← hdp, hr] at k1; cases k1
      exact C101_downlink_partial d l q.gid ha hrate0 (by rw [hdp, hv]; exact hidle _ (qerOf_of hx hq hl)) ht0 hkeep hmem (.inl ⟨hf.1, hr⟩) k2 perm hdrop
    · exact absurd (g.ip.type.symm.trans hf.1.ip.type) (by decide)
  | dl6 ip =>
    rw [hkk] at hf hr
    have hr : dlRule6 d.dp f = some r := hr
    rcases hd with ⟨g, -⟩ | ⟨-, r', k1, k2⟩
    · exact absurd (g.ip.type.symm.trans hf.1.ip.type) (by decide)
    · rw [← hdp, hr] at k1; cases k1
      exact C101_downlink_partial d l q.gid ha hrate0 (by rw [hdp, hv]; exact hidle _ (qerOf_of hx hq hl)) ht0 hkeep hmem (.inr ⟨hf.1, hr⟩) k2 perm hdrop

end

/-! ### a case -/

/-- The service of `Demo.svc` with 1 Mbit/s uplink and 2 Mbit/s downlink. -/
def Demo.svcRate : EstReq := { Demo.svc with createQer := [{ qerId := some 1, qfi := some 9, mbrUL := some 1000, mbrDL := some 2000 }] }
def Demo.nRate : Node := (Demo.nSvc0.step (.establish 1 Demo.svcRate)).1
theorem Demo.rate_step : Demo.nSvc0.step (.establish 1 Demo.svcRate) = (Demo.nRate, .reply Demo.svcResp) := by
  have : (Demo.nSvc0.step (.establish 1 Demo.svcRate)).2 = .reply Demo.svcResp := by decide +kernel
  exact Prod.ext (by simp only [Demo.nRate]) this
theorem Demo.rate_own : ∀ ie ∈ Demo.svcRate.createPdr, (∃ i, ie.farId = some i ∧ ∃ c ∈ Demo.svcRate.createFar, c.farId.getD 0 = i) ∧
    ∃ i, ie.qerId = some i ∧ ∃ c ∈ Demo.svcRate.createQer, c.qerId = some i := by
  intro ie hie
  simp only [Demo.svcRate, Demo.svc, List.mem_cons, List.not_mem_nil, or_false] at hie
  rcases hie with rfl | rfl
  · exact ⟨⟨1, rfl, Demo.svcRate.createFar[0], by simp [Demo.svcRate, Demo.svc], rfl⟩, 1, rfl, Demo.svcRate.createQer[0], by simp [Demo.svcRate], rfl⟩
  · exact ⟨⟨2, rfl, Demo.svcRate.createFar[1], by simp [Demo.svcRate, Demo.svc], rfl⟩, 1, rfl, Demo.svcRate.createQer[0], by simp [Demo.svcRate], rfl⟩

theorem Demo.histRate : ∃ h, HistP Clean Demo.n0 ((.establish 1 Demo.svcRate, .reply Demo.svcResp) :: h) Demo.nRate ∧
    attempts ((.establish 1 Demo.svcRate, .reply Demo.svcResp) :: h) = 1 := by
  obtain ⟨h, s2, hb⟩ := Demo.two99
  have s3 := HistP.snoc s2 (clean_establish (orderly_establish (a := 1) (r := Demo.svcRate) (by decide) (by decide +kernel) (by decide +kernel) (by decide +kernel))
    (by decide) (by decide) (by decide) Demo.rate_own) Demo.rate_step
  refine ⟨h, s3, ?_⟩
  show attempts h + 1 = 1
  rw [hb]

theorem Demo.rate_said (h : List (Ev × Outcome)) : said ((.establish 1 Demo.svcRate, .reply Demo.svcResp) :: h) 1 2 = some (ASession.established Demo.svcRate []) := by
  simp [said, Demo.svcResp]
theorem Demo.rate_ul (h : List (Ev × Outcome)) : Said ((.establish 1 Demo.svcRate, .reply Demo.svcResp) :: h) 1 2 1
    ⟨.ul 0x100, 0, none, 1, 1⟩ ⟨2, 0, 0, 0, 0⟩ ⟨0, 0, 1000, 2000, 9⟩ := ⟨_, Demo.rate_said h, rfl, rfl, rfl⟩
theorem Demo.rate_dl (h : List (Ev × Outcome)) : Said ((.establish 1 Demo.svcRate, .reply Demo.svcResp) :: h) 1 2 2
    ⟨.dl4 0x0A3C0001, 0, none, 2, 1⟩ ⟨2, 0x0100, 0x200, 0x0A000314, 0x1CFF⟩ ⟨0, 0, 1000, 2000, 9⟩ := ⟨_, Demo.rate_said h, rfl, rfl, rfl⟩
theorem Demo.rate_timer : Demo.nRate.qerOf 1 2 1 = some ⟨0, 0, 9, 1000000, 2000000, 0, 0⟩ := by decide +kernel

theorem DemoDp.at_up (t : U64) : FrameFor (DemoDp.at t) DemoDp.up (.ul 0x100) :=
  ⟨⟨⟨DemoDp.up_gpdu.gtpu.1, DemoDp.up_gpdu.gtpu.2, DemoDp.up_gpdu.gtpu.3, DemoDp.up_gpdu.gtpu.4, DemoDp.up_gpdu.gtpu.5⟩, DemoDp.up_gpdu.2, DemoDp.up_gpdu.3⟩, by decide⟩
theorem DemoDp.at_down (t : U64) : FrameFor (DemoDp.at t) DemoDp.down (.dl4 0x0A3C0001) := ⟨⟨DemoDp.down_down4.1, DemoDp.down_down4.2, fun h => DemoDp.down_down4.3 ⟨h.1, h.2, h.3, h.4, h.5⟩⟩, by decide⟩

/-- C102_uplink_at_most_partial and C102_downlink_at_most_partial on the node, for every run: uplink at most a bit per 1000 ns, downlink at
most a bit per 500 ns. -/
example (d : Dev) (hdp : d.dp = Demo.nRate.dp) (l : List (Env × List U8)) (t0 t1 : Nat) (hu : Window Env.tUL t0 t1 1500 l) (hd : Window Env.tDL t0 t1 1500 l)
    (h01 : t0 ≤ t1) : ∃ h, SaidQer h 1 2 1 ⟨0, 0, 1000, 2000, 9⟩ ∧
      bitsOf (fun e f act => UpOf h 1 2 1 e f ∧ act.sent = true) (l.zip (d.run l).2) * 1000 ≤ (t1 - t0) + 12000000 ∧
      bitsOf (fun e f act => DownOf h 1 2 1 e f ∧ act.sent = true) (l.zip (d.run l).2) * 500 ≤ (t1 - t0) + 6000000 := by
  obtain ⟨h, H, b⟩ := Demo.histRate
  have hs := Demo.rate_said h
  have ht := Demo.rate_timer
  generalize Demo.nRate = n at H hdp ht
  have hq : SaidQer ((.establish 1 Demo.svcRate, .reply Demo.svcResp) :: h) 1 2 1 ⟨0, 0, 1000, 2000, 9⟩ := ⟨_, hs, rfl⟩
  generalize ((.establish 1 Demo.svcRate, .reply Demo.svcResp) :: h : List (Ev × Outcome)) = hh at H b hq
  have e1 : 1000000000 / ((AQer.mk 0 0 1000 2000 9).mbrUL.toNat * 1000) = 1000 := by decide
  have e2 : 1000000000 / ((AQer.mk 0 0 1000 2000 9).mbrDL.toNat * 1000) = 500 := by decide
  refine ⟨hh, hq, ?_, ?_⟩
  · have w := C102_uplink_at_most_partial (fz := 4) (qz := 4) (uz := 4) (by decide) (by decide) (by decide) H (by rw [b]; decide) hq (by decide) (by decide) d hdp
      (by intro k hk; rw [ht] at hk; cases hk; decide) l hu h01
    rw [e1, show max 5000000 (8 * 1500 * 1000) = 12000000 by decide] at w
    exact w
  · have w := C102_downlink_at_most_partial (fz := 4) (qz := 4) (uz := 4) (by decide) (by decide) (by decide) H (by rw [b]; decide) hq (by decide) (by decide) d hdp
      (by intro k hk; rw [ht] at hk; cases hk; decide) l hd h01
    rw [e2, show max 5000000 (8 * 1500 * 500) = 6000000 by decide] at w
    exact w

/-- two frames that arrive at the same time -/
def Demo.twice (f : List U8) : List (Env × List U8) := [(DemoDp.at 10000000, f), (DemoDp.at 10000000, f)]
theorem Demo.twice_arrive {clock : Env → U64} (hc : ∀ t, clock (DemoDp.at t) = t) {f : List U8} (hf : f.length < 2 ^ 29) : Arrivals clock 5000000 (Demo.twice f) := by
  refine ⟨by simp [Demo.twice], ?_, ?_, ?_⟩
  all_goals
    intro x hx
    simp only [Demo.twice, List.mem_cons, List.not_mem_nil, or_false, or_self] at hx
    subst hx
  · rw [hc]; decide
  · rw [hc]; decide
  · exact hf

/-- C102_uplink_at_least_partial: two G-PDUs that arrive together are not dropped unless the routes say so. -/
example (a : XAction) (ha : ((DemoDp.at 10000000, DemoDp.up), a) ∈ (Demo.twice DemoDp.up).zip ((⟨Demo.nRate.dp, {}, {}⟩ : Dev).run (Demo.twice DemoDp.up)).2)
    (hdrop : a = .drop) :
    ∃ z, routeAct (DemoDp.at 10000000) ((DemoDp.at 10000000).fib z) = .drop := by
  obtain ⟨h, H, b⟩ := Demo.histRate
  have hs := Demo.rate_ul h
  have ht := Demo.rate_timer
  have hf := DemoDp.at_up 10000000
  have hl : DemoDp.up.length = 82 := by decide
  have hi : ¬ (innerType DemoDp.up = some 0x0800 ∧ ToSelf (DemoDp.at 10000000) (cutFrame DemoDp.up 0x0800)) := by
    rintro ⟨-, h, -⟩; revert h; decide +kernel
  generalize Demo.nRate = n at H ht ha
  generalize DemoDp.up = f at hf hl hi ha
  generalize ((.establish 1 Demo.svcRate, .reply Demo.svcResp) :: h : List (Ev × Outcome)) = hh at H b hs
  have arr := Demo.twice_arrive (clock := Env.tUL) (fun _ => rfl) (f := f) (by rw [hl]; decide)
  have e1 : 1000000000 / ((AQer.mk 0 0 1000 2000 9).mbrUL.toNat * 1000) = 1000 := by decide
  exact C102_uplink_at_least_partial (fz := 4) (qz := 4) (uz := 4) (by decide) (by decide) (by decide) H (by rw [b]; decide) hs rfl
    ⟨by unfold AFar.forwards; decide, by show (0 : U8) = 0; rfl, fun h => absurd rfl (h _)⟩ (by decide) (by decide)
    ⟨n.dp, {}, {}⟩ rfl (t0 := 5000000) (by intro k hk; rw [ht] at hk; cases hk; decide) (by decide) (Demo.twice f) arr
    (by rw [e1]; exact KeepsTo.sublist (keeps_two (by simp only []; omega) (by simp only []; omega) (by simp only []; omega)) List.filter_sublist) ha hf (by intro sdf h; cases h) hi hdrop
/-- C102_downlink_at_least_partial: two packets to the UE that arrive together are not dropped unless the routes say so. -/
example (a : XAction) (ha : ((DemoDp.at 10000000, DemoDp.down), a) ∈ (Demo.twice DemoDp.down).zip ((⟨Demo.nRate.dp, {}, {}⟩ : Dev).run (Demo.twice DemoDp.down)).2)
    (hdrop : a = .drop) : ∃ z, routeAct (DemoDp.at 10000000) ((DemoDp.at 10000000).fib z) = .drop := by
  obtain ⟨h, H, b⟩ := Demo.histRate
  have hs := Demo.rate_dl h
  have ht := Demo.rate_timer
  have hf := DemoDp.at_down 10000000
  have hl : DemoDp.down.length < 100 := by decide
  generalize Demo.nRate = n at H ht ha
  generalize DemoDp.down = f at hf hl ha
  generalize ((.establish 1 Demo.svcRate, .reply Demo.svcResp) :: h : List (Ev × Outcome)) = hh at H b hs
  have arr := Demo.twice_arrive (clock := Env.tDL) (fun _ => rfl) (f := f) (by omega)
  have e2 : 1000000000 / ((AQer.mk 0 0 1000 2000 9).mbrDL.toNat * 1000) = 500 := by decide
  exact C102_downlink_at_least_partial (fz := 4) (qz := 4) (uz := 4) (by decide) (by decide) (by decide) H (by rw [b]; decide) hs (by intro t h; cases h)
    ⟨by unfold AFar.forwards; decide, by show (0 : U8) = 0; rfl, fun _ => by unfold AFar.tunnels; decide⟩ (by decide) (by decide)
    ⟨n.dp, {}, {}⟩ rfl (t0 := 5000000) (by intro k hk; rw [ht] at hk; cases hk; decide) (by decide) (Demo.twice f) arr
    (by rw [e2]; exact KeepsTo.sublist (keeps_two (by simp only []; omega) (by simp only []; omega) (by simp only []; omega)) List.filter_sublist)
    ha hf (by intro sdf h; cases h) hdrop

/-- And they are sent. -/
example : ((⟨Demo.nRate.dp, {}, {}⟩ : Dev).run (Demo.twice DemoDp.up)).2 = [.redirect 7, .redirect 7] ∧
    ((⟨Demo.nRate.dp, {}, {}⟩ : Dev).run (Demo.twice DemoDp.down)).2 = [.redirect 7, .redirect 7] := by
  constructor <;> decide +kernel
end Eupf
