import Verif.Props.Overlap
/-
C100, C107, C108 for PDRs with a rate limit: a frame that was told to be forwarded is forwarded as told, or dropped untouched, and the latter only if its QER
has a limit. (C34, C101 and C102 are about how much is dropped.)
-/
namespace Eupf

/-- A frame to which a rule applies that lets it through, but that is over the rate of the QER, is dropped unchanged, and no table changes. -/
theorem policed_dropped (e : Env) (s : PS) (r : Rule) (far : FarInfo) (qer : QerInfo)
    (h : (IsGtpMsg e s.frame 255 ∧ ulRule s.dp s.frame = some r ∧ PermitsUl s.dp r far qer ∧ rateUl e qer s.frame.length = none) ∨
      (IsDown4 e s.frame ∧ dlRule4 s.dp s.frame = some r ∧ PermitsDl s.dp r far qer ∧ rateDl e qer s.frame.length = none) ∨
      (IsDown6 s.frame ∧ dlRule6 s.dp s.frame = some r ∧ PermitsDl s.dp r far qer ∧ rateDl e qer s.frame.length = none)) :
    ∃ s', runPacket e s = (s', .ok .drop) ∧ s'.frame = s.frame ∧ s'.dp = s.dp := by
  obtain ⟨s', a, hrun, res, _⟩ := entry_outcome e s
  have key : a = .drop ∧ s'.frame = s.frame ∧ s'.dp = s.dp := by
    generalize s'.frame = fr at res ⊢
    generalize s'.dp = dp at res ⊢
    have downc : ∀ {pdr? n rule}, rule = some r → PermitsDl s.dp r far qer → rateDl e qer s.frame.length = none → DownRes e s.dp s.frame pdr? rule n fr dp a →
        a = .drop ∧ fr = s.frame ∧ dp = s.dp := by
      intro pdr? n rule hr hp hz d
      cases d with
      | unclassified h1 => rw [hr] at h1; cases h1
      | denied _ _ | policed _ _ _ => exact ⟨rfl, rfl, rfl⟩
      | noRoom _ h1 h2 h3 | sent _ _ h1 h2 h3 =>
        rw [hr] at h1; cases h1
        have := Option.some.inj (h2.hasQer.symm.trans hp.hasQer)
        subst this
        exact nomatch (hz.symm.trans h3)
    rcases h with ⟨hm, hr, hp, hz⟩ | ⟨hm, hr, hp, hz⟩ | ⟨hm, hr, hp, hz⟩
    · have hx : ∀ {t}, IsGtpMsg e s.frame t → t = 255 := fun h => by rw [← h.type, hm.type]
      cases res with
      | foreign h => exact absurd hm (h.notMsg _)
      | otherMsg h h2 _ => exact absurd (hx h) h2
      | echo h => exact absurd (hx h) (by decide)
      | gpdu _ res =>
        cases res with
        | unclassified h1 => rw [hr] at h1; cases h1
        | denied _ _ | policed _ _ _ => exact ⟨rfl, rfl, rfl⟩
        | n9 _ _ h1 h2 h3 | kept _ h1 h2 h3 | garbled _ _ h1 h2 h3 | cut4 _ _ h1 h2 h3 | cut6 _ _ h1 h2 h3 | selfOther _ _ _ h1 h2 h3 | ping _ _ h1 h2 h3 =>
          rw [hr] at h1; cases h1
          have := Option.some.inj (h2.hasQer.symm.trans hp.hasQer)
          subst this
          exact nomatch (hz.symm.trans h3)
      | down4 h _ => exact absurd hm.gtpu h.notGtpu
      | down6 h _ => exact absurd (h.ip.type.symm.trans hm.gtpu.ip.type) (by decide)
    · cases res with
      | foreign h => exact absurd hm h.notDown4
      | otherMsg h _ _ => exact absurd h.gtpu hm.notGtpu
      | echo h => exact absurd h.gtpu hm.notGtpu
      | gpdu h _ => exact absurd h.gtpu hm.notGtpu
      | down4 h d => exact downc hr hp hz d
      | down6 h _ => exact absurd (h.ip.type.symm.trans hm.ip.type) (by decide)
    · cases res with
      | foreign h => exact absurd hm h.notDown6
      | otherMsg h _ _ => exact absurd (hm.ip.type.symm.trans h.gtpu.ip.type) (by decide)
      | echo h => exact absurd (hm.ip.type.symm.trans h.gtpu.ip.type) (by decide)
      | gpdu h _ => exact absurd (hm.ip.type.symm.trans h.gtpu.ip.type) (by decide)
      | down4 h _ => exact absurd (hm.ip.type.symm.trans h.ip.type) (by decide)
      | down6 h d => exact downc hr hp hz d
  exact ⟨s', by rw [hrun, key.1], key.2⟩

theorem told_downlink_limited {P : APdr} {F : AFar} {Q : AQer} (e : Env) (s : PS) (ht0 : ToldAt s.dp s.frame P F Q)
    (hf : FrameFor e s.frame P.key) (hdl : ∀ t, P.key ≠ .ul t) (hl : Lets P F Q) (hroom : e.headroom ≠ none) :
    (∃ s' fib len, runPacket e s = (s', .ok (routeAct e (e.fib fib))) ∧ fib.dst = slice s'.frame 30 4 ∧
      len = (match P.key with | .dl6 _ => be16 s.frame 18 + 40 | _ => be16 s.frame 16) ∧
      IsTunnelled ⟨e.n3Ip, F.peer, F.tos, Q.qfi, F.teid⟩ len (s.frame.drop 14) s'.frame) ∨
    (Q.mbrDL ≠ 0 ∧ ∃ s', runPacket e s = (s', .ok .drop) ∧ s'.frame = s.frame ∧ s'.dp = s.dp) := by
  by_cases hmbr : Q.mbrDL = 0
  · exact .inl (told_downlink e s ht0 hf hdl hl hmbr hroom)
  obtain ⟨r, far, qer, hr, -, h1, h2, h3, h4⟩ := ht0
  have hforw : far.action.getLsbD 1 = true := by rw [h2.action]; exact hl.forw
  have htun : far.ohc.getLsbD 0 = true := h2.bit.2 (hl.tunnel hdl)
  have hg := hl.gate
  cases hk : P.key with
  | ul t => exact absurd hk (hdl t)
  | dl4 ip =>
    rw [hk] at hf hr hg
    have hp : PermitsDl s.dp r far qer := ⟨h1, hforw, htun, h3, h4.gateDL.trans hg⟩
    cases hrate : rateDl e qer s.frame.length with
    | none => exact .inr ⟨hmbr, policed_dropped e s r far qer (.inr (.inl ⟨hf.1, hr, hp, hrate⟩))⟩
    | some st =>
      obtain ⟨s', fib, w1, -, w2, w3⟩ := C27_forwarded4 e s hf.1 hr hp hrate hroom
      exact .inl ⟨s', fib, _, w1, w2, rfl, by rw [← said_tunnel h2 h4 e]; exact w3⟩
  | dl6 ip =>
    rw [hk] at hf hr hg
    have hp : PermitsDl s.dp r far qer := ⟨h1, hforw, htun, h3, h4.gateDL.trans hg⟩
    cases hrate : rateDl e qer s.frame.length with
    | none => exact .inr ⟨hmbr, policed_dropped e s r far qer (.inr (.inr ⟨hf.1, hr, hp, hrate⟩))⟩
    | some st =>
      obtain ⟨s', fib, w1, -, w2, w3⟩ := C27_forwarded6 e s hf.1 hr hp hrate hroom
      exact .inl ⟨s', fib, _, w1, w2, rfl, by rw [← said_tunnel h2 h4 e]; exact w3⟩

theorem told_uplink_limited {P : APdr} {F : AFar} {Q : AQer} (e : Env) (s : PS) (ht0 : ToldAt s.dp s.frame P F Q)
    {t : U32} (hk : P.key = .ul t) (hm : IsGtpMsg e s.frame 255)
    (hl : Lets P F Q) (hnt : ¬ F.tunnels) (hohr : P.ohr = 0)
    (h34 : l4Off s.frame = 34) {o : Nat} (hpay : PayloadAt s.frame o) (ho : o = gtpOff s.frame + 8 ∨ o = gtpOff s.frame + 16)
    (hin2 : ((oct s.frame o).toNat / 16 = 4 ∧ o + 20 ≤ s.frame.length) ∨ ((oct s.frame o).toNat / 16 = 6 ∧ o + 40 ≤ s.frame.length))
    (hself : ¬ ((oct s.frame o).toNat / 16 = 4 ∧ oct s.frame (o + 9) = 1 ∧ (be32 s.frame (o + 16) = e.n3Ip ∨ be32 s.frame (o + 16) = e.n9Ip))) :
    (∃ s' fib m ty, runPacket e s = (s', .ok (routeAct e (e.fib fib))) ∧ m.length = 12 ∧ etherTypeOf (s.frame.drop o) = some ty ∧
      s'.frame = m ++ ty ++ s.frame.drop o ∧
      fib.dst = if (oct s.frame o).toNat / 16 = 4 then slice s.frame (o + 16) 4 else slice s.frame (o + 24) 16) ∨
    (Q.mbrUL ≠ 0 ∧ ∃ s', runPacket e s = (s', .ok .drop) ∧ s'.frame = s.frame ∧ s'.dp = s.dp) := by
  by_cases hmbr : Q.mbrUL = 0
  · exact .inl (told_uplink e s ht0 hk hm hl hnt hohr hmbr h34 hpay ho hin2 hself)
  obtain ⟨r, far, qer, hr, hr2, h1, h2, h3, h4⟩ := ht0
  have hg := hl.gate
  rw [hk] at hr hg
  have hp : PermitsUl s.dp r far qer := ⟨h1, by rw [h2.action]; exact hl.forw, h3, h4.gateUL.trans hg⟩
  cases hrate : rateUl e qer s.frame.length with
  | none => exact .inr ⟨hmbr, policed_dropped e s r far qer (.inl ⟨hm, hr, hp, hrate⟩)⟩
  | some st =>
    refine .inl (C28_forwarded_partial e s hm hr hp ?_ (hr2.trans hohr) h34 hrate hpay ho hin2 hself)
    cases hh : far.ohc.getLsbD 0 with
    | false => rfl
    | true => exact absurd (h2.bit.1 hh) hnt


section
variable {cfg : NodeCfg} {rm : Option ResourceManager} {pz fz qz uz : U32} (hfz : 0 < fz.toNat) (hqz : 0 < qz.toNat)
    (huz : 0 < uz.toNat) {h : List (Ev × Outcome)} {n : Node} (H : HistP Clean (Node.init cfg rm (BpfObjects.load pz fz qz uz)) h n)
    (hb : attempts h < 2 ^ 64 - 2)
include hfz hqz huz H hb

/-- **C100, downlink, any rate.** A downlink frame that a session was told to forward leaves in the tunnel last told, or is dropped untouched, and the latter only if
its QER has a downlink rate. -/
theorem C100_downlink_limited_partial {a : Addr} {sd : U64} {i : U32} {P : APdr} {F : AFar} {Q : AQer} (hs : Said h a sd i P F Q) (e : Env) (s : PS) (hdp : s.dp = n.dp)
    (hf : FrameFor e s.frame P.key) (hdl : ∀ t, P.key ≠ .ul t) (hfit : P.fits s.frame) (hl : Lets P F Q) (hroom : e.headroom ≠ none) :
    (∃ s' fib len, runPacket e s = (s', .ok (routeAct e (e.fib fib))) ∧ fib.dst = slice s'.frame 30 4 ∧
      len = (match P.key with | .dl6 _ => be16 s.frame 18 + 40 | _ => be16 s.frame 16) ∧
      IsTunnelled ⟨e.n3Ip, F.peer, F.tos, Q.qfi, F.teid⟩ len (s.frame.drop 14) s'.frame) ∨
    (Q.mbrDL ≠ 0 ∧ ∃ s', runPacket e s = (s', .ok .drop) ∧ s'.frame = s.frame ∧ s'.dp = s.dp) :=
  told_downlink_limited e s (said_rule hfz hqz huz H hb hs (e := e) hdp hf hfit) hf hdl hl hroom

/-- **C100, uplink, any rate.** -/
theorem C100_uplink_limited_partial {a : Addr} {sd : U64} {i : U32} {P : APdr} {F : AFar} {Q : AQer} (hs : Said h a sd i P F Q) (e : Env) (s : PS) (hdp : s.dp = n.dp)
    {t : U32} (hk : P.key = .ul t) (hm : IsGtpMsg e s.frame 255) (ht : gtpTeid s.frame = t) (hfit : P.fits s.frame)
    (hl : Lets P F Q) (hnt : ¬ F.tunnels) (hohr : P.ohr = 0)
    (h34 : l4Off s.frame = 34) {o : Nat} (hpay : PayloadAt s.frame o) (ho : o = gtpOff s.frame + 8 ∨ o = gtpOff s.frame + 16)
    (hin2 : ((oct s.frame o).toNat / 16 = 4 ∧ o + 20 ≤ s.frame.length) ∨ ((oct s.frame o).toNat / 16 = 6 ∧ o + 40 ≤ s.frame.length))
    (hself : ¬ ((oct s.frame o).toNat / 16 = 4 ∧ oct s.frame (o + 9) = 1 ∧ (be32 s.frame (o + 16) = e.n3Ip ∨ be32 s.frame (o + 16) = e.n9Ip))) :
    (∃ s' fib m ty, runPacket e s = (s', .ok (routeAct e (e.fib fib))) ∧ m.length = 12 ∧ etherTypeOf (s.frame.drop o) = some ty ∧
      s'.frame = m ++ ty ++ s.frame.drop o ∧
      fib.dst = if (oct s.frame o).toNat / 16 = 4 then slice s.frame (o + 16) 4 else slice s.frame (o + 24) 16) ∨
    (Q.mbrUL ≠ 0 ∧ ∃ s', runPacket e s = (s', .ok .drop) ∧ s'.frame = s.frame ∧ s'.dp = s.dp) :=
  told_uplink_limited e s (said_rule hfz hqz huz H hb hs (e := e) hdp (by rw [hk]; exact ⟨hm, ht⟩) hfit) hk hm hl hnt hohr h34 hpay ho hin2 hself

end

section
variable {cfg : NodeCfg} {rm : Option ResourceManager} {pz fz qz uz : U32} (hfz : 0 < fz.toNat) (hqz : 0 < qz.toNat)
    (huz : 0 < uz.toNat) {h : List (Ev × Outcome)} {n : Node} (H : HistI Clean (Node.init cfg rm (BpfObjects.load pz fz qz uz)) h n)
    (hb : attempts h < 2 ^ 64 - 2) {a : Addr} {sd : U64} {i : U32} {P : APdr} {F : AFar} {Q : AQer} (hs : Said h a sd i P F Q) (hK : P.key ≠ .ul 0)
    {ev : Ev} (hr : ev.refsKnown n) (hab : ¬ ev.about a sd) (hu : Untouched P.key n ev) {b1 b2 b3 : BpfObjects} (hm1 : n.moment ev b1)
    (hm2 : n.moment ev b2) (hm3 : n.moment ev b3)
include hfz hqz huz H hb hs hK hr hab hu hm1 hm2 hm3

/-- **C107, downlink, any rate.** -/
theorem C107_downlink_limited_partial (e : Env) (s : PS) (hdp : s.dp = lookups b1 b2 b3) (hf : FrameFor e s.frame P.key) (hdl : ∀ t, P.key ≠ .ul t) (hfit : P.fits s.frame)
    (hl : Lets P F Q) (hroom : e.headroom ≠ none) :
    (∃ s' fib len, runPacket e s = (s', .ok (routeAct e (e.fib fib))) ∧ fib.dst = slice s'.frame 30 4 ∧
      len = (match P.key with | .dl6 _ => be16 s.frame 18 + 40 | _ => be16 s.frame 16) ∧
      IsTunnelled ⟨e.n3Ip, F.peer, F.tos, Q.qfi, F.teid⟩ len (s.frame.drop 14) s'.frame) ∨
    (Q.mbrDL ≠ 0 ∧ ∃ s', runPacket e s = (s', .ok .drop) ∧ s'.frame = s.frame ∧ s'.dp = s.dp) :=
  told_downlink_limited e s (moment_told hfz hqz huz H hb hs hK hr hab hu hm1 hm2 hm3 hdp hf hfit) hf hdl hl hroom

/-- **C107, uplink, any rate.** -/
theorem C107_uplink_limited_partial (e : Env) (s : PS) (hdp : s.dp = lookups b1 b2 b3) {t : U32} (hk : P.key = .ul t) (hg : IsGtpMsg e s.frame 255) (ht : gtpTeid s.frame = t)
    (hfit : P.fits s.frame) (hl : Lets P F Q) (hnt : ¬ F.tunnels) (hohr : P.ohr = 0)
    (h34 : l4Off s.frame = 34) {o : Nat} (hpay : PayloadAt s.frame o) (ho : o = gtpOff s.frame + 8 ∨ o = gtpOff s.frame + 16)
    (hin2 : ((oct s.frame o).toNat / 16 = 4 ∧ o + 20 ≤ s.frame.length) ∨ ((oct s.frame o).toNat / 16 = 6 ∧ o + 40 ≤ s.frame.length))
    (hself : ¬ ((oct s.frame o).toNat / 16 = 4 ∧ oct s.frame (o + 9) = 1 ∧ (be32 s.frame (o + 16) = e.n3Ip ∨ be32 s.frame (o + 16) = e.n9Ip))) :
    (∃ s' fib m ty, runPacket e s = (s', .ok (routeAct e (e.fib fib))) ∧ m.length = 12 ∧ etherTypeOf (s.frame.drop o) = some ty ∧
      s'.frame = m ++ ty ++ s.frame.drop o ∧
      fib.dst = if (oct s.frame o).toNat / 16 = 4 then slice s.frame (o + 16) 4 else slice s.frame (o + 24) 16) ∨
    (Q.mbrUL ≠ 0 ∧ ∃ s', runPacket e s = (s', .ok .drop) ∧ s'.frame = s.frame ∧ s'.dp = s.dp) :=
  told_uplink_limited e s (moment_told hfz hqz huz H hb hs hK hr hab hu hm1 hm2 hm3 hdp (by rw [hk]; exact ⟨hg, ht⟩) hfit) hk hg hl hnt hohr h34 hpay ho hin2 hself

end

section
variable {cfg : NodeCfg} {rm : Option ResourceManager} {pz fz qz uz : U32} (hfz : 0 < fz.toNat) (hqz : 0 < qz.toNat)
    (huz : 0 < uz.toNat) {h1 h2 h3 : List (Ev × Outcome)} {n1 n2 n3 : Node} (H1 : HistI Clean (Node.init cfg rm (BpfObjects.load pz fz qz uz)) h1 n1)
    {a : Addr} {sd : U64} {i : U32} {P : APdr} {F : AFar} {Q : AQer} (hs : Said h1 a sd i P F Q) (hK : P.key ≠ .ul 0)
    (H2 : HistI (CleanElsewhere a sd) n1 h2 n2) (H3 : HistI (CleanElsewhere a sd) n2 h3 n3) (hb : attempts (h3 ++ (h2 ++ h1)) < 2 ^ 64 - 2)
    {e1 e2 e3 : Ev} (hr1 : e1.refsKnown n1) (hab1 : ¬ e1.about a sd) (hu : Untouched P.key n1 e1) (hr2 : e2.refsKnown n2) (hab2 : ¬ e2.about a sd)
    (hr3 : e3.refsKnown n3) (hab3 : ¬ e3.about a sd) {b1 b2 b3 : BpfObjects} (hm1 : n1.moment e1 b1) (hm2 : n2.moment e2 b2) (hm3 : n3.moment e3 b3)
include hfz hqz huz H1 hb hs hK H2 H3 hr1 hab1 hu hr2 hab2 hr3 hab3 hm1 hm2 hm3

/-- **C108, downlink, any rate.** -/
theorem C108_downlink_limited_partial (e : Env) (s : PS) (hdp : s.dp = lookups b1 b2 b3) (hf : FrameFor e s.frame P.key) (hdl : ∀ t, P.key ≠ .ul t)
    (hfit : P.fits s.frame) (hl : Lets P F Q) (hroom : e.headroom ≠ none) :
    (∃ s' fib len, runPacket e s = (s', .ok (routeAct e (e.fib fib))) ∧ fib.dst = slice s'.frame 30 4 ∧
      len = (match P.key with | .dl6 _ => be16 s.frame 18 + 40 | _ => be16 s.frame 16) ∧
      IsTunnelled ⟨e.n3Ip, F.peer, F.tos, Q.qfi, F.teid⟩ len (s.frame.drop 14) s'.frame) ∨
    (Q.mbrDL ≠ 0 ∧ ∃ s', runPacket e s = (s', .ok .drop) ∧ s'.frame = s.frame ∧ s'.dp = s.dp) :=
  told_downlink_limited e s (overlap_told hfz hqz huz H1 hs hK H2 H3 hb hr1 hab1 hu hr2 hab2 hr3 hab3 hm1 hm2 hm3 hdp hf hfit) hf hdl hl hroom

/-- **C108, uplink, any rate.** -/
theorem C108_uplink_limited_partial (e : Env) (s : PS) (hdp : s.dp = lookups b1 b2 b3) {t : U32} (hk : P.key = .ul t) (hg : IsGtpMsg e s.frame 255)
    (ht : gtpTeid s.frame = t) (hfit : P.fits s.frame) (hl : Lets P F Q) (hnt : ¬ F.tunnels) (hohr : P.ohr = 0)
    (h34 : l4Off s.frame = 34) {o : Nat} (hpay : PayloadAt s.frame o) (ho : o = gtpOff s.frame + 8 ∨ o = gtpOff s.frame + 16)
    (hin2 : ((oct s.frame o).toNat / 16 = 4 ∧ o + 20 ≤ s.frame.length) ∨ ((oct s.frame o).toNat / 16 = 6 ∧ o + 40 ≤ s.frame.length))
    (hself : ¬ ((oct s.frame o).toNat / 16 = 4 ∧ oct s.frame (o + 9) = 1 ∧ (be32 s.frame (o + 16) = e.n3Ip ∨ be32 s.frame (o + 16) = e.n9Ip))) :
    (∃ s' fib m ty, runPacket e s = (s', .ok (routeAct e (e.fib fib))) ∧ m.length = 12 ∧ etherTypeOf (s.frame.drop o) = some ty ∧
      s'.frame = m ++ ty ++ s.frame.drop o ∧
      fib.dst = if (oct s.frame o).toNat / 16 = 4 then slice s.frame (o + 16) 4 else slice s.frame (o + 24) 16) ∨
    (Q.mbrUL ≠ 0 ∧ ∃ s', runPacket e s = (s', .ok .drop) ∧ s'.frame = s.frame ∧ s'.dp = s.dp) :=
  told_uplink_limited e s (overlap_told hfz hqz huz H1 hs hK H2 H3 hb hr1 hab1 hu hr2 hab2 hr3 hab3 hm1 hm2 hm3 hdp (by rw [hk]; exact ⟨hg, ht⟩) hfit)
    hk hg hl hnt hohr h34 hpay ho hin2 hself

end

end Eupf
