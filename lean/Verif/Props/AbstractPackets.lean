import Verif.Props.Abstract
import Verif.Props.EndToEnd
import Verif.Props.OwnRulesCases
/-
C100: the UPF does what it was told, no more and no less (packets).
-/
namespace Eupf

/-- the rule for a frame with a match key -/
def frameRule (b : BpfObjects) (f : List U8) : PdrKey → Option Rule
  | .ul _ => ulRule b f
  | .dl4 _ => dlRule4 b f
  | .dl6 _ => dlRule6 b f

theorem says_none {p : PdrInfo} {m : KFilter → Bool} {sdf : SdfFilter} (h : p.sdf = some sdf) (hm : m (toKFilter sdf) = false) : p.says m = none := by
  unfold PdrInfo.says; rw [h]; simp [hm]
theorem says_some {p : PdrInfo} {m : KFilter → Bool} (h : ∀ sdf, p.sdf = some sdf → m (toKFilter sdf) = true) : p.says m = some p.rule := by
  unfold PdrInfo.says
  cases hs : p.sdf with
  | none => rfl
  | some sdf => simp [h sdf hs]

theorem store_mode0 {p : PdrInfo} (h : p.sdf = none) : (pdrToStore none p).sdfMode = 0 := by unfold pdrToStore; rw [h]; rfl

/-- the frame has the match key where a look-up takes it from -/
def KeyOf (f : List U8) : PdrKey → Prop
  | .ul t => gtpTeid f = t
  | .dl4 ip => be32 f 30 = ip
  | .dl6 ip => be128 (slice f 38 16) = ip

theorem FrameFor.keyOf {e : Env} {f : List U8} {k : PdrKey} (h : FrameFor e f k) : KeyOf f k := by
  cases k <;> exact h.2

/-- a frame that fits the PDR gets its rule -/
theorem frameRule_fits {b : BpfObjects} {p : PdrInfo} {k : PdrKey} (he : b.entry? k = some (pdrToStore none p)) {f : List U8} (hf : KeyOf f k)
    (hfit : p.fitsFrame k f) : frameRule b f k = some p.rule := by
  have hc : ∀ m, classify (b.entry? k) m = p.says m := by
    intro m; rw [he, classify_store]; unfold PdrInfo.says; cases p.sdf <;> rfl
  cases k with
  | ul t =>
    unfold KeyOf at hf; have h2 := hf; clear hf; simp only at h2
    show ulRule b f = _
    unfold ulRule
    rw [h2]
    have he' : b.pdrUl.lookup t = some (pdrToStore none p) := he
    rw [he']
    simp only []
    cases hs : p.sdf with
    | none =>
      rw [if_pos (store_mode0 hs), ← says_some (p := p) (m := fun _ => true) (fun sdf h => nomatch (hs.symm.trans h)), ← hc, he]
      exact (if_pos (store_mode0 hs)).symm
    | some sdf =>
      obtain ⟨fl, g1, g2⟩ := hfit sdf hs
      have hfl : innerFlow f = some fl := g1
      have hm : classify (b.entry? (.ul t)) fl.sat = some p.rule := by
        rw [hc]
        exact says_some fun sdf' hs' => by rw [hs] at hs'; cases hs'; exact g2
      rw [he] at hm
      split
      · rename_i h0
        rw [← hm]; exact (if_pos h0).symm
      · rw [hfl]; exact hm
  | dl4 ip =>
    unfold KeyOf at hf; have h2 := hf; clear hf; simp only at h2
    show dlRule4 b f = _
    unfold dlRule4
    rw [h2]
    have := hc (downFlow4 f).sat
    rw [show b.pdrDl4.lookup ip = b.entry? (.dl4 ip) from rfl, this]
    refine says_some fun sdf hs => ?_
    obtain ⟨fl', g1, g2⟩ := hfit sdf hs
    cases g1; exact g2
  | dl6 ip =>
    unfold KeyOf at hf; have h2 := hf; clear hf; simp only at h2
    show dlRule6 b f = _
    unfold dlRule6
    rw [h2]
    have := hc (downFlow6 f).sat
    rw [show b.pdrDl6.lookup ip = b.entry? (.dl6 ip) from rfl, this]
    refine says_some fun sdf hs => ?_
    obtain ⟨fl', g1, g2⟩ := hfit sdf hs
    cases g1; exact g2

/-- a frame that does not fit the PDR gets no rule -/
theorem frameRule_unfit {b : BpfObjects} {p : PdrInfo} {k : PdrKey} (hc : ∀ m, classify (b.entry? k) m = p.says m) {f : List U8} (hf : KeyOf f k)
    (hfit : ¬ p.fitsFrame k f) : frameRule b f k = none := by
  have hx : ∃ sdf, p.sdf = some sdf ∧ ∀ fl, flowOf f k = some fl → fl.sat (toKFilter sdf) = false := by
    refine Classical.byContradiction fun hn => hfit fun sdf hs => ?_
    refine Classical.byContradiction fun hm => hn ⟨sdf, hs, fun fl hfl => ?_⟩
    cases hsat : fl.sat (toKFilter sdf) with
    | false => rfl
    | true => exact absurd ⟨fl, hfl, hsat⟩ hm
  obtain ⟨sdf, hs, hx⟩ := hx
  cases k with
  | ul t =>
    unfold KeyOf at hf; have h2 := hf; clear hf; simp only at h2
    show ulRule b f = _
    unfold ulRule
    rw [h2]
    have hcf := hc fun _ => false
    rw [says_none hs rfl] at hcf
    have he : b.entry? (.ul t) = b.pdrUl.lookup t := rfl
    rw [he] at hcf hc
    cases hl : b.pdrUl.lookup t with
    | none => rfl
    | some pe =>
      rw [hl] at hcf hc
      simp only []
      split
      · rename_i h0
        simp [classify, h0] at hcf
      · cases hfl : innerFlow f with
        | none => rfl
        | some fl =>
          show classify (some pe) fl.sat = none
          rw [hc]; exact says_none hs (hx fl hfl)
  | dl4 ip =>
    unfold KeyOf at hf; have h2 := hf; clear hf; simp only at h2
    show dlRule4 b f = _
    unfold dlRule4
    rw [h2, show b.pdrDl4.lookup ip = b.entry? (.dl4 ip) from rfl, hc]
    exact says_none hs (hx _ rfl)
  | dl6 ip =>
    unfold KeyOf at hf; have h2 := hf; clear hf; simp only at h2
    show dlRule6 b f = _
    unfold dlRule6
    rw [h2, show b.pdrDl6.lookup ip = b.entry? (.dl6 ip) from rfl, hc]
    exact says_none hs (hx _ rfl)

/-- what was said is in the tables -/
structure InTables (n : Node) (p : APdr) (f : AFar) (q : AQer) (r : PdrInfo) (far : FarInfo) (qer : QerInfo) : Prop where
  ohr : r.ohr = p.ohr
  sdf : r.sdf = p.sdf
  ent : n.dp.entry? p.key = some (pdrToStore none r)
  hasFar : n.dp.far.lookup r.farId = some far
  isFar : f.Is far
  hasQer : n.dp.qer.lookup r.qerId = some qer
  isQer : q.Is qer

theorem InTables.cls {n : Node} {p : APdr} {f : AFar} {q : AQer} {r : PdrInfo} {far : FarInfo} {qer : QerInfo} (h : InTables n p f q r far qer) (m : KFilter → Bool) :
    classify (n.dp.entry? p.key) m = r.says m := by
  rw [h.ent, classify_store]; unfold PdrInfo.says; cases r.sdf <;> rfl

theorem AFar.Is.bit {F : AFar} {far : FarInfo} (h : F.Is far) : far.ohc.getLsbD 0 = true ↔ F.tunnels := by
  show far.ohc.toNat.testBit 0 = true ↔ _
  rw [Nat.testBit_zero, h.desc]; unfold AFar.tunnels; simp

theorem said_tunnel {F : AFar} {Q : AQer} {far : FarInfo} {qer : QerInfo} (h1 : F.Is far) (h2 : Q.Is qer) (e : Env) :
    tunnelOf e far qer = ⟨e.n3Ip, F.peer, F.tos, Q.qfi, F.teid⟩ := by
  unfold tunnelOf
  rw [swap_of_octets h1.peer, h1.teid, h2.qfi]
  congr 1
  apply BitVec.eq_of_toNat_eq
  rw [hi8, h1.tlm]
  unfold AFar.tos
  have := F.tlm.isLt
  rw [BitVec.toNat_ofNat]; omega

/-- the tables have, for the frame, what was said -/
def ToldAt (b : BpfObjects) (f : List U8) (P : APdr) (F : AFar) (Q : AQer) : Prop :=
  ∃ r far qer, frameRule b f P.key = some r ∧ r.ohr = P.ohr ∧ b.far.lookup r.far = some far ∧ F.Is far ∧ b.qer.lookup r.qer = some qer ∧ Q.Is qer

theorem told_stopped {P : APdr} {F : AFar} {Q : AQer} (e : Env) (s : PS) (ht0 : ToldAt s.dp s.frame P F Q)
    (hf : FrameFor e s.frame P.key) (hno : ¬ Lets P F Q) :
    ∃ s', runPacket e s = (s', .ok .drop) ∧ s'.frame = s.frame ∧ s'.dp = s.dp := by
  obtain ⟨r, far, qer, hr, -, h1, h2, h3, h4⟩ := ht0
  refine C26_not_permitted_dropped e s r ?_
  cases hk : P.key with
  | ul t =>
    rw [hk] at hf hr
    refine .inl ⟨hf.1, hr, ?_⟩
    rintro ⟨far', qer', w⟩
    have e1 := Option.some.inj (w.hasFar.symm.trans h1)
    have e2 := Option.some.inj (w.hasQer.symm.trans h3)
    subst e1; subst e2
    exact hno ⟨by unfold AFar.forwards; rw [← h2.action]; exact w.forw, by rw [hk]; exact h4.gateUL.symm.trans w.gate, fun hh => absurd hk (hh t)⟩
  | dl4 ip =>
    rw [hk] at hf hr
    refine .inr (.inl ⟨hf.1, hr, ?_⟩)
    rintro ⟨far', qer', w⟩
    have e1 := Option.some.inj (w.hasFar.symm.trans h1)
    have e2 := Option.some.inj (w.hasQer.symm.trans h3)
    subst e1; subst e2
    exact hno ⟨by unfold AFar.forwards; rw [← h2.action]; exact w.forw, by rw [hk]; exact h4.gateDL.symm.trans w.gate, fun _ => h2.bit.1 w.tunnel⟩
  | dl6 ip =>
    rw [hk] at hf hr
    refine .inr (.inr ⟨hf.1, hr, ?_⟩)
    rintro ⟨far', qer', w⟩
    have e1 := Option.some.inj (w.hasFar.symm.trans h1)
    have e2 := Option.some.inj (w.hasQer.symm.trans h3)
    subst e1; subst e2
    exact hno ⟨by unfold AFar.forwards; rw [← h2.action]; exact w.forw, by rw [hk]; exact h4.gateDL.symm.trans w.gate, fun _ => h2.bit.1 w.tunnel⟩

theorem told_downlink {P : APdr} {F : AFar} {Q : AQer} (e : Env) (s : PS) (ht0 : ToldAt s.dp s.frame P F Q)
    (hf : FrameFor e s.frame P.key) (hdl : ∀ t, P.key ≠ .ul t) (hl : Lets P F Q) (hmbr : Q.mbrDL = 0) (hroom : e.headroom ≠ none) :
    ∃ s' fib len, runPacket e s = (s', .ok (routeAct e (e.fib fib))) ∧ fib.dst = slice s'.frame 30 4 ∧
      len = (match P.key with | .dl6 _ => be16 s.frame 18 + 40 | _ => be16 s.frame 16) ∧
      IsTunnelled ⟨e.n3Ip, F.peer, F.tos, Q.qfi, F.teid⟩ len (s.frame.drop 14) s'.frame := by
  obtain ⟨r, far, qer, hr, -, h1, h2, h3, h4⟩ := ht0
  have hq0 : qer.mbrDL = 0 := by
    apply BitVec.eq_of_toNat_eq
    rw [h4.mbrDL, hmbr]; rfl
  have hrate : ∀ n, rateDl e qer n = some qer.startDL := fun n => by unfold rateDl limitRate; rw [hq0]; rfl
  have hforw : far.action.getLsbD 1 = true := by rw [h2.action]; exact hl.forw
  have htun : far.ohc.getLsbD 0 = true := h2.bit.2 (hl.tunnel hdl)
  have hg := hl.gate
  cases hk : P.key with
  | ul t => exact absurd hk (hdl t)
  | dl4 ip =>
    rw [hk] at hf hr hg
    obtain ⟨s', fib, w1, -, w2, w3⟩ := C27_forwarded4 e s hf.1 hr ⟨h1, hforw, htun, h3, h4.gateDL.trans hg⟩ (hrate _) hroom
    exact ⟨s', fib, _, w1, w2, rfl, by rw [← said_tunnel h2 h4 e]; exact w3⟩
  | dl6 ip =>
    rw [hk] at hf hr hg
    obtain ⟨s', fib, w1, -, w2, w3⟩ := C27_forwarded6 e s hf.1 hr ⟨h1, hforw, htun, h3, h4.gateDL.trans hg⟩ (hrate _) hroom
    exact ⟨s', fib, _, w1, w2, rfl, by rw [← said_tunnel h2 h4 e]; exact w3⟩

theorem told_uplink {P : APdr} {F : AFar} {Q : AQer} (e : Env) (s : PS) (ht0 : ToldAt s.dp s.frame P F Q)
    {t : U32} (hk : P.key = .ul t) (hm : IsGtpMsg e s.frame 255)
    (hl : Lets P F Q) (hnt : ¬ F.tunnels) (hohr : P.ohr = 0) (hmbr : Q.mbrUL = 0)
    (h34 : l4Off s.frame = 34) {o : Nat} (hpay : PayloadAt s.frame o) (ho : o = gtpOff s.frame + 8 ∨ o = gtpOff s.frame + 16)
    (hin2 : ((oct s.frame o).toNat / 16 = 4 ∧ o + 20 ≤ s.frame.length) ∨ ((oct s.frame o).toNat / 16 = 6 ∧ o + 40 ≤ s.frame.length))
    (hself : ¬ ((oct s.frame o).toNat / 16 = 4 ∧ oct s.frame (o + 9) = 1 ∧ (be32 s.frame (o + 16) = e.n3Ip ∨ be32 s.frame (o + 16) = e.n9Ip))) :
    ∃ s' fib m ty, runPacket e s = (s', .ok (routeAct e (e.fib fib))) ∧ m.length = 12 ∧ etherTypeOf (s.frame.drop o) = some ty ∧
      s'.frame = m ++ ty ++ s.frame.drop o ∧
      fib.dst = if (oct s.frame o).toNat / 16 = 4 then slice s.frame (o + 16) 4 else slice s.frame (o + 24) 16 := by
  obtain ⟨r, far, qer, hr, hr2, h1, h2, h3, h4⟩ := ht0
  have hq0 : qer.mbrUL = 0 := by
    apply BitVec.eq_of_toNat_eq
    rw [h4.mbrUL, hmbr]; rfl
  have hrate : rateUl e qer s.frame.length = some qer.startUL := by unfold rateUl limitRate; rw [hq0]; rfl
  have hg := hl.gate
  rw [hk] at hr hg
  refine C28_forwarded_partial e s hm hr ⟨h1, by rw [h2.action]; exact hl.forw, h3, h4.gateUL.trans hg⟩ ?_ (hr2.trans hohr) h34 hrate hpay ho hin2 hself
  cases hh : far.ohc.getLsbD 0 with
  | false => rfl
  | true => exact absurd (h2.bit.1 hh) hnt

theorem told_retunnelled {P : APdr} {F : AFar} {Q : AQer} (e : Env) (s : PS) (ht0 : ToldAt s.dp s.frame P F Q)
    {t : U32} (hk : P.key = .ul t) (hm : IsGtpMsg e s.frame 255)
    (hl : Lets P F Q) (hnt : F.tunnels) (hopt : 34 ≤ l4Off s.frame) {s' : PS} {act : XAction} (hrun : runPacket e s = (s', .ok act)) (hsent : act.sent = true) :
    IsRetunnelled e.n9Ip F.peer F.teid s.frame s'.frame := by
  obtain ⟨r, far, qer, hr, hr2, h1, h2, h3, h4⟩ := ht0
  have hg := hl.gate
  rw [hk] at hr hg
  have := C31_retunnelled e s s' act hrun hsent hm hr ⟨h1, by rw [h2.action]; exact hl.forw, h3, h4.gateUL.trans hg⟩ (h2.bit.2 hnt) hopt
  rw [swap_of_octets h2.peer, h2.teid] at this
  exact this

section
variable {cfg : NodeCfg} {rm : Option ResourceManager} {pz fz qz uz : U32} (hfz : 0 < fz.toNat) (hqz : 0 < qz.toNat)
    (huz : 0 < uz.toNat) {h : List (Ev × Outcome)} {n : Node} (H : HistP Clean (Node.init cfg rm (BpfObjects.load pz fz qz uz)) h n)
    (hb : attempts h < 2 ^ 64 - 2)
include hfz hqz huz H

/-- from the records to what was said -/
theorem said_of {a : Addr} {s : U64} {x : Session} {i : U32} {p : SPdr} (hx : n.session? a s = some x) (hp : x.pdrs.get? i = some p) :
    ∃ P F Q f q, Said h a s i P F Q ∧ P.key = p.key ∧ P.sdf = p.info.sdf ∧ P.ohr = p.info.ohr ∧ x.fars.get? P.far = some f ∧ F.Is f.info ∧ f.gid = p.info.farId ∧
      x.qers.get? P.qer = some q ∧ Q.Is q.info ∧ q.gid = p.info.qerId := by
  have hs := C100_said_partial hfz hqz huz H a s
  rw [hx] at hs
  obtain ⟨A, hA, hI⟩ := both_some' hs
  have hpd := hI.pdrs i
  rw [hp] at hpd
  obtain ⟨P, hP, hIs⟩ := both_some' hpd
  obtain ⟨f, f1, f2⟩ := hIs.far
  obtain ⟨q, q1, q2⟩ := hIs.qer
  have hF := hI.fars P.far
  rw [f1] at hF
  obtain ⟨F, hF, hFI⟩ := both_some' hF
  have hQ := hI.qers P.qer
  rw [q1] at hQ
  obtain ⟨Q, hQ, hQI⟩ := both_some' hQ
  exact ⟨P, F, Q, f, q, ⟨A, hA, hP, hF, hQ⟩, hIs.key.symm, hIs.sdf.symm, hIs.ohr.symm, f1, hFI, f2, q1, hQI, q2⟩

include hb in
/-- from what was said to the tables -/
theorem said_tables {a : Addr} {s : U64} {i : U32} {P : APdr} {F : AFar} {Q : AQer} (hs : Said h a s i P F Q) :
    ∃ r far qer, InTables n P F Q r far qer := by
  obtain ⟨A, hA, hP, hF, hQ⟩ := hs.pdr
  have hs := C100_said_partial hfz hqz huz H a s
  rw [hA] at hs
  obtain ⟨x, hx, hI⟩ := both_some hs
  have hpd := hI.pdrs i
  rw [hP] at hpd
  obtain ⟨p, hp, hIs⟩ := both_some hpd
  obtain ⟨P', F', Q', f, q, hs', k1, k2, k3, f1, f2, f3, q1, q2, q3⟩ := said_of hfz hqz huz H hx hp
  obtain ⟨A', hA', hP', hF', hQ'⟩ := hs'.pdr
  rw [hA] at hA'; cases hA'
  rw [hP] at hP'; cases hP'
  rw [hF] at hF'; cases hF'
  rw [hQ] at hQ'; cases hQ'
  have G := (H.mono fun n e (h : Clean n e) => h.tidy.known).good fun _ _ h => h
  obtain ⟨c1, -⟩ := C09_agrees_partial G hx P.far
  obtain ⟨-, c2⟩ := C09_agrees_partial G hx P.qer
  obtain ⟨k, d1, d2, d3, d4, d5, d6⟩ := c2 q q1
  have ex := (exactS_hist hfz hqz huz (H.mono fun n e (h : Clean n e) => h.orderly) hb).1
  refine ⟨p.info, f.info, k, k3.symm, k2.symm, ?_, by rw [← f3]; exact c1 f f1, f2, by rw [← q3]; exact d1, ?_⟩
  · rw [k1]; exact ex.live a s i p ⟨x, hx, hp⟩
  · exact ⟨by rw [d2]; exact q2.gateUL, by rw [d3]; exact q2.gateDL, by rw [d5]; exact q2.mbrUL, by rw [d6]; exact q2.mbrDL, by rw [d4]; exact q2.qfi⟩

include hb in
/-- **C100, nothing else is sent.** After a clean history user traffic is only sent if it was told to: some session was given a PDR whose key the frame
has and whose filter it matches, and its FAR and QER, as last told, let it. -/
theorem C100_sent_partial (e : Env) (s : PS) (hdp : s.dp = n.dp) {s' : PS} {act : XAction} (hrun : runPacket e s = (s', .ok act))
    (hs : act.sent = true) (hecho : ¬ IsGtpMsg e s.frame 1) :
    ∃ a sd i P F Q, Said h a sd i P F Q ∧ FrameFor e s.frame P.key ∧ P.fits s.frame ∧ Lets P F Q := by
  have ex := C98_exact_partial hfz hqz huz (H.mono fun n e (h : Clean n e) => h.orderly) hb
  have fin : ∀ {a sd i} {p : SPdr} {far : FarInfo} {qer : QerInfo}, n.hasPdr a sd i p → FrameFor e s.frame p.key → p.info.fitsFrame p.key s.frame →
      n.dp.far.lookup p.info.farId = some far → far.action.getLsbD 1 = true → n.dp.qer.lookup p.info.qerId = some qer → qer.openFor p.key →
      ((∀ t, p.key ≠ .ul t) → far.ohc.getLsbD 0 = true) →
      ∃ a sd i P F Q, Said h a sd i P F Q ∧ FrameFor e s.frame P.key ∧ P.fits s.frame ∧ Lets P F Q := by
    rintro a sd i p far qer ⟨x, hx, hp⟩ p2 p3 p4 p5 p6 p7 p8
    obtain ⟨P, F, Q, f, q, g1, k1, k2, k3, f1, f2, f3, q1, q2, q3⟩ := said_of hfz hqz huz H hx hp
    have G := (H.mono fun n e (h : Clean n e) => h.tidy.known).good fun _ _ h => h
    obtain ⟨c1, -⟩ := C09_agrees_partial G hx P.far
    obtain ⟨-, c2⟩ := C09_agrees_partial G hx P.qer
    obtain ⟨k, d1, d2, d3, -⟩ := c2 q q1
    rw [← f3, c1 f f1] at p4; cases p4
    rw [← q3, d1] at p6; cases p6
    refine ⟨a, sd, i, P, F, Q, g1, by rw [k1]; exact p2, ?_, ⟨?_, ?_, ?_⟩⟩
    · intro sdf hsd; rw [k2] at hsd; rw [k1]; exact p3 sdf hsd
    · unfold AFar.forwards; rw [← f2.action]; exact p5
    · rw [k1]
      cases hk : p.key <;> rw [hk] at p7 <;> simp only [QerInfo.openFor, AQer.openFor] at p7 ⊢
      · rw [← q2.gateUL, ← d2]; exact p7
      · rw [← q2.gateDL, ← d3]; exact p7
      · rw [← q2.gateDL, ← d3]; exact p7
    · rw [k1]; intro hk
      have h8 := p8 hk
      have h9 : f.info.ohc.toNat.testBit 0 = true := h8
      rw [Nat.testBit_zero, f2.desc] at h9
      unfold AFar.tunnels
      simpa using h9
  rcases C26_sent_needs_permission e s s' act hrun hs with hm | hm
  · rw [hdp] at hm
    cases hm with
    | up h1 h2 h3 =>
      obtain ⟨a, sd, i, p, p1, p2, rfl, p4⟩ := ex.owner_ul h2
      exact fin p1 (by rw [p2]; exact ⟨h1, rfl⟩) p4 h3.hasFar h3.forw h3.hasQer (by rw [p2]; exact h3.gate) (fun h => absurd p2 (h _))
    | down4 h1 h2 h3 =>
      obtain ⟨a, sd, i, p, p1, p2, rfl, p4⟩ := ex.owner (k := .dl4 (be32 s.frame 30)) h2
      exact fin p1 (by rw [p2]; exact ⟨h1, rfl⟩) (by rw [p2]; exact fun sdf hsd => ⟨_, rfl, p4 sdf hsd⟩) h3.hasFar h3.forw h3.hasQer
        (by rw [p2]; exact h3.gate) (fun _ => h3.tunnel)
    | down6 h1 h2 h3 =>
      obtain ⟨a, sd, i, p, p1, p2, rfl, p4⟩ := ex.owner (k := .dl6 (be128 (slice s.frame 38 16))) h2
      exact fin p1 (by rw [p2]; exact ⟨h1, rfl⟩) (by rw [p2]; exact fun sdf hsd => ⟨_, rfl, p4 sdf hsd⟩) h3.hasFar h3.forw h3.hasQer
        (by rw [p2]; exact h3.gate) (fun _ => h3.tunnel)
  · exact absurd hm hecho

include hb in
/-- **C100, keys nobody was given.** Traffic for a TEID or address that no session was given is passed on untouched. -/
theorem C100_unknown_partial {K : PdrKey} (hK : ∀ a s i P F Q, Said h a s i P F Q → P.key ≠ K) (e : Env) (s : PS) (hdp : s.dp = n.dp)
    (hf : FrameFor e s.frame K) : ∃ s', runPacket e s = (s', .ok .pass) ∧ s'.frame = s.frame ∧ s'.dp = s.dp := by
  refine C98_foreign_passed_partial hfz hqz huz (H.mono fun n e (h : Clean n e) => h.orderly) hb (K := K) ?_ e s hdp hf
  rintro a sd i p ⟨x, hx, hp⟩ hk
  obtain ⟨P, F, Q, f, q, hs, k1, -⟩ := said_of hfz hqz huz H hx hp
  exact hK a sd i P F Q hs (k1.trans hk)

include hb in
/-- **C100, filters.** Traffic for the key of a PDR that does not match its filter is passed on untouched. -/
theorem C100_unfit_partial {a : Addr} {sd : U64} {i : U32} {P : APdr} {F : AFar} {Q : AQer} (hs : Said h a sd i P F Q) (e : Env) (s : PS) (hdp : s.dp = n.dp)
    (hf : FrameFor e s.frame P.key) (hfit : ¬ P.fits s.frame) : ∃ s', runPacket e s = (s', .ok .pass) ∧ s'.frame = s.frame ∧ s'.dp = s.dp := by
  obtain ⟨r, far, qer, hT⟩ := said_tables hfz hqz huz H hb hs
  have hr := frameRule_unfit (b := n.dp) (p := r) hT.cls hf.keyOf (by
    intro hh; apply hfit; intro sdf hsd; rw [← hT.sdf] at hsd; exact hh sdf hsd)
  refine C25_unclassified_untouched e s ?_
  rw [hdp]
  cases hk : P.key with
  | ul t => rw [hk] at hf hr; exact .gpdu hf.1 hr
  | dl4 ip => rw [hk] at hf hr; exact .down4 hf.1 hr
  | dl6 ip => rw [hk] at hf hr; exact .down6 hf.1 hr

include hb in
theorem said_rule {a : Addr} {sd : U64} {i : U32} {P : APdr} {F : AFar} {Q : AQer} (hs : Said h a sd i P F Q) {e : Env} {s : PS} (hdp : s.dp = n.dp)
    (hf : FrameFor e s.frame P.key) (hfit : P.fits s.frame) :
    ToldAt s.dp s.frame P F Q := by
  obtain ⟨r, far, qer, hT⟩ := said_tables hfz hqz huz H hb hs
  have hr := frameRule_fits (b := n.dp) (p := r) hT.ent hf.keyOf (by
    intro sdf hsd; rw [hT.sdf] at hsd; exact hfit sdf hsd)
  rw [hdp]
  exact ⟨r.rule, far, qer, hr, hT.ohr, hT.hasFar, hT.isFar, hT.hasQer, hT.isQer⟩

include hb in
/-- **C100, what was told to be stopped is dropped.** -/
theorem C100_stopped_partial {a : Addr} {sd : U64} {i : U32} {P : APdr} {F : AFar} {Q : AQer} (hs : Said h a sd i P F Q) (e : Env) (s : PS) (hdp : s.dp = n.dp)
    (hf : FrameFor e s.frame P.key) (hfit : P.fits s.frame) (hno : ¬ Lets P F Q) :
    ∃ s', runPacket e s = (s', .ok .drop) ∧ s'.frame = s.frame ∧ s'.dp = s.dp :=
  told_stopped e s (said_rule hfz hqz huz H hb hs (e := e) hdp hf hfit) hf hno

include hb in
/-- **C100, downlink.** A downlink frame that a session was told to forward, without rate limit, leaves as the unchanged packet in the tunnel last told (or gets
what the route to its end says). -/
theorem C100_downlink_partial {a : Addr} {sd : U64} {i : U32} {P : APdr} {F : AFar} {Q : AQer} (hs : Said h a sd i P F Q) (e : Env) (s : PS) (hdp : s.dp = n.dp)
    (hf : FrameFor e s.frame P.key) (hdl : ∀ t, P.key ≠ .ul t) (hfit : P.fits s.frame) (hl : Lets P F Q) (hmbr : Q.mbrDL = 0) (hroom : e.headroom ≠ none) :
    ∃ s' fib len, runPacket e s = (s', .ok (routeAct e (e.fib fib))) ∧ fib.dst = slice s'.frame 30 4 ∧
      len = (match P.key with | .dl6 _ => be16 s.frame 18 + 40 | _ => be16 s.frame 16) ∧
      IsTunnelled ⟨e.n3Ip, F.peer, F.tos, Q.qfi, F.teid⟩ len (s.frame.drop 14) s'.frame :=
  told_downlink e s (said_rule hfz hqz huz H hb hs (e := e) hdp hf hfit) hf hdl hl hmbr hroom

include hb in
/-- **C100, uplink.** A G-PDU (as in `C28_forwarded_partial`) that a session was told to decapsulate and forward leaves as its payload, routed by
the payload's destination. -/
theorem C100_uplink_partial {a : Addr} {sd : U64} {i : U32} {P : APdr} {F : AFar} {Q : AQer} (hs : Said h a sd i P F Q) (e : Env) (s : PS) (hdp : s.dp = n.dp)
    {t : U32} (hk : P.key = .ul t) (hm : IsGtpMsg e s.frame 255) (ht : gtpTeid s.frame = t) (hfit : P.fits s.frame)
    (hl : Lets P F Q) (hnt : ¬ F.tunnels) (hohr : P.ohr = 0) (hmbr : Q.mbrUL = 0)
    (h34 : l4Off s.frame = 34) {o : Nat} (hpay : PayloadAt s.frame o) (ho : o = gtpOff s.frame + 8 ∨ o = gtpOff s.frame + 16)
    (hin2 : ((oct s.frame o).toNat / 16 = 4 ∧ o + 20 ≤ s.frame.length) ∨ ((oct s.frame o).toNat / 16 = 6 ∧ o + 40 ≤ s.frame.length))
    (hself : ¬ ((oct s.frame o).toNat / 16 = 4 ∧ oct s.frame (o + 9) = 1 ∧ (be32 s.frame (o + 16) = e.n3Ip ∨ be32 s.frame (o + 16) = e.n9Ip))) :
    ∃ s' fib m ty, runPacket e s = (s', .ok (routeAct e (e.fib fib))) ∧ m.length = 12 ∧ etherTypeOf (s.frame.drop o) = some ty ∧
      s'.frame = m ++ ty ++ s.frame.drop o ∧
      fib.dst = if (oct s.frame o).toNat / 16 = 4 then slice s.frame (o + 16) 4 else slice s.frame (o + 24) 16 :=
  told_uplink e s (said_rule hfz hqz huz H hb hs (e := e) hdp (by rw [hk]; exact ⟨hm, ht⟩) hfit) hk hm hl hnt hohr hmbr h34 hpay ho hin2 hself

include hb in
/-- **C100, from tunnel to tunnel.** A G-PDU for a PDR whose FAR has a tunnel, if it is sent, leaves with the tunnel parameters last told and
otherwise as it came. -/
theorem C100_retunnelled_partial {a : Addr} {sd : U64} {i : U32} {P : APdr} {F : AFar} {Q : AQer} (hs : Said h a sd i P F Q) (e : Env) (s : PS) (hdp : s.dp = n.dp)
    {t : U32} (hk : P.key = .ul t) (hm : IsGtpMsg e s.frame 255) (ht : gtpTeid s.frame = t) (hfit : P.fits s.frame)
    (hl : Lets P F Q) (hnt : F.tunnels) (hopt : 34 ≤ l4Off s.frame) {s' : PS} {act : XAction} (hrun : runPacket e s = (s', .ok act)) (hsent : act.sent = true) :
    IsRetunnelled e.n9Ip F.peer F.teid s.frame s'.frame :=
  told_retunnelled e s (said_rule hfz hqz huz H hb hs (e := e) hdp (by rw [hk]; exact ⟨hm, ht⟩) hfit) hk hm hl hnt hopt hrun hsent

end
end Eupf
