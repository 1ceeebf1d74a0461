import Verif.Xdp.Dispatch
import Verif.Spec.Flow
/- What the handlers do, case by case. Models no code. -/
namespace Eupf

theorem bit_iff (x : U8) (k : Nat) (hk : k < 8) : (x &&& BitVec.twoPow 8 k = 0) ↔ x.getLsbD k = false := by
  constructor
  · intro h
    have := congrArg (fun y => BitVec.getLsbD y k) h
    simpa [BitVec.getLsbD_twoPow, hk] using this
  · intro h
    apply BitVec.eq_of_getLsbD_eq; intro i hi
    simp only [BitVec.getLsbD_and, BitVec.getLsbD_twoPow]
    by_cases hki : k = i
    · subst hki; simp [h]
    · simp [hki]
theorem forw_iff (x : U8) : (x &&& 0x02 = 0) ↔ x.getLsbD 1 = false := bit_iff x 1 (by omega)
theorem bit0_iff (x : U8) : (x &&& 0x01 = 0) ↔ x.getLsbD 0 = false := bit_iff x 0 (by omega)

section
variable (s : PS)

theorem ite_eval {α : Type} {c : Prop} [Decidable c] (m1 m2 : X α) : (if c then m1 else m2) s = if c then m1 s else m2 s := by
  split <;> rfl

/-- the ports the matcher reads -/
theorem packetPorts_udp {c : Ctx} {u : Nat} (hu : c.udp = some u) (h : u + 4 ≤ s.frame.length) :
    packetPorts c s = (s, .ok (be16 s.frame u, be16 s.frame (u + 2))) := by
  unfold packetPorts; rw [hu]
  simp only
  rw [bind_run (ld16_eval s (by omega)), bind_run (ld16_eval s (by omega)), swap16_le, swap16_le]; rfl
theorem packetPorts_tcp {c : Ctx} {u : Nat} (hu : c.udp = none) (ht : c.tcp = some u) (h : u + 4 ≤ s.frame.length) :
    packetPorts c s = (s, .ok (be16 s.frame u, be16 s.frame (u + 2))) := by
  unfold packetPorts; rw [hu, ht]
  simp only
  rw [bind_run (ld16_eval s (by omega)), bind_run (ld16_eval s (by omega)), swap16_le, swap16_le]; rfl
theorem packetPorts_none {c : Ctx} (hu : c.udp = none) (ht : c.tcp = none) : packetPorts c s = (s, .ok (0, 0)) := by
  unfold packetPorts; rw [hu, ht]; rfl

theorem swap32_be (f : List U8) (i : Nat) : swap32 (be32 f i) = le32 f i := by rw [← swap32_le, swap32_swap32]

theorem match4_eval {c : Ctx} {o : Nat} {p : U16 × U16} (k : KFilter) (hc : c.ip4 = some o) (hl : o + 20 ≤ s.frame.length)
    (hp : packetPorts c s = (s, .ok p)) : matchSdfIp4 c k s = (s, .ok ((flow4 s.frame o p).sat k)) := by
  unfold matchSdfIp4; rw [hc]
  simp only
  rw [bind_run (ld8_eval s (by omega)), bind_run hp]
  rw [bind_run (ld32_eval s (by omega)), bind_run (ld32_eval s (by omega))]
  simp only [flow4, Flow.sat, swap32_be]; rfl
theorem match6_eval {c : Ctx} {o : Nat} {p : U16 × U16} (k : KFilter) (hc : c.ip6 = some o) (hl : o + 40 ≤ s.frame.length)
    (hp : packetPorts c s = (s, .ok p)) : matchSdfIp6 c k s = (s, .ok ((flow6 s.frame o p).sat k)) := by
  unfold matchSdfIp6; rw [hc]
  simp only [ptr]
  rw [bind_run (Act.pure_apply _ _), bind_run (ld8_eval s (by omega)), bind_run (ldBytes_eval s (by omega)), bind_run (ldBytes_eval s (by omega)), bind_run hp]
  rfl

/-- what a decided rule leads to -/
def onRule (r : Option Rule) (k : Rule → X XAction) : X XAction := match r with | none => pure .pass | some r => k r

theorem n6Ip4_eval (e : Env) {c : Ctx} {p : U16 × U16} (hc : c.ip4 = some 14) (hl : 34 ≤ s.frame.length)
    (hp : packetPorts c s = (s, .ok p)) :
    handleN6Ip4 e c s = (match s.dp.pdrDl4.lookup (be32 s.frame 30) with
      | none => (s, .ok .pass)
      | some pdr => onRule (classify (some pdr) (flow4 s.frame 14 p).sat) (fun r => downlinkTail e c pdr r.far r.qer) s) := by
  unfold handleN6Ip4
  rw [hc]
  simp only [ptr]
  rw [bind_run (Act.pure_apply _ _), bind_run (ld32_eval s (by omega)), bind_run (Act.get_apply s), swap32_le]
  cases hk : s.dp.pdrDl4.lookup (be32 s.frame (14 + 16)) with
  | none => rfl
  | some pdr =>
    simp only
    unfold classify onRule
    simp only
    by_cases hm : pdr.sdfMode = 0
    · simp only [hm, ne_eq, not_true, if_false, if_true]
    · simp only [hm, ne_eq, not_false_eq_true, if_true, if_false]
      rw [bind_run (match4_eval s _ hc hl hp)]
      by_cases hx : (flow4 s.frame 14 p).sat pdr.filter
      · simp only [hx, if_true]
      · simp only [hx]
        by_cases hm1 : pdr.sdfMode &&& 1 = 0
        · simp only [hm1, not_true, if_true, if_false, Bool.false_eq_true]
        · simp only [hm1, not_false_eq_true, if_true, if_false, Bool.false_eq_true]

theorem n6Ip6_eval (e : Env) {c : Ctx} {p : U16 × U16} (hc : c.ip6 = some 14) (hl : 54 ≤ s.frame.length)
    (hp : packetPorts c s = (s, .ok p)) :
    handleN6Ip6 e c s = (match s.dp.pdrDl6.lookup (be128 (slice s.frame 38 16)) with
      | none => (s, .ok .pass)
      | some pdr => onRule (classify (some pdr) (flow6 s.frame 14 p).sat) (fun r => downlinkTail e c pdr r.far r.qer) s) := by
  unfold handleN6Ip6
  rw [hc]
  simp only [ptr]
  rw [bind_run (Act.pure_apply _ _), bind_run (ldBytes_eval s (by omega)), bind_run (Act.get_apply s)]
  cases hk : s.dp.pdrDl6.lookup (be128 (slice s.frame (14 + 24) 16)) with
  | none => rfl
  | some pdr =>
    simp only
    unfold classify onRule
    simp only
    by_cases hm : pdr.sdfMode = 0
    · simp only [hm, ne_eq, not_true, if_false, if_true]
    · simp only [hm, ne_eq, not_false_eq_true, if_true, if_false]
      rw [bind_run (match6_eval s _ hc hl hp)]
      by_cases hx : (flow6 s.frame 14 p).sat pdr.filter
      · simp only [hx, if_true]
      · simp only [hx]
        by_cases hm1 : pdr.sdfMode &&& 1 = 0
        · simp only [hm1, not_true, if_true, if_false, Bool.false_eq_true]
        · simp only [hm1, not_false_eq_true, if_true, if_false, Bool.false_eq_true]

/-- the tables after a packet of `n` octets was let through in downlink -/
def chargeDl (b : BpfObjects) (pdr : PdrEntry) (q : U32) (start : U64) (n : Nat) : BpfObjects :=
  ((b.setStart q (fun x => { x with startDL := start })).addUrr pdr.urr1 0 (BitVec.ofNat 64 n)).addUrr pdr.urr2 0 (BitVec.ofNat 64 n)
/-- the same in uplink -/
def chargeUl (b : BpfObjects) (pdr : PdrEntry) (q : U32) (start : U64) (n : Nat) : BpfObjects :=
  ((b.setStart q (fun x => { x with startUL := start })).addUrr pdr.urr1 (BitVec.ofNat 64 n) 0).addUrr pdr.urr2 (BitVec.ofNat 64 n) 0

/-- the rate check of a downlink packet -/
def rateDl (e : Env) (qer : QerInfo) (n : Nat) : Option U64 := limitRate (BitVec.ofNat 64 n) qer.startDL (qer.mbrDL.zeroExtend 64) e.tDL
def rateUl (e : Env) (qer : QerInfo) (n : Nat) : Option U64 := limitRate (BitVec.ofNat 64 n) qer.startUL (qer.mbrUL.zeroExtend 64) e.tUL

theorem downlinkTail_denied (e : Env) (c : Ctx) (pdr : PdrEntry) (r : Rule) (h : ¬ ∃ far qer, PermitsDl s.dp r far qer) :
    downlinkTail e c pdr r.far r.qer s = (s, .ok .drop) := by
  unfold downlinkTail
  rw [bind_run (Act.get_apply s)]
  cases hf : s.dp.far.lookup r.far with
  | none => rfl
  | some far =>
    simp only
    by_cases h1 : far.action &&& 0x02 = 0
    · rw [if_pos h1]; rfl
    · rw [if_neg h1]
      by_cases h2 : far.ohc &&& 0x01 = 0
      · rw [if_pos h2]; rfl
      · rw [if_neg h2]
        cases hq : s.dp.qer.lookup r.qer with
        | none => rfl
        | some qer =>
          simp only
          by_cases h3 : qer.gateDL = 0
          · rw [forw_iff] at h1; rw [bit0_iff] at h2
            exact absurd ⟨far, qer, hf, by simpa using h1, by simpa using h2, hq, h3⟩ h
          · rw [if_pos h3]; rfl

theorem downlinkTail_permitted (e : Env) (c : Ctx) (pdr : PdrEntry) {r : Rule} {far : FarInfo} {qer : QerInfo} (h : PermitsDl s.dp r far qer) :
    downlinkTail e c pdr r.far r.qer s = (match rateDl e qer s.frame.length with
      | none => (s, .ok .drop)
      | some start => sendToGtpTunnel e c far.remoteIP ((far.tlm >>> 8).truncate 8) qer.qfi far.teid
          { s with dp := chargeDl s.dp pdr r.qer start s.frame.length }) := by
  unfold downlinkTail
  rw [bind_run (Act.get_apply s), h.hasFar]
  simp only
  rw [if_neg (by rw [forw_iff, h.forw]; simp), if_neg (by rw [bit0_iff, h.tunnel]; simp), h.hasQer]
  simp only
  rw [if_neg (by simp [h.gate])]
  unfold rateDl
  cases limitRate (BitVec.ofNat 64 s.frame.length) qer.startDL (qer.mbrDL.zeroExtend 64) e.tDL <;> rfl

theorem uplinkTail_denied (e : Env) (c : Ctx) (pdr : PdrEntry) (r : Rule) (h : ¬ ∃ far qer, PermitsUl s.dp r far qer) :
    uplinkTail e c pdr r.ohr r.far r.qer s = (s, .ok .drop) := by
  unfold uplinkTail
  rw [bind_run (Act.get_apply s)]
  cases hf : s.dp.far.lookup r.far with
  | none => rfl
  | some far =>
    simp only
    by_cases h1 : far.action &&& 0x02 = 0
    · rw [if_pos h1]; rfl
    · rw [if_neg h1]
      cases hq : s.dp.qer.lookup r.qer with
      | none => rfl
      | some qer =>
        simp only
        by_cases h3 : qer.gateUL = 0
        · rw [forw_iff] at h1
          exact absurd ⟨far, qer, hf, by simpa using h1, hq, h3⟩ h
        · rw [if_pos h3]; rfl

theorem uplinkTail_permitted (e : Env) (c : Ctx) (pdr : PdrEntry) {r : Rule} {far : FarInfo} {qer : QerInfo} (h : PermitsUl s.dp r far qer) :
    uplinkTail e c pdr r.ohr r.far r.qer s = (match rateUl e qer s.frame.length with
      | none => (s, .ok .drop)
      | some start => (uplinkHeaders e c far r.ohr >>= fun x => if x.2 = true then uplinkOut e x.1 else pure .aborted)
          { s with dp := chargeUl s.dp pdr r.qer start s.frame.length }) := by
  unfold uplinkTail
  rw [bind_run (Act.get_apply s), h.hasFar]
  simp only
  rw [if_neg (by rw [forw_iff, h.forw]; simp), h.hasQer]
  simp only
  rw [if_neg (by simp [h.gate])]
  unfold rateUl
  cases limitRate (BitVec.ofNat 64 s.frame.length) qer.startUL (qer.mbrUL.zeroExtend 64) e.tUL <;> rfl

theorem guess4 {b : U8} : guessEthProtocol b = (if b.toNat / 16 = 4 then some 0x0008#16 else if b.toNat / 16 = 6 then some 0xDD86#16 else none) := by
  have h6 : b >>> 4 = 6 ↔ b.toNat / 16 = 6 := by
    constructor
    · intro h; have := congrArg BitVec.toNat h; simpa [BitVec.toNat_ushiftRight, Nat.shiftRight_eq_div_pow] using this
    · intro h; apply BitVec.eq_of_toNat_eq; simpa [BitVec.toNat_ushiftRight, Nat.shiftRight_eq_div_pow] using h
  have h4 : b >>> 4 = 4 ↔ b.toNat / 16 = 4 := by
    constructor
    · intro h; have := congrArg BitVec.toNat h; simpa [BitVec.toNat_ushiftRight, Nat.shiftRight_eq_div_pow] using this
    · intro h; apply BitVec.eq_of_toNat_eq; simpa [BitVec.toNat_ushiftRight, Nat.shiftRight_eq_div_pow] using h
  unfold guessEthProtocol
  simp only [h6, h4]
  by_cases h : b.toNat / 16 = 4
  · simp [h]
  · simp [h]

theorem l4_match4 {c : Ctx} {o : Nat} (p : U8) (k : KFilter) {α : Type} (A B : Option α) (h4 : c.ip4 = some o) (hu : c.udp = none)
    (ht : c.tcp = none) (hl : o + 20 ≤ s.frame.length) :
    (parseL4 p c >>= fun x => if x.2 = none then pure none else matchSdfIp4 x.1 k >>= fun m => if m = true then pure A else pure B) s =
      (s, .ok ((l4Ports s.frame c.data p).bind (fun pp => if (flow4 s.frame o pp).sat k then A else B))) := by
  rw [bind_run (parseL4_eval _ _ _)]
  unfold l4Ports
  by_cases h17 : p = 17
  · simp only [h17, if_true]
    by_cases hh : c.data + 8 ≤ s.frame.length
    · rw [if_neg (show ¬ (c.data + 8 > s.frame.length) by omega), if_pos hh]
      simp only [reduceCtorEq, if_false]
      rw [bind_run (match4_eval s (c := { c with data := c.data + 8, udp := some c.data }) (o := o) k h4 hl (packetPorts_udp s (u := c.data) rfl (by omega)))]
      simp only [Option.bind_some]
      split <;> rfl
    · rw [if_pos (show c.data + 8 > s.frame.length by omega), if_neg hh]; rfl
  · simp only [h17, if_false]
    by_cases h6 : p = 6
    · simp only [h6, if_true]
      by_cases hh : c.data + 20 ≤ s.frame.length
      · rw [if_neg (show ¬ (c.data + 20 > s.frame.length) by omega), if_pos hh]
        simp only [reduceCtorEq, if_false]
        rw [bind_run (match4_eval s (c := { c with data := c.data + 20, tcp := some c.data }) (o := o) k h4 hl (packetPorts_tcp s (u := c.data) hu rfl (by omega)))]
        simp only [Option.bind_some]
        split <;> rfl
      · rw [if_pos (show c.data + 20 > s.frame.length by omega), if_neg hh]; rfl
    · simp only [h6, if_false, reduceCtorEq]
      rw [bind_run (match4_eval s (o := o) k h4 hl (packetPorts_none s hu ht))]
      simp only [Option.bind_some]
      split <;> rfl
theorem l4_match6 {c : Ctx} {o : Nat} (p : U8) (k : KFilter) {α : Type} (A B : Option α) (hx6 : c.ip6 = some o) (hu : c.udp = none)
    (ht : c.tcp = none) (hl : o + 40 ≤ s.frame.length) :
    (parseL4 p c >>= fun x => if x.2 = none then pure none else matchSdfIp6 x.1 k >>= fun m => if m = true then pure A else pure B) s =
      (s, .ok ((l4Ports s.frame c.data p).bind (fun pp => if (flow6 s.frame o pp).sat k then A else B))) := by
  rw [bind_run (parseL4_eval _ _ _)]
  unfold l4Ports
  by_cases h17 : p = 17
  · simp only [h17, if_true]
    by_cases hh : c.data + 8 ≤ s.frame.length
    · rw [if_neg (show ¬ (c.data + 8 > s.frame.length) by omega), if_pos hh]
      simp only [reduceCtorEq, if_false]
      rw [bind_run (match6_eval s (c := { c with data := c.data + 8, udp := some c.data }) (o := o) k hx6 hl (packetPorts_udp s (u := c.data) rfl (by omega)))]
      simp only [Option.bind_some]
      split <;> rfl
    · rw [if_pos (show c.data + 8 > s.frame.length by omega), if_neg hh]; rfl
  · simp only [h17, if_false]
    by_cases h6 : p = 6
    · simp only [h6, if_true]
      by_cases hh : c.data + 20 ≤ s.frame.length
      · rw [if_neg (show ¬ (c.data + 20 > s.frame.length) by omega), if_pos hh]
        simp only [reduceCtorEq, if_false]
        rw [bind_run (match6_eval s (c := { c with data := c.data + 20, tcp := some c.data }) (o := o) k hx6 hl (packetPorts_tcp s (u := c.data) hu rfl (by omega)))]
        simp only [Option.bind_some]
        split <;> rfl
      · rw [if_pos (show c.data + 20 > s.frame.length by omega), if_neg hh]; rfl
    · simp only [h6, if_false, reduceCtorEq]
      rw [bind_run (match6_eval s (o := o) k hx6 hl (packetPorts_none s hu ht))]
      simp only [Option.bind_some]
      split <;> rfl

/-- `uplinkRule` decides as the specification says. -/
theorem uplinkRule_eval {f : List U8} (hs : s.frame = f) {pdr : PdrEntry} :
    uplinkRule (ctxU f) pdr s = (s, .ok ((if pdr.sdfMode = 0 then some (⟨pdr.ohr, pdr.farId, pdr.qerId⟩ : Rule)
      else (innerFlow f).bind (fun fl => classify (some pdr) fl.sat)).map (fun r => (r.ohr, r.far, r.qer)))) := by
  have hc : ∀ fl : Flow, pdr.sdfMode ≠ 0 → (classify (some pdr) fl.sat).map (fun r => (r.ohr, r.far, r.qer)) =
      if fl.sat pdr.filter then some (pdr.sdfOhr, pdr.sdfFar, pdr.sdfQer)
      else if pdr.sdfMode &&& 1 ≠ 0 then none else some (pdr.ohr, pdr.farId, pdr.qerId) := by
    intro fl h0
    unfold classify
    simp only [h0, if_false]
    by_cases hx : fl.sat pdr.filter
    · simp [hx]
    · by_cases hm : pdr.sdfMode &&& 1 = 0 <;> simp [hx]
  have hd : (ctxU f).data = innerOff f := rfl
  unfold uplinkRule
  simp only [hd]
  by_cases h0 : pdr.sdfMode = 0
  · simp only [h0, if_true]; rfl
  · simp only [h0, if_false]
    rw [bind_run (frameLen_eval s), hs]
    unfold innerFlow
    by_cases h1 : innerOff f + 1 > f.length
    · simp only [h1, if_true]; rfl
    · simp only [h1, if_false]
      rw [bind_run (ld8_eval s (show innerOff f + 1 ≤ s.frame.length by rw [hs]; omega)), hs, guess4]
      by_cases h4 : (oct f (innerOff f)).toNat / 16 = 4
      · simp only [h4, if_true]
        rw [bind_run (parseIp4_eval _ _)]
        simp only [hs]
        by_cases h20 : innerOff f + 20 > f.length
        · simp only [h20, if_true]; rfl
        · simp only [h20, if_false]
          rw [l4_match4 s (c := ⟨ip4End f (innerOff f), none, some (innerOff f), none, none, none, none⟩) (o := innerOff f) _ _ _ _ rfl rfl rfl (by rw [hs]; omega), hs]
          cases l4Ports f (ip4End f (innerOff f)) (oct f (innerOff f + 9)) with
          | none => rfl
          | some pp => simp only [Option.bind_some, Option.map_some]; rw [hc _ h0]
      · simp only [h4, if_false]
        by_cases h6 : (oct f (innerOff f)).toNat / 16 = 6
        · simp only [h6, if_true]
          rw [bind_run (parseIp6_eval _ _)]
          simp only [hs]
          by_cases h40 : innerOff f + 40 > f.length
          · simp only [h40, if_true]; rfl
          · simp only [h40, if_false]
            rw [l4_match6 s (c := ⟨innerOff f + 40, none, none, some (innerOff f), none, none, none⟩) (o := innerOff f) _ _ _ _ rfl rfl rfl (by rw [hs]; omega), hs]
            cases l4Ports f (innerOff f + 40) (oct f (innerOff f + 6)) with
            | none => rfl
            | some pp => simp only [Option.bind_some, Option.map_some]; rw [hc _ h0]
        · simp only [h6, if_false, Option.bind_some]
          rw [hc _ h0]
          rfl

/-- What a G-PDU leads to. -/
theorem gpdu_eval (e : Env) {f : List U8} (hs : s.frame = f) (hl : gtpOff f + 8 ≤ f.length) :
    handleGtpPacket e (ctxU f) s = (match s.dp.pdrUl.lookup (gtpTeid f) with
      | none => (s, .ok .pass)
      | some pdr => onRule (ulRule s.dp f) (fun r => uplinkTail e (ctxU f) pdr r.ohr r.far r.qer) s) := by
  unfold handleGtpPacket ulRule
  show (ld32 (gtpOff f + 4) >>= _) s = _
  rw [bind_run (ld32_eval s (by rw [hs]; omega)), bind_run (Act.get_apply s), swap32_le, hs]
  have ht : be32 f (gtpOff f + 4) = gtpTeid f := rfl
  simp only [ht]
  cases s.dp.pdrUl.lookup (gtpTeid f) with
  | none => rfl
  | some pdr =>
    simp only
    rw [bind_run (uplinkRule_eval s hs)]
    generalize (if pdr.sdfMode = 0 then some (⟨pdr.ohr, pdr.farId, pdr.qerId⟩ : Rule) else (innerFlow f).bind (fun fl => classify (some pdr) fl.sat)) = x
    cases x <;> rfl

end

end Eupf
