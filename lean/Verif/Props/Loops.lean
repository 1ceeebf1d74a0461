import Verif.Spec.Loops
import Verif.Props.Tunnel
import Verif.Xdp.Twins
/-
C118: packets on a circular route die. They do not: no path through the UPF touches the Time To Live.
-/
namespace Eupf

theorem not_forwarded {p q : List U8} (h : hopsLeft p = hopsLeft q) : ¬ Forwarded p q := by
  rintro ⟨n, h1, hn, h2⟩
  rw [h, h2] at h1
  have h3 : n - 1 = n := Option.some.inj h1
  have : n.toNat ≠ 0 := fun h => hn (BitVec.eq_of_toNat_eq (by rw [h]; rfl))
  have := congrArg BitVec.toNat h3
  rw [BitVec.toNat_sub] at this
  have h1 : (1 : U8).toNat = 1 := rfl
  have := n.isLt
  omega

theorem drop_oct {f g : List U8} {n : Nat} (hl : f.length = g.length) (h : ∀ i, n ≤ i → oct f i = oct g i) : f.drop n = g.drop n := by
  apply List.ext_getElem
  · rw [List.length_drop, List.length_drop, hl]
  · intro i h1 h2
    have := h (n + i) (by omega)
    rw [← oct_drop, ← oct_drop] at this
    unfold oct at this
    rw [List.getD_eq_getElem?_getD, List.getD_eq_getElem?_getD, List.getElem?_eq_getElem h1, List.getElem?_eq_getElem h2] at this
    exact this

/-- **C118, uplink to the data network.** The packet that leaves has the Time To Live (hop limit) with which it came, whatever that is, 0
included: the UPF does not count itself as a hop. -/
theorem C118_uplink_partial (e : Env) (s s' : PS) (a : XAction) (hrun : runPacket e s = (s', .ok a)) (hs : a.sent = true)
    (hm : IsGtpMsg e s.frame 255) {r : Rule} {far : FarInfo} {qer : QerInfo} (hr : ulRule s.dp s.frame = some r) (hp : PermitsUl s.dp r far qer)
    (hoc : far.ohc.getLsbD 0 = false) (hohr : r.ohr = 0) (h34 : l4Off s.frame = 34)
    {o : Nat} (hpay : PayloadAt s.frame o) (ho : o = gtpOff s.frame + 8 ∨ o = gtpOff s.frame + 16)
    (hself : ¬ ((oct s.frame o).toNat / 16 = 4 ∧ oct s.frame (o + 9) = 1 ∧ (be32 s.frame (o + 16) = e.n3Ip ∨ be32 s.frame (o + 16) = e.n9Ip))) :
    hopsLeft (s'.frame.drop 14) = hopsLeft (s.frame.drop o) ∧ ¬ Forwarded (s.frame.drop o) (s'.frame.drop 14) := by
  obtain ⟨m, t, hl, ht, hf⟩ := C28_decapsulated_partial e s s' a hrun hs hm hr hp hoc hohr h34 hpay ho hself
  have : s'.frame.drop 14 = s.frame.drop o := by
    have hl2 : (m ++ t).length = 14 := by
      unfold etherTypeOf at ht
      split at ht
      · cases ht; simp [hl]
      · split at ht <;> cases ht
        simp [hl]
    rw [hf, List.drop_append_of_le_length (by omega), List.drop_of_length_le (by omega)]; rfl
  rw [this]
  exact ⟨rfl, not_forwarded rfl⟩

/-- **C118, downlink.** The packet in the tunnel has the Time To Live with which it came; that of the tunnel starts at 64. -/
theorem C118_downlink_partial (e : Env) (s s' : PS) (a : XAction) (hrun : runPacket e s = (s', .ok a)) (hs : a.sent = true)
    (hd : IsDown4 e s.frame ∨ IsDown6 s.frame) :
    oct s'.frame 22 = 64 ∧ hopsLeft (s'.frame.drop 58) = hopsLeft (s.frame.drop 14) ∧ ¬ Forwarded (s.frame.drop 14) (s'.frame.drop 58) := by
  rcases hd with hd | hd
  · obtain ⟨_, _, _, _, _, h⟩ := C27_downlink4 e s s' a hrun hs hd
    rw [h.payload]; exact ⟨h.ttl, rfl, not_forwarded rfl⟩
  · obtain ⟨_, _, _, _, _, h⟩ := C27_downlink6 e s s' a hrun hs hd
    rw [h.payload]; exact ⟨h.ttl, rfl, not_forwarded rfl⟩

/-- **C118, from tunnel to tunnel.** A G-PDU sent on in another tunnel keeps the Time To Live of its outer header (a new packet would start anew, a
router would count down) and everything behind the GTP-U header's first 8 octets, the packet inside with its Time To Live among it. -/
theorem C118_n9_partial (e : Env) (s s' : PS) (a : XAction) (hrun : runPacket e s = (s', .ok a)) (hs : a.sent = true)
    (hm : IsGtpMsg e s.frame 255) {r : Rule} {far : FarInfo} {qer : QerInfo} (hr : ulRule s.dp s.frame = some r) (hp : PermitsUl s.dp r far qer)
    (hoc : far.ohc.getLsbD 0 = true) (hopt : 34 ≤ l4Off s.frame) :
    oct s'.frame 22 = oct s.frame 22 ∧ s'.frame.drop (gtpOff s.frame + 8) = s.frame.drop (gtpOff s.frame + 8) ∧
    ∀ o, gtpOff s.frame + 8 ≤ o → ¬ Forwarded (s.frame.drop o) (s'.frame.drop o) := by
  have R := C31_retunnelled e s s' a hrun hs hm hr hp hoc hopt
  have hgo : gtpOff s.frame = l4Off s.frame + 8 := rfl
  have key := drop_oct (n := gtpOff s.frame + 8) R.length fun i hi => R.rest i (by omega) (by omega) (by omega) (by omega)
  refine ⟨R.rest _ (by omega) (by omega) (by omega) (by omega), key, fun o ho => not_forwarded ?_⟩
  obtain ⟨d, rfl⟩ : ∃ d, o = gtpOff s.frame + 8 + d := ⟨o - (gtpOff s.frame + 8), by omega⟩
  rw [← List.drop_drop, ← List.drop_drop (l := s'.frame), key]

/-- the frame of a way as it is at some position: the first frame, but for MAC addresses, outer addresses, checksums and TEID -/
structure Rides (e : Env) (t : U32) (f f0 : List U8) : Prop where
  msg : IsGtpMsg e f 255
  teid : gtpTeid f = t
  off : l4Off f = l4Off f0
  length : f.length = f0.length
  rest : ∀ i, 12 ≤ i → ¬ (24 ≤ i ∧ i < 34) → ¬ (l4Off f0 + 6 ≤ i ∧ i < l4Off f0 + 8) → ¬ (gtpOff f0 + 4 ≤ i ∧ i < gtpOff f0 + 8) → oct f i = oct f0 i

theorem PassesTo.ul {b : BpfObjects} {f : List U8} {t t' : U32} {e' : Env} {p : PdrEntry} {far : FarInfo} {qer : QerInfo}
    (h : PassesTo b t e' t' p far qer) (ht : gtpTeid f = t) : ulRule b f = some ⟨p.ohr, p.farId, p.qerId⟩ ∧ PermitsUl b ⟨p.ohr, p.farId, p.qerId⟩ far qer := by
  refine ⟨?_, h.hasFar, h.forw, h.hasQer, h.gate⟩
  unfold ulRule
  rw [ht, h.pdr]
  simp only
  rw [if_pos h.plain]

theorem oct_wire {m g f : List U8} (hm : m.length = 12) (hf : f = m ++ g.drop 12) {i : Nat} (hi : 12 ≤ i) : oct f i = oct g i := by
  rw [hf, oct_append, if_neg (by omega), oct_drop]; congr 1; omega

/-- one position -/
theorem rides_step {e e' : Env} {s s' : PS} {a : XAction} {f0 : List U8} {t t' : U32} {p : PdrEntry} {far : FarInfo} {qer : QerInfo}
    (hrun : runPacket e s = (s', .ok a)) (hp : PassesTo s.dp t e' t' p far qer) (hopt : 34 ≤ l4Off f0) (hr : Rides e t s.frame f0)
    (hroute : ∀ q, ∃ i x y, e.fib q = .ok i x y) {m f : List U8} (hm : m.length = 12) (hf : f = m ++ s'.frame.drop 12) :
    a.sent = true ∧ Rides e' t' f f0 ∧ ∃ start n, s'.dp = chargeUl s.dp p p.qerId start n := by
  obtain ⟨u1, u2⟩ := hp.ul hr.teid
  have hsent : a.sent = true ∧ ∃ start n, s'.dp = chargeUl s.dp p p.qerId start n := by
    have res := entry_det hrun
    clear hrun hf
    generalize s'.frame = fr at res
    generalize s'.dp = dp at res ⊢
    have hx : ∀ {t}, IsGtpMsg e s.frame t → t = 255 := fun h => by rw [← h.type, hr.msg.type]
    have same : ∀ {r' : Rule} {far' : FarInfo} {qer' : QerInfo}, ulRule s.dp s.frame = some r' → PermitsUl s.dp r' far' qer' →
        r' = ⟨p.ohr, p.farId, p.qerId⟩ ∧ far' = far ∧ qer' = qer := by
      intro r' far' qer' q1 q2
      have : r' = _ := Option.some.inj (q1.symm.trans u1)
      subst this
      exact ⟨rfl, Option.some.inj (q2.hasFar.symm.trans u2.hasFar), Option.some.inj (q2.hasQer.symm.trans u2.hasQer)⟩
    have nolimit : ∀ n, rateUl e qer n ≠ none := by
      intro n
      unfold rateUl limitRate
      rw [hp.rate, if_pos (by decide)]; exact nofun
    cases res with
    | foreign h => exact absurd hr.msg (h.notMsg 255)
    | otherMsg h h1 _ => exact absurd (hx h) h1
    | echo h => exact absurd (hx h) (by decide)
    | down4 h _ => exact absurd hr.msg.gtpu h.notGtpu
    | down6 h _ => exact absurd (h.ip.type.symm.trans hr.msg.gtpu.ip.type) (by decide)
    | gpdu _ res =>
      cases res with
      | unclassified q => rw [u1] at q; cases q
      | denied q1 q2 =>
        rw [u1] at q1
        have := Option.some.inj q1
        subst this
        exact absurd ⟨far, qer, u2⟩ q2
      | policed q1 q2 q3 => obtain ⟨_, _, rfl⟩ := same q1 q2; exact absurd q3 (nolimit _)
      | n9 g q0 q1 q2 q3 q4 q5 =>
        obtain ⟨rfl, rfl, rfl⟩ := same q1 q2
        rw [hr.teid, hp.pdr] at q0
        obtain rfl := Option.some.inj q0
        refine ⟨?_, _, _, rfl⟩
        obtain ⟨i, x, y, h⟩ := hroute (fibReq4 e g)
        rw [h]; unfold routeAct; simp only; split <;> rfl
      | kept _ q1 q2 _ q3 | garbled _ _ q1 q2 _ q3 | cut4 _ _ q1 q2 _ q3 | cut6 _ _ q1 q2 _ q3 | selfOther _ _ _ q1 q2 _ q3
      | ping _ _ q1 q2 _ q3 => rw [(same q1 q2).2.1, hp.tunnel] at q3; cases q3
  refine ⟨hsent.1, ?_, hsent.2⟩
  have R := C31_retunnelled e s s' a hrun hsent.1 hr.msg u1 u2 hp.tunnel (by rw [hr.off]; exact hopt)
  have hl := hr.msg.len
  have hgo : gtpOff s.frame = l4Off s.frame + 8 := rfl
  have hgo0 : gtpOff f0 = l4Off f0 + 8 := rfl
  have hoff := hr.off
  have hlen := hr.length
  have w : ∀ {i}, 12 ≤ i → oct f i = oct s'.frame i := fun hi => oct_wire hm hf hi
  have rest : ∀ i, 12 ≤ i → ¬ (24 ≤ i ∧ i < 34) → ¬ (l4Off f0 + 6 ≤ i ∧ i < l4Off f0 + 8) → ¬ (gtpOff f0 + 4 ≤ i ∧ i < gtpOff f0 + 8) →
      oct f i = oct s.frame i := fun i h1 h2 h3 h4 => by
    rw [w h1, R.rest i h1 h2 (by omega) (by omega)]
  have flen : f.length = s.frame.length := by
    rw [hf, List.length_append, List.length_drop, R.length, hm]; omega
  have foff : l4Off f = l4Off s.frame := by
    unfold l4Off ip4End
    rw [rest 14 (by omega) (by omega) (by omega) (by omega)]
  have fgo : gtpOff f = gtpOff s.frame := by unfold gtpOff; rw [foff]
  have b16 : ∀ i, oct f i = oct s.frame i → oct f (i + 1) = oct s.frame (i + 1) → be16 f i = be16 s.frame i := by
    intro i h1 h2; unfold be16; rw [h1, h2]
  constructor
  case msg =>
    refine ⟨⟨⟨by rw [flen]; exact hr.msg.gtpu.ip.len, ?_⟩, ?_, ?_, ?_, ?_⟩, ?_, ?_⟩
    · rw [b16 12 (rest _ (by omega) (by omega) (by omega) (by omega)) (rest _ (by omega) (by omega) (by omega) (by omega))]
      exact hr.msg.gtpu.ip.type
    · rw [rest 23 (by omega) (by omega) (by omega) (by omega)]; exact hr.msg.gtpu.proto
    · rw [foff, flen]; exact hr.msg.gtpu.len
    · rw [foff, b16 _ (rest _ (by omega) (by omega) (by omega) (by omega)) (rest _ (by omega) (by omega) (by omega) (by omega))]
      exact hr.msg.gtpu.port
    · have : be32 f 30 = be32 s'.frame 30 := be32_congr fun j j1 j2 => w (by omega)
      rw [this, R.dst]; exact hp.addr
    · rw [fgo, flen]; exact hl
    · rw [fgo, rest _ (by omega) (by omega) (by omega) (by omega)]; exact hr.msg.type
  case teid =>
    unfold gtpTeid
    rw [fgo]
    have : be32 f (gtpOff s.frame + 4) = be32 s'.frame (gtpOff s.frame + 4) := be32_congr fun j j1 j2 => w (by omega)
    rw [this, R.teid, hp.teid]
  case off => rw [foff, hoff]
  case length => rw [flen, hlen]
  case rest =>
    intro i h1 h2 h3 h4
    rw [rest i h1 h2 h3 h4, hr.rest i h1 h2 h3 h4]

/-- the tables still pass it on when a packet has been charged -/
theorem PassesTo.charged {b : BpfObjects} {t t' : U32} {e' : Env} {p : PdrEntry} {far : FarInfo} {qer : QerInfo} (h : PassesTo b t e' t' p far qer)
    (start : U64) (n : Nat) : ∃ qer', PassesTo (chargeUl b p p.qerId start n) t e' t' p far qer' := by
  have h1 : (chargeUl b p p.qerId start n).pdrUl = b.pdrUl ∧ (chargeUl b p p.qerId start n).far = b.far ∧
      (chargeUl b p p.qerId start n).qer = (b.setStart p.qerId (fun x => { x with startUL := start })).qer := by
    unfold chargeUl BpfObjects.addUrr; split <;> split <;> exact ⟨rfl, rfl, rfl⟩
  refine ⟨{ qer with startUL := start }, by rw [h1.1]; exact h.pdr, h.plain, by rw [h1.2.1]; exact h.hasFar, h.forw, h.tunnel, h.teid, h.addr, ?_, h.gate, h.rate⟩
  rw [h1.2.2]
  have := h.hasQer
  unfold BpfObjects.setStart ArrMap.lookup at *
  simp only at this ⊢
  split at this
  · rename_i hi
    rw [if_pos hi, if_pos trivial, Option.some.inj this]
  · cases this

/-- **C118, a ring of UPFs.** UPFs whose FARs lead round - each passes the packet on to the tunnel endpoint address of the next, for ever - pass the
packet on for ever: at every position it is sent, with the Time To Live with which it set out, in the tunnel and inside. -/
theorem C118_ring (e : Nat → Env) (s s' : Nat → PS) (a : Nat → XAction) (W : Way e s s' a) (t : Nat → U32)
    (hroute : ∀ k q, ∃ i x y, (e k).fib q = .ok i x y)
    (hpass : ∀ k, ∃ p far qer, PassesTo (s k).dp (t k) (e (k + 1)) (t (k + 1)) p far qer)
    (h0 : IsGtpMsg (e 0) (s 0).frame 255) (ht : gtpTeid (s 0).frame = t 0) (hopt : 34 ≤ l4Off (s 0).frame) (k : Nat) :
    (a k).sent = true ∧ oct (s k).frame 22 = oct (s 0).frame 22 ∧ (s k).frame.drop (gtpOff (s 0).frame + 8) = (s 0).frame.drop (gtpOff (s 0).frame + 8) := by
  suffices H : Rides (e k) (t k) (s k).frame (s 0).frame by
    obtain ⟨m, hm, hf⟩ := W.wire k
    obtain ⟨p, far, qer, hp⟩ := hpass k
    have hgo : gtpOff (s 0).frame = l4Off (s 0).frame + 8 := rfl
    refine ⟨(rides_step (W.run k) hp hopt H (hroute k) hm hf).1, H.rest _ (by omega) (by omega) (by omega) (by omega), ?_⟩
    exact drop_oct H.length fun i hi => H.rest i (by omega) (by omega) (by omega) (by omega)
  induction k with
  | zero => exact ⟨h0, ht, rfl, rfl, fun _ _ _ _ _ => rfl⟩
  | succ k ih =>
    obtain ⟨m, hm, hf⟩ := W.wire k
    obtain ⟨p, far, qer, hp⟩ := hpass k
    exact (rides_step (W.run k) hp hopt ih (hroute k) hm hf).2.1

/-- **C118, one UPF with itself.** A FAR that tunnels into the UPF's own address, with the TEID of the PDR that uses it, makes one packet go round
for ever. Nothing is assumed of the tables but at the start: what the packets themselves change in them does not stop it. -/
theorem C118_alone (e : Nat → Env) (s s' : Nat → PS) (a : Nat → XAction) (W : Way e s s' a)
    (same : ∀ k, (e k).n3Ip = (e 0).n3Ip ∧ (e k).n9Ip = (e 0).n9Ip) (tables : ∀ k, (s (k + 1)).dp = (s' k).dp)
    (hroute : ∀ k q, ∃ i x y, (e k).fib q = .ok i x y) {t : U32} {p : PdrEntry} {far : FarInfo} {qer : QerInfo}
    (hpass : PassesTo (s 0).dp t (e 0) t p far qer)
    (h0 : IsGtpMsg (e 0) (s 0).frame 255) (ht : gtpTeid (s 0).frame = t) (hopt : 34 ≤ l4Off (s 0).frame) (k : Nat) :
    (a k).sent = true ∧ oct (s k).frame 22 = oct (s 0).frame 22 ∧ (s k).frame.drop (gtpOff (s 0).frame + 8) = (s 0).frame.drop (gtpOff (s 0).frame + 8) := by
  have P : ∀ k, Rides (e k) t (s k).frame (s 0).frame ∧ ∃ qer, PassesTo (s k).dp t (e (k + 1)) t p far qer := by
    intro k
    have mv : ∀ {k qer}, PassesTo (s k).dp t (e 0) t p far qer → PassesTo (s k).dp t (e (k + 1)) t p far qer := fun {k _} h =>
      { h with addr := by rw [(same (k + 1)).1, (same (k + 1)).2]; exact h.addr }
    induction k with
    | zero => exact ⟨⟨h0, ht, rfl, rfl, fun _ _ _ _ _ => rfl⟩, qer, mv hpass⟩
    | succ k ih =>
      obtain ⟨R, qer, hp⟩ := ih
      obtain ⟨m, hm, hf⟩ := W.wire k
      obtain ⟨_, R', start, n, hdp⟩ := rides_step (W.run k) hp hopt R (hroute k) hm hf
      obtain ⟨qer', hq⟩ := hp.charged start n
      refine ⟨R', qer', mv ?_⟩
      rw [tables, hdp]
      exact { hq with addr := by have := hq.addr; rw [(same (k + 1)).1, (same (k + 1)).2] at this; exact this }
  refine C118_ring e s s' a W (fun _ => t) hroute (fun k => ?_) h0 ht hopt k
  obtain ⟨qer, h⟩ := (P k).2
  exact ⟨p, far, qer, h⟩

/-! Non-vacuity -/

/-- What a router does: 64 becomes 63. -/
example : Forwarded DemoDp.ueUp (DemoDp.ueUp.set 8 63) := ⟨64, by decide, by decide, by decide⟩
/-- With nothing left, a router does nothing. -/
example (q : List U8) : ¬ Forwarded (DemoDp.ueUp.set 8 0) q := by
  rintro ⟨n, h, hn, _⟩
  exact hn (Option.some.inj (h.symm.trans (show hopsLeft (DemoDp.ueUp.set 8 0) = some 0 by decide)))
/-- The UPF forwards a packet with nothing left, uplink and downlink. -/
theorem C118_zero : (runPacket DemoDp.env (DemoDp.ps (DemoDp.up.set 58 0))).2 = .ok (.redirect 7) ∧ hopsLeft ((DemoDp.up.set 58 0).drop 50) = some 0 ∧
    hopsLeft ((runPacket DemoDp.env (DemoDp.ps (DemoDp.up.set 58 0))).1.frame.drop 14) = some 0 ∧
    (runPacket DemoDp.env (DemoDp.ps (DemoDp.down.set 22 0))).2 = .ok (.redirect 7) ∧ hopsLeft ((DemoDp.down.set 22 0).drop 14) = some 0 ∧
    hopsLeft ((runPacket DemoDp.env (DemoDp.ps (DemoDp.down.set 22 0))).1.frame.drop 58) = some 0 := by
  refine ⟨by decide +kernel, by decide, by decide +kernel, by decide +kernel, by decide, by decide +kernel⟩

/-- TEID 0x103: FAR 4, a tunnel to the UPF itself, 10.0.9.10, TEID 0x103. QER 1 has no limit. -/
def DemoDp.dpLoop : BpfObjects :=
  { DemoDp.dp with
    pdrUl := ⟨(GoMap.empty : GoMap U32 PdrEntry).set 0x103 { farId := 4, qerId := 1 }, 16⟩
    far := ⟨16, fun i => if i = 4 then { action := 2, ohc := 1, teid := 0x103, remoteIP := swap32 0x0A00090A } else {}⟩
    qer := ⟨16, fun _ => {}⟩ }
/-- a frame whose outer packet has Time To Live 1 and whose inner packet has 0 -/
def DemoDp.upLoop : List U8 := ((DemoDp.gpdu [0, 0, 1, 3] DemoDp.ueUp).set 22 1).set 58 0

theorem DemoDp.loop_passes : PassesTo DemoDp.dpLoop 0x103 DemoDp.env 0x103 { farId := 4, qerId := 1 }
    { action := 2, ohc := 1, teid := 0x103, remoteIP := swap32 0x0A00090A } {} :=
  ⟨by decide, by decide, by decide, by decide, by decide, by decide, .inr (by decide), by decide, by decide, by decide⟩
theorem DemoDp.loop_gpdu : IsGtpMsg DemoDp.env DemoDp.upLoop 255 ∧ gtpTeid DemoDp.upLoop = 0x103 ∧ l4Off DemoDp.upLoop = 34 ∧
    oct DemoDp.upLoop 22 = 1 ∧ hopsLeft (DemoDp.upLoop.drop (gtpOff DemoDp.upLoop + 8)) = some 0 :=
  ⟨⟨⟨⟨by decide, by decide⟩, by decide, by decide, by decide, by decide⟩, by decide, by decide⟩, by decide, by decide, by decide, by decide⟩

/-- the state at every position: what the last one left; the network puts its MAC addresses -/
noncomputable def DemoDp.around : Nat → PS
  | 0 => ⟨DemoDp.upLoop, DemoDp.dpLoop, {}, {}⟩
  | k + 1 =>
    let s' := (runPacket DemoDp.env (DemoDp.around k)).1
    ⟨DemoDp.macsIn ++ s'.frame.drop 12, s'.dp, s'.st, s'.rt⟩

/-- **The packet with Time To Live 1 outside and 0 inside goes round for ever.** -/
theorem C118_for_ever : ∃ (s s' : Nat → PS) (a : Nat → XAction), Way (fun _ => DemoDp.env) s s' a ∧ (∀ k, (s (k + 1)).dp = (s' k).dp) ∧
    ∀ k, (a k).sent = true ∧ oct (s k).frame 22 = 1 ∧ hopsLeft ((s k).frame.drop (gtpOff DemoDp.upLoop + 8)) = some 0 := by
  have tot : ∀ k, ∃ a, runPacket DemoDp.env (DemoDp.around k) = ((runPacket DemoDp.env (DemoDp.around k)).1, .ok a) := fun k => by
    obtain ⟨s', a, h, _⟩ := entry_outcome DemoDp.env (DemoDp.around k)
    exact ⟨a, by rw [h]⟩
  have W : Way (fun _ => DemoDp.env) DemoDp.around (fun k => (runPacket DemoDp.env (DemoDp.around k)).1) (fun k => Classical.choose (tot k)) :=
    ⟨fun k => Classical.choose_spec (tot k), fun k => ⟨DemoDp.macsIn, rfl, rfl⟩⟩
  refine ⟨_, _, _, W, fun _ => rfl, fun k => ?_⟩
  obtain ⟨g1, g2, g3, g4, g5⟩ := DemoDp.loop_gpdu
  obtain ⟨h1, h2, h3⟩ := C118_alone (fun _ => DemoDp.env) _ _ _ W (fun _ => ⟨rfl, rfl⟩) (fun _ => rfl) (fun _ _ => ⟨_, _, _, rfl⟩)
    (t := 0x103) DemoDp.loop_passes g1 g2 (Nat.le_of_eq g3.symm) k
  refine ⟨h1, h2.trans g4, ?_⟩
  have h3' : (DemoDp.around k).frame.drop (gtpOff DemoDp.upLoop + 8) = DemoDp.upLoop.drop (gtpOff DemoDp.upLoop + 8) := h3
  rw [h3']; exact g5

end Eupf
