import Verif.Spec.Fragments
import Verif.Props.Loops
/-
C119: fragments.
-/
namespace Eupf

theorem be32_at {f : List U8} {o i : Nat} : be32 (f.drop o) i = be32 f (o + i) := by
  unfold be32
  rw [oct_drop, oct_drop, oct_drop, oct_drop]; rfl
theorem be16_at {f : List U8} {o i : Nat} : be16 (f.drop o) i = be16 f (o + i) := by
  unfold be16
  rw [oct_drop, oct_drop]; rfl

theorem sat_anyPorts {k : KFilter} (h : (k.srcPort.lo = 0 ∧ k.srcPort.hi = 0xFFFF) ∧ (k.dstPort.lo = 0 ∧ k.dstPort.hi = 0xFFFF)) (p : U8) (s d : Ip4) (a b a' b' : U16) :
    (Flow.v4 p s d a b).sat k = (Flow.v4 p s d a' b').sat k := by
  unfold Flow.sat sdfMatch4
  rw [h.1.1, h.1.2, h.2.1, h.2.2]
  have lo : ∀ x : U16, decide (x < 0) = false := fun x => decide_eq_false (by intro h; have := BitVec.lt_def.1 h; simp at this)
  have hi : ∀ x : U16, decide (x > 0xFFFF) = false := fun x => decide_eq_false (by
    intro h; have := BitVec.lt_def.1 h; have := x.isLt; simp at *; omega)
  simp only [lo, hi]

theorem classify_anyPorts {p : PdrEntry} (h : p.anyPorts) (pr : U8) (s d : Ip4) (a b a' b' : U16) :
    classify (some p) (Flow.v4 pr s d a b).sat = classify (some p) (Flow.v4 pr s d a' b').sat := by
  unfold classify
  rcases h with h | h
  · simp only [h, if_true]
  · simp only [sat_anyPorts h pr s d a b a' b']

/-- **C119, downlink rule.** Pieces of one datagram for a UE get the same rule, if the PDR's filter does not look at ports. -/
theorem C119_downlink_partial {b : BpfObjects} {f g : List U8} (h : SameDatagram (f.drop 14) (g.drop 14))
    (hp : ∀ p, b.pdrDl4.lookup (be32 f 30) = some p → p.anyPorts) : dlRule4 b f = dlRule4 b g := by
  have h1 := h.proto; have h2 := h.src; have h3 := h.dst
  rw [oct_drop, oct_drop] at h1
  rw [be32_at, be32_at] at h2 h3
  unfold dlRule4 downFlow4 flow4
  rw [← h3]
  cases hb : b.pdrDl4.lookup (be32 f 30) with
  | none => rfl
  | some p =>
    rw [h1, h2, h3]
    exact classify_anyPorts (hp p hb) _ _ _ _ _ _ _

/-- **C119, downlink.** So they end up in the same tunnel (same endpoints, TEID, QFI and service class). -/
theorem C119_same_tunnel_partial (e : Env) (s s' t t' : PS) (a a' : XAction) (hrun : runPacket e s = (s', .ok a)) (hs : a.sent = true)
    (hrun' : runPacket e t = (t', .ok a')) (hs' : a'.sent = true) (hd : IsDown4 e s.frame) (hd' : IsDown4 e t.frame) (hdp : s.dp = t.dp)
    (h : SameDatagram (s.frame.drop 14) (t.frame.drop 14)) (hp : ∀ p, s.dp.pdrDl4.lookup (be32 s.frame 30) = some p → p.anyPorts) :
    ∃ x, IsTunnelled x (be16 s.frame 16) (s.frame.drop 14) s'.frame ∧ IsTunnelled x (be16 t.frame 16) (t.frame.drop 14) t'.frame := by
  obtain ⟨r, far, qer, h1, h2, h3⟩ := C27_downlink4 e s s' a hrun hs hd
  obtain ⟨r', far', qer', h1', h2', h3'⟩ := C27_downlink4 e t t' a' hrun' hs' hd'
  rw [← hdp, ← C119_downlink_partial h hp, h1] at h1'
  obtain rfl := Option.some.inj h1'
  obtain rfl := Option.some.inj (h2.hasFar.symm.trans (hdp ▸ h2'.hasFar))
  obtain rfl := Option.some.inj (h2.hasQer.symm.trans (hdp ▸ h2'.hasQer))
  exact ⟨_, h3, h3'⟩

/-- **C119, uplink rule.** The same for the pieces of a datagram that come through a tunnel, if they are not so short that the place of the
transport header is cut off (20 octets behind the IP header are enough). -/
theorem C119_uplink_partial {b : BpfObjects} {f g : List U8} (ht : gtpTeid f = gtpTeid g)
    (hf : (oct f (innerOff f)).toNat / 16 = 4 ∧ ip4End f (innerOff f) + 20 ≤ f.length ∧ innerOff f + 20 ≤ f.length)
    (hg : (oct g (innerOff g)).toNat / 16 = 4 ∧ ip4End g (innerOff g) + 20 ≤ g.length ∧ innerOff g + 20 ≤ g.length)
    (h : SameDatagram (f.drop (innerOff f)) (g.drop (innerOff g)))
    (hp : ∀ p, b.pdrUl.lookup (gtpTeid f) = some p → p.anyPorts) : ulRule b f = ulRule b g := by
  have h1 := h.proto; have h2 := h.src; have h3 := h.dst
  rw [oct_drop, oct_drop] at h1
  rw [be32_at, be32_at] at h2 h3
  have key : ∀ {x : List U8}, (oct x (innerOff x)).toNat / 16 = 4 ∧ ip4End x (innerOff x) + 20 ≤ x.length ∧ innerOff x + 20 ≤ x.length →
      ∃ u v, innerFlow x = some (.v4 (oct x (innerOff x + 9)) (be32 x (innerOff x + 12)) (be32 x (innerOff x + 16)) u v) := by
    intro x hx
    unfold innerFlow
    rw [if_neg (by omega), if_pos hx.1, if_neg (by omega)]
    unfold l4Ports flow4
    split
    · rw [if_pos (by omega)]; exact ⟨_, _, rfl⟩
    · split
      · rw [if_pos (by omega)]; exact ⟨_, _, rfl⟩
      · exact ⟨_, _, rfl⟩
  obtain ⟨u, v, e1⟩ := key hf
  obtain ⟨u', v', e2⟩ := key hg
  unfold ulRule
  rw [← ht]
  cases hb : b.pdrUl.lookup (gtpTeid f) with
  | none => rfl
  | some p =>
    simp only [e1, e2, Option.bind_some]
    rw [h1, h2, h3, classify_anyPorts (hp p hb) _ _ _ u v u' v']

/-- the addresses of a re-tunnelled frame are the new ones, whatever the frame was -/
theorem retunnel_addr {f : List U8} (h34 : 34 ≤ l4Off f) (hl : gtpOff f + 8 ≤ f.length) (saddr daddr teid : U32) {i : Nat} (h1 : 26 ≤ i) (h2 : i < 34) :
    oct (retunnelFrame f saddr daddr teid) i = if i < 30 then oct (bytes32 saddr) (i - 26) else oct (bytes32 daddr) (i - 30) := by
  have hgo : gtpOff f = l4Off f + 8 := rfl
  unfold retunnelFrame
  simp only
  have l1 : (put f (gtpOff f + 4) (bytes32 (swap32 teid))).length = f.length := put_length (by rw [bytes32_length]; omega)
  generalize put f (gtpOff f + 4) (bytes32 (swap32 teid)) = f1 at *
  have l2 : (put f1 26 (bytes32 saddr)).length = f.length := by rw [put_length (by rw [bytes32_length]; omega), l1]
  have o2 : ∀ i, oct (put f1 26 (bytes32 saddr)) i = if 26 ≤ i ∧ i < 30 then oct (bytes32 saddr) (i - 26) else oct f1 i := fun i => by
    rw [oct_put (by rw [bytes32_length]; omega), bytes32_length]
  generalize put f1 26 (bytes32 saddr) = f2 at *
  have l3 : (put f2 30 (bytes32 daddr)).length = f.length := by rw [put_length (by rw [bytes32_length]; omega), l2]
  have o3 : oct (put f2 30 (bytes32 daddr)) i = if 30 ≤ i ∧ i < 34 then oct (bytes32 daddr) (i - 30) else oct f2 i := by
    rw [oct_put (by rw [bytes32_length]; omega), bytes32_length]
  generalize put f2 30 (bytes32 daddr) = f3 at *
  have l4 : (put f3 24 [0, 0]).length = f.length := by rw [put_length (by simp; omega), l3]
  have o4 : oct (put f3 24 [0, 0]) i = oct f3 i := by rw [oct_put (by simp; omega), if_neg (by simp; omega)]
  generalize put f3 24 [0, 0] = f4 at *
  have l5 : (put f4 24 (bytes16 (ipv4Csum (slice f4 14 20)))).length = f.length := by rw [put_length (by simp; omega), l4]
  rw [oct_put (by simp; omega), if_neg (by simp; omega), oct_put (by simp; omega), if_neg (by simp; omega), o4, o3, o2]
  by_cases h : i < 30
  · rw [if_neg (by omega), if_pos (by omega), if_pos h]
  · rw [if_pos (by omega), if_neg h]

theorem fibReq4_congr {e : Env} {f g : List U8} (hf : 34 ≤ f.length) (hg : 34 ≤ g.length) (h : ∀ i, 15 ≤ i → (i < 18 ∨ 22 ≤ i) → ¬ (24 ≤ i ∧ i < 26) → i < 34 → oct f i = oct g i) :
    fibReq4 e f = fibReq4 e g := by
  unfold fibReq4
  rw [h 15 (by omega) (by omega) (by omega) (by omega), h 23 (by omega) (by omega) (by omega) (by omega),
    be16_congr (f := f) (g := g) (i := 16) fun j _ _ => h j (by omega) (by omega) (by omega) (by omega),
    slice_congr (f := f) (g := g) (i := 26) (n := 4) (by omega) (by omega) fun j _ _ => h j (by omega) (by omega) (by omega) (by omega),
    slice_congr (f := f) (g := g) (i := 30) (n := 4) (by omega) (by omega) fun j _ _ => h j (by omega) (by omega) (by omega) (by omega)]

section
variable {f g : List U8} (h : SameButFragment f g) (h34 : 34 ≤ l4Off f)
include h h34

theorem SameButFragment.l4 : l4Off g = l4Off f := by
  unfold l4Off ip4End; rw [h.same 14 (by omega)]
theorem SameButFragment.gtp : gtpOff g = gtpOff f := by unfold gtpOff; rw [h.l4 h34]
theorem SameButFragment.opt : gtpHasOpt g = gtpHasOpt f := by
  unfold gtpHasOpt; rw [h.gtp h34, h.same _ (by unfold gtpOff; omega)]
theorem SameButFragment.teid : gtpTeid g = gtpTeid f := by
  unfold gtpTeid; rw [h.gtp h34]
  exact (be32_congr fun j _ _ => h.same j (by unfold gtpOff at *; omega)).symm
theorem SameButFragment.msg {e : Env} {t : U8} (hm : IsGtpMsg e f t) : IsGtpMsg e g t := by
  have s := fun i hi => (h.same i hi).symm
  refine ⟨⟨⟨by rw [← h.length]; exact hm.gtpu.ip.len, ?_⟩, ?_, ?_, ?_, ?_⟩, ?_, ?_⟩
  · rw [be16_congr fun j _ _ => s j (by omega)]; exact hm.gtpu.ip.type
  · rw [s 23 (by omega)]; exact hm.gtpu.proto
  · rw [h.l4 h34, ← h.length]; exact hm.gtpu.len
  · rw [h.l4 h34, be16_congr fun j _ _ => s j (by omega)]; exact hm.gtpu.port
  · rw [be32_congr fun j _ _ => s j (by omega)]; exact hm.gtpu.dst
  · rw [h.gtp h34, ← h.length]; exact hm.len
  · rw [h.gtp h34, s _ (by unfold gtpOff; omega)]; exact hm.type

theorem SameButFragment.inOff : innerOff g = innerOff f := by
  unfold innerOff; rw [h.gtp h34, h.opt h34]
theorem SameButFragment.flow : innerFlow g = innerFlow f := by
  have hi : 22 ≤ innerOff f := by unfold innerOff gtpOff; omega
  have s : ∀ i, innerOff f ≤ i → oct g i = oct f i := fun i hx => (h.same i (by omega)).symm
  have b16 : ∀ i, innerOff f ≤ i → be16 g i = be16 f i := fun i hx => be16_congr fun j _ _ => s j (by omega)
  have b32 : ∀ i, innerOff f ≤ i → be32 g i = be32 f i := fun i hx => be32_congr fun j _ _ => s j (by omega)
  have ports : ∀ o pr, innerOff f ≤ o → l4Ports g o pr = l4Ports f o pr := by
    intro o pr ho
    unfold l4Ports
    rw [b16 o ho, b16 (o + 2) (by omega), h.length]
  have e4 : ip4End g (innerOff f) = ip4End f (innerOff f) := by unfold ip4End; rw [s _ (Nat.le_refl _)]
  unfold innerFlow
  rw [h.inOff h34, ← h.length, s _ (Nat.le_refl _), e4, s (innerOff f + 9) (by omega), s (innerOff f + 6) (by omega),
    ports _ _ (show innerOff f ≤ ip4End f (innerOff f) by unfold ip4End; omega), ports _ _ (show innerOff f ≤ innerOff f + 40 by omega)]
  have f4 : flow4 g (innerOff f) = flow4 f (innerOff f) := by
    funext x; unfold flow4
    rw [s _ (show innerOff f ≤ innerOff f + 9 by omega), b32 (innerOff f + 12) (by omega), b32 (innerOff f + 16) (by omega)]
  by_cases h1 : innerOff f + 1 > f.length
  · rw [if_pos h1, if_pos h1]
  · rw [if_neg h1, if_neg h1]
    rw [f4]
    by_cases h40 : innerOff f + 40 > f.length
    · rw [if_pos h40, if_pos h40]
    · have f6 : flow6 g (innerOff f) = flow6 f (innerOff f) := by
        funext x; unfold flow6
        rw [s _ (show innerOff f ≤ innerOff f + 6 by omega),
          slice_congr (f := g) (g := f) (by rw [← h.length]; omega) (by omega) fun j _ _ => s j (by omega),
          slice_congr (f := g) (g := f) (by rw [← h.length]; omega) (by omega) fun j _ _ => s j (by omega)]
      rw [f6]
theorem SameButFragment.rule (b : BpfObjects) : ulRule b g = ulRule b f := by
  unfold ulRule; rw [h.teid h34, h.flow h34]

theorem SameButFragment.cut (t : U16) : cutFrame g t = cutFrame f t := by
  have hc : cutLen g = cutLen f := by unfold cutLen; rw [h.opt h34]
  unfold cutFrame
  rw [hc]
  congr 1
  · congr 1
    refine ext_oct (by rw [List.length_take, List.length_take, h.length]) fun i hi => ?_
    rw [List.length_take] at hi
    rw [oct_take_lt (by omega), oct_take_lt (by omega), h.same i (by omega)]
  · exact drop_oct h.length.symm fun i hi => (h.same i (by unfold cutLen at hi; omega)).symm

theorem SameButFragment.inner : innerType g = innerType f ∧ cutLen g = cutLen f ∧ (cutOk g ↔ cutOk f) := by
  have hc : cutLen g = cutLen f := by unfold cutLen; rw [h.opt h34]
  have hi : innerType g = innerType f := by unfold innerType; rw [hc, h.same _ (by unfold cutLen; omega)]
  refine ⟨hi, hc, ?_⟩
  unfold cutOk; rw [hi, hc, h.length]

theorem SameButFragment.fib {e : Env} (hl : gtpOff f + 8 ≤ f.length) : fibReq4 e g = fibReq4 e f ∧
    ∀ s d t, fibReq4 e (retunnelFrame g s d t) = fibReq4 e (retunnelFrame f s d t) := by
  have h8 : gtpOff f = l4Off f + 8 := rfl
  have hlen := h.length
  refine ⟨fibReq4_congr (by omega) (by omega) fun i _ h2 _ _ => (h.same i h2).symm, fun s d t => ?_⟩
  have hlg : gtpOff g + 8 ≤ g.length := by rw [h.gtp h34]; omega
  refine fibReq4_congr (by rw [retunnel_length (by omega) hlg]; omega) (by rw [retunnel_length (by omega) hl]; omega) fun i h1 h2 h3 h4 => ?_
  by_cases h26 : i < 26
  · have h8g : gtpOff g = l4Off g + 8 := rfl
    have hl4 := h.l4 h34
    rw [retunnel_oct (by omega) hlg _ _ _ _ (by omega) (by omega) (by omega), retunnel_oct (by omega) hl _ _ _ _ (by omega) (by omega) (by omega)]
    exact (h.same i h2).symm
  · rw [retunnel_addr (by rw [h.l4 h34]; exact h34) hlg _ _ _ (by omega) h4, retunnel_addr h34 hl _ _ _ (by omega) h4]

theorem SameButFragment.fate {e : Env} (hl : gtpOff f + 8 ≤ f.length) (rule : Option Rule) (far? : Option FarInfo) (qer? : Option QerInfo) (pg : XAction × List U8) :
    (upFateP e g rule far? qer? pg).1 = (upFateP e f rule far? qer? pg).1 := by
  obtain ⟨f1, f2⟩ := h.fib (e := e) h34 hl
  obtain ⟨i1, _, i3⟩ := h.inner h34
  cases rule with
  | none => rfl
  | some r =>
    cases far? with
    | none => rfl
    | some far =>
      cases qer? with
      | none => rfl
      | some qer =>
        unfold upFateP
        simp only [h.cut h34, i1, i3, ← h.length, f1, f2]
        split
        · split
          · rfl
          · split
            · rfl
            · split
              · rfl
              · by_cases c : cutOk f
                · rw [if_neg (not_not_intro c), if_neg (not_not_intro (i3.2 c))]
                  split
                  · by_cases c2 : ToSelf e (cutFrame f 0x0800)
                    · rw [if_pos c2, if_pos (by rw [h.cut h34]; exact c2)]
                      by_cases c3 : IsPing (cutFrame f 0x0800)
                      · rw [if_pos c3, if_pos (by rw [h.cut h34]; exact c3)]
                      · rw [if_neg c3, if_neg (by rw [h.cut h34]; exact c3)]
                    · rw [if_neg c2, if_neg (by rw [h.cut h34]; exact c2)]
                  · rfl
                · rw [if_pos c, if_pos (fun x => c (i3.1 x))]
        · rfl

end

/-- **C119, the fields are not looked at.** What becomes of a G-PDU does not depend on the identification, the flags and the fragment offset of
its outer header: with any values there the UPF does the same. So a piece that is not the first one, and whose octets are in truth somewhere in the
middle of what a UE wrote, is taken for a G-PDU if it looks like one. -/
theorem C119_not_looked_at (e : Env) (b : BpfObjects) {f g : List U8} (hm : IsGtpMsg e f 255) (h34 : 34 ≤ l4Off f) (h : SameButFragment f g)
    (st : UpfStat) (rt : RouteStat) : (runPacket e ⟨g, b, st, rt⟩).2 = (runPacket e ⟨f, b, st, rt⟩).2 := by
  have up : ∀ {x : List U8} {fr dp a}, IsGtpMsg e x 255 → PacketRes e b x fr dp a → UpRes e b x fr dp a := by
    intro x fr dp a hx res
    cases res with
    | gpdu _ r => exact r
    | foreign h => exact absurd hx (h.notMsg 255)
    | otherMsg h h1 _ => exact absurd (h.type.symm.trans hx.type) h1
    | echo h => exact absurd (h.type.symm.trans hx.type) (by decide)
    | down4 h _ => exact absurd hx.gtpu h.notGtpu
    | down6 h _ => exact absurd (h.ip.type.symm.trans hx.gtpu.ip.type) (by decide)
  obtain ⟨s1, a1, h1, r1, -⟩ := entry_outcome e ⟨f, b, st, rt⟩
  obtain ⟨s2, a2, h2, r2, -⟩ := entry_outcome e ⟨g, b, st, rt⟩
  rw [h1, h2]
  show Res.ok a2 = Res.ok a1
  have e1 := (up hm r1).fateP.1
  have e2 := (up (h.msg h34 hm) r2).fateP.1
  have hpg : pingFate e b g = pingFate e b f := by unfold pingFate; rw [h.cut h34]
  rw [e1, e2]
  simp only [h.rule h34, hpg]
  rw [h.fate h34 hm.len]

/-- **C119, pieces of user packets leave as whole ones.** The first piece of a G-PDU that was fragmented holds a part only of the UE's packet. The UPF
takes it out of the tunnel and sends it on as if it were whole: with a length field that promises more than is there. -/
theorem C119_cut_short (e : Env) (s s' : PS) (a : XAction) (hrun : runPacket e s = (s', .ok a)) (hs : a.sent = true)
    (hm : IsGtpMsg e s.frame 255) {r : Rule} {far : FarInfo} {qer : QerInfo} (hr : ulRule s.dp s.frame = some r) (hp : PermitsUl s.dp r far qer)
    (hoc : far.ohc.getLsbD 0 = false) (hohr : r.ohr = 0) (h34 : l4Off s.frame = 34)
    {o : Nat} (hpay : PayloadAt s.frame o) (ho : o = gtpOff s.frame + 8 ∨ o = gtpOff s.frame + 16)
    (hself : ¬ ((oct s.frame o).toNat / 16 = 4 ∧ oct s.frame (o + 9) = 1 ∧ (be32 s.frame (o + 16) = e.n3Ip ∨ be32 s.frame (o + 16) = e.n9Ip)))
    (hcut : s.frame.length < o + (be16 s.frame (o + 2)).toNat) :
    (s'.frame.drop 14).length < (be16 (s'.frame.drop 14) 2).toNat := by
  obtain ⟨m, t, hl, ht, hf⟩ := C28_decapsulated_partial e s s' a hrun hs hm hr hp hoc hohr h34 hpay ho hself
  have : s'.frame.drop 14 = s.frame.drop o := by
    have hl2 : (m ++ t).length = 14 := by
      unfold etherTypeOf at ht
      split at ht
      · cases ht; simp [hl]
      · split at ht <;> cases ht
        simp [hl]
    rw [hf, List.drop_append_of_le_length (by omega), List.drop_of_length_le (by omega)]; rfl
  rw [this, List.length_drop, be16_at]
  have hl := hm.len
  rcases Nat.lt_or_ge o s.frame.length with h | h
  · omega
  · rw [List.drop_eq_nil_of_le h] at ht
    exact nomatch (show none = some t from ht)

/-! ### Cases -/

/-- The PDR of UE 10.60.0.1 has a filter only: packets to port 53. -/
def DemoDp.dpPort : BpfObjects :=
  { DemoDp.dp with pdrDl4 := ⟨(GoMap.empty : GoMap Ip4 PdrEntry).set 0x0A3C0001
      { farId := 0, qerId := 0, sdfMode := 1, sdfFar := 1, sdfQer := 0,
        filter := { proto := 1, src := {}, srcPort := ⟨0, 0xFFFF⟩, dst := {}, dstPort := ⟨53, 53⟩ } }, 16⟩ }
/-- a datagram of 40 octets UDP, 5000 to 53, for the UE -/
def DemoDp.downLong : List U8 :=
  DemoDp.macsIn ++ [8, 0] ++ DemoDp.ip4h 60 17 [8, 8, 8, 8] [10, 60, 0, 1] ++ [0x13, 0x88, 0, 53, 0, 40, 0, 0] ++ List.replicate 32 7

/-- **A port filter tears datagrams apart**: the whole datagram and its first piece are carried, the second is not. -/
theorem C119_torn : SameDatagram ((pieceOf DemoDp.downLong 0 16 true).drop 14) ((pieceOf DemoDp.downLong 16 24 false).drop 14) ∧
    (runPacket DemoDp.env ⟨DemoDp.downLong, DemoDp.dpPort, {}, {}⟩).2 = .ok (.redirect 7) ∧
    (runPacket DemoDp.env ⟨pieceOf DemoDp.downLong 0 16 true, DemoDp.dpPort, {}, {}⟩).2 = .ok (.redirect 7) ∧
    (runPacket DemoDp.env ⟨pieceOf DemoDp.downLong 16 24 false, DemoDp.dpPort, {}, {}⟩).2 = .ok .pass :=
  ⟨⟨by decide, by decide, by decide, by decide⟩, by decide +kernel, by decide +kernel, by decide +kernel⟩

/-- Without a filter both pieces are carried, in the same tunnel (the hypotheses of C119_same_tunnel_partial). -/
example : SameDatagram ((pieceOf DemoDp.downLong 0 16 true).drop 14) ((pieceOf DemoDp.downLong 16 24 false).drop 14) ∧
    (∀ p, DemoDp.dp.pdrDl4.lookup (be32 (pieceOf DemoDp.downLong 0 16 true) 30) = some p → p.anyPorts) ∧
    (runPacket DemoDp.env (DemoDp.ps (pieceOf DemoDp.downLong 0 16 true))).2 = .ok (.redirect 7) ∧
    (runPacket DemoDp.env (DemoDp.ps (pieceOf DemoDp.downLong 16 24 false))).2 = .ok (.redirect 7) := by
  refine ⟨⟨by decide, by decide, by decide, by decide⟩, fun p hp => .inl ?_, by decide +kernel, by decide +kernel⟩
  have : DemoDp.dp.pdrDl4.lookup (be32 (pieceOf DemoDp.downLong 0 16 true) 30) = some { farId := 1, qerId := 0 } := by decide +kernel
  rw [this] at hp
  cases hp; rfl

/-- A packet of the UE of TEID 0x101 (all its traffic is dropped). In its payload it has written the octets of a G-PDU with TEID 0x100. -/
def DemoDp.evil : List U8 :=
  DemoDp.ip4h 80 17 [10, 60, 0, 9] [8, 8, 8, 8] ++ [0x13, 0x88, 0, 53, 0, 60, 0, 0] ++ [0, 0, 0, 0] ++
    ([8, 0x68, 8, 0x68, 0, 48, 0, 0] ++ [0x30, 255, 0, 32] ++ [0, 0, 1, 0] ++ DemoDp.ueUp)
/-- as the base station tunnels it -/
def DemoDp.evilUp : List U8 := DemoDp.gpdu [0, 0, 1, 1] DemoDp.evil

/-- **What a UE writes into its packets is taken for a tunnel header.** Whole, the packet is dropped, as its session demands; when it is cut
between base station and UPF, the second piece, all of it payload of the UE, is accepted as a G-PDU of another session, and what the UE has written there
is sent to the data network in the name of the other UE. -/
theorem C119_forged : IsGtpMsg DemoDp.env DemoDp.evilUp 255 ∧ gtpTeid DemoDp.evilUp = 0x101 ∧
    (runPacket DemoDp.env (DemoDp.ps DemoDp.evilUp)).2 = .ok .drop ∧
    LaterFragment ((pieceOf DemoDp.evilUp 48 48 false).drop 14) ∧ (pieceOf DemoDp.evilUp 48 48 false).drop 34 = DemoDp.evil.drop 32 ∧
    IsGtpMsg DemoDp.env (pieceOf DemoDp.evilUp 48 48 false) 255 ∧
    (runPacket DemoDp.env (DemoDp.ps (pieceOf DemoDp.evilUp 48 48 false))).2 = .ok (.redirect 7) ∧
    (runPacket DemoDp.env (DemoDp.ps (pieceOf DemoDp.evilUp 48 48 false))).1.frame.drop 14 = DemoDp.ueUp :=
  ⟨⟨⟨⟨by decide +kernel, by decide +kernel⟩, by decide +kernel, by decide +kernel, by decide +kernel, by decide +kernel⟩, by decide +kernel, by decide +kernel⟩, by decide +kernel, by decide +kernel, by unfold LaterFragment; decide, by decide +kernel,
    ⟨⟨⟨by decide, by decide⟩, by decide, by decide, by decide, by decide⟩, by decide, by decide⟩, by decide +kernel, by decide +kernel⟩

/-- Two frames as in C119_not_looked_at: an ordinary G-PDU and the same octets as a later piece. -/
example : SameButFragment DemoDp.up (DemoDp.up.set 21 6) ∧ LaterFragment ((DemoDp.up.set 21 6).drop 14) := by
  refine ⟨⟨by decide, fun i hi => ?_⟩, by unfold LaterFragment; decide⟩
  unfold oct
  rw [List.getD_eq_getElem?_getD, List.getD_eq_getElem?_getD, List.getElem?_set_ne (by omega)]

/-- The first piece of a G-PDU leaves cut short (the hypothesis of C119_cut_short). -/
example : (pieceOf DemoDp.up 0 40 true).length < 50 + (be16 (pieceOf DemoDp.up 0 40 true) 52).toNat ∧
    (runPacket DemoDp.env (DemoDp.ps (pieceOf DemoDp.up 0 40 true))).2 = .ok (.redirect 7) ∧
    ((runPacket DemoDp.env (DemoDp.ps (pieceOf DemoDp.up 0 40 true))).1.frame.drop 14) = DemoDp.ueUp.take 24 :=
  ⟨by decide, by decide +kernel, by decide +kernel⟩

end Eupf
