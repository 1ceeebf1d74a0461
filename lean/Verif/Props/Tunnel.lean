import Verif.Spec.Tunnel
import Verif.Xdp.CsumLemmas
import Verif.Props.Packets
/-
C27, C28, C29, C30, C31: tunnel headers.
-/
namespace Eupf

theorem macRewrite_shape {f : List U8} (h : 12 ≤ f.length) (ans : FibAns) : ∃ m, m.length = 12 ∧ macRewrite f ans = m ++ f.drop 12 := by
  unfold macRewrite
  cases ans with
  | ok i s d => exact ⟨d.toList ++ s.toList, by simp, rfl⟩
  | fail _ => exact ⟨f.take 12, by simp; omega, (List.take_append_drop 12 f).symm⟩

/-- everything behind the MAC addresses -/
def encapTail (f : List U8) (n : U16) (saddr daddr : U32) (tos qfi : U8) (teid : U32) : List U8 :=
  [8, 0] ++ outerIp saddr daddr tos (n + 44) ++ fillUdpHeader 2152 (n + 24) ++ fillGtpHeader teid (n + 8) ++ fillGtpExt ++ fillGtpPsc qfi 0 ++ f.drop 14
theorem encap_tail {f : List U8} (h : 14 ≤ f.length) (n : U16) (saddr daddr : U32) (tos qfi : U8) (teid : U32) :
    (encapFrame f n saddr daddr tos qfi teid).drop 12 = encapTail f n saddr daddr tos qfi teid := by
  unfold encapFrame encapTail
  simp only [List.append_assoc]
  rw [List.drop_append_of_le_length (by simp; omega), List.drop_of_length_le (by simp; omega)]
  rfl

theorem oct_shift {m t : List U8} (h : m.length = 12) (i : Nat) : oct (m ++ t) (12 + i) = oct t i := by
  rw [oct_append, if_neg (by omega)]; congr 1; omega
theorem be16_shift {m t : List U8} (h : m.length = 12) (i : Nat) : be16 (m ++ t) (12 + i) = be16 t i := by
  unfold be16; rw [oct_shift h, show 12 + i + 1 = 12 + (i + 1) from rfl, oct_shift h]
theorem be32_shift {m t : List U8} (h : m.length = 12) (i : Nat) : be32 (m ++ t) (12 + i) = be32 t i := by
  unfold be32
  rw [oct_shift h, show 12 + i + 1 = 12 + (i + 1) from rfl, oct_shift h, show 12 + i + 2 = 12 + (i + 2) from rfl, oct_shift h,
    show 12 + i + 3 = 12 + (i + 3) from rfl, oct_shift h]

theorem qfi6 (q : U8) : q &&& 0x3f = BitVec.ofNat 8 (q.toNat % 64) := by
  apply BitVec.eq_of_toNat_eq
  have h : q.toNat &&& (2 ^ 6 - 1) = q.toNat % 2 ^ 6 := Nat.and_two_pow_sub_one_eq_mod q.toNat 6
  have : (q &&& 0x3f).toNat = q.toNat % 64 := (BitVec.toNat_and q 0x3f).trans h
  rw [this, BitVec.toNat_ofNat]; omega

/-- octet `k` of a 32-bit or 16-bit value -/
def byt {w : Nat} (x : BitVec w) (k : Nat) : U8 := x.extractLsb' (8 * k) 8

theorem encapTail_eq (f : List U8) (n : U16) (saddr daddr : U32) (tos qfi : U8) (teid : U32) :
    encapTail f n saddr daddr tos qfi teid = [8, 0, 0x45, tos, byt (n + 44) 1, byt (n + 44) 0, 0, 0, 0x40, 0, 64, 17,
      byt (ipv4Csum (fillIpHeader saddr daddr tos (n + 44))) 0, byt (ipv4Csum (fillIpHeader saddr daddr tos (n + 44))) 1, byt saddr 0, byt saddr 1, byt saddr 2,
      byt saddr 3, byt daddr 0, byt daddr 1, byt daddr 2, byt daddr 3, 8, 0x68, 8, 0x68, byt (n + 24) 1, byt (n + 24) 0, 0, 0, 0x34, 255, byt (n + 8) 1, byt (n + 8) 0,
      byt teid 3, byt teid 2, byt teid 1, byt teid 0, 0, 0, 0, 0x85, 1, 0, qfi &&& 0x3f, 0] ++ f.drop 14 := by
  unfold encapTail outerIp
  generalize ipv4Csum _ = c
  unfold fillIpHeader fillUdpHeader fillGtpHeader fillGtpExt fillGtpPsc
  rw [bytes16_swap (n + 24), bytes16_swap (n + 44), bytes16_swap (n + 8), bytes32_swap teid, bytes16_swap 2152]
  rfl

theorem encap_tunnelled {f : List U8} (n : U16) (saddr daddr : U32) (tos qfi : U8) (teid : U32) {m : List U8} (hm : m.length = 12) :
    IsTunnelled ⟨swap32 saddr, swap32 daddr, tos, qfi, teid⟩ n (f.drop 14) (m ++ encapTail f n saddr daddr tos qfi teid) := by
  have b16 : ∀ x : U16, byt x 1 ++ byt x 0 = x := fun x => (cat16 x).symm
  have b32 : ∀ x : U32, byt x 3 ++ byt x 2 ++ byt x 1 ++ byt x 0 = x := fun x => (cat32 x).symm
  have hc : CsumValid (slice (m ++ encapTail f n saddr daddr tos qfi teid) 14 20) := by
    have : slice (m ++ encapTail f n saddr daddr tos qfi teid) 14 20 = outerIp saddr daddr tos (n + 44) := by
      unfold slice
      rw [show 14 = 12 + 2 from rfl, ← List.drop_drop, ← hm, List.drop_left]
      unfold encapTail
      simp only [List.append_assoc, List.cons_append, List.nil_append, List.drop_succ_cons, List.drop_zero]
      exact List.take_left' (outerIp_length ..)
    rw [this]
    exact ipv4Csum_valid _ rfl rfl rfl (show (0x45 : U8) ≠ 0 by decide)
  have hp : (m ++ encapTail f n saddr daddr tos qfi teid).drop 58 = f.drop 14 := by
    rw [show 58 = 12 + 46 from rfl, ← List.drop_drop, ← hm, List.drop_left, encapTail_eq]
    rfl
  have h8 : ∀ k (x : U8), oct (encapTail f n saddr daddr tos qfi teid) k = x → oct (m ++ encapTail f n saddr daddr tos qfi teid) (12 + k) = x :=
    fun k x h => (oct_shift hm k).trans h
  have h16 : ∀ k (a b : U8) (x : U16), oct (encapTail f n saddr daddr tos qfi teid) k = a → oct (encapTail f n saddr daddr tos qfi teid) (k + 1) = b → a ++ b = x →
      be16 (m ++ encapTail f n saddr daddr tos qfi teid) (12 + k) = x := by
    intro k a b x h1 h2 h3; rw [be16_shift hm, ← h3, ← h1, ← h2]; rfl
  have h32 : ∀ k (a b c d : U8) (x : U32), oct (encapTail f n saddr daddr tos qfi teid) k = a → oct (encapTail f n saddr daddr tos qfi teid) (k + 1) = b →
      oct (encapTail f n saddr daddr tos qfi teid) (k + 2) = c → oct (encapTail f n saddr daddr tos qfi teid) (k + 3) = d → a ++ b ++ c ++ d = x →
      be32 (m ++ encapTail f n saddr daddr tos qfi teid) (12 + k) = x := by
    intro k a b c d x h1 h2 h3 h4 h5; rw [be32_shift hm, ← h5, ← h1, ← h2, ← h3, ← h4]; rfl
  rw [encapTail_eq] at h8 h16 h32 hc hp ⊢
  generalize ipv4Csum _ = c at *
  generalize f.drop 14 = p at *
  constructor
  case ethType => exact h16 0 8 0 _ rfl rfl (by decide)
  case version => exact h8 2 _ rfl
  case tos => exact h8 3 _ rfl
  case totalLength => exact h16 4 _ _ _ rfl rfl (b16 _)
  case ident => exact h16 6 0 0 _ rfl rfl (by decide)
  case frag => exact h16 8 0x40 0 _ rfl rfl (by decide)
  case ttl => exact h8 10 _ rfl
  case udp => exact h8 11 _ rfl
  case ipCsum => exact hc
  case src => exact h32 14 _ _ _ _ _ rfl rfl rfl rfl rfl
  case dst => exact h32 18 _ _ _ _ _ rfl rfl rfl rfl rfl
  case sport => exact h16 22 8 0x68 _ rfl rfl (by decide)
  case dport => exact h16 24 8 0x68 _ rfl rfl (by decide)
  case udpLength => exact h16 26 _ _ _ rfl rfl (b16 _)
  case udpCsum => exact h16 28 0 0 _ rfl rfl (by decide)
  case gtpFlags => exact h8 30 _ rfl
  case gtpType => exact h8 31 _ rfl
  case gtpLength => exact h16 32 _ _ _ rfl rfl (b16 _)
  case teid => exact h32 34 _ _ _ _ _ rfl rfl rfl rfl (b32 _)
  case seq => exact h16 38 0 0 _ rfl rfl (by decide)
  case npdu => exact h8 40 _ rfl
  case next => exact h8 41 _ rfl
  case pscLength => exact h8 42 _ rfl
  case pscType => exact h8 43 _ rfl
  case pscQfi => exact h8 44 _ (qfi6 _)
  case pscNext => exact h8 45 _ rfl
  case payload => exact hp

/-! ### C27 -/

/-- The tunnel a FAR and a QER prescribe: from the UPF's N3 address to the FAR's address and TEID (the FAR stores the memory image of
the address), the traffic class of the transport level marking, the QER's QFI. -/
def tunnelOf (e : Env) (far : FarInfo) (qer : QerInfo) : TunnelPar := ⟨e.n3Ip, swap32 far.remoteIP, (far.tlm >>> 8).truncate 8, qer.qfi, far.teid⟩

theorem sent_tunnelled {e : Env} {far : FarInfo} {qer : QerInfo} {f g : List U8} {n : U16} (hl : 14 ≤ f.length)
    (hg : g = encapFrame f n e.n3 far.remoteIP ((far.tlm >>> 8).truncate 8) qer.qfi far.teid) (ans : FibAns) :
    IsTunnelled (tunnelOf e far qer) n (f.drop 14) (macRewrite g ans) := by
  obtain ⟨m, hm, h⟩ := macRewrite_shape (f := g) (by rw [hg, encapFrame_length _ _ _ _ _ _ _ hl]; omega) ans
  rw [h, hg, encap_tail hl]
  exact encap_tunnelled _ _ _ _ _ _ hm

/-- **C27, IPv4.** A downlink IPv4 frame that is sent on is the unchanged packet in the tunnel its rule prescribes. -/
theorem C27_downlink4 (e : Env) (s s' : PS) (a : XAction) (hrun : runPacket e s = (s', .ok a)) (hs : a.sent = true) (hd : IsDown4 e s.frame) :
    ∃ r far qer, dlRule4 s.dp s.frame = some r ∧ PermitsDl s.dp r far qer ∧
      IsTunnelled (tunnelOf e far qer) (be16 s.frame 16) (s.frame.drop 14) s'.frame := by
  have res := entry_det hrun
  clear hrun
  generalize s'.frame = fr at res ⊢
  generalize s'.dp = dp at res
  have hl := hd.ip.len
  cases res with
  | foreign _ | otherMsg _ _ _ => cases hs
  | echo h => exact absurd h.gtpu hd.notGtpu
  | gpdu h _ => exact absurd h.gtpu hd.notGtpu
  | down6 h _ => exact absurd (h.ip.type.symm.trans hd.ip.type) (by decide)
  | down4 _ r =>
    cases r with
    | unclassified _ | denied _ _ | policed _ | noRoom => cases hs
    | sent g _ h1 h2 _ _ hg => exact ⟨_, _, _, h1, h2, sent_tunnelled (by omega) hg _⟩

/-- **C27, IPv6.** The same; the length of an IPv6 packet is 40 more than its payload length field. -/
theorem C27_downlink6 (e : Env) (s s' : PS) (a : XAction) (hrun : runPacket e s = (s', .ok a)) (hs : a.sent = true) (hd : IsDown6 s.frame) :
    ∃ r far qer, dlRule6 s.dp s.frame = some r ∧ PermitsDl s.dp r far qer ∧
      IsTunnelled (tunnelOf e far qer) (be16 s.frame 18 + 40) (s.frame.drop 14) s'.frame := by
  have res := entry_det hrun
  clear hrun
  generalize s'.frame = fr at res ⊢
  generalize s'.dp = dp at res
  have hl := hd.ip.len
  cases res with
  | foreign _ | otherMsg _ _ _ => cases hs
  | echo h => exact absurd (hd.ip.type.symm.trans h.gtpu.ip.type) (by decide)
  | gpdu h _ => exact absurd (hd.ip.type.symm.trans h.gtpu.ip.type) (by decide)
  | down4 h _ => exact absurd (hd.ip.type.symm.trans h.ip.type) (by decide)
  | down6 _ r =>
    cases r with
    | unclassified _ | denied _ _ | policed _ | noRoom => cases hs
    | sent g _ h1 h2 _ _ hg => exact ⟨_, _, _, h1, h2, sent_tunnelled (by omega) hg _⟩

/-- **C27, consistent lengths.** If the packet's length field is right and there is room for the headers in 16 bits, the length fields
of the outer headers say how much follows. -/
theorem C27_lengths {t : TunnelPar} {n : U16} {p g : List U8} (h : IsTunnelled t n p g) (hn : n.toNat = p.length) (hb : p.length + 44 < 65536) (h58 : 58 ≤ g.length) :
    (be16 g 16).toNat = g.length - 14 ∧ (be16 g 38).toNat = g.length - 34 ∧ (be16 g 44).toNat = g.length - 50 := by
  have hp : g.length = 58 + p.length := by rw [← h.payload, List.length_drop]; omega
  rw [h.totalLength, h.udpLength, h.gtpLength, BitVec.toNat_add, BitVec.toNat_add, BitVec.toNat_add, hn]
  have h1 : (44 : U16).toNat = 44 := rfl
  have h2 : (24 : U16).toNat = 24 := rfl
  have h3 : (8 : U16).toNat = 8 := rfl
  omega

/-- **C27, nothing lost.** A downlink IPv4 frame that may be forwarded, is within the rate and finds room for the headers gets the
action of the route to the tunnel's far end. -/
theorem C27_forwarded4 (e : Env) (s : PS) (hd : IsDown4 e s.frame) {r : Rule} {far : FarInfo} {qer : QerInfo} (hr : dlRule4 s.dp s.frame = some r)
    (hp : PermitsDl s.dp r far qer) {start : U64} (hrate : rateDl e qer s.frame.length = some start) (hroom : e.headroom ≠ none) :
    ∃ s' q, runPacket e s = (s', .ok (routeAct e (e.fib q))) ∧ q.src = slice s'.frame 26 4 ∧ q.dst = slice s'.frame 30 4 ∧
      IsTunnelled (tunnelOf e far qer) (be16 s.frame 16) (s.frame.drop 14) s'.frame := by
  obtain ⟨s', a, hrun, res, _⟩ := entry_outcome e s
  have hl := hd.ip.len
  suffices key : ∃ q, a = routeAct e (e.fib q) ∧ q.src = slice s'.frame 26 4 ∧ q.dst = slice s'.frame 30 4 ∧
      IsTunnelled (tunnelOf e far qer) (be16 s.frame 16) (s.frame.drop 14) s'.frame by
    obtain ⟨q, h1, h2⟩ := key
    exact ⟨s', q, h1 ▸ hrun, h2⟩
  clear hrun
  generalize s'.frame = fr at res ⊢
  generalize s'.dp = dp at res
  cases res with
  | foreign h => exact absurd hd h.notDown4
  | otherMsg h _ _ => exact absurd h.gtpu hd.notGtpu
  | echo h => exact absurd h.gtpu hd.notGtpu
  | gpdu h _ => exact absurd h.gtpu hd.notGtpu
  | down6 h _ => exact absurd (h.ip.type.symm.trans hd.ip.type) (by decide)
  | down4 _ d =>
    have same : ∀ {r' : Rule} {far' qer'}, dlRule4 s.dp s.frame = some r' → PermitsDl s.dp r' far' qer' → far' = far ∧ qer' = qer := by
      intro r' far' qer' q1 q2
      have : r' = r := Option.some.inj (q1.symm.trans hr)
      subst this
      exact ⟨Option.some.inj (q2.hasFar.symm.trans hp.hasFar), Option.some.inj (q2.hasQer.symm.trans hp.hasQer)⟩
    cases d with
    | unclassified h => rw [hr] at h; cases h
    | denied h1 h2 => rw [hr] at h1; cases h1; exact absurd ⟨_, _, hp⟩ h2
    | policed h1 h2 h3 => rw [(same h1 h2).2, hrate] at h3; cases h3
    | noRoom _ _ _ _ h => exact absurd h hroom
    | sent g _ h1 h2 _ _ hg =>
      obtain ⟨rfl, rfl⟩ := same h1 h2
      refine ⟨_, rfl, ?_, ?_, sent_tunnelled (by omega) hg _⟩
      all_goals
        obtain ⟨m, hm, h⟩ := macRewrite_shape (f := g) (by rw [hg, encapFrame_length _ _ _ _ _ _ _ (by omega)]; omega) (e.fib (fibReq4 e g))
        rw [h]
        unfold fibReq4 slice
        simp only
      · rw [show 26 = 12 + 14 from rfl, ← List.drop_drop, ← List.drop_drop, ← hm, List.drop_left, hm]
      · rw [show 30 = 12 + 18 from rfl, ← List.drop_drop, ← List.drop_drop, ← hm, List.drop_left, hm]

/-- **C27, nothing lost, IPv6.** A downlink IPv6 frame that may be forwarded, is within the rate and finds room for the headers gets the
action of the route to the tunnel's far end. -/
theorem C27_forwarded6 (e : Env) (s : PS) (hd : IsDown6 s.frame) {r : Rule} {far : FarInfo} {qer : QerInfo} (hr : dlRule6 s.dp s.frame = some r)
    (hp : PermitsDl s.dp r far qer) {start : U64} (hrate : rateDl e qer s.frame.length = some start) (hroom : e.headroom ≠ none) :
    ∃ s' q, runPacket e s = (s', .ok (routeAct e (e.fib q))) ∧ q.src = slice s'.frame 26 4 ∧ q.dst = slice s'.frame 30 4 ∧
      IsTunnelled (tunnelOf e far qer) (be16 s.frame 18 + 40) (s.frame.drop 14) s'.frame := by
  obtain ⟨s', a, hrun, res, _⟩ := entry_outcome e s
  have hl := hd.ip.len
  suffices key : ∃ q, a = routeAct e (e.fib q) ∧ q.src = slice s'.frame 26 4 ∧ q.dst = slice s'.frame 30 4 ∧
      IsTunnelled (tunnelOf e far qer) (be16 s.frame 18 + 40) (s.frame.drop 14) s'.frame by
    obtain ⟨q, h1, h2⟩ := key
    exact ⟨s', q, h1 ▸ hrun, h2⟩
  clear hrun
  generalize s'.frame = fr at res ⊢
  generalize s'.dp = dp at res
  cases res with
  | foreign h => exact absurd hd h.notDown6
  | otherMsg h _ _ => exact absurd (hd.ip.type.symm.trans h.gtpu.ip.type) (by decide)
  | echo h => exact absurd (hd.ip.type.symm.trans h.gtpu.ip.type) (by decide)
  | gpdu h _ => exact absurd (hd.ip.type.symm.trans h.gtpu.ip.type) (by decide)
  | down4 h _ => exact absurd (hd.ip.type.symm.trans h.ip.type) (by decide)
  | down6 _ d =>
    have same : ∀ {r' : Rule} {far' qer'}, dlRule6 s.dp s.frame = some r' → PermitsDl s.dp r' far' qer' → far' = far ∧ qer' = qer := by
      intro r' far' qer' q1 q2
      have : r' = r := Option.some.inj (q1.symm.trans hr)
      subst this
      exact ⟨Option.some.inj (q2.hasFar.symm.trans hp.hasFar), Option.some.inj (q2.hasQer.symm.trans hp.hasQer)⟩
    cases d with
    | unclassified h => rw [hr] at h; cases h
    | denied h1 h2 => rw [hr] at h1; cases h1; exact absurd ⟨_, _, hp⟩ h2
    | policed h1 h2 h3 => rw [(same h1 h2).2, hrate] at h3; cases h3
    | noRoom _ _ _ _ h => exact absurd h hroom
    | sent g _ h1 h2 _ _ hg =>
      obtain ⟨rfl, rfl⟩ := same h1 h2
      refine ⟨_, rfl, ?_, ?_, sent_tunnelled (by omega) hg _⟩
      all_goals
        obtain ⟨m, hm, h⟩ := macRewrite_shape (f := g) (by rw [hg, encapFrame_length _ _ _ _ _ _ _ (by omega)]; omega) (e.fib (fibReq4 e g))
        rw [h]
        unfold fibReq4 slice
        simp only
      · rw [show 26 = 12 + 14 from rfl, ← List.drop_drop, ← List.drop_drop, ← hm, List.drop_left, hm]
      · rw [show 30 = 12 + 18 from rfl, ← List.drop_drop, ← List.drop_drop, ← hm, List.drop_left, hm]

/-- The downlink frame of the demonstration tables gets there. -/
example : IsDown4 DemoDp.env DemoDp.down ∧ dlRule4 DemoDp.dp DemoDp.down = some ⟨0, 1, 0⟩ ∧ (runPacket DemoDp.env (DemoDp.ps DemoDp.down)).2 = .ok (.redirect 7) ∧
    (runPacket DemoDp.env (DemoDp.ps DemoDp.down)).1.frame =
      List.replicate 6 0xBB ++ List.replicate 6 0xAA ++ [8, 0] ++ [0x45, 0x1C, 0, 76, 0, 0, 0x40, 0, 64, 17, 0x20, 0x68, 10, 0, 3, 10, 10, 0, 3, 20] ++
      [8, 0x68, 8, 0x68, 0, 56, 0, 0] ++ [0x34, 255, 0, 40, 0, 0, 2, 0] ++ [0, 0, 0, 0x85] ++ [1, 0, 9, 0] ++ DemoDp.ueDown :=
  ⟨DemoDp.down_down4, by decide +kernel, DemoDp.runs.2.1, by decide +kernel⟩

/-! ### C30 -/

/-- **C30.** The outer IPv4 header of encapsulated frames has a valid checksum for every source, destination, traffic class and length. -/
theorem C30_outer_checksum (saddr daddr : U32) (tos : U8) (len : U16) : CsumValid (outerIp saddr daddr tos len) :=
  ipv4Csum_valid _ rfl rfl rfl (show (0x45 : U8) ≠ 0 by decide)

/-- **C30, on the wire.** Every downlink frame that is sent on has a valid outer checksum. -/
theorem C30_sent_checksum (e : Env) (s s' : PS) (a : XAction) (hrun : runPacket e s = (s', .ok a)) (hs : a.sent = true) (hd : IsDown4 e s.frame ∨ IsDown6 s.frame) :
    CsumValid (slice s'.frame 14 20) := by
  rcases hd with hd | hd
  · obtain ⟨_, _, _, _, _, h⟩ := C27_downlink4 e s s' a hrun hs hd; exact h.ipCsum
  · obtain ⟨_, _, _, _, _, h⟩ := C27_downlink6 e s s' a hrun hs hd; exact h.ipCsum

/-- The property discriminates: without the checksum the header is not valid. -/
example : ¬ CsumValid (fillIpHeader 0x0A03000A 0x1403000A 0 76) := by unfold CsumValid; decide

/-! ### C28 -/

theorem ExtEnd.lt {f : List U8} {i o : Nat} (h : ExtEnd f i o) : i < o := by
  induction h with
  | stop _ => omega
  | more _ _ _ ih => omega

theorem bit2_mod8 (b : U8) (h : b.getLsbD 2 = true) : b.toNat % 8 ≠ 0 := by
  have : b.toNat.testBit 2 = true := h
  rw [Nat.testBit_eq_decide_div_mod_eq] at this
  have := of_decide_eq_true this
  omega

/-- With no optional octets or 8 of them the code's idea of the payload is right. -/
theorem payload_innerOff {f : List U8} {o : Nat} (h : PayloadAt f o) (ho : o = gtpOff f + 8 ∨ o = gtpOff f + 16) : innerOff f = o := by
  unfold innerOff gtpHasOpt
  cases h with
  | plain h => simp [h]
  | noExt h _ => omega
  | ext h h2 =>
    have := h2.lt
    have := bit2_mod8 _ h
    rw [if_pos (by simpa using this)]; omega

theorem cutFrame_inner {f : List U8} (h : l4Off f = 34) (t : U16) : cutFrame f t = f.take 12 ++ bytes16 (swap16 t) ++ f.drop (innerOff f) := by
  unfold cutFrame
  congr 2
  unfold cutLen innerOff gtpOff
  rw [h]; omega

theorem cutFrame_tail {f : List U8} (hl : 14 ≤ f.length) (t : U16) : (cutFrame f t).drop 12 = bytes16 (swap16 t) ++ f.drop (cutLen f + 14) := by
  unfold cutFrame
  rw [List.append_assoc, List.drop_append_of_le_length (by simp; omega), List.drop_of_length_le (by simp; omega)]
  rfl

/-- **C28** for outer headers without options and G-PDUs with no optional fields or exactly 8 octets of them. An uplink frame with
outer header removal that is sent on, unless it is for the UPF itself, is the payload of the G-PDU behind an Ethernet header with the
right type. -/
theorem C28_decapsulated_partial (e : Env) (s s' : PS) (a : XAction) (hrun : runPacket e s = (s', .ok a)) (hs : a.sent = true)
    (hm : IsGtpMsg e s.frame 255) {r : Rule} {far : FarInfo} {qer : QerInfo} (hr : ulRule s.dp s.frame = some r) (hp : PermitsUl s.dp r far qer)
    (hoc : far.ohc.getLsbD 0 = false) (hohr : r.ohr = 0) (h34 : l4Off s.frame = 34)
    {o : Nat} (hpay : PayloadAt s.frame o) (ho : o = gtpOff s.frame + 8 ∨ o = gtpOff s.frame + 16)
    (hself : ¬ ((oct s.frame o).toNat / 16 = 4 ∧ oct s.frame (o + 9) = 1 ∧ (be32 s.frame (o + 16) = e.n3Ip ∨ be32 s.frame (o + 16) = e.n9Ip))) :
    ∃ m t, m.length = 12 ∧ etherTypeOf (s.frame.drop o) = some t ∧ s'.frame = m ++ t ++ s.frame.drop o := by
  have res := entry_det hrun
  clear hrun
  generalize s'.frame = fr at res ⊢
  generalize s'.dp = dp at res
  have hi := payload_innerOff hpay ho
  have hcl : cutLen s.frame + 14 = o := by rw [← hi]; unfold cutLen innerOff gtpOff; rw [h34]; omega
  have hl := hm.len
  have hl' := hm.gtpu.ip.len
  have hx : ∀ {t}, IsGtpMsg e s.frame t → t = 255 := fun h => by rw [← h.type, hm.type]
  have same : ∀ {r' : Rule} {far' : FarInfo} {qer' : QerInfo}, ulRule s.dp s.frame = some r' → PermitsUl s.dp r' far' qer' → r' = r ∧ far' = far := by
    intro r' far' qer' q1 q2
    have : r' = r := Option.some.inj (q1.symm.trans hr)
    subst this
    exact ⟨rfl, Option.some.inj (q2.hasFar.symm.trans hp.hasFar)⟩
  have ver : ∀ {t}, innerType s.frame = some t → etherTypeOf (s.frame.drop o) = some (bytes16 (swap16 t)) := by
    intro t h
    unfold innerType at h
    unfold etherTypeOf
    rw [hcl] at h
    rw [oct_drop, Nat.add_zero]
    split at h
    · rename_i hv; cases h; rw [if_pos hv]; rfl
    · rename_i hv
      rw [if_neg hv]
      split at h
      · rename_i hv6; cases h; rw [if_pos hv6]; rfl
      · cases h
  have shape : ∀ (t : U16) (ans : FibAns), innerType s.frame = some t →
      ∃ m t', m.length = 12 ∧ etherTypeOf (s.frame.drop o) = some t' ∧ macRewrite (cutFrame s.frame t) ans = m ++ t' ++ s.frame.drop o := by
    intro t ans ht
    have l12 : 12 ≤ (cutFrame s.frame t).length := by
      unfold cutFrame
      simp only [List.length_append, List.length_take, List.length_drop, bytes16_length]; omega
    obtain ⟨m, hm, h⟩ := macRewrite_shape l12 ans
    refine ⟨m, _, hm, ver ht, ?_⟩
    rw [h, cutFrame_tail (by omega), hcl, List.append_assoc]
  cases res with
  | foreign _ | otherMsg _ _ _ => cases hs
  | echo h => exact absurd (hx h) (by decide)
  | down4 h _ => exact absurd hm.gtpu h.notGtpu
  | down6 h _ => exact absurd (h.ip.type.symm.trans hm.gtpu.ip.type) (by decide)
  | gpdu _ res =>
    have toself : ∀ {g}, g = cutFrame s.frame 0x0800 → innerType s.frame = some 0x0800 → 14 + cutLen s.frame ≤ s.frame.length → ToSelf e g → False := by
      intro g hg hv hlen ht
      subst hg
      have oo : ∀ i, 14 ≤ i → oct (cutFrame s.frame 0x0800) i = oct s.frame (o + (i - 14)) := by
        intro i h14
        unfold cutFrame
        rw [oct_append, if_neg (by simp; omega), oct_drop, hcl]
        congr 2
        simp only [List.length_append, List.length_take, bytes16_length]; omega
      apply hself
      unfold ToSelf be32 at ht
      unfold be32
      rw [oo 23 (by omega), oo 30 (by omega), oo 31 (by omega), oo 32 (by omega), oo 33 (by omega)] at ht
      refine ⟨?_, ht⟩
      unfold innerType at hv
      rw [hcl] at hv
      split at hv
      · assumption
      · split at hv <;> cases hv
    have okl : cutOk s.frame → 14 + cutLen s.frame ≤ s.frame.length := by rintro (⟨_, h⟩ | ⟨_, h⟩) <;> omega
    cases res with
    | unclassified _ | denied _ _ | policed _ => cases hs
    | garbled _ _ _ _ | selfOther _ _ _ _ _ => cases hs
    | n9 g _ q1 q2 _ q3 => rw [(same q1 q2).2, hoc] at q3; cases q3
    | kept _ q1 q2 _ _ q3 => rw [(same q1 q2).1] at q3; exact absurd hohr q3
    | cut4 g _ q1 q2 _ _ _ _ q5 q3 q4 => subst q3; exact shape _ _ q5
    | cut6 g _ q1 q2 _ _ _ _ q5 q3 => subst q3; exact shape _ _ q5
    | ping g _ q1 q2 _ _ _ q6 q5 q3 q4 _ d => exact absurd q4 (fun h => toself q3 q5 (okl q6) h)

/-- The uplink frame of the demonstration tables (no optional fields). -/
example : l4Off DemoDp.up = 34 ∧ PayloadAt DemoDp.up (gtpOff DemoDp.up + 8) ∧ ulRule DemoDp.dp DemoDp.up = some ⟨0, 0, 0⟩ ∧
    (runPacket DemoDp.env (DemoDp.ps DemoDp.up)).1.frame = List.replicate 6 0xBB ++ List.replicate 6 0xAA ++ [8, 0] ++ DemoDp.ueUp :=
  ⟨by decide, .plain (by decide), by decide +kernel, by decide +kernel⟩

/-- A G-PDU of TEID 0x100 whose GTP-U header has only the S flag, hence 4 octets of optional fields. -/
def DemoDp.upSeq : List U8 :=
  DemoDp.macsIn ++ [8, 0] ++ DemoDp.ip4h 72 17 [10, 0, 3, 20] [10, 0, 3, 10] ++ [8, 0x68, 8, 0x68, 0, 52, 0, 0] ++
    [0x32, 255, 0, 36, 0, 0, 1, 0, 0, 1, 0, 0] ++ ([0x45, 0, 0, 32, 0x45, 0x67, 0, 0, 64, 17, 0, 0, 10, 60, 0, 1, 8, 8, 8, 8] ++ DemoDp.udp4)

/-- **C28 fails with a sequence number only**: 8 octets are removed instead of 4, and what is sent out is not the payload but its tail,
behind an IPv4 Ethernet header. -/
theorem C28_sequence_number_only : PayloadAt DemoDp.upSeq (gtpOff DemoDp.upSeq + 12) ∧ IsGtpMsg DemoDp.env DemoDp.upSeq 255 ∧
    ∃ s', runPacket DemoDp.env (DemoDp.ps DemoDp.upSeq) = (s', .ok (.redirect 7)) ∧
      s'.frame = List.replicate 6 0xBB ++ List.replicate 6 0xAA ++ [8, 0] ++ DemoDp.upSeq.drop (gtpOff DemoDp.upSeq + 16) :=
  ⟨.noExt (by decide) (by decide), ⟨⟨⟨by decide, by decide⟩, by decide, by decide, by decide, by decide⟩, by decide, by decide⟩,
    (runPacket DemoDp.env (DemoDp.ps DemoDp.upSeq)).1, by
      have : (runPacket DemoDp.env (DemoDp.ps DemoDp.upSeq)).2 = .ok (.redirect 7) := by decide +kernel
      rw [← this], by decide +kernel⟩

/-! ### C29 -/

/-- What arrives at the other end of a tunnel is a G-PDU of the tunnel's TEID with a payload at 58. -/
theorem tunnelled_gpdu {t : TunnelPar} {n : U16} {p g : List U8} (h : IsTunnelled t n p g) (hl : 58 ≤ g.length) (e : Env) (hd : t.dst = e.n3Ip ∨ t.dst = e.n9Ip) :
    IsGtpMsg e g 255 ∧ gtpTeid g = t.teid ∧ l4Off g = 34 ∧ PayloadAt g 58 := by
  have h34 : l4Off g = 34 := by unfold l4Off ip4End; rw [h.version]; rfl
  have hgo : gtpOff g = 42 := by unfold gtpOff; rw [h34]
  refine ⟨⟨⟨⟨by omega, h.ethType⟩, h.udp, by omega, by rw [h34]; exact h.dport, by rw [h.dst]; exact hd⟩, by omega, by rw [hgo]; exact h.gtpType⟩, ?_, h34, ?_⟩
  · unfold gtpTeid; rw [hgo]; exact h.teid
  · refine .ext (by rw [hgo, h.gtpFlags]; decide) ?_
    rw [hgo]
    refine .more (by rw [h.next]; decide) (by rw [h.pscLength]; decide) ?_
    rw [h.pscLength]
    exact .stop h.pscNext

theorem octs_of_be16 {f : List U8} {i : Nat} {a b : U8} (h : be16 f i = a ++ b) : oct f i = a ∧ oct f (i + 1) = b := by
  unfold be16 at h
  have h1 := congrArg (fun x => BitVec.extractLsb' 8 8 x) h
  have h2 := congrArg (fun x => BitVec.extractLsb' 0 8 x) h
  simp only [ext8_hi 0, ext8_full, ext8_lo] at h1 h2
  exact ⟨h1, h2⟩

/-- **C29.** A UPF puts a downlink IPv4 or IPv6 packet into a tunnel; another UPF, at the far end, takes the packet out again: the second
one sends exactly what arrived at the first one, but for the MAC addresses. (Packets for the second UPF itself are its own, C33.) -/
theorem C29_encap_decap (e1 e2 : Env) (s1 s1' s2 s2' : PS) (a1 a2 : XAction)
    (run1 : runPacket e1 s1 = (s1', .ok a1)) (sent1 : a1.sent = true)
    (hd : (IsDown4 e1 s1.frame ∧ (oct s1.frame 14).toNat / 16 = 4) ∨ (IsDown6 s1.frame ∧ (oct s1.frame 14).toNat / 16 = 6))
    (wire : s2.frame = s1'.frame) (hdst : be32 s1'.frame 30 = e2.n3Ip ∨ be32 s1'.frame 30 = e2.n9Ip)
    (run2 : runPacket e2 s2 = (s2', .ok a2)) (sent2 : a2.sent = true)
    {r : Rule} {far : FarInfo} {qer : QerInfo} (hr : ulRule s2.dp s2.frame = some r) (hp : PermitsUl s2.dp r far qer)
    (hoc : far.ohc.getLsbD 0 = false) (hohr : r.ohr = 0)
    (hself : ¬ ((oct s1.frame 14).toNat / 16 = 4 ∧ oct s1.frame 23 = 1 ∧ (be32 s1.frame 30 = e2.n3Ip ∨ be32 s1.frame 30 = e2.n9Ip))) :
    s2'.frame.drop 12 = s1.frame.drop 12 := by
  obtain ⟨t1, n1, hl, ht⟩ : ∃ t n, 34 ≤ s1.frame.length ∧ IsTunnelled t n (s1.frame.drop 14) s1'.frame := by
    rcases hd with ⟨hd, _⟩ | ⟨hd, _⟩
    · obtain ⟨_, _, _, _, _, h⟩ := C27_downlink4 e1 s1 s1' a1 run1 sent1 hd; exact ⟨_, _, hd.ip.len, h⟩
    · obtain ⟨_, _, _, _, _, h⟩ := C27_downlink6 e1 s1 s1' a1 run1 sent1 hd; exact ⟨_, _, by have := hd.ip.len; omega, h⟩
  have hl1 : 58 ≤ s1'.frame.length := by
    have := congrArg List.length ht.payload
    rw [List.length_drop, List.length_drop] at this
    omega
  rw [ht.dst] at hdst
  obtain ⟨g1, _, g3, g4⟩ := tunnelled_gpdu ht hl1 e2 hdst
  rw [← wire] at g1 g3 g4
  have hgo : gtpOff s2.frame = 42 := by unfold gtpOff; rw [g3]
  have oo : ∀ i, oct s2.frame (58 + i) = oct s1.frame (14 + i) := by
    intro i; rw [wire, ← oct_drop, ← oct_drop, ht.payload]
  obtain ⟨m, t, hm, het, hfr⟩ := C28_decapsulated_partial e2 s2 s2' a2 run2 sent2 g1 hr hp hoc hohr g3 g4 (.inr (by omega)) (by
    unfold be32 at hself ⊢
    rw [show oct s2.frame 58 = oct s1.frame 14 from oo 0, oo 9, show (58 + 16 + 1) = 58 + 17 from rfl, show (58 + 16 + 2) = 58 + 18 from rfl,
      show (58 + 16 + 3) = 58 + 19 from rfl, oo 16, oo 17, oo 18, oo 19]
    exact hself)
  rw [hfr, ← hm, List.append_assoc, List.drop_left, hm]
  rw [wire, ht.payload] at het ⊢
  have hty : t = [oct s1.frame 12, oct s1.frame 13] := by
    unfold etherTypeOf at het
    rw [oct_drop, Nat.add_zero] at het
    rcases hd with ⟨hd, hv⟩ | ⟨hd, hv⟩
    · obtain ⟨h1, h2⟩ := octs_of_be16 (a := 0x08) (b := 0x00) hd.ip.type
      rw [if_pos hv] at het
      cases het; rw [h1, h2]
    · obtain ⟨h1, h2⟩ := octs_of_be16 (a := 0x86) (b := 0xDD) hd.ip.type
      rw [if_neg (by omega), if_pos hv] at het
      cases het; rw [h1, h2]
  subst hty
  apply ext_oct
  · simp only [List.length_append, List.length_drop, List.length_cons, List.length_nil]; omega
  · intro i _
    rw [oct_drop, oct_append]
    split
    · rename_i h2
      simp only [List.length_cons, List.length_nil] at h2
      rcases i with _ | _ | i
      · rfl
      · rfl
      · omega
    · rename_i h2
      simp only [List.length_cons, List.length_nil] at h2 ⊢
      rw [oct_drop]; congr 1; omega

/-- The UPF at the other end of the demonstration tunnel: 10.0.3.20 with TEID 0x200. -/
def DemoDp.env2 : Env := { DemoDp.env with n3 := swap32 0x0A000314, n9 := swap32 0x0A000914 }
def DemoDp.dp2 : BpfObjects := { DemoDp.dp with pdrUl := ⟨(GoMap.empty : GoMap U32 PdrEntry).set 0x200 {}, 16⟩ }
/-- Both ends work on the demonstration packet. -/
example : let s1' := (runPacket DemoDp.env (DemoDp.ps DemoDp.down)).1
    let s2 : PS := ⟨s1'.frame, DemoDp.dp2, {}, {}⟩
    (oct DemoDp.down 14).toNat / 16 = 4 ∧ be32 s1'.frame 30 = DemoDp.env2.n3Ip ∧ ulRule DemoDp.dp2 s1'.frame = some ⟨0, 0, 0⟩ ∧
      (runPacket DemoDp.env2 s2).2 = .ok (.redirect 7) ∧ (runPacket DemoDp.env2 s2).1.frame.drop 12 = DemoDp.down.drop 12 := by decide +kernel

/-! ### C31 -/

theorem retunnel_eq (f : List U8) (saddr daddr teid : U32) :
    retunnelFrame f saddr daddr teid = put (recsum (put (put (put f (gtpOff f + 4) (bytes32 (swap32 teid))) 26 (bytes32 saddr)) 30 (bytes32 daddr))) (l4Off f + 6) [0, 0] := rfl

theorem be32_put_same {f : List U8} {i : Nat} {x : U32} (h : i + 4 ≤ f.length) : be32 (put f i (bytes32 x)) i = swap32 x := by
  have o : ∀ k, k < 4 → oct (put f i (bytes32 x)) (i + k) = oct (bytes32 x) k := by
    intro k hk
    rw [oct_put (by rw [bytes32_length]; exact h), if_pos (by rw [bytes32_length]; omega)]; congr 1; omega
  unfold be32
  have o0 := o 0 (by omega)
  rw [Nat.add_zero] at o0
  rw [o0, o 1 (by omega), o 2 (by omega), o 3 (by omega)]
  rfl
theorem be32_congr {f g : List U8} {i : Nat} (h : ∀ j, i ≤ j → j < i + 4 → oct f j = oct g j) : be32 f i = be32 g i := by
  unfold be32; rw [h i (by omega) (by omega), h (i + 1) (by omega) (by omega), h (i + 2) (by omega) (by omega), h (i + 3) (by omega) (by omega)]
theorem be16_congr {f g : List U8} {i : Nat} (h : ∀ j, i ≤ j → j < i + 2 → oct f j = oct g j) : be16 f i = be16 g i := by
  unfold be16; rw [h i (by omega) (by omega), h (i + 1) (by omega) (by omega)]
theorem oct_put_out {f : List U8} {i j : Nat} {bs : List U8} (h : i + bs.length ≤ f.length) (hj : j < i ∨ i + bs.length ≤ j) : oct (put f i bs) j = oct f j := by
  rw [oct_put h, if_neg (by omega)]

/-- What N9 forwarding does to a frame behind the MAC addresses. -/
structure IsRetunnelled (src dst : Ip4) (teid : U32) (f g : List U8) : Prop where
  length : g.length = f.length
  src : be32 g 26 = src
  dst : be32 g 30 = dst
  teid : be32 g (gtpOff f + 4) = teid
  noUdpCsum : be16 g (l4Off f + 6) = 0
  /-- all else is as it was: everything but the MAC addresses, the IP header checksum and the above -/
  rest : ∀ i, 12 ≤ i → ¬ (24 ≤ i ∧ i < 34) → ¬ (l4Off f + 6 ≤ i ∧ i < l4Off f + 8) → ¬ (gtpOff f + 4 ≤ i ∧ i < gtpOff f + 8) → oct g i = oct f i
  /-- without options the checksum is right -/
  ipCsum : l4Off f = 34 → CsumValid (slice g 14 20)

theorem macRewrite_oct {f : List U8} (h : 12 ≤ f.length) (ans : FibAns) {i : Nat} (hi : 12 ≤ i) : oct (macRewrite f ans) i = oct f i := by
  obtain ⟨m, hm, h⟩ := macRewrite_shape h ans
  rw [h, oct_append, if_neg (by omega), oct_drop]; congr 1; omega
theorem macRewrite_length {f : List U8} (h : 12 ≤ f.length) (ans : FibAns) : (macRewrite f ans).length = f.length := by
  obtain ⟨m, hm, h'⟩ := macRewrite_shape h ans
  rw [h', List.length_append, List.length_drop]; omega

theorem retunnelled {f : List U8} (h34 : 34 ≤ f.length) (hl : gtpOff f + 8 ≤ f.length) (hopt : 34 ≤ l4Off f) (saddr daddr teid : U32) (ans : FibAns) :
    IsRetunnelled (swap32 saddr) (swap32 daddr) teid f (macRewrite (retunnelFrame f saddr daddr teid) ans) := by
  have hgo : gtpOff f = l4Off f + 8 := rfl
  have lr := retunnel_length h34 hl saddr daddr teid
  have mo : ∀ {i}, 12 ≤ i → oct (macRewrite (retunnelFrame f saddr daddr teid) ans) i = oct (retunnelFrame f saddr daddr teid) i :=
    fun hi => macRewrite_oct (by omega) ans hi
  have lm := macRewrite_length (f := retunnelFrame f saddr daddr teid) (by omega) ans
  have ro := retunnel_oct h34 hl saddr daddr teid
  -- the parts
  obtain ⟨f1, e1⟩ : ∃ x, x = put f (gtpOff f + 4) (bytes32 (swap32 teid)) := ⟨_, rfl⟩
  obtain ⟨f2, e2⟩ : ∃ x, x = put f1 26 (bytes32 saddr) := ⟨_, rfl⟩
  obtain ⟨f3, e3⟩ : ∃ x, x = put f2 30 (bytes32 daddr) := ⟨_, rfl⟩
  have er : retunnelFrame f saddr daddr teid = put (recsum f3) (l4Off f + 6) [0, 0] := by rw [retunnel_eq, e3, e2, e1]
  have l1 : f1.length = f.length := by rw [e1]; exact put_length (by rw [bytes32_length]; omega)
  have l2 : f2.length = f.length := by rw [e2, ← l1]; exact put_length (by rw [bytes32_length]; omega)
  have l3 : f3.length = f.length := by rw [e3, ← l2]; exact put_length (by rw [bytes32_length]; omega)
  have l4 : (recsum f3).length = f.length := by rw [recsum_length (by omega), l3]
  have o4 : ∀ {i}, i < l4Off f + 6 ∨ l4Off f + 8 ≤ i → oct (retunnelFrame f saddr daddr teid) i = oct (recsum f3) i := by
    intro i hi; rw [er, oct_put_out (by simp; omega) (by simpa using hi)]
  have o3 : ∀ {i}, ¬ (24 ≤ i ∧ i < 26) → oct (recsum f3) i = oct f3 i := fun hi => recsum_oct (by omega) hi
  constructor
  case length => omega
  case src =>
    rw [← be32_put_same (f := f1) (i := 26) (x := saddr) (by omega), ← e2]
    apply be32_congr
    intro j j1 j2
    rw [mo (by omega), o4 (by omega), o3 (by omega), e3, oct_put_out (by rw [bytes32_length]; omega) (by omega)]
  case dst =>
    rw [← be32_put_same (f := f2) (i := 30) (x := daddr) (by omega), ← e3]
    apply be32_congr
    intro j j1 j2
    rw [mo (by omega), o4 (by omega), o3 (by omega)]
  case teid =>
    have h : be32 f1 (gtpOff f + 4) = teid := by rw [e1, be32_put_same (by omega), swap32_swap32]
    refine Eq.trans (be32_congr ?_) h
    intro j j1 j2
    rw [mo (by omega), o4 (by omega), o3 (by omega), e3, oct_put_out (by rw [bytes32_length]; omega) (by rw [bytes32_length]; omega), e2,
      oct_put_out (by rw [bytes32_length]; omega) (by rw [bytes32_length]; omega)]
  case noUdpCsum =>
    have z : ∀ k, k < 2 → oct (macRewrite (retunnelFrame f saddr daddr teid) ans) (l4Off f + 6 + k) = 0 := by
      intro k hk
      rw [mo (by omega), er, oct_put (by simp; omega), if_pos (by simp; omega)]
      rcases k with _ | _ | k
      · simp [oct]
      · simp [oct]
      · omega
    unfold be16
    rw [z 1 (by omega), show oct _ (l4Off f + 6) = (0 : U8) from z 0 (by omega)]; rfl
  case rest =>
    intro i h12 h2 h3 h1
    rw [mo h12, ro i h1 h2 h3]
  case ipCsum =>
    intro h5
    have e14 : oct f 14 ≠ 0 := by
      intro h0
      have : l4Off f = 14 := by unfold l4Off ip4End; rw [h0]; rfl
      omega
    have e314 : oct f3 14 ≠ 0 := by
      rw [← o3 (by omega), ← o4 (by omega), ro 14 (by omega) (by omega) (by omega)]; exact e14
    have := recsum_valid (f := f3) (by omega) e314
    rw [slice_congr (g := recsum f3) (by omega) (by omega)]
    · exact this
    · intro j j1 j2; rw [mo (by omega), o4 (by omega)]

/-- **C31.** An uplink frame whose FAR says to create an outer header and that is sent on is the frame that arrived with new outer
addresses, TEID and header checksum, and no UDP checksum; everything else is kept, but for the MAC addresses. (The outer header
checksum is right unless the outer header has options; `34 ≤ l4Off`: the header length field is not less than the minimum of 5.) -/
theorem C31_retunnelled (e : Env) (s s' : PS) (a : XAction) (hrun : runPacket e s = (s', .ok a)) (hs : a.sent = true)
    (hm : IsGtpMsg e s.frame 255) {r : Rule} {far : FarInfo} {qer : QerInfo} (hr : ulRule s.dp s.frame = some r) (hp : PermitsUl s.dp r far qer)
    (hoc : far.ohc.getLsbD 0 = true) (hopt : 34 ≤ l4Off s.frame) :
    IsRetunnelled e.n9Ip (swap32 far.remoteIP) far.teid s.frame s'.frame := by
  have res := entry_det hrun
  clear hrun
  generalize s'.frame = fr at res ⊢
  generalize s'.dp = dp at res
  have hx : ∀ {t}, IsGtpMsg e s.frame t → t = 255 := fun h => by rw [← h.type, hm.type]
  have same : ∀ {r' : Rule} {far' : FarInfo} {qer' : QerInfo}, ulRule s.dp s.frame = some r' → PermitsUl s.dp r' far' qer' → r' = r ∧ far' = far := by
    intro r' far' qer' q1 q2
    have : r' = r := Option.some.inj (q1.symm.trans hr)
    subst this
    exact ⟨rfl, Option.some.inj (q2.hasFar.symm.trans hp.hasFar)⟩
  cases res with
  | foreign _ | otherMsg _ _ _ => cases hs
  | echo h => exact absurd (hx h) (by decide)
  | down4 h _ => exact absurd hm.gtpu h.notGtpu
  | down6 h _ => exact absurd (h.ip.type.symm.trans hm.gtpu.ip.type) (by decide)
  | gpdu _ res =>
    cases res with
    | unclassified _ | denied _ _ | policed _ => cases hs
    | garbled _ _ _ _ | selfOther _ _ _ _ _ => cases hs
    | n9 g _ q1 q2 _ q3 q4 =>
      obtain ⟨_, rfl⟩ := same q1 q2
      subst q4
      exact retunnelled hm.gtpu.ip.len hm.len hopt _ _ _ _
    | kept _ q1 q2 _ q3 | cut4 _ _ q1 q2 _ q3 | cut6 _ _ q1 q2 _ q3 | ping _ _ q1 q2 _ q3 => rw [(same q1 q2).2, hoc] at q3; cases q3

/-- The N9 frame of the demonstration tables. -/
example : ulRule DemoDp.dp DemoDp.upN9 = some ⟨0, 3, 0⟩ ∧ (DemoDp.dp.far.val 3).ohc.getLsbD 0 = true ∧ l4Off DemoDp.upN9 = 34 ∧
    (runPacket DemoDp.env (DemoDp.ps DemoDp.upN9)).2 = .ok (.redirect 7) ∧
    be32 (runPacket DemoDp.env (DemoDp.ps DemoDp.upN9)).1.frame 46 = 0x300 := by decide +kernel

/-- The same frame with an IP option (NOP NOP NOP EOL) in the outer header. -/
def DemoDp.upN9opt : List U8 :=
  DemoDp.macsIn ++ [8, 0] ++ [0x46, 0, 0, 72, 0, 0, 0, 0, 64, 17, 0, 0, 10, 0, 3, 20, 10, 0, 3, 10, 1, 1, 1, 0] ++ [8, 0x68, 8, 0x68, 0, 48, 0, 0] ++
    [0x30, 255, 0, 32, 0, 0, 1, 2] ++ DemoDp.ueUp

/-- **With options the checksum is wrong**: it is computed over the first 20 octets only. -/
theorem C31_options_bad_checksum : IsGtpMsg DemoDp.env DemoDp.upN9opt 255 ∧ l4Off DemoDp.upN9opt = 38 ∧
    (runPacket DemoDp.env (DemoDp.ps DemoDp.upN9opt)).2 = .ok (.redirect 7) ∧
    ¬ CsumValid (slice (runPacket DemoDp.env (DemoDp.ps DemoDp.upN9opt)).1.frame 14 24) :=
  ⟨⟨⟨⟨by decide, by decide⟩, by decide, by decide, by decide, by decide⟩, by decide, by decide⟩, by decide, by decide +kernel, by unfold CsumValid; decide +kernel⟩

end Eupf
