import Verif.Props.SdfGrammar
import Verif.Spec.SdfMeaning
import Verif.Spec.Flow
import Verif.Xdp.Eval
/-
C22, C23, C24: what the forwarding plane makes of a parsed filter.
-/
namespace Eupf
open Sdf

/-! ### bits -/

theorem le128_cons (b : U8) (l : List U8) : le128 (b :: l) = (le128 l <<< 8) ||| b.zeroExtend 128 := rfl

theorem le128_bit : ∀ (l : List U8) (i : Nat), i < 128 → (le128 l).getLsbD i = (l.getD (i / 8) 0).getLsbD (i % 8)
  | [], i, _ => by simp [le128]
  | b :: l, i, hi => by
    rw [le128_cons, BitVec.getLsbD_or, BitVec.getLsbD_shiftLeft]
    by_cases h : i < 8
    · have h1 : i / 8 = 0 := by omega
      have h2 : i % 8 = i := by omega
      simp [h, h1, h2, hi]
    · have h1 : i / 8 = (i - 8) / 8 + 1 := by omega
      have h2 : i % 8 = (i - 8) % 8 := by omega
      rw [le128_bit l (i - 8) (by omega), h1, h2]
      simp only [hi, h, decide_true, decide_false, Bool.not_false, Bool.true_and, List.getD_cons_succ]
      rw [show (b.zeroExtend 128).getLsbD i = false by rw [show b.zeroExtend 128 = b.setWidth 128 from rfl, BitVec.getLsbD_setWidth, BitVec.getLsbD_of_ge b i (by omega)]; simp]
      simp

/-- the number stored for an address or a mask, truncated to 32 bits: its last 32 bits -/
theorem stored_bit32 {w : List U8} (hw : w.length = 4 ∨ w.length = 16) {i : Nat} (hi : i < 32) :
    (((le128 (copy16 w)).truncate 32 : U32)).getMsbD i = bitAt w (8 * w.length - 32 + i) := by
  unfold bitAt
  rw [BitVec.getMsbD_eq_getLsbD, BitVec.getMsbD_eq_getLsbD]
  have : (decide (i < 32)) = true := by simp [hi]
  rw [this, Bool.true_and]
  have e : ((8 * w.length - 32 + i) % 8 < 8) := by omega
  rw [decide_eq_true e, Bool.true_and]
  rw [BitVec.truncate_eq_setWidth, BitVec.getLsbD_setWidth, le128_bit _ _ (by omega)]
  rw [decide_eq_true (show 32 - 1 - i < 32 by omega), Bool.true_and]
  unfold copy16
  rw [if_pos hw]
  have h1 : (32 - 1 - i) / 8 < w.reverse.length := by rw [List.length_reverse]; omega
  rw [List.getD_eq_getElem?_getD, List.getElem?_append_left h1, List.getElem?_reverse (by simpa using h1), ← List.getD_eq_getElem?_getD]
  have e2 : w.length - 1 - (32 - 1 - i) / 8 = (8 * w.length - 32 + i) / 8 := by omega
  have e3 : 8 - 1 - (8 * w.length - 32 + i) % 8 = (32 - 1 - i) % 8 := by omega
  rw [e2, e3]

theorem stored_nil : le128 (copy16 []) = 0 := by decide

theorem swap32_and (a b : U32) : swap32 a &&& swap32 b = swap32 (a &&& b) := by
  unfold swap32
  apply BitVec.eq_of_getLsbD_eq
  intro i hi
  simp only [BitVec.getLsbD_and, BitVec.getLsbD_append, BitVec.getLsbD_extractLsb']
  have key : ∀ (d x y : Bool), (d && x && (d && y)) = (d && (x && y)) := by decide
  split
  · exact key _ _ _
  · split
    · exact key _ _ _
    · split
      · exact key _ _ _
      · exact key _ _ _

theorem octets_bit (a : Ip4) {i : Nat} (hi : i < 32) : bitAt (ip4Octets a) i = a.getMsbD i := by
  unfold bitAt ip4Octets
  have h8 : i % 8 < 8 := by omega
  have key : ∀ j : Nat, j < 4 → i / 8 = j → (a.extractLsb' (24 - 8 * j) 8).getMsbD (i % 8) = a.getMsbD i := by
    intro j hj e
    rw [BitVec.getMsbD_eq_getLsbD, BitVec.getMsbD_eq_getLsbD, BitVec.getLsbD_extractLsb']
    rw [decide_eq_true h8, decide_eq_true hi, decide_eq_true (show 8 - 1 - i % 8 < 8 by omega)]
    simp only [Bool.true_and]
    congr 1
    omega
  have hj : i / 8 = 0 ∨ i / 8 = 1 ∨ i / 8 = 2 ∨ i / 8 = 3 := by omega
  rcases hj with h | h | h | h
  · rw [h]; exact key 0 (by omega) h
  · rw [h]; exact key 1 (by omega) h
  · rw [h]; exact key 2 (by omega) h
  · rw [h]; exact key 3 (by omega) h

/-! ### IPv4 -/

/-- the comparison of an IPv4 address -/
def cmp4 (a : Ip4) (w : IpWMask) : Prop :=
  swap32 a &&& swap32 ((le128 (copy16 w.mask)).truncate 32) = swap32 ((le128 (copy16 w.ip)).truncate 32)

instance (a : Ip4) (w : IpWMask) : Decidable (cmp4 a w) := inferInstanceAs (Decidable (_ = _))

theorem cmp4_nil (a : Ip4) {w : IpWMask} (h : w.ip = [] ∧ w.mask = []) : cmp4 a w := by
  unfold cmp4; rw [h.1, h.2, stored_nil]; rw [swap32_and]; simp

theorem cmp4_bits (a : Ip4) {o : List U8} {n : Nat} {w : IpWMask} (ho : o.length = 4 ∨ o.length = 16) (hn : n ≤ 8 * o.length) (h : AddrRecord (.net o n) w) :
    cmp4 a w ↔ ∀ i < 32, 8 * o.length - 32 + i < n → bitAt (ip4Octets a) i = bitAt o (8 * o.length - 32 + i) := by
  obtain ⟨-, h⟩ := h
  rw [if_pos hn] at h
  obtain ⟨h1, h2, h3⟩ := h
  unfold cmp4
  rw [swap32_and, swap32_inj]
  constructor
  · intro e i hi hlt
    have := congrArg (fun x => BitVec.getMsbD x i) e
    simp only [BitVec.getMsbD_and] at this
    rw [stored_bit32 (by omega) hi, stored_bit32 (by omega) hi, h1, h2, (h3 _ (by omega)).1, (h3 _ (by omega)).2, decide_eq_true hlt] at this
    simpa [octets_bit a hi] using this
  · intro hb
    apply BitVec.eq_of_getMsbD_eq
    intro i hi
    rw [BitVec.getMsbD_and, stored_bit32 (by omega) hi, stored_bit32 (by omega) hi, h1, h2, (h3 _ (by omega)).1, (h3 _ (by omega)).2]
    by_cases hlt : 8 * o.length - 32 + i < n
    · rw [decide_eq_true hlt]
      simpa [octets_bit a hi] using hb i hi hlt
    · rw [decide_eq_false hlt]; simp

theorem cmp4_covers (a : Ip4) {r : SdfAddr} {w : IpWMask} (hr : r.IsV4) (h : AddrRecord r w) : cmp4 a w ↔ r.covers (ip4Octets a) := by
  cases r with
  | any =>
    have : w = ⟨0, [], []⟩ := h
    subst this
    exact ⟨fun _ => trivial, fun _ => cmp4_nil a ⟨rfl, rfl⟩⟩
  | net o n =>
    obtain ⟨ho, hn⟩ := hr
    rw [cmp4_bits a (.inl ho) (by omega) h]
    simp only [SdfAddr.covers, ho]
    constructor
    · intro hb
      refine ⟨rfl, fun i hi => ?_⟩
      simpa using hb i (by omega) (by omega)
    · rintro ⟨-, hb⟩ i hi hlt
      simpa using hb i (by omega)

theorem proto_covers {r : SdfRule} {c : U8} (h : protoCode r.proto = some c) (h58 : r.proto ≠ some 58) (p : U8) :
    (c = 1 ∨ c = sdfProtocol p) ↔ ∀ q, r.proto = some q → q = p := by
  cases hp : r.proto with
  | none => rw [hp] at h; cases h; simp
  | some q =>
    rw [hp] at h h58
    have hq : ∀ (b : U8), (∀ q', some q = some q' → q' = b) ↔ q = b := fun b => ⟨fun h => h q rfl, fun h q' e => by cases e; exact h⟩
    rw [hq]
    have main : ∀ d : U8, protoCode (some q) = some d → q ≠ 58 → ((d = 1 ∨ d = sdfProtocol p) ↔ q = p) := by
      intro d hd h58
      have cases_p : (p = 1 ∧ sdfProtocol p = 0) ∨ (p = 6 ∧ sdfProtocol p = 2) ∨ (p = 17 ∧ sdfProtocol p = 3) ∨ (p ≠ 1 ∧ p ≠ 6 ∧ p ≠ 17 ∧ sdfProtocol p = 1) := by
        unfold sdfProtocol
        by_cases h1 : p = 1
        · simp [h1]
        · by_cases h2 : p = 6
          · simp [h2]
          · by_cases h3 : p = 17
            · simp [h3]
            · rw [if_neg h1, if_neg h2, if_neg h3]; exact .inr (.inr (.inr ⟨h1, h2, h3, rfl⟩))
      have cases_q : (q = 1 ∧ d = 0) ∨ (q = 6 ∧ d = 2) ∨ (q = 17 ∧ d = 3) := by
        unfold protoCode at hd
        by_cases h1 : q = 1
        · subst h1; simp at hd; simp [hd]
        · by_cases h2 : q = 6
          · subst h2; simp at hd; simp [hd]
          · by_cases h3 : q = 17
            · subst h3; simp at hd; simp [hd]
            · simp only [] at hd; rw [if_neg h1, if_neg h2, if_neg h3, if_neg h58] at hd; cases hd
      rcases cases_q with ⟨rfl, rfl⟩ | ⟨rfl, rfl⟩ | ⟨rfl, rfl⟩ <;> rcases cases_p with ⟨rfl, e⟩ | ⟨rfl, e⟩ | ⟨rfl, e⟩ | ⟨n1, n2, n3, e⟩ <;> rw [e] <;>
        first | decide | (constructor
                          · intro h; exfalso; revert h; decide
                          · intro h; first | exact absurd h.symm n1 | exact absurd h.symm n2 | exact absurd h.symm n3)
    exact main c h (fun e => h58 (by rw [e]))

/-- the comparison, condition by condition -/
theorem sdfMatch4_iff (f : SdfFilter) (p : U8) (a b : Ip4) (sp dp : U16) : (Flow.v4 p a b sp dp).sat (toKFilter f) = true ↔
    (f.proto = 1 ∨ f.proto = sdfProtocol p) ∧ cmp4 a f.src ∧ cmp4 b f.dst ∧ (f.srcPort.lo.toNat ≤ sp.toNat ∧ sp.toNat ≤ f.srcPort.hi.toNat) ∧
      (f.dstPort.lo.toNat ≤ dp.toNat ∧ dp.toNat ≤ f.dstPort.hi.toNat) := by
  have e : ∀ (c1 c2 s d l1 h1 l2 h2 : Prop) [Decidable c1] [Decidable c2] [Decidable s] [Decidable d] [Decidable l1] [Decidable h1] [Decidable l2] [Decidable h2],
      (!((decide (¬ c1) && decide (¬ c2)) || decide (¬ s) || decide (¬ d) || (decide l1 || decide h1) || (decide l2 || decide h2))) = true ↔
        (c1 ∨ c2) ∧ s ∧ d ∧ (¬ l1 ∧ ¬ h1) ∧ (¬ l2 ∧ ¬ h2) := by
    intro c1 c2 s d l1 h1 l2 h2 _ _ _ _ _ _ _ _
    by_cases c1 <;> by_cases c2 <;> by_cases s <;> by_cases d <;> by_cases l1 <;> by_cases h1 <;> by_cases l2 <;> by_cases h2 <;> simp [*]
  have := e (f.proto = 1) (f.proto = sdfProtocol p) (cmp4 a f.src) (cmp4 b f.dst) (sp < f.srcPort.lo) (sp > f.srcPort.hi) (dp < f.dstPort.lo) (dp > f.dstPort.hi)
  simp only [gt_iff_lt, BitVec.lt_def, Nat.not_lt] at this
  rw [← this]
  rfl

/-- The record of an accepted text is the record of every reading of the text. -/
theorem record_of {s : List Char} {r : SdfRule} {f : SdfFilter} (h : SdfText s r) (hf : parse s = some f) : SdfRecord r f := by
  obtain ⟨f', h1, h2⟩ := C21_complete h
  rw [h1] at hf; cases hf; exact h2

/-- **C23, IPv4 ranges.** A packet filter for any protocol but 58, whose address ranges are `any` or IPv4 prefixes, matches exactly the IPv4 packets the description
covers. -/
theorem C23_ipv4_partial {s : List Char} {r : SdfRule} {f : SdfFilter} (h : SdfText s r) (hf : parse s = some f) (hs : r.src.IsV4) (hd : r.dst.IsV4)
    (hp : r.proto ≠ some 58) (p : U8) (a b : Ip4) (sp dp : U16) :
    (Flow.v4 p a b sp dp).sat (toKFilter f) = true ↔ r.Covers p (ip4Octets a) (ip4Octets b) sp dp := by
  have hr := record_of h hf
  rw [sdfMatch4_iff, proto_covers hr.proto hp, cmp4_covers a hs hr.src, cmp4_covers b hd hr.dst]
  constructor
  · rintro ⟨h1, h2, h3, h4, h5⟩
    exact ⟨h1, h2, h3, by rw [← hr.srcPort]; exact h4, by rw [← hr.dstPort]; exact h5⟩
  · rintro ⟨h1, h2, h3, h4, h5⟩
    rw [← hr.srcPort] at h4; rw [← hr.dstPort] at h5
    exact ⟨h1, h2, h3, h4, h5⟩


/-- The hypotheses are met by a text with prefixes, protocol and ports. -/
example : ∃ s r f, SdfText s r ∧ parse s = some f ∧ r.src.IsV4 ∧ r.dst.IsV4 ∧ r.proto ≠ some 58 ∧ r.src ≠ .any ∧ r.srcPort = (53, 53) := by
  let s := "permit out udp from 10.1.2.3/9 53 to assigned".toList
  have hf : parse s = some ⟨3, ⟨1, [10, 0, 0, 0], [255, 128, 0, 0]⟩, ⟨53, 53⟩, ⟨0, [], []⟩, ⟨0, 65535⟩⟩ := by decide +kernel
  have ht : SdfText s ⟨some 17, .net [10, 1, 2, 3] 9, (53, 53), .any, (0, 65535)⟩ := by
    refine ⟨"udp".toList, "10.1.2.3/9".toList, ["53".toList], "assigned".toList, [], by decide, ?_, .inr ?_, ?_, .inl ⟨_, .inr rfl, rfl, .inl rfl⟩, .none⟩
    · exact .inr (.inr (.inr (.inl ⟨rfl, rfl⟩)))
    · have : "10.1.2.3/9".toList = "10.1.2.3".toList ++ ['/'] ++ "9".toList := by decide
      rw [this]
      exact .net (parseIP_iff.1 (by decide +kernel)) (dec_iff.2 (by decide)) (by decide)
    · exact .one (dec_iff.2 (by decide)) (by decide)
  exact ⟨s, _, _, ht, hf, ⟨rfl, by decide⟩, trivial, by decide, by simp, rfl⟩

/-- **C23 is false for IPv6 ranges.** A filter whose source is an IPv6 prefix of length at most 96 is compared with IPv4 packets as if the source were `any`. -/
theorem C23_ipv6_prefix_matches_ipv4 {s : List Char} {r : SdfRule} {f : SdfFilter} (h : SdfText s r) (hf : parse s = some f) {o : List U8} {n : Nat}
    (hs : r.src = .net o n) (ho : o.length = 16) (hn : n ≤ 96) (hd : r.dst.IsV4)
    (hp : r.proto ≠ some 58) (p : U8) (a b : Ip4) (sp dp : U16) :
    (Flow.v4 p a b sp dp).sat (toKFilter f) = true ↔ ({ r with src := .any } : SdfRule).Covers p (ip4Octets a) (ip4Octets b) sp dp := by
  have hr := record_of h hf
  have ha : cmp4 a f.src := by
    have h1 := hr.src
    rw [hs] at h1
    rw [cmp4_bits a (.inr ho) (by omega) h1]
    intro i hi hlt
    omega
  rw [sdfMatch4_iff, proto_covers hr.proto hp, cmp4_covers b hd hr.dst]
  constructor
  · rintro ⟨h1, h2, h3, h4, h5⟩
    exact ⟨h1, trivial, h3, by rw [← hr.srcPort]; exact h4, by rw [← hr.dstPort]; exact h5⟩
  · rintro ⟨h1, h2, h3, h4, h5⟩
    simp only [← hr.srcPort] at h4; simp only [← hr.dstPort] at h5
    exact ⟨h1, ha, h3, h4, h5⟩

/-- **C23 is false:** `permit out ip from 2001:db8::/32 to assigned` matches an IPv4 packet. -/
theorem C23_ipv6_filter_ipv4_packet : ∃ f, parse "permit out ip from 2001:db8::/32 to assigned".toList = some f ∧
    (Flow.v4 17 0xc0000201 0x0a2d0001 53 1000).sat (toKFilter f) = true :=
  ⟨⟨1, ⟨2, [0x20, 0x01, 0x0d, 0xb8, 0, 0, 0, 0, 0, 0, 0, 0, 0, 0, 0, 0], [255, 255, 255, 255, 0, 0, 0, 0, 0, 0, 0, 0, 0, 0, 0, 0]⟩, ⟨0, 65535⟩, ⟨0, [], []⟩, ⟨0, 65535⟩⟩,
    by decide +kernel, by decide +kernel⟩

/-- Protocol 58 is accepted and matches no packet at all. -/
theorem C24_icmp6_never {s : List Char} {r : SdfRule} {f : SdfFilter} (h : SdfText s r) (hf : parse s = some f) (hp : r.proto = some 58) (fl : Flow) :
    fl.sat (toKFilter f) = false := by
  have hr := (record_of h hf).proto
  rw [hp] at hr
  have h4 : f.proto = 4 := by
    have : protoCode (some 58) = some (4 : U8) := by decide
    rw [this] at hr; exact (Option.some.inj hr).symm
  have hne : ∀ p, (4 : U8) ≠ sdfProtocol p := by
    intro p; unfold sdfProtocol; split
    · decide
    · split
      · decide
      · split <;> decide
  cases fl with
  | v4 p a b sp dp =>
    rw [Bool.eq_false_iff]
    intro hm
    rcases ((sdfMatch4_iff f p a b sp dp).1 hm).1 with e | e
    · rw [h4] at e; revert e; decide
    · rw [h4] at e; exact hne p e
  | v6 p a b sp dp =>
    simp only [Flow.sat, sdfMatch6, toKFilter, h4]
    rw [decide_eq_true (show (4 : U8) ≠ 1 by decide), decide_eq_true (hne p)]
    simp
  | other => rfl

/-! ### C22 -/

/-- **C22 is false, in general.** A source prefix length greater than the address length is accepted, and the filter then means `any` source
(here for IPv4 packets). -/
theorem C22_like_any {s : List Char} {r : SdfRule} (h : SdfText s r) {o : List U8} {n : Nat} (hs : r.src = .net o n) (hn : 8 * o.length < n) (hd : r.dst.IsV4)
    (hp : r.proto ≠ some 58) : ∃ f, parse s = some f ∧ ∀ (p : U8) (a b : Ip4) (sp dp : U16),
    (Flow.v4 p a b sp dp).sat (toKFilter f) = true ↔ ({ r with src := .any } : SdfRule).Covers p (ip4Octets a) (ip4Octets b) sp dp := by
  obtain ⟨f, hf, hr⟩ := C21_complete h
  refine ⟨f, hf, ?_⟩
  intro p a b sp dp
  have ha : cmp4 a f.src := by
    have h1 := hr.src
    rw [hs] at h1
    obtain ⟨-, h1⟩ := h1
    rw [if_neg (by omega)] at h1
    exact cmp4_nil a h1
  rw [sdfMatch4_iff, proto_covers hr.proto hp, cmp4_covers b hd hr.dst]
  constructor
  · rintro ⟨h1, h2, h3, h4, h5⟩
    exact ⟨h1, trivial, h3, by rw [← hr.srcPort]; exact h4, by rw [← hr.dstPort]; exact h5⟩
  · rintro ⟨h1, h2, h3, h4, h5⟩
    simp only [← hr.srcPort] at h4; simp only [← hr.dstPort] at h5
    exact ⟨h1, ha, h3, h4, h5⟩

/-- **C22 is false:** `10.0.0.0/33` is accepted, and the filter matches a packet from 192.0.2.1. -/
theorem C22_accepted : ∃ f, parse "permit out ip from 10.0.0.0/33 to assigned".toList = some f ∧ (Flow.v4 17 0xc0000201 0x0a2d0001 53 1000).sat (toKFilter f) = true :=
  ⟨⟨1, ⟨1, [], []⟩, ⟨0, 65535⟩, ⟨0, [], []⟩, ⟨0, 65535⟩⟩, by decide +kernel, by decide +kernel⟩

/-! ### C24 -/

/-- the comparison of an IPv6 address -/
def cmp6 (x : List U8) (w : IpWMask) : Prop :=
  le128 x &&& le128 (copy16 w.mask) = (swap32 ((le128 (copy16 w.ip)).truncate 32)).zeroExtend 128

instance (x : List U8) (w : IpWMask) : Decidable (cmp6 x w) := inferInstanceAs (Decidable (_ = _))

theorem cmp6_nil (x : List U8) {w : IpWMask} (h : w.ip = [] ∧ w.mask = []) : cmp6 x w := by
  unfold cmp6; rw [h.1, h.2, stored_nil]
  have : (swap32 (BitVec.truncate 32 (0 : BitVec 128))).zeroExtend 128 = (0 : BitVec 128) := by decide
  rw [this]; simp

theorem sdfMatch6_iff (f : SdfFilter) (p : U8) (a b : List U8) (sp dp : U16) : (Flow.v6 p a b sp dp).sat (toKFilter f) = true ↔
    (f.proto = 1 ∨ f.proto = sdfProtocol p) ∧ cmp6 a f.src ∧ cmp6 b f.dst ∧ (f.srcPort.lo.toNat ≤ sp.toNat ∧ sp.toNat ≤ f.srcPort.hi.toNat) ∧
      (f.dstPort.lo.toNat ≤ dp.toNat ∧ dp.toNat ≤ f.dstPort.hi.toNat) := by
  have e : ∀ (c1 c2 s d l1 h1 l2 h2 : Prop) [Decidable c1] [Decidable c2] [Decidable s] [Decidable d] [Decidable l1] [Decidable h1] [Decidable l2] [Decidable h2],
      (!((decide (¬ c1) && decide (¬ c2)) || decide (¬ s) || decide (¬ d) || decide l1 || decide h1 || decide l2 || decide h2)) = true ↔
        (c1 ∨ c2) ∧ s ∧ d ∧ (¬ l1 ∧ ¬ h1) ∧ (¬ l2 ∧ ¬ h2) := by
    intro c1 c2 s d l1 h1 l2 h2 _ _ _ _ _ _ _ _
    by_cases c1 <;> by_cases c2 <;> by_cases s <;> by_cases d <;> by_cases l1 <;> by_cases h1 <;> by_cases l2 <;> by_cases h2 <;> simp [*]
  have := e (f.proto = 1) (f.proto = sdfProtocol p) (cmp6 a f.src) (cmp6 b f.dst) (sp < f.srcPort.lo) (sp > f.srcPort.hi) (dp < f.dstPort.lo) (dp > f.dstPort.hi)
  simp only [gt_iff_lt, BitVec.lt_def, Nat.not_lt] at this
  rw [← this]
  rfl

/-- **C24, `any` addresses.** Without address ranges, a filter for any protocol but 58 matches exactly the IPv6 packets the description covers (ports as the program
sees them, see `downFlow6`). -/
theorem C24_any_partial {s : List Char} {r : SdfRule} {f : SdfFilter} (h : SdfText s r) (hf : parse s = some f) (hs : r.src = .any) (hd : r.dst = .any)
    (hp : r.proto ≠ some 58) (p : U8) (a b : List U8) (sp dp : U16) :
    (Flow.v6 p a b sp dp).sat (toKFilter f) = true ↔ r.Covers p a b sp dp := by
  have hr := record_of h hf
  have ha : cmp6 a f.src := by
    have h1 := hr.src; rw [hs] at h1
    have h1 : f.src = ⟨0, [], []⟩ := h1
    rw [h1]; exact cmp6_nil a ⟨rfl, rfl⟩
  have hb : cmp6 b f.dst := by
    have h1 := hr.dst; rw [hd] at h1
    have h1 : f.dst = ⟨0, [], []⟩ := h1
    rw [h1]; exact cmp6_nil b ⟨rfl, rfl⟩
  rw [sdfMatch6_iff, proto_covers hr.proto hp]
  constructor
  · rintro ⟨h1, h2, h3, h4, h5⟩
    exact ⟨h1, by rw [hs]; trivial, by rw [hd]; trivial, by rw [← hr.srcPort]; exact h4, by rw [← hr.dstPort]; exact h5⟩
  · rintro ⟨h1, h2, h3, h4, h5⟩
    rw [← hr.srcPort] at h4; rw [← hr.dstPort] at h5
    exact ⟨h1, ha, hb, h4, h5⟩

/-- the number stored for a 16 octet address or mask -/
theorem stored_bit128 {w : List U8} (hw : w.length = 16) {i : Nat} (hi : i < 128) : (le128 (copy16 w)).getMsbD i = bitAt w i := by
  unfold bitAt
  rw [BitVec.getMsbD_eq_getLsbD, BitVec.getMsbD_eq_getLsbD, decide_eq_true hi, decide_eq_true (show i % 8 < 8 by omega), Bool.true_and, Bool.true_and,
    le128_bit _ _ (by omega)]
  unfold copy16
  rw [if_pos (.inr hw)]
  have h1 : (128 - 1 - i) / 8 < w.reverse.length := by rw [List.length_reverse]; omega
  rw [List.getD_eq_getElem?_getD, List.getElem?_append_left h1, List.getElem?_reverse (by simpa using h1), ← List.getD_eq_getElem?_getD]
  have e2 : w.length - 1 - (128 - 1 - i) / 8 = i / 8 := by omega
  have e3 : 8 - 1 - i % 8 = (128 - 1 - i) % 8 := by omega
  rw [e2, e3]

/-- **C24 is false, in general.** A source prefix of length `n`, 1 to 96, of IPv6 addresses is compared with the *last* octets of the packet's address, and with zero
instead of the prefix. -/
theorem C24_wrong_end {s : List Char} {r : SdfRule} {f : SdfFilter} (h : SdfText s r) (hf : parse s = some f) {o : List U8} {n : Nat}
    (hs : r.src = .net o n) (ho : o.length = 16) (hn : n ≤ 96) (hd : r.dst = .any) (hp : r.proto ≠ some 58)
    (p : U8) (a b : List U8) (hl : a.length = 16) (sp dp : U16) :
    (Flow.v6 p a b sp dp).sat (toKFilter f) = true ↔
      ({ r with src := .any } : SdfRule).Covers p a b sp dp ∧ ∀ i < n, bitAt a.reverse i = false := by
  have hr := record_of h hf
  have hb : cmp6 b f.dst := by
    have h1 := hr.dst; rw [hd] at h1
    have h1 : f.dst = ⟨0, [], []⟩ := h1
    rw [h1]; exact cmp6_nil b ⟨rfl, rfl⟩
  have ha : cmp6 a f.src ↔ ∀ i < n, bitAt a.reverse i = false := by
    have h1 := hr.src
    rw [hs] at h1
    obtain ⟨-, h1⟩ := h1
    rw [if_pos (by omega)] at h1
    obtain ⟨g1, g2, g3⟩ := h1
    have hz : ((le128 (copy16 f.src.ip)).truncate 32 : U32) = 0 := by
      apply BitVec.eq_of_getMsbD_eq
      intro i hi
      rw [stored_bit32 (.inr (by omega)) hi, g1, ho, (g3 _ (by omega)).2, decide_eq_false (by omega)]
      simp
    have hz' : (swap32 ((le128 (copy16 f.src.ip)).truncate 32)).zeroExtend 128 = (0 : BitVec 128) := by rw [hz]; decide
    have hbit : ∀ i < 128, (le128 a).getMsbD i = bitAt a.reverse i := by
      intro i hi
      have := stored_bit128 (w := a.reverse) (by simpa using hl) hi
      unfold copy16 at this
      rw [if_pos (.inr (by simpa using hl)), List.reverse_reverse, List.length_reverse, hl] at this
      simp only [Nat.sub_self, List.replicate_zero, List.append_nil] at this
      exact this
    unfold cmp6
    rw [hz']
    constructor
    · intro e i hi
      have := congrArg (fun x => BitVec.getMsbD x i) e
      simp only [BitVec.getMsbD_and] at this
      rw [stored_bit128 (by omega) (by omega), (g3 i (by omega)).1, decide_eq_true hi, hbit i (by omega)] at this
      simpa using this
    · intro hx
      apply BitVec.eq_of_getMsbD_eq
      intro i hi
      rw [BitVec.getMsbD_and, stored_bit128 (by omega) hi, (g3 i (by omega)).1, hbit i hi]
      by_cases hlt : i < n
      · rw [hx i hlt]; simp
      · rw [decide_eq_false hlt]; simp
  rw [sdfMatch6_iff, proto_covers hr.proto hp, ha]
  constructor
  · rintro ⟨h1, h2, h3, h4, h5⟩
    exact ⟨⟨h1, trivial, by rw [hd]; trivial, by rw [← hr.srcPort]; exact h4, by rw [← hr.dstPort]; exact h5⟩, h2⟩
  · rintro ⟨⟨h1, h2, h3, h4, h5⟩, h6⟩
    simp only [← hr.srcPort] at h4; simp only [← hr.dstPort] at h5
    exact ⟨h1, h6, hb, h4, h5⟩

/-- **C24 is false:** `permit out ip from 2001:db8::/32 to assigned` does not match a packet from 2001:db8::1, and matches one from fe80::. -/
theorem C24_prefix_wrong : ∃ f, parse "permit out ip from 2001:db8::/32 to assigned".toList = some f ∧
    (Flow.v6 17 [0x20, 0x01, 0x0d, 0xb8, 0, 0, 0, 0, 0, 0, 0, 0, 0, 0, 0, 1] [0xfd, 0, 0, 0, 0, 0, 0, 0, 0, 0, 0, 0, 0, 0, 0, 1] 53 1000).sat (toKFilter f) = false ∧
    (Flow.v6 17 [0xfe, 0x80, 0, 0, 0, 0, 0, 0, 0, 0, 0, 0, 0, 0, 0, 0] [0xfd, 0, 0, 0, 0, 0, 0, 0, 0, 0, 0, 0, 0, 0, 0, 1] 53 1000).sat (toKFilter f) = true :=
  ⟨⟨1, ⟨2, [0x20, 0x01, 0x0d, 0xb8, 0, 0, 0, 0, 0, 0, 0, 0, 0, 0, 0, 0], [255, 255, 255, 255, 0, 0, 0, 0, 0, 0, 0, 0, 0, 0, 0, 0]⟩, ⟨0, 65535⟩, ⟨0, [], []⟩, ⟨0, 65535⟩⟩,
    by decide +kernel, by decide +kernel, by decide +kernel⟩

/-- **C24 is false for ports.** Whatever the ports of a downlink IPv6 UDP packet are, the filter sees 0. -/
theorem C24_udp_ports {s : List Char} {r : SdfRule} {f : SdfFilter} (h : SdfText s r) (hf : parse s = some f) (hp : 0 < r.srcPort.1 ∨ 0 < r.dstPort.1)
    {fr : List U8} (hu : oct fr 20 = 17) : (downFlow6 fr).sat (toKFilter f) = false := by
  have hr := record_of h hf
  rw [Bool.eq_false_iff]
  intro hm
  unfold downFlow6 flow6 at hm
  rw [if_pos hu] at hm
  obtain ⟨-, -, -, h4, h5⟩ := (sdfMatch6_iff _ _ _ _ _ _).1 hm
  rw [← hr.srcPort, ← hr.dstPort] at hp
  simp at h4 h5 hp
  omega

/-- texts for the examples -/
theorem demo_text (t : List Char) (o : List U8) (m : List Char) (n : Nat) (h : parseIP t = some o) (hm : isNum m = true ∧ decVal m = n) (hn : n < 2 ^ 64) :
    SdfText ("permit out ip from ".toList ++ (t ++ ['/'] ++ m) ++ " to assigned".toList) ⟨none, .net o n, (0, 65535), .any, (0, 65535)⟩ := by
  refine ⟨"ip".toList, t ++ ['/'] ++ m, [], "assigned".toList, [], ?_, .inr (.inl ⟨rfl, rfl⟩), .inr (.net (parseIP_iff.1 h) (dec_iff.2 hm) hn), .none,
    .inl ⟨_, .inr rfl, rfl, .inl rfl⟩, .none⟩
  simp [joined, List.intercalate, List.intersperse]

/-- The hypotheses of `C22_like_any`, `C23_ipv6_prefix_matches_ipv4`, `C24_wrong_end` are met. -/
example : (∃ s r o n, SdfText s r ∧ r.src = .net o n ∧ 8 * o.length < n ∧ r.dst.IsV4 ∧ r.proto ≠ some 58) ∧
    ∃ s r f o n, SdfText s r ∧ parse s = some f ∧ r.src = .net o n ∧ o.length = 16 ∧ 0 < n ∧ n ≤ 96 ∧ r.dst = .any ∧ r.proto ≠ some 58 := by
  constructor
  · exact ⟨_, _, _, _, demo_text "10.0.0.0".toList [10, 0, 0, 0] "33".toList 33 (by decide +kernel) (by decide) (by decide), rfl, by decide, trivial, by decide⟩
  · have h := demo_text "2001:db8::".toList [0x20, 0x01, 0x0d, 0xb8, 0, 0, 0, 0, 0, 0, 0, 0, 0, 0, 0, 0] "32".toList 32 (by decide +kernel) (by decide) (by decide)
    obtain ⟨f, hf, -⟩ := C21_complete h
    exact ⟨_, _, f, _, _, h, hf, rfl, by decide, by decide, by decide, rfl, by decide⟩

/-- The hypotheses of `C24_any_partial`, `C24_udp_ports` and `C24_icmp6_never` are met. -/
example : (∃ s r f, SdfText s r ∧ parse s = some f ∧ r.src = .any ∧ r.dst = .any ∧ r.proto ≠ some 58 ∧ 0 < r.dstPort.1) ∧
    ∃ s r f, SdfText s r ∧ parse s = some f ∧ r.proto = some 58 := by
  constructor
  · have h : SdfText "permit out udp from any to any 80-90".toList ⟨some 17, .any, (0, 65535), .any, (80, 90)⟩ :=
      ⟨"udp".toList, "any".toList, [], "any".toList, ["80-90".toList], by decide, .inr (.inr (.inr (.inl ⟨rfl, rfl⟩))), .inl ⟨rfl, rfl⟩, .none, .inl ⟨_, .inl rfl, rfl, .inl rfl⟩,
        .range (s := "80".toList) (t := "90".toList) (dec_iff.2 (by decide)) (dec_iff.2 (by decide)) (by decide) (by decide)⟩
    obtain ⟨f, hf, -⟩ := C21_complete h
    exact ⟨_, _, f, h, hf, rfl, rfl, by decide, by decide⟩
  · have h : SdfText "permit out 58 from any to any".toList ⟨some 58, .any, (0, 65535), .any, (0, 65535)⟩ :=
      ⟨"58".toList, "any".toList, [], "any".toList, [], by decide, .inr (.inr (.inr (.inr ⟨rfl, rfl⟩))), .inl ⟨rfl, rfl⟩, .none, .inl ⟨_, .inl rfl, rfl, .inl rfl⟩, .none⟩
    obtain ⟨f, hf, -⟩ := C21_complete h
    exact ⟨_, _, f, h, hf, rfl⟩

end Eupf
