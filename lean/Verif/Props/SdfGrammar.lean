import Verif.SdfAddr
/-
C21: the parser accepts the grammar and records what the text says. C22.
-/
namespace Eupf
namespace Sdf

/-! ### masks -/

theorem cidr_length {n len : Nat} (h : n ≤ 8 * len) : (cidrMask n len).length = len := by
  unfold cidrMask; rw [if_neg (by omega)]; simp

theorem cidr_bit {n len i : Nat} (h : n ≤ 8 * len) (hi : i < 8 * len) : bitAt (cidrMask n len) i = decide (i < n) := by
  unfold bitAt cidrMask
  rw [if_neg (by omega)]
  have hj : i / 8 < len := by omega
  rw [List.getD_eq_getElem?_getD, List.getElem?_map, List.getElem?_range hj]
  simp only [Option.map_some, Option.getD_some]
  generalize hq : i / 8 = j at *
  generalize hk : i % 8 = k at *
  have hi' : i = 8 * j + k := by omega
  have hk' : k < 8 := by omega
  split
  · rw [show decide (i < n) = true by simp; omega]
    have : (0xff : U8) = BitVec.allOnes 8 := by decide
    rw [this, BitVec.getMsbD_allOnes]
    simp; omega
  · split
    · rw [show decide (i < n) = false by simp; omega]
      exact BitVec.getMsbD_zero
    · rw [BitVec.getMsbD_shiftLeft, BitVec.getMsbD_allOnes]
      rw [decide_eq_decide]
      omega

theorem mask_bit {a b : List U8} (h : a.length = b.length) {i : Nat} (hi : i < 8 * a.length) : bitAt (ipMask a b) i = (bitAt a i && bitAt b i) := by
  unfold bitAt ipMask
  rw [if_pos h]
  have h1 : i / 8 < a.length := by omega
  have h2 : i / 8 < b.length := by omega
  simp only [List.getD_eq_getElem?_getD, List.getElem?_zipWith, List.getElem?_eq_getElem h1, List.getElem?_eq_getElem h2]
  simp

/-! ### addresses -/

theorem groupBytes_eq (g : Nat) : groupBytes g = groupOctets g := by
  unfold groupBytes groupOctets
  congr 2
  apply BitVec.eq_of_toNat_eq; simp

theorem to4_unmapped {o : List U8} (h : o.length = 16) : (to4 o).getD o = unmapped o := by
  obtain _ | ⟨a0, _ | ⟨a1, _ | ⟨a2, _ | ⟨a3, _ | ⟨a4, _ | ⟨a5, _ | ⟨a6, _ | ⟨a7, _ | ⟨a8, _ | ⟨a9, _ | ⟨b0, _ | ⟨b1, _ | ⟨b2, _ | ⟨b3, _ | ⟨b4, _ | ⟨b5, _ | ⟨x, l⟩⟩⟩⟩⟩⟩⟩⟩⟩⟩⟩⟩⟩⟩⟩⟩⟩ := o <;>
    simp at h
  unfold to4 unmapped
  simp only [List.take_succ_cons, List.take_zero, List.drop_succ_cons, List.drop_zero, List.replicate, List.cons.injEq, and_true, and_assoc]
  split <;> rfl

theorem v6_length {s : List Char} {gs : List Nat} (h : V6Text s gs) : gs.length = 8 := by
  cases h with
  | full _ h => exact h
  | gap _ _ h => simp; omega

theorem octets_length {gs : List Nat} : ((gs.map groupOctets).flatten).length = 2 * gs.length := by
  induction gs with
  | nil => rfl
  | cons g gs ih => simp only [List.map_cons, List.flatten_cons, List.length_append, ih, groupOctets, List.length_cons, List.length_nil]; omega

theorem v4_chars {s : List Char} {o : List U8} (h : V4Text s o) : s.contains '.' = true ∧ s ≠ [] ∧ ∀ c ∈ s, isDigit c = true ∨ c = '.' := by
  obtain ⟨ts, rfl, hl, hf⟩ := h
  obtain _ | ⟨h1, _ | ⟨h2, _ | ⟨h3, _ | ⟨h4, _ | _⟩⟩⟩⟩ := hf <;> simp at hl
  simp only [joined_cons_cons, joined_single]
  refine ⟨by simp, by simp, ?_⟩
  intro c hc
  simp only [List.mem_append, List.mem_cons] at hc
  rcases hc with h | h | h | h | h | h | h
  · exact .inl ((octet_digits h1).1 c h)
  · exact .inr h
  · exact .inl ((octet_digits h2).1 c h)
  · exact .inr h
  · exact .inl ((octet_digits h3).1 c h)
  · exact .inr h
  · exact .inl ((octet_digits h4).1 c h)

theorem groups_chars {ts : List (List Char)} {gs : List Nat} (h : List.Forall₂ GroupText ts gs) : ∀ c ∈ joined ':' ts, isHex c = true ∨ c = ':' := by
  induction h with
  | nil => intro c hc; simp at hc
  | @cons t g ts gs hg hf ih =>
    intro c hc
    cases ts with
    | nil => rw [joined_single] at hc; exact .inl ((group_hex hg).1 c hc)
    | cons b ts =>
      rw [joined_cons_cons] at hc
      simp only [List.mem_append, List.mem_cons] at hc
      rcases hc with h | h | h
      · exact .inl ((group_hex hg).1 c h)
      · exact .inr h
      · exact ih c h

theorem v6_chars {s : List Char} {gs : List Nat} (h : V6Text s gs) : s.contains ':' = true ∧ s ≠ [] ∧ ∀ c ∈ s, isHex c = true ∨ c = ':' := by
  cases h with
  | full hf hl =>
    refine ⟨?_, ?_, groups_chars hf⟩
    · obtain _ | ⟨h1, _ | ⟨h2, hf⟩⟩ := hf <;> simp at hl
      rw [joined_cons_cons]; simp
    · obtain _ | ⟨h1, _ | ⟨h2, hf⟩⟩ := hf <;> simp at hl
      rw [joined_cons_cons]; simp
  | gap hf hf' hl =>
    refine ⟨by simp, by simp, ?_⟩
    intro c hc
    simp only [List.mem_append, List.mem_cons, List.not_mem_nil, or_false] at hc
    rcases hc with (h | h | h) | h
    · exact groups_chars hf c h
    · exact .inr h
    · exact .inr h
    · exact groups_chars hf' c h

theorem digit_hex {c : Char} (h : isDigit c = true) : isHex c = true := by
  unfold isHex isDigit at *; simp [h]

/-- the address alternatives of the regular expression let all addresses through -/
theorem addr_isAddrText {s : List Char} {o : List U8} (h : AddrText s o) : isAddrText s = true := by
  unfold isAddrText
  cases h with
  | v4 h =>
    obtain ⟨-, h1, h2⟩ := v4_chars h
    have : s.all (fun c => isDigit c || c == '.') = true := by
      rw [List.all_eq_true]; intro c hc; rcases h2 c hc with h | h <;> simp [h]
    simp [this, h1]
  | v6 h =>
    obtain ⟨-, h1, h2⟩ := v6_chars h
    have : s.all (fun c => isHex c || c == ':') = true := by
      rw [List.all_eq_true]; intro c hc; rcases h2 c hc with h | h <;> simp [h]
    simp [this, h1]

theorem addr_no {s : List Char} {o : List U8} (h : AddrText s o) {x : Char} (h1 : isHex x = false) (h2 : x ≠ '.') (h3 : x ≠ ':') : x ∉ s := by
  intro hx
  have : isHex x = true ∨ x = '.' ∨ x = ':' := by
    cases h with
    | v4 h => rcases (v4_chars h).2.2 x hx with h | h
              · exact .inl (digit_hex h)
              · exact .inr (.inl h)
    | v6 h => rcases (v6_chars h).2.2 x hx with h | h
              · exact .inl h
              · exact .inr (.inr h)
  rcases this with h | h | h
  · rw [h] at h1; cases h1
  · exact h2 h
  · exact h3 h

/-- net.ParseIP -/
theorem parseIP_iff {s : List Char} {o : List U8} : parseIP s = some o ↔ AddrText s o := by
  unfold parseIP
  constructor
  · intro h
    split at h
    · cases h6 : parseIPv6 s with
      | none => rw [h6] at h; cases h
      | some gs =>
        rw [h6] at h
        have hv := v6_iff.1 h6
        simp only [Option.map_some, Option.some.injEq] at h
        subst h
        have e : (gs.map groupBytes).flatten = (gs.map groupOctets).flatten := by
          congr 1; exact List.map_congr_left (fun g _ => groupBytes_eq g)
        rw [e, to4_unmapped (by rw [octets_length, v6_length hv])]
        exact .v6 hv
    · split at h
      · exact .v4 (v4_iff.1 h)
      · cases h
  · intro h
    cases h with
    | v4 h =>
      obtain ⟨c1, c2, c3⟩ := v4_chars h
      rw [if_neg, if_pos c1]
      · exact v4_iff.2 h
      · intro hc
        rw [List.contains_iff_mem] at hc
        rcases c3 _ hc with h | h <;> revert h <;> decide
    | @v6 gs h =>
      rw [if_pos (v6_chars h).1, v6_iff.2 h]
      have e : (gs.map groupBytes).flatten = (gs.map groupOctets).flatten := by
        congr 1; exact List.map_congr_left (fun g _ => groupBytes_eq g)
      simp only [Option.map_some, e, to4_unmapped (show ((gs.map groupOctets).flatten).length = 16 by rw [octets_length, v6_length h])]

/-- the record of an address -/
theorem cidr_sound {t : List Char} {m : Option (List Char)} {w : IpWMask} (hm : ∀ x, m = some x → isNum x = true) (h : parseCidrIp t m = some w) :
    ∃ o n, AddrText t o ∧ AddrRecord (.net o n) w ∧ ((m = none ∧ n = 8 * o.length) ∨ ∃ x, m = some x ∧ Numeral 10 x n ∧ n < 2 ^ 64) := by
  unfold parseCidrIp at h
  obtain ⟨o, ho, h⟩ := Option.bind_eq_some_iff.1 h
  have ha := parseIP_iff.1 ho
  cases m with
  | none =>
    cases h
    refine ⟨o, 8 * o.length, ha, ⟨rfl, ?_⟩, .inl ⟨rfl, rfl⟩⟩
    rw [if_pos (Nat.le_refl _)]
    refine ⟨rfl, cidr_length (Nat.le_refl _), ?_⟩
    intro i hi
    refine ⟨cidr_bit (Nat.le_refl _) hi, ?_⟩
    simp [hi]
  | some x =>
    simp only [parseUint64] at h
    split at h
    · rename_i hlt
      simp only [Option.bind_eq_bind, Option.bind_some] at h
      cases h
      refine ⟨o, decVal x, ha, ⟨rfl, ?_⟩, .inr ⟨x, rfl, dec_iff.2 ⟨hm x rfl, rfl⟩, hlt⟩⟩
      split
      · rename_i hle
        have hl := cidr_length hle
        refine ⟨?_, hl, ?_⟩
        · simp [ipMask, hl]
        · intro i hi
          refine ⟨cidr_bit hle hi, ?_⟩
          simp only []
          rw [mask_bit hl.symm hi, cidr_bit hle hi, Bool.and_comm]
      · rename_i hgt
        have hm0 : cidrMask (decVal x) o.length = [] := by unfold cidrMask; rw [if_pos (by omega)]
        refine ⟨?_, hm0⟩
        simp only [hm0, ipMask]
        split
        · simp
        · rfl
    · cases h

theorem cidr_complete {t : List Char} {o : List U8} (h : AddrText t o) (m : Option (List Char)) (n : Nat)
    (hm : (m = none ∧ n = 8 * o.length) ∨ ∃ x, m = some x ∧ Numeral 10 x n ∧ n < 2 ^ 64) :
    ∃ w, parseCidrIp t m = some w ∧ AddrRecord (.net o n) w := by
  have hex : ∃ w, parseCidrIp t m = some w := by
    unfold parseCidrIp
    rw [parseIP_iff.2 h]
    rcases hm with ⟨rfl, -⟩ | ⟨x, rfl, hx, hlt⟩
    · exact ⟨_, rfl⟩
    · have := (dec_iff.1 hx).2
      simp only [parseUint64, this, if_pos hlt]
      exact ⟨_, rfl⟩
  obtain ⟨w, hw⟩ := hex
  refine ⟨w, hw, ?_⟩
  have hm' : ∀ x, m = some x → isNum x = true := by
    intro x hx
    rcases hm with ⟨rfl, -⟩ | ⟨y, rfl, hy, -⟩
    · cases hx
    · cases hx; exact (dec_iff.1 hy).1
  obtain ⟨o', n', h1, h2, h3⟩ := cidr_sound hm' hw
  have e : o' = o := by
    have a := parseIP_iff.2 h1
    have b := parseIP_iff.2 h
    rw [a] at b; exact Option.some.inj b
  subst e
  have : n' = n := by
    rcases hm with ⟨rfl, hn⟩ | ⟨y, rfl, hy, -⟩
    · rcases h3 with ⟨-, hn'⟩ | ⟨x, hx, -⟩
      · omega
      · cases hx
    · rcases h3 with ⟨hx, -⟩ | ⟨x, hx, hx', -⟩
      · cases hx
      · cases hx; exact numeral_val hx' hy
  subst this
  exact h2

/-! ### words -/

theorem proto_iff {s : List Char} {c : U8} : parseProtocol s = some c ↔ ∃ p, ProtoText s p ∧ protoCode p = some c := by
  unfold parseProtocol ProtoText
  constructor
  · intro h
    split at h
    · cases h; exact ⟨some 1, .inl ⟨by assumption, rfl⟩, rfl⟩
    · split at h
      · cases h; exact ⟨none, .inr (.inl ⟨by assumption, rfl⟩), rfl⟩
      · split at h
        · cases h; exact ⟨some 6, .inr (.inr (.inl ⟨by assumption, rfl⟩)), rfl⟩
        · split at h
          · cases h; exact ⟨some 17, .inr (.inr (.inr (.inl ⟨by assumption, rfl⟩))), rfl⟩
          · split at h
            · cases h; exact ⟨some 58, .inr (.inr (.inr (.inr ⟨by assumption, rfl⟩))), rfl⟩
            · cases h
  · rintro ⟨p, (⟨rfl, rfl⟩ | ⟨rfl, rfl⟩ | ⟨rfl, rfl⟩ | ⟨rfl, rfl⟩ | ⟨rfl, rfl⟩), h⟩ <;> cases h <;> decide

theorem splitMask_some {s a : List Char} {m : Option (List Char)} (h : splitMask s = some (a, m)) :
    (m = none ∧ s = a) ∨ ∃ x, m = some x ∧ isNum x = true ∧ s = a ++ ['/'] ++ x := by
  unfold splitMask at h
  split at h
  · rename_i e; cases h
    obtain ⟨rfl, -, -⟩ := splitC_eq_iff.1 e
    exact .inl ⟨rfl, by simp⟩
  · rename_i e
    split at h
    · cases h
      obtain ⟨rfl, -, -⟩ := splitC_eq_iff.1 e
      exact .inr ⟨_, rfl, by assumption, by simp [joined_cons_cons]⟩
    · cases h
  · cases h

theorem splitMask_none {s : List Char} (h : '/' ∉ s) : splitMask s = some (s, none) := by unfold splitMask; rw [splitC_word h]

theorem splitMask_num {s m : List Char} (h : '/' ∉ s) (hm : isNum m = true) : splitMask (s ++ ['/'] ++ m) = some (s, some m) := by
  unfold splitMask
  rw [List.append_assoc, List.singleton_append, splitC_append h, splitC_word (digit_not (by decide) (isNum_digits hm))]
  simp [hm]

theorem addr_net {a s : List Char} {m : Option (List Char)} {w : IpWMask} (hs : (m = none ∧ s = a) ∨ ∃ x, m = some x ∧ isNum x = true ∧ s = a ++ ['/'] ++ x)
    (h : parseCidrIp a m = some w) : ∃ r, NetText s r ∧ AddrRecord r w := by
  have hm : ∀ x, m = some x → isNum x = true := by
    intro x hx
    rcases hs with ⟨rfl, -⟩ | ⟨y, rfl, hy, -⟩
    · cases hx
    · cases hx; exact hy
  obtain ⟨o, n, h1, h2, h3⟩ := cidr_sound hm h
  rcases h3 with ⟨rfl, rfl⟩ | ⟨x, rfl, hx, hlt⟩
  · rcases hs with ⟨-, rfl⟩ | ⟨y, hy, -⟩
    · exact ⟨_, .host h1, h2⟩
    · cases hy
  · rcases hs with ⟨hy, -⟩ | ⟨y, hy, -, rfl⟩
    · cases hy
    · cases hy; exact ⟨_, .net h1 hx hlt, h2⟩

theorem net_addr {s : List Char} {r : SdfAddr} (h : NetText s r) : ∃ a m w o, splitMask s = some (a, m) ∧ AddrText a o ∧ parseCidrIp a m = some w ∧ AddrRecord r w := by
  cases h with
  | host h =>
    obtain ⟨w, h1, h2⟩ := cidr_complete h none _ (.inl ⟨rfl, rfl⟩)
    exact ⟨_, _, w, _, splitMask_none (addr_no h (by decide) (by decide) (by decide)), h, h1, h2⟩
  | net h hm hlt =>
    obtain ⟨w, h1, h2⟩ := cidr_complete h (some _) _ (.inr ⟨_, rfl, hm, hlt⟩)
    exact ⟨_, _, w, _, splitMask_num (addr_no h (by decide) (by decide) (by decide)) (dec_iff.1 hm).1, h, h1, h2⟩

theorem addr_ne_word {a : List Char} {o : List U8} (h : AddrText a o) : a ≠ "any".toList ∧ a ≠ "assigned".toList := by
  have hn : 'n' ∉ a := addr_no h (by decide) (by decide) (by decide)
  constructor
  · rintro rfl; exact hn (by decide)
  · rintro rfl; exact hn (by decide)

theorem src_sound {s : List Char} {w : IpWMask} (h : parseSrc s = some w) : ∃ r, SrcText s r ∧ AddrRecord r w := by
  unfold parseSrc at h
  split at h
  · cases h
  · rename_i a m e
    have hs := splitMask_some e
    split at h
    · rename_i ha
      split at h
      · cases h
      · rename_i hm
        cases h
        rcases hs with ⟨-, rfl⟩ | ⟨x, rfl, -⟩
        · exact ⟨.any, .inl ⟨ha, rfl⟩, rfl⟩
        · simp at hm
    · split at h
      · obtain ⟨r, h1, h2⟩ := addr_net hs h
        exact ⟨r, .inr h1, h2⟩
      · cases h

theorem src_complete {s : List Char} {r : SdfAddr} (h : SrcText s r) : ∃ w, parseSrc s = some w ∧ AddrRecord r w := by
  rcases h with ⟨rfl, rfl⟩ | h
  · exact ⟨_, rfl, rfl⟩
  · obtain ⟨a, m, w, o, h1, h2, h3, h4⟩ := net_addr h
    refine ⟨w, ?_, h4⟩
    unfold parseSrc
    simp only [h1, if_neg (addr_ne_word h2).1, addr_isAddrText h2, if_true, h3]

theorem dst_sound {s : List Char} {w : IpWMask} (h : parseDst s = some w) : ∃ r, DstText s r ∧ AddrRecord r w := by
  unfold parseDst at h
  split at h
  · cases h
  · rename_i a m e
    have hs := splitMask_some e
    split at h
    · rename_i ha
      cases h
      refine ⟨.any, .inl ⟨a, ha, rfl, ?_⟩, rfl⟩
      rcases hs with ⟨-, rfl⟩ | ⟨x, rfl, hx, rfl⟩
      · exact .inl rfl
      · exact .inr ⟨x, _, dec_iff.2 ⟨hx, rfl⟩, rfl⟩
    · split at h
      · obtain ⟨r, h1, h2⟩ := addr_net hs h
        exact ⟨r, .inr h1, h2⟩
      · cases h

theorem dst_complete {s : List Char} {r : SdfAddr} (h : DstText s r) : ∃ w, parseDst s = some w ∧ AddrRecord r w := by
  rcases h with ⟨a, ha, rfl, hs⟩ | h
  · refine ⟨⟨0, [], []⟩, ?_, rfl⟩
    have hsl : '/' ∉ a := by rcases ha with rfl | rfl <;> decide
    unfold parseDst
    rcases hs with rfl | ⟨m, n, hm, rfl⟩
    · rw [splitMask_none hsl]; simp only [if_pos ha]
    · rw [splitMask_num hsl (dec_iff.1 hm).1]; simp only [if_pos ha]
  · obtain ⟨a, m, w, o, h1, h2, h3, h4⟩ := net_addr h
    refine ⟨w, ?_, h4⟩
    unfold parseDst
    simp only [h1]
    rw [if_neg (not_or.2 (addr_ne_word h2)), if_pos (addr_isAddrText h2), h3]

/-! ### the whole text -/

theorem net_no_space {s : List Char} {r : SdfAddr} (h : NetText s r) : ' ' ∉ s := by
  cases h with
  | host h => exact addr_no h (by decide) (by decide) (by decide)
  | net h hm _ =>
    have h1 := addr_no h (x := ' ') (by decide) (by decide) (by decide)
    have h2 := digit_not (x := ' ') (by decide) (isNum_digits (dec_iff.1 hm).1)
    simp [h1, h2]

theorem src_no_space {s : List Char} {r : SdfAddr} (h : SrcText s r) : ' ' ∉ s := by
  rcases h with ⟨rfl, -⟩ | h
  · decide
  · exact net_no_space h

theorem dst_no_space {s : List Char} {r : SdfAddr} (h : DstText s r) : ' ' ∉ s := by
  rcases h with ⟨a, ha, -, hs⟩ | h
  · have h0 : ' ' ∉ a := by rcases ha with rfl | rfl <;> decide
    rcases hs with rfl | ⟨m, n, hm, rfl⟩
    · exact h0
    · have h2 := digit_not (x := ' ') (by decide) (isNum_digits (dec_iff.1 hm).1)
      simp [h0, h2]
  · exact net_no_space h

theorem proto_no_space {s : List Char} {p : Option U8} (h : ProtoText s p) : ' ' ∉ s := by
  rcases h with ⟨rfl, -⟩ | ⟨rfl, -⟩ | ⟨rfl, -⟩ | ⟨rfl, -⟩ | ⟨rfl, -⟩ <;> decide

theorem ports_word {ws : List (List Char)} {q : Nat × Nat} (h : PortsText ws q) : ∀ w ∈ ws, ' ' ∉ w ∧ w ≠ "to".toList := by
  cases h with
  | none => intro w hw; cases hw
  | one h _ =>
    intro w hw
    simp only [List.mem_singleton] at hw
    subst hw
    have hd := isNum_digits (dec_iff.1 h).1
    refine ⟨digit_not (by decide) hd, ?_⟩
    rintro rfl; have := hd 't' (by decide); revert this; decide
  | range h h' _ _ =>
    intro w hw
    simp only [List.mem_singleton] at hw
    subst hw
    have hd := isNum_digits (dec_iff.1 h).1
    have hd' := isNum_digits (dec_iff.1 h').1
    refine ⟨?_, ?_⟩
    · have h1 := digit_not (x := ' ') (by decide) hd
      have h2 := digit_not (x := ' ') (by decide) hd'
      simp [h1, h2]
    · intro e
      have : '-' ∈ "to".toList := by rw [← e]; simp
      revert this; decide

/-- **C21, soundness.** What the parser accepts is in the grammar, and the record is that of the description. -/
theorem C21_accepted {s : List Char} {f : SdfFilter} (h : parse s = some f) : ∃ r, SdfText s r ∧ SdfRecord r f := by
  unfold parse at h
  obtain ⟨⟨pt, st, sp, dt, dp⟩, hf, h⟩ := Option.bind_eq_some_iff.1 h
  obtain ⟨pc, hp, h⟩ := Option.bind_eq_some_iff.1 h
  obtain ⟨sw, hsrc, h⟩ := Option.bind_eq_some_iff.1 h
  obtain ⟨spr, hsp, h⟩ := Option.bind_eq_some_iff.1 h
  obtain ⟨dw, hdst, h⟩ := Option.bind_eq_some_iff.1 h
  obtain ⟨dpr, hdp, h⟩ := Option.bind_eq_some_iff.1 h
  cases h
  obtain ⟨p, p1, p2⟩ := proto_iff.1 hp
  obtain ⟨sr, s1, s2⟩ := src_sound hsrc
  obtain ⟨dr, d1, d2⟩ := dst_sound hdst
  refine ⟨⟨p, sr, _, dr, _⟩, ⟨pt, st, sp.toList, dt, dp.toList, ?_, p1, s1, ports_sound hsp, d1, ports_sound hdp⟩, ⟨p2, s2, rfl, d2, rfl⟩⟩
  have hj := joined_splitC ' ' s
  rw [← hj]
  congr 1
  generalize splitC ' ' s = ws at hf
  unfold fields at hf
  split at hf
  · split at hf
    · rename_i hc; obtain ⟨rfl, rfl, rfl, rfl⟩ := hc; cases hf; rfl
    · cases hf
  · split at hf
    · rename_i hc; obtain ⟨rfl, rfl, rfl⟩ := hc
      split at hf
      · rename_i hx; subst hx; cases hf; rfl
      · split at hf
        · rename_i hy; subst hy; cases hf; rfl
        · cases hf
    · cases hf
  · split at hf
    · rename_i hc; obtain ⟨rfl, rfl, rfl, rfl⟩ := hc; cases hf; rfl
    · cases hf
  · cases hf

/-- **C21, completeness.** Every description of the grammar is accepted; the record is that of the description (under every reading of the text). -/
theorem C21_complete {s : List Char} {r : SdfRule} (h : SdfText s r) : ∃ f, parse s = some f ∧ SdfRecord r f := by
  obtain ⟨pt, st, sp, dt, dp, hs, h1, h2, h3, h4, h5⟩ := h
  have w3 := ports_word h3
  have w5 := ports_word h5
  obtain ⟨sp, spr, rfl, a3, b3⟩ := ports_complete h3
  obtain ⟨dp, dpr, rfl, a5, b5⟩ := ports_complete h5
  obtain ⟨sw, a2, b2⟩ := src_complete h2
  obtain ⟨dw, a4, b4⟩ := dst_complete h4
  have hpc : ∃ c, protoCode r.proto = some c := by
    rcases h1 with ⟨-, e⟩ | ⟨-, e⟩ | ⟨-, e⟩ | ⟨-, e⟩ | ⟨-, e⟩ <;> rw [e] <;> exact ⟨_, rfl⟩
  obtain ⟨c, hc⟩ := hpc
  have a1 := proto_iff.2 ⟨_, h1, hc⟩
  refine ⟨⟨c, sw, spr, dw, dpr⟩, ?_, ⟨hc, b2, b3, b4, b5⟩⟩
  have n1 := proto_no_space h1
  have n2 := src_no_space h2
  have n4 := dst_no_space h4
  have hsplit : splitC ' ' s = ["permit".toList, "out".toList, pt, "from".toList, st] ++ sp.toList ++ ["to".toList, dt] ++ dp.toList := by
    rw [hs]
    refine splitC_joined (by simp) ?_
    intro w hw
    simp only [List.mem_append, List.mem_cons, List.not_mem_nil, or_false] at hw
    rcases hw with (((rfl | rfl | rfl | rfl | rfl) | hw) | rfl | rfl) | hw
    · decide
    · decide
    · exact n1
    · decide
    · exact n2
    · exact (w3 w hw).1
    · decide
    · exact n4
    · exact (w5 w hw).1
  have hfields : fields (splitC ' ' s) = some (pt, st, sp, dt, dp) := by
    rw [hsplit]
    cases sp with
    | none => cases dp with
      | none => simp [fields]
      | some y => simp [fields]
    | some x =>
      have hx := (w3 x (by simp)).2
      cases dp with
      | none =>
        have hx' : ¬ x = ['t', 'o'] := hx
        simp [fields, hx']
      | some y => simp [fields]
  unfold parse
  rw [hfields]
  simp only [Option.bind_eq_bind, Option.bind_some, a1, a2, a3, a4, a5]
  rfl

/-- The hypotheses are met: a text with all parts, and the record. -/
example : parse "permit out udp from 10.1.2.3/9 53 to 2001:db8::1/32 1000-2000".toList =
    some ⟨3, ⟨1, [10, 0, 0, 0], [255, 128, 0, 0]⟩, ⟨53, 53⟩, ⟨2, [0x20, 0x01, 0x0d, 0xb8, 0, 0, 0, 0, 0, 0, 0, 0, 0, 0, 0, 0], [255, 255, 255, 255, 0, 0, 0, 0, 0, 0, 0, 0, 0, 0, 0, 0]⟩,
      ⟨1000, 2000⟩⟩ := by decide +kernel

end Sdf
end Eupf
