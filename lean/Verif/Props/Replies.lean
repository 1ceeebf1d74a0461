import Verif.Xdp.SwapLemmas
import Verif.Props.Tunnel
/-
C32, C33: the replies the UPF makes itself.
-/
namespace Eupf

/-! ### C32 -/

/-- `g` answers the GTP-U echo request `f` (whose outer header has a length of at least 20 octets). -/
structure IsEchoReply (f g : List U8) : Prop where
  length : g.length = f.length
  /-- endpoints exchanged -/
  dmac : ∀ i, i < 6 → oct g i = oct f (6 + i)
  smac : ∀ i, i < 6 → oct g (6 + i) = oct f i
  src : be32 g 26 = be32 f 30
  dst : be32 g 30 = be32 f 26
  sport : be16 g (l4Off f) = be16 f (l4Off f + 2)
  dport : be16 g (l4Off f + 2) = be16 f (l4Off f)
  udpCsum : be16 g (l4Off f + 6) = 0
  /-- echo response with the flags and TEID of the request -/
  flags : oct g (gtpOff f) = oct f (gtpOff f)
  type : oct g (gtpOff f + 1) = 2
  teid : be32 g (gtpOff f + 4) = be32 f (gtpOff f + 4)
  /-- and its sequence number -/
  seq : gtpHasOpt f = true → be16 g (gtpOff f + 8) = be16 f (gtpOff f + 8)
  /-- if there is room in the frame: a recovery element behind the header, and lengths and checksum to match -/
  recovery : recOff f + 2 ≤ f.length → oct g (recOff f) = 14 ∧ oct g (recOff f + 1) = 0 ∧ be16 g (gtpOff f + 2) = be16 f (gtpOff f + 2) + 2 ∧
    be16 g (l4Off f + 4) = be16 f (l4Off f + 4) + 2 ∧ be16 g 16 = be16 f 16 + 2 ∧ (l4Off f = 34 → CsumValid (slice g 14 20))
  /-- otherwise these are kept (the sum of the exchanged addresses is the same) -/
  noRecovery : ¬ recOff f + 2 ≤ f.length → be16 g (gtpOff f + 2) = be16 f (gtpOff f + 2) ∧ be16 g (l4Off f + 4) = be16 f (l4Off f + 4) ∧
    be16 g 16 = be16 f 16 ∧ be16 g 24 = be16 f 24
  /-- the rest of the frame is kept -/
  rest : ∀ i, (12 ≤ i ∧ i < 16) ∨ (18 ≤ i ∧ i < 24) ∨ (34 ≤ i ∧ i < l4Off f) ∨ (gtpOff f + 8 ≤ i ∧ ¬ (recOff f ≤ i ∧ i < recOff f + 2)) → oct g i = oct f i

theorem echoBase_oct {f : List U8} (h34 : 34 ≤ f.length) (hl : gtpOff f + 8 ≤ f.length) (i : Nat) :
    oct (echoBase f) i = if l4Off f + 6 ≤ macSrc i ∧ macSrc i < l4Off f + 8 then 0
      else if ipSrc (portSrc (l4Off f) (macSrc i)) = gtpOff f + 1 then 2 else oct f (ipSrc (portSrc (l4Off f) (macSrc i))) := by
  have hgo : gtpOff f = l4Off f + 8 := rfl
  have l0 : (put f (gtpOff f + 1) [2]).length = f.length := put_length (by simp only [List.length_cons, List.length_nil]; omega)
  have l1 : (ipSwapped (put f (gtpOff f + 1) [2])).length = f.length := by rw [ipSwapped_length (by omega), l0]
  have l2 : (portSwapped (ipSwapped (put f (gtpOff f + 1) [2])) (l4Off f)).length = f.length := by rw [portSwapped_length (by omega), l1]
  unfold echoBase
  rw [macSwapped_oct (by omega), portSwapped_oct (by omega), ipSwapped_oct (by omega)]
  generalize ipSrc (portSrc (l4Off f) (macSrc i)) = j
  by_cases hz : l4Off f + 6 ≤ macSrc i ∧ macSrc i < l4Off f + 8
  · rw [if_pos hz, if_pos hz]
  · rw [if_neg hz, if_neg hz]
    by_cases hj : j = gtpOff f + 1
    · rw [if_pos hj, hj, oct_put_in (by simp only [List.length_cons, List.length_nil]; omega) (by simp only [List.length_cons, List.length_nil]; omega), Nat.sub_self]; rfl
    · rw [if_neg hj, oct_put_out' (by simp only [List.length_cons, List.length_nil]; omega) (by simp only [List.length_cons, List.length_nil]; omega)]

theorem macSrc_ge {i : Nat} (h : 12 ≤ i) : macSrc i = i := by unfold macSrc; rw [if_neg (by omega), if_neg (by omega)]
theorem ipSrc_out {i : Nat} (h : i < 26 ∨ 34 ≤ i) : ipSrc i = i := by
  unfold ipSrc
  by_cases h1 : i < 26
  · rw [if_pos h1]
  · rw [if_neg h1, if_neg (by omega), if_neg (by omega)]
theorem portSrc_out {u i : Nat} (h : i < u ∨ u + 4 ≤ i) : portSrc u i = i := by
  unfold portSrc
  by_cases h1 : i < u
  · rw [if_pos h1]
  · rw [if_neg h1, if_neg (by omega), if_neg (by omega)]

section
variable {f : List U8} (h34 : 34 ≤ f.length) (hl : gtpOff f + 8 ≤ f.length) (hu : 34 ≤ l4Off f)
include h34 hl hu

/-- octets that are only moved by none of the swaps -/
theorem echoBase_same {i : Nat} (hi : 12 ≤ i) (h1 : i < 26 ∨ 34 ≤ i) (h2 : i < l4Off f ∨ l4Off f + 4 ≤ i) (h3 : ¬ (l4Off f + 6 ≤ i ∧ i < l4Off f + 8))
    (h4 : i ≠ gtpOff f + 1) : oct (echoBase f) i = oct f i := by
  rw [echoBase_oct h34 hl, macSrc_ge hi, portSrc_out h2, ipSrc_out h1, if_neg h3, if_neg h4]
theorem echoBase_ip {i : Nat} (hi : 26 ≤ i ∧ i < 34) : oct (echoBase f) i = oct f (ipSrc i) := by
  have hgo : gtpOff f = l4Off f + 8 := rfl
  have : ipSrc i < 34 := by unfold ipSrc; split; omega; split; omega; split <;> omega
  rw [echoBase_oct h34 hl, macSrc_ge (by omega), portSrc_out (by omega), if_neg (by omega), if_neg (by omega)]
theorem echoBase_port {i : Nat} (hi : l4Off f ≤ i ∧ i < l4Off f + 4) : oct (echoBase f) i = oct f (portSrc (l4Off f) i) := by
  have hgo : gtpOff f = l4Off f + 8 := rfl
  have h1 : l4Off f ≤ portSrc (l4Off f) i ∧ portSrc (l4Off f) i < l4Off f + 4 := by
    unfold portSrc; rw [if_neg (by omega)]; split; omega; split <;> omega
  rw [echoBase_oct h34 hl, macSrc_ge (by omega), ipSrc_out (by omega), if_neg (by omega), if_neg (by omega)]
theorem echoBase_mac {i : Nat} (hi : i < 12) : oct (echoBase f) i = oct f (macSrc i) := by
  have hgo : gtpOff f = l4Off f + 8 := rfl
  have h1 : macSrc i < 12 := by unfold macSrc; split <;> (try split) <;> omega
  rw [echoBase_oct h34 hl, portSrc_out (by omega), ipSrc_out (by omega), if_neg (by omega), if_neg (by omega)]
theorem echoBase_type : oct (echoBase f) (gtpOff f + 1) = 2 := by
  have hgo : gtpOff f = l4Off f + 8 := rfl
  rw [echoBase_oct h34 hl, macSrc_ge (by omega), portSrc_out (by omega), ipSrc_out (by omega), if_neg (by omega), if_pos rfl]
theorem echoBase_csum {i : Nat} (hi : l4Off f + 6 ≤ i ∧ i < l4Off f + 8) : oct (echoBase f) i = 0 := by
  rw [echoBase_oct h34 hl, macSrc_ge (by omega), if_pos hi]

theorem echo_recOff : gtpOff f + 8 + (if gtpOpt (oct (echoBase f) (gtpOff f)) then 4 else 0) = recOff f := by
  have hgo : gtpOff f = l4Off f + 8 := rfl
  rw [echoBase_same h34 hl hu (by omega) (by omega) (by omega) (by omega) (by omega), gtpOpt_eq]
  rfl

/-- the octets of the response with recovery that are not changed after the swaps -/
theorem echoFrame_base {i : Nat} (h1 : ¬ (recOff f ≤ i ∧ i < recOff f + 2)) (h2 : ¬ (gtpOff f + 2 ≤ i ∧ i < gtpOff f + 4)) (h3 : ¬ (l4Off f + 4 ≤ i ∧ i < l4Off f + 6))
    (h4 : ¬ (16 ≤ i ∧ i < 18)) (h5 : ¬ (24 ≤ i ∧ i < 26)) : oct (echoFrame f) i = oct (echoBase f) i := by
  have hgo : gtpOff f = l4Off f + 8 := rfl
  have lb := echoBase_length h34 hl
  have hr := echo_recOff h34 hl hu
  unfold echoFrame
  simp only
  rw [hr]
  split
  · rename_i hroom
    have l1 : (put (echoBase f) (recOff f) [14, 0]).length = f.length := by rw [put_length (by simp only [List.length_cons, List.length_nil]; omega), lb]
    have l2 : (bumped (put (echoBase f) (recOff f) [14, 0]) (gtpOff f + 2) 2).length = f.length := by rw [bumped_length (by omega), l1]
    have l3 : (bumped (bumped (put (echoBase f) (recOff f) [14, 0]) (gtpOff f + 2) 2) (l4Off f + 4) 2).length = f.length := by rw [bumped_length (by omega), l2]
    have l4 : (bumped (bumped (bumped (put (echoBase f) (recOff f) [14, 0]) (gtpOff f + 2) 2) (l4Off f + 4) 2) 16 2).length = f.length := by rw [bumped_length (by omega), l3]
    show oct (recsum _) i = _
    rw [recsum_oct (by omega) h5, bumped_oct (by omega) (by omega), bumped_oct (by omega) (by omega), bumped_oct (by omega) (by omega),
      oct_put_out' (by simp only [List.length_cons, List.length_nil]; omega) (by simp only [List.length_cons, List.length_nil]; omega)]
  · rfl

theorem echoFrame_room (hroom : recOff f + 2 ≤ f.length) :
    echoFrame f = recsum (bumped (bumped (bumped (put (echoBase f) (recOff f) [14, 0]) (gtpOff f + 2) 2) (l4Off f + 4) 2) 16 2) := by
  unfold echoFrame
  simp only
  rw [echo_recOff h34 hl hu, if_pos hroom]
  rfl
theorem echoFrame_noRoom (hroom : ¬ recOff f + 2 ≤ f.length) : echoFrame f = echoBase f := by
  unfold echoFrame
  simp only
  rw [echo_recOff h34 hl hu, if_neg hroom]

theorem echo_reply_room (hroom : recOff f + 2 ≤ f.length) : IsEchoReply f (echoFrame f) := by
  have hgo : gtpOff f = l4Off f + 8 := rfl
  have lb := echoBase_length h34 hl
  have hrec : recOff f = gtpOff f + 8 ∨ recOff f = gtpOff f + 12 := by unfold recOff; split <;> omega
  have same : ∀ {i}, 12 ≤ i → (i < 26 ∨ 34 ≤ i) → (i < l4Off f ∨ l4Off f + 4 ≤ i) → ¬ (l4Off f + 6 ≤ i ∧ i < l4Off f + 8) → i ≠ gtpOff f + 1 →
      oct (echoBase f) i = oct f i := fun a b c d e => echoBase_same h34 hl hu a b c d e
  have base := fun {i} => echoFrame_base h34 hl hu (i := i)
  have er := echoFrame_room h34 hl hu hroom
  obtain ⟨g1, e1⟩ : ∃ x, x = put (echoBase f) (recOff f) [14, 0] := ⟨_, rfl⟩
  obtain ⟨g2, e2⟩ : ∃ x, x = bumped g1 (gtpOff f + 2) 2 := ⟨_, rfl⟩
  obtain ⟨g3, e3⟩ : ∃ x, x = bumped g2 (l4Off f + 4) 2 := ⟨_, rfl⟩
  obtain ⟨g4, e4⟩ : ∃ x, x = bumped g3 16 2 := ⟨_, rfl⟩
  rw [← e1, ← e2, ← e3, ← e4] at er
  have l1 : g1.length = f.length := by rw [e1, put_length (by simp only [List.length_cons, List.length_nil]; omega), lb]
  have l2 : g2.length = f.length := by rw [e2, bumped_length (by omega), l1]
  have l3 : g3.length = f.length := by rw [e3, bumped_length (by omega), l2]
  have l4 : g4.length = f.length := by rw [e4, bumped_length (by omega), l3]
  have o1 : ∀ {i}, ¬ (recOff f ≤ i ∧ i < recOff f + 2) → oct g1 i = oct (echoBase f) i := by
    intro i hi; rw [e1, oct_put_out' (by simp only [List.length_cons, List.length_nil]; omega) (by simp only [List.length_cons, List.length_nil]; omega)]
  have o2 : ∀ {i}, (i < gtpOff f + 2 ∨ gtpOff f + 4 ≤ i) → oct g2 i = oct g1 i := fun hi => by rw [e2, bumped_oct (by omega) hi]
  have o3 : ∀ {i}, (i < l4Off f + 4 ∨ l4Off f + 6 ≤ i) → oct g3 i = oct g2 i := fun hi => by rw [e3, bumped_oct (by omega) hi]
  have o4 : ∀ {i}, (i < 16 ∨ 18 ≤ i) → oct g4 i = oct g3 i := fun hi => by rw [e4, bumped_oct (by omega) hi]
  have o5 : ∀ {i}, ¬ (24 ≤ i ∧ i < 26) → oct (echoFrame f) i = oct g4 i := fun hi => by rw [er, recsum_oct (by omega) hi]
  have b16 : ∀ {i}, be16 (echoBase f) i = be16 f i → be16 (echoBase f) i + 2 = be16 f i + 2 := fun h => by rw [h]
  constructor
  case length => rw [er, recsum_length (by omega), l4]
  case dmac =>
    intro i hi
    rw [base (by omega) (by omega) (by omega) (by omega) (by omega), echoBase_mac h34 hl hu (by omega)]
    unfold macSrc; rw [if_pos hi]; congr 1; omega
  case smac =>
    intro i hi
    rw [base (by omega) (by omega) (by omega) (by omega) (by omega), echoBase_mac h34 hl hu (by omega)]
    unfold macSrc; rw [if_neg (by omega), if_pos (by omega)]; congr 1; omega
  case src =>
    apply be32_congr2
    intro k hk
    rw [base (by omega) (by omega) (by omega) (by omega) (by omega), echoBase_ip h34 hl hu (by omega)]
    unfold ipSrc; rw [if_neg (by omega), if_pos (by omega)]; congr 1; omega
  case dst =>
    apply be32_congr2
    intro k hk
    rw [base (by omega) (by omega) (by omega) (by omega) (by omega), echoBase_ip h34 hl hu (by omega)]
    unfold ipSrc; rw [if_neg (by omega), if_neg (by omega), if_pos (by omega)]; congr 1; omega
  case sport =>
    apply be16_congr2
    all_goals
      rw [base (by omega) (by omega) (by omega) (by omega) (by omega), echoBase_port h34 hl hu (by omega)]
      unfold portSrc; rw [if_neg (by omega), if_pos (by omega)]
  case dport =>
    apply be16_congr2
    all_goals
      rw [base (by omega) (by omega) (by omega) (by omega) (by omega), echoBase_port h34 hl hu (by omega)]
      unfold portSrc; rw [if_neg (by omega), if_neg (by omega), if_pos (by omega)]; congr 1
  case udpCsum =>
    unfold be16
    rw [base (by omega) (by omega) (by omega) (by omega) (by omega), echoBase_csum h34 hl hu (by omega),
      base (by omega) (by omega) (by omega) (by omega) (by omega), echoBase_csum h34 hl hu (by omega)]; rfl
  case flags => rw [base (by omega) (by omega) (by omega) (by omega) (by omega), same (by omega) (by omega) (by omega) (by omega) (by omega)]
  case type => rw [base (by omega) (by omega) (by omega) (by omega) (by omega), echoBase_type h34 hl hu]
  case teid =>
    apply be32_congr2
    intro k hk
    rw [base (by omega) (by omega) (by omega) (by omega) (by omega), same (by omega) (by omega) (by omega) (by omega) (by omega)]
  case seq =>
    intro ho
    have hr : recOff f = gtpOff f + 12 := by unfold recOff; rw [ho]; simp
    apply be16_congr2 <;>
    rw [base (by omega) (by omega) (by omega) (by omega) (by omega), same (by omega) (by omega) (by omega) (by omega) (by omega)]
  case recovery =>
    intro _
    refine ⟨?_, ?_, ?_, ?_, ?_, ?_⟩
    · rw [o5 (by omega), o4 (by omega), o3 (by omega), o2 (by omega), e1, oct_put_in (by simp only [List.length_cons, List.length_nil]; omega) (by simp only [List.length_cons, List.length_nil]; omega), Nat.sub_self]; rfl
    · rw [o5 (by omega), o4 (by omega), o3 (by omega), o2 (by omega), e1, oct_put_in (by simp only [List.length_cons, List.length_nil]; omega) (by simp only [List.length_cons, List.length_nil]; omega), Nat.add_sub_cancel_left]; rfl
    · have h1 : be16 (echoFrame f) (gtpOff f + 2) = be16 g2 (gtpOff f + 2) := by
        apply be16_congr2 <;> rw [o5 (by omega), o4 (by omega), o3 (by omega)]
      have h2 : be16 g1 (gtpOff f + 2) = be16 f (gtpOff f + 2) := by
        apply be16_congr2 <;> rw [o1 (by omega), same (by omega) (by omega) (by omega) (by omega) (by omega)]
      rw [h1, e2, bumped_be16 (by omega), h2]
    · have h1 : be16 (echoFrame f) (l4Off f + 4) = be16 g3 (l4Off f + 4) := by
        apply be16_congr2 <;> rw [o5 (by omega), o4 (by omega)]
      have h2 : be16 g2 (l4Off f + 4) = be16 f (l4Off f + 4) := by
        apply be16_congr2 <;> rw [o2 (by omega), o1 (by omega), same (by omega) (by omega) (by omega) (by omega) (by omega)]
      rw [h1, e3, bumped_be16 (by omega), h2]
    · have h1 : be16 (echoFrame f) 16 = be16 g4 16 := by
        apply be16_congr2 <;> rw [o5 (by omega)]
      have h2 : be16 g3 16 = be16 f 16 := by
        apply be16_congr2 <;> rw [o3 (by omega), o2 (by omega), o1 (by omega), same (by omega) (by omega) (by omega) (by omega) (by omega)]
      rw [h1, e4, bumped_be16 (by omega), h2]
    · intro h5
      rw [er]
      apply recsum_valid (by omega)
      rw [o4 (by omega), o3 (by omega), o2 (by omega), o1 (by omega), same (by omega) (by omega) (by omega) (by omega) (by omega)]
      intro h0
      have : l4Off f = 14 := by unfold l4Off ip4End; rw [h0]; rfl
      omega
  case noRecovery => intro h; exact absurd hroom h
  case rest =>
    intro i hi
    rw [base (by omega) (by omega) (by omega) (by omega) (by omega), same (by omega) (by omega) (by omega) (by omega) (by omega)]
theorem echo_reply_noRoom (hroom : ¬ recOff f + 2 ≤ f.length) : IsEchoReply f (echoFrame f) := by
  have hgo : gtpOff f = l4Off f + 8 := rfl
  have lb := echoBase_length h34 hl
  have hrec : recOff f = gtpOff f + 8 ∨ recOff f = gtpOff f + 12 := by unfold recOff; split <;> omega
  have same : ∀ {i}, 12 ≤ i → (i < 26 ∨ 34 ≤ i) → (i < l4Off f ∨ l4Off f + 4 ≤ i) → ¬ (l4Off f + 6 ≤ i ∧ i < l4Off f + 8) → i ≠ gtpOff f + 1 →
      oct (echoBase f) i = oct f i := fun a b c d e => echoBase_same h34 hl hu a b c d e
  have base := fun {i} => echoFrame_base h34 hl hu (i := i)
  have er := echoFrame_noRoom h34 hl hu hroom
  rw [er]
  constructor
  case length => exact lb
  case dmac =>
    intro i hi
    rw [echoBase_mac h34 hl hu (by omega)]
    unfold macSrc; rw [if_pos hi]; congr 1; omega
  case smac =>
    intro i hi
    rw [echoBase_mac h34 hl hu (by omega)]
    unfold macSrc; rw [if_neg (by omega), if_pos (by omega)]; congr 1; omega
  case src =>
    apply be32_congr2
    intro k hk
    rw [echoBase_ip h34 hl hu (by omega)]
    unfold ipSrc; rw [if_neg (by omega), if_pos (by omega)]; congr 1; omega
  case dst =>
    apply be32_congr2
    intro k hk
    rw [echoBase_ip h34 hl hu (by omega)]
    unfold ipSrc; rw [if_neg (by omega), if_neg (by omega), if_pos (by omega)]; congr 1; omega
  case sport =>
    apply be16_congr2
    all_goals
      rw [echoBase_port h34 hl hu (by omega)]
      unfold portSrc; rw [if_neg (by omega), if_pos (by omega)]
  case dport =>
    apply be16_congr2
    all_goals
      rw [echoBase_port h34 hl hu (by omega)]
      unfold portSrc; rw [if_neg (by omega), if_neg (by omega), if_pos (by omega)]; congr 1
  case udpCsum =>
    unfold be16
    rw [echoBase_csum h34 hl hu (by omega), echoBase_csum h34 hl hu (by omega)]; rfl
  case flags => rw [same (by omega) (by omega) (by omega) (by omega) (by omega)]
  case type => exact echoBase_type h34 hl hu
  case teid =>
    apply be32_congr2
    intro k hk
    rw [same (by omega) (by omega) (by omega) (by omega) (by omega)]
  case seq =>
    intro ho
    apply be16_congr2 <;> rw [same (by omega) (by omega) (by omega) (by omega) (by omega)]
  case recovery => intro h; exact absurd h hroom
  case noRecovery =>
    intro _
    refine ⟨?_, ?_, ?_, ?_⟩ <;> apply be16_congr2 <;> rw [same (by omega) (by omega) (by omega) (by omega) (by omega)]
  case rest => intro i hi; rw [same (by omega) (by omega) (by omega) (by omega) (by omega)]
theorem echo_reply : IsEchoReply f (echoFrame f) := by
  by_cases hroom : recOff f + 2 ≤ f.length
  · exact echo_reply_room h34 hl hu hroom
  · exact echo_reply_noRoom h34 hl hu hroom
end

/-- **C32.** Every GTP-U echo request is answered at once, out of the interface it came from, with an echo response to the sender with
the sequence number of the request; no table changes. -/
theorem C32_echo_answered (e : Env) (s : PS) (h : IsGtpMsg e s.frame 1) (hu : 34 ≤ l4Off s.frame) :
    ∃ s', runPacket e s = (s', .ok .tx) ∧ IsEchoReply s.frame s'.frame ∧ s'.dp = s.dp := by
  obtain ⟨s', a, hrun, res, _⟩ := entry_outcome e s
  have hx : ∀ {t}, IsGtpMsg e s.frame t → t = 1 := fun h' => by rw [← h'.type, h.type]
  have key : a = .tx ∧ s'.frame = echoFrame s.frame ∧ s'.dp = s.dp := by
    generalize s'.frame = fr at res ⊢
    generalize s'.dp = dp at res ⊢
    cases res with
    | foreign hf => exact absurd h (hf.notMsg _)
    | otherMsg h' _ h2 => exact absurd (hx h') h2
    | echo _ => exact ⟨rfl, rfl, rfl⟩
    | gpdu h' _ => exact absurd (hx h') (by decide)
    | down4 h' _ => exact absurd h.gtpu h'.notGtpu
    | down6 h' _ => exact absurd (h'.ip.type.symm.trans h.gtpu.ip.type) (by decide)
  exact ⟨s', by rw [hrun, key.1], by rw [key.2.1]; exact echo_reply h.gtpu.ip.len h.len hu, key.2.2⟩

/-- An echo request, with room for the recovery element if padded to the minimum size of an Ethernet frame. -/
example : IsGtpMsg DemoDp.env DemoDp.echo 1 ∧ l4Off DemoDp.echo = 34 ∧ recOff DemoDp.echo = 54 ∧ DemoDp.echo.length = 54 ∧
    be16 (runPacket DemoDp.env (DemoDp.ps (DemoDp.echo ++ [0, 0, 0, 0, 0, 0]))).1.frame 50 = 5 ∧
    oct (runPacket DemoDp.env (DemoDp.ps (DemoDp.echo ++ [0, 0, 0, 0, 0, 0]))).1.frame 54 = 14 :=
  ⟨DemoDp.echo_msg, by decide, by decide, by decide, by decide +kernel, by decide +kernel⟩

/-! ### C33 -/

/-- `q` answers the ICMP echo request `p`: IPv4 packets with headers of 20 octets. -/
structure IsPingReply (p q : List U8) : Prop where
  length : q.length = p.length
  /-- addresses exchanged, the rest of the IP header kept -/
  src : be32 q 12 = be32 p 16
  dst : be32 q 16 = be32 p 12
  header : ∀ i, i < 12 → oct q i = oct p i
  /-- ICMP type and code 0 -/
  type : oct q 20 = 0
  code : oct q 21 = 0
  /-- identifier, sequence number and payload kept -/
  payload : q.drop 24 = p.drop 24
  /-- the IP header checksum is as right as it was -/
  ipCsum : CsumValid (slice p 0 20) → CsumValid (slice q 0 20)
  /-- and so is the ICMP checksum (over the first `n` octets behind the IP header), unless identifier, sequence number and payload are
  all zero -/
  icmpCsum : ∀ n, 4 ≤ n → 20 + n ≤ p.length → CsumValid (slice p 20 n) → (∃ i, 24 ≤ i ∧ i < 20 + n ∧ oct p i ≠ 0) → CsumValid (slice q 20 n)

theorem csumReplace_toNat (sum old new : U16) :
    (csumReplace sum old new).toNat = 65535 - ocAdd (ocAdd (65535 - sum.toNat) (65535 - old.toNat)) new.toNat := by
  have h1 := sum.isLt; have h2 := old.isLt; have h3 := new.isLt
  have key : ∀ a b : U16, (if a + b < b then a + b + 1 else a + b).toNat = ocAdd a.toNat b.toNat := by
    intro a b
    have ha := a.isLt; have hb := b.isLt
    unfold ocAdd
    have hlt : (a + b < b) ↔ ¬ (a.toNat + b.toNat < 65536) := by
      rw [BitVec.lt_def, BitVec.toNat_add]; omega
    by_cases h : a.toNat + b.toNat < 65536
    · rw [if_neg (fun x => hlt.1 x h), if_pos h, BitVec.toNat_add]; omega
    · rw [if_pos (hlt.2 h), if_neg h, BitVec.toNat_add, BitVec.toNat_add]
      have : (1 : U16).toNat = 1 := rfl
      omega
  unfold csumReplace
  simp only
  rw [BitVec.toNat_not, key, key, BitVec.toNat_not, BitVec.toNat_not]

theorem leSum_zero : ∀ l : List U8, leSum l = 0 → ∀ i, oct l i = 0
  | [], _ => fun i => rfl
  | [a], h => fun i => by
    have ha : a = 0 := BitVec.eq_of_toNat_eq h
    subst ha
    rcases i with _ | i <;> rfl
  | a :: b :: l, h => fun i => by
    simp only [leSum] at h
    have ha : a = 0 := BitVec.eq_of_toNat_eq (show a.toNat = 0 by omega)
    have hb : b = 0 := BitVec.eq_of_toNat_eq (show b.toNat = 0 by omega)
    have := leSum_zero l (by omega)
    subst ha hb
    rcases i with _ | _ | i
    · rfl
    · rfl
    · exact this i

theorem slice_four {f : List U8} {i n : Nat} (hn : 4 ≤ n) (h : i + n ≤ f.length) :
    slice f i n = [oct f i, oct f (i + 1), oct f (i + 2), oct f (i + 3)] ++ slice f (i + 4) (n - 4) := by
  have l1 := slice_length h
  have l2 : (slice f (i + 4) (n - 4)).length = n - 4 := slice_length (by omega)
  apply ext_oct
  · rw [l1, List.length_append, l2]; simp only [List.length_cons, List.length_nil]; omega
  · intro j hj
    rw [l1] at hj
    rw [oct_slice hj, oct_append]
    rcases j with _ | _ | _ | _ | j
    · rfl
    · rfl
    · rfl
    · rfl
    · rw [if_neg (by simp only [List.length_cons, List.length_nil]; omega)]
      simp only [List.length_cons, List.length_nil]
      rw [oct_slice (by omega)]; congr 1; omega

theorem leSum_slice4 {f : List U8} {i n : Nat} (hn : 4 ≤ n) (h : i + n ≤ f.length) :
    leSum (slice f i n) = (le16 f i).toNat + (le16 f (i + 2)).toNat + leSum (slice f (i + 4) (n - 4)) := by
  rw [slice_four hn h]
  simp only [List.cons_append, List.nil_append, leSum]
  unfold le16
  rw [toNat_cat16, toNat_cat16, show i + 2 + 1 = i + 3 from rfl]
  omega

/-- exchanging the addresses of an IP header keeps the sum of its words -/
theorem leSum_swapped {p q : List U8} (hp : 20 ≤ p.length) (hq : 20 ≤ q.length) (h : ∀ i, i < 12 → oct q i = oct p i)
    (hs : ∀ i, 12 ≤ i → i < 16 → oct q i = oct p (i + 4)) (hd : ∀ i, 12 ≤ i → i < 16 → oct q (i + 4) = oct p i) :
    leSum (slice q 0 20) = leSum (slice p 0 20) := by
  have w : ∀ {i j}, oct q i = oct p j → oct q (i + 1) = oct p (j + 1) → le16 q i = le16 p j := by
    intro i j h1 h2; unfold le16; rw [h1, h2]
  have five : ∀ f : List U8, 20 ≤ f.length → leSum (slice f 0 20) = (le16 f 0).toNat + (le16 f 2).toNat + ((le16 f 4).toNat + (le16 f 6).toNat) +
      ((le16 f 8).toNat + (le16 f 10).toNat) + ((le16 f 12).toNat + (le16 f 14).toNat) + ((le16 f 16).toNat + (le16 f 18).toNat) := by
    intro f hf
    have a := leSum_slice4 (f := f) (i := 0) (n := 20) (by omega) (by omega)
    have b := leSum_slice4 (f := f) (i := 4) (n := 16) (by omega) (by omega)
    have c := leSum_slice4 (f := f) (i := 8) (n := 12) (by omega) (by omega)
    have d := leSum_slice4 (f := f) (i := 12) (n := 8) (by omega) (by omega)
    have e := leSum_slice4 (f := f) (i := 16) (n := 4) (by omega) (by omega)
    have z : leSum (slice f 20 0) = 0 := rfl
    simp only [Nat.reduceAdd, Nat.reduceSub] at a b c d e
    omega
  rw [five p hp, five q hq, w (h 0 (by omega)) (h 1 (by omega)), w (h 2 (by omega)) (h 3 (by omega)), w (h 4 (by omega)) (h 5 (by omega)),
    w (h 6 (by omega)) (h 7 (by omega)), w (h 8 (by omega)) (h 9 (by omega)), w (h 10 (by omega)) (h 11 (by omega)),
    w (hs 12 (by omega) (by omega)) (hs 13 (by omega) (by omega)), w (hs 14 (by omega) (by omega)) (hs 15 (by omega) (by omega)),
    w (hd 12 (by omega) (by omega)) (hd 13 (by omega) (by omega)), w (hd 14 (by omega) (by omega)) (hd 15 (by omega) (by omega))]
  simp only [Nat.reduceAdd]
  omega

/-- clearing type and code with the incremental update of the checksum keeps the ICMP checksum right, unless the rest is all zero -/
theorem icmp_valid {p q : List U8} {n : Nat} (hn : 4 ≤ n) (hp : 20 + n ≤ p.length) (hq : 20 + n ≤ q.length) (a1 : le16 q 20 = 0)
    (a2 : le16 q 22 = csumReplace (le16 p 22) (le16 p 20) 0) (h : ∀ i, 24 ≤ i → oct q i = oct p i) (hv : CsumValid (slice p 20 n))
    (hz : ∃ i, 24 ≤ i ∧ i < 20 + n ∧ oct p i ≠ 0) : CsumValid (slice q 20 n) := by
  obtain ⟨i, hi1, hi2, hi3⟩ := hz
  rw [valid_iff_le] at hv ⊢
  have sl : slice q 24 (n - 4) = slice p 24 (n - 4) := slice_congr (by omega) (by omega) (fun j j1 j2 => h _ (by omega))
  have e1 := leSum_slice4 (f := p) (i := 20) hn (by omega)
  have e2 := leSum_slice4 (f := q) (i := 20) hn (by omega)
  simp only [Nat.reduceAdd] at e1 e2
  rw [sl, a1, a2, csumReplace_toNat] at e2
  have rest : leSum (slice p 24 (n - 4)) ≠ 0 := by
    intro hz
    have := leSum_zero _ hz (i - 24)
    rw [oct_slice (by omega), show 24 + (i - 24) = i by omega] at this
    exact hi3 this
  have z0 : (0 : U16).toNat = 0 := rfl
  rw [z0] at e2
  generalize leSum (slice p 24 (n - 4)) = R at *
  have hs := (le16 p 22).isLt
  have ho := (le16 p 20).isLt
  generalize (le16 p 22).toNat = S at *
  generalize (le16 p 20).toNat = O at *
  rw [e1] at hv
  rw [e2]
  unfold ocAdd
  by_cases c1 : 65535 - S + (65535 - O) < 65536
  · rw [if_pos c1, if_pos (by omega)]; omega
  · rw [if_neg c1, if_pos (by omega)]; omega

/-- the fields of the reply's frame -/
theorem pingReply_fields {g : List U8} (h : 42 ≤ g.length) :
    (pingReply g).length = g.length ∧ (∀ i, i < 34 ∨ 38 ≤ i → oct (pingReply g) i = oct g (ipSrc (macSrc i))) ∧ oct (pingReply g) 34 = 0 ∧ oct (pingReply g) 35 = 0 ∧
    le16 (pingReply g) 36 = csumReplace (le16 g 36) (le16 g 34) 0 := by
  have lm := macSwapped_length (f := g) (by omega)
  have li : (ipSwapped (macSwapped g)).length = g.length := by rw [ipSwapped_length (by omega), lm]
  have os : ∀ i, oct (ipSwapped (macSwapped g)) i = oct g (macSrc (ipSrc i)) := fun i => by rw [ipSwapped_oct (by omega), macSwapped_oct (by omega)]
  have comm : ∀ i, macSrc (ipSrc i) = ipSrc (macSrc i) := by
    intro i
    unfold macSrc ipSrc
    by_cases h6 : i < 6
    · rw [if_pos (show i < 26 by omega), if_pos h6, if_pos (show i + 6 < 26 by omega)]
    by_cases h12 : i < 12
    · rw [if_pos (show i < 26 by omega), if_neg h6, if_pos h12, if_pos (show i - 6 < 26 by omega)]
    rw [if_neg h6, if_neg h12]
    by_cases h26 : i < 26
    · rw [if_pos h26, if_neg h6, if_neg h12]
    rw [if_neg h26]
    by_cases h30 : i < 30
    · rw [if_pos h30, if_neg (by omega), if_neg (by omega)]
    rw [if_neg h30]
    by_cases h34 : i < 34
    · rw [if_pos h34, if_neg (by omega), if_neg (by omega)]
    · rw [if_neg h34, if_neg (by omega), if_neg (by omega)]
  have id34 : ∀ i, 34 ≤ i → oct (ipSwapped (macSwapped g)) i = oct g i := fun i hi => by rw [os, ipSrc_out (.inr hi), macSrc_ge (by omega)]
  refine ⟨pingReply_length h, fun i hi => by rw [pingReply_oct h hi, os, comm], ?_⟩
  unfold pingReply
  simp only
  generalize hf2 : ipSwapped (macSwapped g) = f2 at *
  have l3 : (put f2 34 [0]).length = g.length := by rw [put_length (by simp only [List.length_cons, List.length_nil]; omega), li]
  obtain ⟨f4, e4⟩ : ∃ x, x = put (put f2 34 [0]) 35 [0] := ⟨_, rfl⟩
  have l4 : f4.length = g.length := by rw [e4, put_length (by simp only [List.length_cons, List.length_nil]; omega), l3]
  have o34 : oct f4 34 = 0 := by
    rw [e4, oct_put_out' (by simp only [List.length_cons, List.length_nil]; omega) (by omega), oct_put_in (by simp only [List.length_cons, List.length_nil]; omega) (by simp only [List.length_cons, List.length_nil]; omega)]; rfl
  have o35 : oct f4 35 = 0 := by
    rw [e4, oct_put_in (by simp only [List.length_cons, List.length_nil]; omega) (by simp only [List.length_cons, List.length_nil]; omega)]; rfl
  have o36 : ∀ i, 36 ≤ i → oct f4 i = oct g i := by
    intro i hi
    rw [e4, oct_put_out' (by simp only [List.length_cons, List.length_nil]; omega) (by simp only [List.length_cons, List.length_nil]; omega),
      oct_put_out' (by simp only [List.length_cons, List.length_nil]; omega) (by simp only [List.length_cons, List.length_nil]; omega), id34 i (by omega)]
  rw [← e4]
  have w : le16 f4 36 = le16 g 36 := by unfold le16; rw [o36 36 (by omega), o36 37 (by omega)]
  have w2 : le16 f2 34 = le16 g 34 := by unfold le16; rw [id34 34 (by omega), id34 35 (by omega)]
  have w3 : le16 f4 34 = 0 := by unfold le16; rw [o34, o35]; decide
  rw [w, w2, w3]
  refine ⟨?_, ?_, ?_⟩
  · rw [oct_put_out' (by rw [bytes16_length]; omega) (by omega), o34]
  · rw [oct_put_out' (by rw [bytes16_length]; omega) (by omega), o35]
  · unfold le16
    rw [oct_put_in (by rw [bytes16_length]; omega) (by rw [bytes16_length]; omega), oct_put_in (by rw [bytes16_length]; omega) (by rw [bytes16_length]; omega)]
    exact (cat16 _).symm

theorem ping_reply {g : List U8} (h : 42 ≤ g.length) (h8 : oct g 34 = 8) : IsPingReply (g.drop 14) ((pingReply g).drop 14) := by
  obtain ⟨hl, ho, h34, h35, h36⟩ := pingReply_fields h
  generalize pingReply g = q at *
  have lp : (g.drop 14).length = g.length - 14 := List.length_drop ..
  have lq : (q.drop 14).length = g.length - 14 := by rw [List.length_drop, hl]
  have op : ∀ i, oct (g.drop 14) i = oct g (14 + i) := fun i => oct_drop ..
  have oq : ∀ i, i < 20 ∨ 24 ≤ i → oct (q.drop 14) i = oct g (ipSrc (14 + i)) := by
    intro i hi; rw [oct_drop, ho _ (by omega), macSrc_ge (by omega)]
  constructor
  case length => omega
  case src =>
    apply be32_congr2; intro k hk
    rw [oq _ (by omega), op]; unfold ipSrc; rw [if_neg (by omega), if_pos (by omega)]; exact congrArg (oct g) (by omega)
  case dst =>
    apply be32_congr2; intro k hk
    rw [oq _ (by omega), op]; unfold ipSrc; rw [if_neg (by omega), if_neg (by omega), if_pos (by omega)]; exact congrArg (oct g) (by omega)
  case header => intro i hi; rw [oq _ (by omega), op, ipSrc_out (by omega)]
  case type => rw [oct_drop]; exact h34
  case code => rw [oct_drop]; exact h35
  case payload =>
    apply ext_oct
    · rw [List.length_drop, List.length_drop (i := 24)]; omega
    · intro i _
      rw [oct_drop (q.drop 14), oct_drop (g.drop 14), oq _ (by omega), op, ipSrc_out (by omega)]
  case ipCsum =>
    rw [valid_iff_le, valid_iff_le, leSum_swapped (p := g.drop 14) (q := q.drop 14) (by omega) (by omega)]
    · exact id
    · intro i hi; rw [oq _ (by omega), op, ipSrc_out (by omega)]
    · intro i h1 h2; rw [oq _ (by omega), op]; unfold ipSrc; rw [if_neg (by omega), if_pos (by omega)]; exact congrArg (oct g) (by omega)
    · intro i h1 h2; rw [oq _ (by omega), op]; unfold ipSrc; rw [if_neg (by omega), if_neg (by omega), if_pos (by omega)]; exact congrArg (oct g) (by omega)
  case icmpCsum =>
    intro n hn hlen hv hz
    refine icmp_valid hn hlen (by omega) ?_ ?_ ?_ hv hz
    · unfold le16; rw [oct_drop, oct_drop, h34, h35]; decide
    · have a3 : le16 (g.drop 14) 20 = le16 g 34 := by unfold le16; rw [op, op]
      have a4 : le16 (g.drop 14) 22 = le16 g 36 := by unfold le16; rw [op, op]
      rw [a3, a4, ← h36]; unfold le16; rw [oct_drop, oct_drop]
    · intro j hj; rw [oq _ (by omega), op, ipSrc_out (by omega)]

/-- **C33.** An uplink G-PDU (to be decapsulated) with an ICMP echo request to one of the UPF's addresses is answered: what is sent is
the reply to the inner packet, as a downlink packet in the tunnel of the rule for its destination, the UE. -/
theorem C33_ping_answered (e : Env) (s s' : PS) (a : XAction) (hrun : runPacket e s = (s', .ok a)) (hs : a.sent = true)
    (hm : IsGtpMsg e s.frame 255) {r : Rule} {far : FarInfo} {qer : QerInfo} (hr : ulRule s.dp s.frame = some r) (hp : PermitsUl s.dp r far qer)
    (hoc : far.ohc.getLsbD 0 = false) (hohr : r.ohr = 0) (h34 : l4Off s.frame = 34)
    {o : Nat} (hpay : PayloadAt s.frame o) (ho : o = gtpOff s.frame + 8 ∨ o = gtpOff s.frame + 16)
    (hv : (oct s.frame o).toNat / 16 = 4) (hicmp : oct s.frame (o + 9) = 1) (hdst : be32 s.frame (o + 16) = e.n3Ip ∨ be32 s.frame (o + 16) = e.n9Ip) :
    ∃ q r' far' qer' g, IsPingReply (s.frame.drop o) q ∧ g.drop 14 = q ∧ dlRule4 s.dp g = some r' ∧ PermitsDl s.dp r' far' qer' ∧
      IsTunnelled (tunnelOf e far' qer') (be16 q 2) q s'.frame := by
  have res := entry_det hrun
  clear hrun
  generalize s'.frame = fr at res ⊢
  generalize s'.dp = dp at res
  have hi := payload_innerOff hpay ho
  have hcl : cutLen s.frame + 14 = o := by rw [← hi]; unfold cutLen innerOff gtpOff; rw [h34]; omega
  have hl := hm.len
  have hl' := hm.gtpu.ip.len
  have hx : ∀ {t}, IsGtpMsg e s.frame t → t = 255 := fun h => by rw [← h.type, hm.type]
  have same : ∀ {r' : Rule} {far' : FarInfo} {qer' : QerInfo}, ulRule s.dp s.frame = some r' → PermitsUl s.dp r' far' qer' → r' = r ∧ far' = far := by
    intro r' far' qer' q1 q2
    have : r' = r := Option.some.inj (q1.symm.trans hr)
    subst this
    exact ⟨rfl, Option.some.inj (q2.hasFar.symm.trans hp.hasFar)⟩
  have hty : innerType s.frame = some 0x0800 := by unfold innerType; rw [hcl, if_pos hv]
  have oo : ∀ i, 14 ≤ i → oct (cutFrame s.frame 0x0800) i = oct s.frame (o + (i - 14)) := by
    intro i h14
    unfold cutFrame
    rw [oct_append, if_neg (by simp; omega), oct_drop, hcl]
    congr 2
    simp only [List.length_append, List.length_take, bytes16_length]; omega
  have hself : ToSelf e (cutFrame s.frame 0x0800) := by
    unfold ToSelf be32
    rw [oo 23 (by omega), oo 30 (by omega), oo 31 (by omega), oo 32 (by omega), oo 33 (by omega)]
    exact ⟨hicmp, hdst⟩
  have dropg : (cutFrame s.frame 0x0800).drop 14 = s.frame.drop o := by
    unfold cutFrame
    rw [hcl]
    exact List.drop_left' (by simp only [List.length_append, List.length_take, bytes16_length]; omega)
  cases res with
  | foreign _ | otherMsg _ _ _ => cases hs
  | echo h => exact absurd (hx h) (by decide)
  | down4 h _ => exact absurd hm.gtpu h.notGtpu
  | down6 h _ => exact absurd (h.ip.type.symm.trans hm.gtpu.ip.type) (by decide)
  | gpdu _ res =>
    cases res with
    | unclassified _ | denied _ _ | policed _ => cases hs
    | garbled _ _ _ _ | selfOther _ _ _ _ _ => cases hs
    | n9 g _ q1 q2 _ q3 => rw [(same q1 q2).2, hoc] at q3; cases q3
    | kept _ q1 q2 _ _ q3 => rw [(same q1 q2).1] at q3; exact absurd hohr q3
    | cut4 g _ q1 q2 _ _ _ _ q5 q3 q4 => subst q3; exact absurd hself q4
    | cut6 g _ q1 q2 _ _ _ _ q5 q3 => rw [hty] at q5; cases q5
    | ping g _ q1 q2 _ _ _ q6 q5 q3 q4 hping d =>
      subst q3
      obtain ⟨b, hb, he⟩ : ∃ b, b = chargeUl s.dp _ _ _ _ ∧ TrafficEffect s.dp b := ⟨_, rfl, chargeUl_effect ..⟩
      rw [← hb] at d
      have pr := ping_reply hping.1 hping.2
      rw [dropg] at pr
      have hlen := pingReply_length hping.1
      cases d with
      | unclassified _ | denied _ _ | policed _ | noRoom => cases hs
      | sent g' _ d1 d2 _ _ hg =>
        have gate := he.permitsDl' d2
        obtain ⟨qd, hqd, hqfi⟩ := gate
        refine ⟨_, _, _, qd, pingReply (cutFrame s.frame 0x0800), pr, rfl, (he.dlRule4 _).symm.trans d1, hqd, ?_⟩
        have := sent_tunnelled (e := e) (by have := hping.1; omega) hg (e.fib (fibReq4 e g'))
        have e2 : be16 ((pingReply (cutFrame s.frame 0x0800)).drop 14) 2 = be16 (pingReply (cutFrame s.frame 0x0800)) 16 := by
          unfold be16; rw [oct_drop, oct_drop]
        rw [e2]
        unfold tunnelOf at this ⊢
        rw [hqfi]
        exact this

/-- The ping of the demonstration tables with another payload than zeros, and the reply. -/
def DemoDp.upPing2 : List U8 := DemoDp.gpdu [0, 0, 1, 0] (DemoDp.ip4h 32 1 [10, 60, 0, 1] [10, 0, 3, 10] ++ [8, 0, 0xF3, 0xF5, 0, 1, 0, 2, 1, 3, 3, 4])
example : CsumValid (slice (DemoDp.upPing2.drop 50) 20 12) ∧ (runPacket DemoDp.env (DemoDp.ps DemoDp.upPing2)).2 = .ok (.redirect 7) ∧
    (runPacket DemoDp.env (DemoDp.ps DemoDp.upPing2)).1.frame.drop 58 =
      DemoDp.ip4h 32 1 [10, 0, 3, 10] [10, 60, 0, 1] ++ [0, 0, 0xFB, 0xF5, 0, 1, 0, 2, 1, 3, 3, 4] :=
  ⟨by unfold CsumValid; decide, by decide +kernel, by decide +kernel⟩

/-- **The corner.** A valid ping with identifier, sequence number and payload 0 gets a reply with an invalid checksum. -/
theorem C33_zero_ping : CsumValid (slice (DemoDp.upPing.drop 50) 20 8) ∧ (runPacket DemoDp.env (DemoDp.ps DemoDp.upPing)).2 = .ok (.redirect 7) ∧
    ¬ CsumValid (slice ((runPacket DemoDp.env (DemoDp.ps DemoDp.upPing)).1.frame.drop 58) 20 8) :=
  ⟨by unfold CsumValid; decide, DemoDp.runs.2.2.2.2.2.1, by unfold CsumValid; decide +kernel⟩

end Eupf
