import Verif.Xdp.Uplink
/- What the echo handlers do to the frame. Models no code. -/
namespace Eupf

/-- the frame with its MAC addresses exchanged -/
def macSwapped (f : List U8) : List U8 := put (put f 6 (slice f 0 6)) 0 (slice f 6 6)
/-- the frame with the IPv4 addresses of the header at 14 exchanged -/
def ipSwapped (f : List U8) : List U8 := put (put f 30 (bytes32 (le32 f 26))) 26 (bytes32 (le32 f 30))
/-- the frame with the UDP ports of the header at `u` exchanged and the UDP checksum cleared -/
def portSwapped (f : List U8) (u : Nat) : List U8 := put (put (put f (u + 2) (bytes16 (le16 f u))) u (bytes16 (le16 f (u + 2)))) (u + 6) [0, 0]

theorem macSwapped_length {f : List U8} (h : 14 ≤ f.length) : (macSwapped f).length = f.length := by
  unfold macSwapped
  rw [put_length, put_length]
  · rw [slice_length] <;> omega
  · rw [put_length, slice_length] <;> (try rw [slice_length]) <;> omega
theorem ipSwapped_length {f : List U8} (h : 34 ≤ f.length) : (ipSwapped f).length = f.length := by
  unfold ipSwapped
  rw [put_length, put_length]
  · rw [bytes32_length]; omega
  · rw [put_length] <;> rw [bytes32_length] <;> omega
theorem portSwapped_length {f : List U8} {u : Nat} (h : u + 8 ≤ f.length) : (portSwapped f u).length = f.length := by
  unfold portSwapped
  have l1 : (put f (u + 2) (bytes16 (le16 f u))).length = f.length := put_length (by rw [bytes16_length]; omega)
  generalize put f (u + 2) (bytes16 (le16 f u)) = f1 at *
  have l2 : (put f1 u (bytes16 (le16 f (u + 2)))).length = f.length := by rw [put_length (by rw [bytes16_length]; omega), l1]
  rw [put_length (by simp; omega), l2]

theorem swapMac_goes (s : PS) (h : 14 ≤ s.frame.length) : Goes (swapMac 0) s (macSwapped s.frame) s.dp () := by
  unfold swapMac
  refine Goes.lb (by omega) ?_
  refine Goes.lb (by omega) ?_
  refine Goes.st (by rw [slice_length (by omega)]; omega) fun s1 f1 d1 n1 => ?_
  refine Goes.st0 (by rw [slice_length (by omega)]; omega) ?_ d1
  rw [f1]; rfl
theorem swapIp_goes (s : PS) (h : 34 ≤ s.frame.length) : Goes (swapIp 14) s (ipSwapped s.frame) s.dp () := by
  unfold swapIp
  refine Goes.l32 (by omega) ?_
  refine Goes.l32 (by omega) ?_
  refine Goes.st (by rw [bytes32_length]; omega) fun s1 f1 d1 n1 => ?_
  refine Goes.st0 (by rw [bytes32_length]; omega) ?_ d1
  rw [f1]; rfl
theorem swapPort_goes (s : PS) (u : Nat) (h : u + 8 ≤ s.frame.length) : Goes (swapPort u) s (portSwapped s.frame u) s.dp () := by
  unfold swapPort
  refine Goes.l16 (by omega) ?_
  refine Goes.l16 (by omega) ?_
  refine Goes.st (by rw [bytes16_length]; omega) fun s1 f1 d1 n1 => ?_
  refine Goes.st (by rw [bytes16_length]; omega) fun s2 f2 d2 n2 => ?_
  refine Goes.st0 (by simp; omega) ?_ (d2.trans d1)
  rw [f2, f1]; rfl

/-- the frame after `prepare_icmp_echo_reply` -/
def pingReply (f : List U8) : List U8 :=
  let f2 := ipSwapped (macSwapped f)
  let f4 := put (put f2 34 [0]) 35 [0]
  put f4 36 (bytes16 (csumReplace (le16 f4 36) (le16 f2 34) (le16 f4 34)))

theorem ping_goes (s : PS) (c : Ctx) (h4 : c.ip4 = some 14) (he : c.eth = some 0) (hl : 34 ≤ s.frame.length) :
    (42 ≤ s.frame.length ∧ oct (ipSwapped (macSwapped s.frame)) 34 = 8 → Goes (prepareIcmpEchoReply c) s (pingReply s.frame) s.dp true) ∧
    (¬ (42 ≤ s.frame.length ∧ oct (ipSwapped (macSwapped s.frame)) 34 = 8) → Goes (prepareIcmpEchoReply c) s (ipSwapped (macSwapped s.frame)) s.dp false) := by
  have pre : ∀ {fr dp a}, (∀ s' : PS, s'.frame = ipSwapped (macSwapped s.frame) → s'.dp = s.dp → s'.frame.length = s.frame.length → Goes (do
      if 14 + 28 > s'.frame.length then return false
      let t ← ld8 (14 + 20)
      if t ≠ 8 then return false
      let old ← ld16 (14 + 20)
      store (14 + 20) [0]
      store (14 + 21) [0]
      let new ← ld16 (14 + 20)
      let sum ← ld16 (14 + 22)
      store (14 + 22) (bytes16 (csumReplace sum old new))
      return true : X Bool) s' fr dp a) → Goes (prepareIcmpEchoReply c) s fr dp a := by
    intro fr dp a h
    unfold prepareIcmpEchoReply
    rw [h4, he]
    simp only
    refine Goes.pt ?_
    refine Goes.sub (swapMac_goes s (by omega)) fun s1 f1 d1 => ?_
    have n1 : s1.frame.length = s.frame.length := by rw [f1, macSwapped_length (by omega)]
    refine Goes.fl ?_
    rw [if_neg (by omega)]
    refine Goes.sub (swapIp_goes s1 (by omega)) fun s2 f2 d2 => ?_
    have n2 : s2.frame.length = s.frame.length := by rw [f2, ipSwapped_length (by omega), n1]
    have := h s2 (by rw [f2, f1]) (d2.trans d1) n2
    rw [n2] at this
    rw [n1]
    exact this
  constructor
  · rintro ⟨h42, ht⟩
    refine pre fun s' f' d' n' => ?_
    rw [if_neg (by omega)]
    refine Goes.l8 (by omega) ?_
    rw [if_neg (by rw [f']; simp [ht])]
    refine Goes.l16 (by omega) ?_
    refine Goes.st (by simp; omega) fun s1 f1 d1 n1 => ?_
    refine Goes.st (by simp; omega) fun s2 f2 d2 n2 => ?_
    refine Goes.l16 (by omega) ?_
    refine Goes.l16 (by omega) ?_
    refine Goes.st (by simp; omega) fun s3 f3 d3 n3 => ?_
    refine Goes.ret ?_ (by rw [d3, d2, d1, d'])
    rw [f3, f2, f1, f']
    rfl
  · intro hn
    refine pre fun s' f' d' n' => ?_
    by_cases h42 : 14 + 28 > s'.frame.length
    · rw [if_pos h42]; exact Goes.ret f' d'
    · rw [if_neg h42]
      refine Goes.l8 (by omega) ?_
      rw [if_pos (by rw [f']; intro h; exact hn ⟨by omega, h⟩)]
      exact Goes.ret f' d'

/-- room for the recovery element -/
def recOff (f : List U8) : Nat := gtpOff f + 8 + (if gtpHasOpt f then 4 else 0)

/-- the echo response before the recovery element -/
def echoBase (f : List U8) : List U8 := macSwapped (portSwapped (ipSwapped (put f (gtpOff f + 1) [2])) (l4Off f))

/-- add to a big-endian field -/
def bumped (f : List U8) (o : Nat) (n : U16) : List U8 := put f o (bytes16 (swap16 (swap16 (le16 f o) + n)))
theorem bumped_length {f : List U8} {o : Nat} {n : U16} (h : o + 2 ≤ f.length) : (bumped f o n).length = f.length :=
  put_length (by rw [bytes16_length]; exact h)
theorem addBe16_goes (s : PS) (o : Nat) (n : U16) (h : o + 2 ≤ s.frame.length) : Goes (addBe16 o n) s (bumped s.frame o n) s.dp () := by
  unfold addBe16
  refine Goes.l16 h ?_
  exact Goes.st0 (by rw [bytes16_length]; exact h) rfl rfl

/-- the echo response -/
def echoFrame (f : List U8) : List U8 :=
  let g := echoBase f
  -- the flags of the response are read in the frame
  let r := gtpOff f + 8 + (if gtpOpt (oct g (gtpOff f)) then 4 else 0)
  if r + 2 ≤ f.length then
    let g1 := put g r [14, 0]
    let g2 := bumped (bumped (bumped g1 (gtpOff f + 2) 2) (l4Off f + 4) 2) 16 2
    let g3 := put g2 24 [0, 0]
    put g3 24 (bytes16 (ipv4Csum (slice g3 14 20)))
  else g

theorem echoBase_length {f : List U8} (h34 : 34 ≤ f.length) (hl : gtpOff f + 8 ≤ f.length) : (echoBase f).length = f.length := by
  have hgo : gtpOff f = l4Off f + 8 := rfl
  unfold echoBase
  have l0 : (put f (gtpOff f + 1) [2]).length = f.length := put_length (by simp; omega)
  rw [macSwapped_length, portSwapped_length, ipSwapped_length, l0]
  all_goals (try rw [portSwapped_length]) <;> (try rw [ipSwapped_length]) <;> omega

theorem recovery_goes (s : PS) (g : Nat) (h : g + 8 ≤ s.frame.length) :
    if g + 8 + (if gtpOpt (oct s.frame g) then 4 else 0) + 2 ≤ s.frame.length
    then Goes (insertRecovery g) s (put s.frame (g + 8 + (if gtpOpt (oct s.frame g) then 4 else 0)) [14, 0]) s.dp true
    else Goes (insertRecovery g) s s.frame s.dp false := by
  unfold insertRecovery
  by_cases hl : g + 8 + (if gtpOpt (oct s.frame g) then 4 else 0) + 2 ≤ s.frame.length
  · rw [if_pos hl]
    refine Goes.l8 (by omega) ?_
    refine Goes.fl ?_
    by_cases ho : gtpOpt (oct s.frame g) = true
    · simp only [ho, if_true] at hl ⊢
      rw [if_neg (by omega), if_neg (by omega)]
      exact Goes.st (by simp; omega) fun s1 f1 d1 n1 => Goes.ret f1 d1
    · simp only [ho] at hl ⊢
      rw [if_neg (by simp), if_neg (by simp at hl; omega)]
      exact Goes.st (by simp at hl ⊢; omega) fun s1 f1 d1 n1 => Goes.ret (by rw [f1]; rfl) d1
  · rw [if_neg hl]
    refine Goes.l8 (by omega) ?_
    refine Goes.fl ?_
    by_cases ho : gtpOpt (oct s.frame g) = true
    · simp only [ho, if_true] at hl ⊢
      split
      · exact Goes.pure _ _
      · rw [if_pos (by omega)]; exact Goes.pure _ _
    · simp only [ho] at hl ⊢
      rw [if_neg (by simp), if_pos (by simp at hl; omega)]
      exact Goes.pure _ _

theorem echo_goes (s : PS) {f : List U8} (hs : s.frame = f) (h34 : 34 ≤ f.length) (hl : gtpOff f + 8 ≤ f.length) :
    Goes (handleEchoRequest (ctxU f)) s (echoFrame f) s.dp .tx := by
  subst hs
  have hgo : gtpOff s.frame = l4Off s.frame + 8 := rfl
  unfold handleEchoRequest
  refine Goes.pt (o := gtpOff s.frame) ?_
  refine Goes.pt (o := 14) ?_
  refine Goes.pt (o := l4Off s.frame) ?_
  refine Goes.pt (o := 0) ?_
  refine Goes.st (by simp; omega) fun s1 f1 d1 n1 => ?_
  refine Goes.sub (swapIp_goes s1 (by omega)) fun s2 f2 d2 => ?_
  have n2 : s2.frame.length = s.frame.length := by rw [f2, ipSwapped_length (by omega), n1]
  refine Goes.sub (swapPort_goes s2 _ (by omega)) fun s3 f3 d3 => ?_
  have n3 : s3.frame.length = s.frame.length := by rw [f3, portSwapped_length (by omega), n2]
  refine Goes.sub (swapMac_goes s3 (by omega)) fun s4 f4 d4 => ?_
  have n4 : s4.frame.length = s.frame.length := by rw [f4, macSwapped_length (by omega), n3]
  have e4 : s4.frame = echoBase s.frame := by rw [f4, f3, f2, f1]; rfl
  have hd4 : s4.dp = s.dp := by rw [d4, d3, d2, d1]
  have hi := recovery_goes s4 (gtpOff s.frame) (by omega)
  unfold echoFrame
  simp only [← e4]
  rw [n4] at hi
  generalize hr : gtpOff s.frame + 8 + (if gtpOpt (oct s4.frame (gtpOff s.frame)) = true then 4 else 0) = r at hi
  by_cases hrl : r + 2 ≤ s.frame.length
  · rw [if_pos hrl] at hi
    rw [if_pos hrl]
    refine Goes.sub hi fun s5 f5 d5 => ?_
    have n5 : s5.frame.length = s.frame.length := by rw [f5, put_length (by simp; omega), n4]
    rw [if_pos rfl]
    refine Goes.sub (addBe16_goes s5 _ _ (by omega)) fun s6 f6 d6 => ?_
    have n6 : s6.frame.length = s.frame.length := by rw [f6, bumped_length (by omega), n5]
    refine Goes.sub (addBe16_goes s6 _ _ (by omega)) fun s7 f7 d7 => ?_
    have n7 : s7.frame.length = s.frame.length := by rw [f7, bumped_length (by omega), n6]
    refine Goes.sub (addBe16_goes s7 _ _ (by omega)) fun s8 f8 d8 => ?_
    have n8 : s8.frame.length = s.frame.length := by rw [f8, bumped_length (by omega), n7]
    refine Goes.st (by simp; omega) fun s9 f9 d9 n9 => ?_
    refine Goes.lb (by omega) ?_
    refine Goes.st (by simp; omega) fun s10 f10 d10 n10 => ?_
    refine Goes.ret ?_ (by rw [d10, d9, d8, d7, d6, d5, hd4])
    rw [f10, f9, f8, f7, f6, f5]
  · rw [if_neg hrl] at hi
    rw [if_neg hrl]
    refine Goes.sub hi fun s5 f5 d5 => ?_
    exact Goes.ret f5 (d5.trans hd4)

end Eupf
