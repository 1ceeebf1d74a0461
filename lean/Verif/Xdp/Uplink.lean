import Verif.Xdp.Goes
/- What the uplink handlers do to the frame. Models no code. -/
namespace Eupf

namespace Goes
variable {α : Type} {s : PS} {fr : List U8} {dp : BpfObjects} {a : α}

theorem ret (hf : s.frame = fr) (hd : s.dp = dp) : Goes (Pure.pure a) s fr dp a := by
  subst hf hd; exact Goes.pure a s
theorem st {o : Nat} {bs : List U8} {k : Unit → X α} (hb : o + bs.length ≤ s.frame.length)
    (h : ∀ s' : PS, s'.frame = put s.frame o bs → s'.dp = s.dp → s'.frame.length = s.frame.length → Goes (k ()) s' fr dp a) :
    Goes (Eupf.store o bs >>= k) s fr dp a :=
  via (bind_run (store_eval s hb)) rfl (h _ rfl rfl (put_length hb))
theorem st0 {o : Nat} {bs : List U8} (hb : o + bs.length ≤ s.frame.length) (hf : put s.frame o bs = fr) (hd : s.dp = dp) :
    Goes (Eupf.store o bs) s fr dp () := by
  subst hf hd; exact Goes.store hb
theorem l8 {o : Nat} {k : U8 → X α} (hb : o + 1 ≤ s.frame.length) (h : Goes (k (oct s.frame o)) s fr dp a) : Goes (ld8 o >>= k) s fr dp a :=
  via (bind_run (ld8_eval s hb)) rfl h
theorem l16 {o : Nat} {k : U16 → X α} (hb : o + 2 ≤ s.frame.length) (h : Goes (k (le16 s.frame o)) s fr dp a) : Goes (ld16 o >>= k) s fr dp a :=
  via (bind_run (ld16_eval s hb)) rfl h
theorem l32 {o : Nat} {k : U32 → X α} (hb : o + 4 ≤ s.frame.length) (h : Goes (k (le32 s.frame o)) s fr dp a) : Goes (ld32 o >>= k) s fr dp a :=
  via (bind_run (ld32_eval s hb)) rfl h
theorem lb {o n : Nat} {k : List U8 → X α} (hb : o + n ≤ s.frame.length) (h : Goes (k (slice s.frame o n)) s fr dp a) : Goes (ldBytes o n >>= k) s fr dp a :=
  via (bind_run (ldBytes_eval s hb)) rfl h
theorem fl {k : Nat → X α} (h : Goes (k s.frame.length) s fr dp a) : Goes (frameLen >>= k) s fr dp a :=
  via (bind_run (frameLen_eval s)) rfl h
theorem pt {o : Nat} {k : Nat → X α} (h : Goes (k o) s fr dp a) : Goes (ptr (some o) >>= k) s fr dp a :=
  via (bind_run (s' := s) (a := o) rfl) rfl h
theorem cnt {f : UpfStat → UpfStat} {k : Unit → X α} (hf : ∀ x, (f x).actions = x.actions)
    (h : ∀ st, Goes (k ()) (s.withSt st) fr dp a) : Goes (Eupf.count f >>= k) s fr dp a :=
  via (bind_run (s' := s.withSt (f s.st)) (a := ()) rfl) (hf s.st) (h _)
/-- run a part, forgetting the counters -/
theorem sub {β : Type} {m : X β} {k : β → X α} {b : β} {fr1 dp1} (h1 : Goes m s fr1 dp1 b)
    (h2 : ∀ s' : PS, s'.frame = fr1 → s'.dp = dp1 → Goes (k b) s' fr dp a) : Goes (m >>= k) s fr dp a :=
  Goes.bind h1 (fun _ _ => h2 _ rfl rfl)
theorem dp_eq {m : X α} {dp' : BpfObjects} (h : Goes m s fr dp a) (e : dp = dp') : Goes m s fr dp' a := e ▸ h
end Goes

/-! ### N9 -/

/-- the frame after `update_gtp_tunnel` -/
def retunnelFrame (f : List U8) (saddr daddr teid : U32) : List U8 :=
  let f1 := put f (gtpOff f + 4) (bytes32 (swap32 teid))
  let f2 := put f1 26 (bytes32 saddr)
  let f3 := put f2 30 (bytes32 daddr)
  let f4 := put f3 24 [0, 0]
  let f5 := put f4 24 (bytes16 (ipv4Csum (slice f4 14 20)))
  put f5 (l4Off f + 6) [0, 0]

theorem retunnel_goes (s : PS) {f : List U8} (hs : s.frame = f) (h34 : 34 ≤ f.length) (hl : gtpOff f + 8 ≤ f.length) (saddr daddr teid : U32) :
    Goes (updateGtpTunnel (ctxU f) saddr daddr teid) s (retunnelFrame f saddr daddr teid) s.dp () := by
  subst hs
  have hgo : gtpOff s.frame = l4Off s.frame + 8 := rfl
  unfold updateGtpTunnel
  refine Goes.pt (o := gtpOff s.frame) ?_
  refine Goes.st (by simp; omega) fun s1 f1 d1 n1 => ?_
  refine Goes.pt (o := 14) ?_
  refine Goes.st (by simp; omega) fun s2 f2 d2 n2 => ?_
  refine Goes.st (by simp; omega) fun s3 f3 d3 n3 => ?_
  refine Goes.st (by simp; omega) fun s4 f4 d4 n4 => ?_
  refine Goes.lb (by omega) ?_
  refine Goes.st (by simp; omega) fun s5 f5 d5 n5 => ?_
  refine Goes.pt (o := l4Off s.frame) ?_
  refine Goes.st0 (by simp; omega) ?_ (by rw [d5, d4, d3, d2, d1])
  unfold retunnelFrame
  simp only [f5, f4, f3, f2, f1]

theorem retunnel_length {f : List U8} (h34 : 34 ≤ f.length) (hl : gtpOff f + 8 ≤ f.length) (saddr daddr teid : U32) :
    (retunnelFrame f saddr daddr teid).length = f.length := by
  have hgo : gtpOff f = l4Off f + 8 := rfl
  unfold retunnelFrame
  simp only
  have l1 : (put f (gtpOff f + 4) (bytes32 (swap32 teid))).length = f.length := put_length (by rw [bytes32_length]; omega)
  generalize put f (gtpOff f + 4) (bytes32 (swap32 teid)) = f1 at *
  have l2 : (put f1 26 (bytes32 saddr)).length = f.length := by rw [put_length (by rw [bytes32_length]; omega), l1]
  generalize put f1 26 (bytes32 saddr) = f2 at *
  have l3 : (put f2 30 (bytes32 daddr)).length = f.length := by rw [put_length (by rw [bytes32_length]; omega), l2]
  generalize put f2 30 (bytes32 daddr) = f3 at *
  have l4 : (put f3 24 [0, 0]).length = f.length := by rw [put_length (by simp; omega), l3]
  generalize put f3 24 [0, 0] = f4 at *
  have l5 : (put f4 24 (bytes16 (ipv4Csum (slice f4 14 20)))).length = f.length := by rw [put_length (by simp; omega), l4]
  generalize put f4 24 (bytes16 (ipv4Csum (slice f4 14 20))) = f5 at *
  rw [put_length (by simp; omega), l5]

/-! ### decapsulation -/

/-- how many octets `remove_gtp_header` cuts off -/
def cutLen (f : List U8) : Nat := 36 + (if gtpHasOpt f then 8 else 0)

/-- the EtherType for the IP version of the packet behind the cut -/
def innerType (f : List U8) : Option U16 :=
  if (oct f (cutLen f + 14)).toNat / 16 = 4 then some 0x0800
  else if (oct f (cutLen f + 14)).toNat / 16 = 6 then some 0x86DD else none

/-- the frame after `remove_gtp_header` -/
def cutFrame (f : List U8) (t : U16) : List U8 := f.take 12 ++ bytes16 (swap16 t) ++ f.drop (cutLen f + 14)

theorem cutFrame_length {f : List U8} (t : U16) (h : cutLen f + 14 ≤ f.length) : (cutFrame f t).length = f.length - cutLen f := by
  unfold cutFrame
  simp only [List.length_append, List.length_take, List.length_drop, bytes16_length]
  omega

/-- does the packet behind the cut have a complete IP header? -/
def cutOk (f : List U8) : Prop := (innerType f = some 0x0800 ∧ cutLen f + 34 ≤ f.length) ∨ (innerType f = some 0x86DD ∧ cutLen f + 54 ≤ f.length)

theorem oct_take_lt {f : List U8} {i n : Nat} (h : i < n) : oct (f.take n) i = oct f i := by
  unfold oct; simp [h]
theorem oct_drop (f : List U8) (i n : Nat) : oct (f.drop n) i = oct f (n + i) := by
  unfold oct; simp
theorem oct_append (a b : List U8) (i : Nat) : oct (a ++ b) i = if i < a.length then oct a i else oct b (i - a.length) := by
  unfold oct; simp only [List.getD_eq_getElem?_getD, List.getElem?_append]; split <;> rfl

theorem cutFrame_type {f : List U8} (t : U16) (h : 12 ≤ f.length) : be16 (cutFrame f t) 12 = t := by
  have l12 : (f.take 12).length = 12 := by simp; omega
  unfold be16 cutFrame
  rw [bytes16_swap]
  simp only [oct_append, l12]
  simp [l12]
  unfold oct
  simp
  exact (cat16 t).symm

theorem put_append_add (a b bs : List U8) (j : Nat) : put (a ++ b) (a.length + j) bs = a ++ put b j bs := by
  unfold put
  rw [List.take_append, List.take_of_length_le (by omega), List.drop_append, List.drop_of_length_le (by omega)]
  simp only [Nat.add_sub_cancel_left, List.append_assoc, List.nil_append]
  rw [show a.length + j + bs.length - a.length = j + bs.length by omega]

theorem cut_frame {f : List U8} {k : Nat} (t : U16) (h : k + 14 ≤ f.length) :
    (put (put f k (slice f 0 14)) (k + 12) (bytes16 t)).drop k = f.take 12 ++ bytes16 t ++ f.drop (k + 14) := by
  have e0 : slice f 0 14 = f.take 14 := rfl
  have l14 : (f.take 14).length = 14 := by simp; omega
  have lk : (f.take k).length = k := by simp; omega
  have e1 : put f k (slice f 0 14) = f.take k ++ (f.take 14 ++ f.drop (k + 14)) := by
    unfold put; rw [e0, l14, List.append_assoc]
  rw [e1]
  conv => lhs; arg 2; arg 2; rw [← lk]
  rw [put_append_add, List.drop_append, lk, List.drop_of_length_le (by omega)]
  simp only [Nat.sub_self, List.drop_zero, List.nil_append]
  rw [put_append_left (by rw [l14, bytes16_length]; omega)]
  congr 1
  unfold put
  rw [bytes16_length, List.drop_of_length_le (by omega), List.append_nil, List.take_take]
  rfl

theorem reinit_eval (s : PS) (h : 14 ≤ s.frame.length) :
    (be16 s.frame 12 = 0x0800 → 34 ≤ s.frame.length → contextReinit {} s = (s, .ok ({ data := l4Off s.frame, eth := some 0, ip4 := some 14 }, true))) ∧
    (be16 s.frame 12 = 0x86DD → 54 ≤ s.frame.length → contextReinit {} s = (s, .ok ({ data := 54, eth := some 0, ip6 := some 14 }, true))) ∧
    (be16 s.frame 12 = 0x0800 → ¬ 34 ≤ s.frame.length → contextReinit {} s = (s, .ok ({ data := 14, eth := some 0 }, false))) ∧
    (be16 s.frame 12 = 0x86DD → ¬ 54 ≤ s.frame.length → contextReinit {} s = (s, .ok ({ data := 14, eth := some 0 }, false))) := by
  have e : contextReinit {} s = (match (({ data := 14, eth := some 0 }, some (be16 s.frame 12)) : Ctx × Option U16) with
    | (c, none) => return (c, false)
    | (c, some t) => 
      if t = 0x86DD then parseIp6 c >>= fun x => return (x.1, x.2.isSome)
      else if t = 0x0800 then parseIp4 c >>= fun x => return (x.1, x.2.isSome)
      else return (c, false) : X (Ctx × Bool)) s := by
    unfold contextReinit
    rw [bind_run (parseEthernet_eval _ _)]
    rw [if_neg (by simp; omega)]
  refine ⟨fun t l => ?_, fun t l => ?_, fun t l => ?_, fun t l => ?_⟩ <;> rw [e] <;> simp only [t]
  · rw [if_neg (by decide), if_pos trivial, bind_run (parseIp4_eval _ _), if_neg (by simp; omega)]; rfl
  · rw [if_pos trivial, bind_run (parseIp6_eval _ _), if_neg (by simp; omega)]; rfl
  · rw [if_neg (by decide), if_pos trivial, bind_run (parseIp4_eval _ _), if_pos (by simp; omega)]; rfl
  · rw [if_pos trivial, bind_run (parseIp6_eval _ _), if_pos (by simp; omega)]; rfl

theorem cut_goes (s : PS) {f : List U8} (hs : s.frame = f) (hl : gtpOff f + 8 ≤ f.length) :
    (cutOk f → ∃ t c, innerType f = some t ∧ Goes (removeGtpHeader (ctxU f)) s (cutFrame f t) s.dp (c, true) ∧
      c.eth = some 0 ∧ c.udp = none ∧ c.tcp = none ∧
      ((t = 0x0800 ∧ c.ip4 = some 14 ∧ c.ip6 = none ∧ cutLen f + 34 ≤ f.length) ∨
       (t = 0x86DD ∧ c.ip4 = none ∧ c.ip6 = some 14 ∧ cutLen f + 54 ≤ f.length))) ∧
    (¬ cutOk f → ∃ c fr, Goes (removeGtpHeader (ctxU f)) s fr s.dp (c, false)) := by
  subst hs
  have run : ∀ {fr dp a}, Goes (do
      let flags ← ld8 (gtpOff s.frame)
      let encap := 36 + (if gtpOpt flags then 8 else 0)
      let len ← frameLen
      if 14 > len then return (ctxU s.frame, false)
      if encap + 14 > len then return (ctxU s.frame, false)
      if encap + 15 > len then return (ctxU s.frame, false)
      match guessEthProtocol (← ld8 (encap + 14)) with
      | none => return (ctxU s.frame, false)
      | some proto =>
        let eth ← ldBytes 0 14
        store encap eth
        store (encap + 12) (bytes16 proto)
        Act.modify (fun s => { s with frame := s.frame.drop encap })
        contextReinit (ctxU s.frame) : X (Ctx × Bool)) s fr dp a → Goes (removeGtpHeader (ctxU s.frame)) s fr dp a := fun h => h
  by_cases h15 : cutLen s.frame + 15 > s.frame.length
  · refine ⟨fun h => ?_, fun _ => ?_⟩
    · unfold cutOk at h; omega
    · refine ⟨ctxU s.frame, s.frame, run ?_⟩
      refine Goes.l8 (by omega) ?_
      refine Goes.fl ?_
      rw [gtpOpt_eq]
      show Goes (if 14 > s.frame.length then _ else if cutLen s.frame + 14 > s.frame.length then _ else if cutLen s.frame + 15 > s.frame.length then _ else _) _ _ _ _
      rw [if_pos h15]
      split
      · exact Goes.pure _ _
      · split
        · exact Goes.pure _ _
        · exact Goes.pure _ _
  · have pre : ∀ {fr dp a}, Goes (match guessEthProtocol (oct s.frame (cutLen s.frame + 14)) with
        | none => return (ctxU s.frame, false)
        | some proto =>
          ldBytes 0 14 >>= fun eth =>
          store (cutLen s.frame) eth >>= fun _ =>
          store (cutLen s.frame + 12) (bytes16 proto) >>= fun _ =>
          Act.modify (fun s' => { s' with frame := s'.frame.drop (cutLen s.frame) }) >>= fun _ =>
          contextReinit (ctxU s.frame) : X (Ctx × Bool)) s fr dp a → Goes (removeGtpHeader (ctxU s.frame)) s fr dp a := by
      intro fr dp a h
      refine run ?_
      refine Goes.l8 (by omega) ?_
      refine Goes.fl ?_
      rw [gtpOpt_eq]
      show Goes (if 14 > s.frame.length then _ else if cutLen s.frame + 14 > s.frame.length then _ else if cutLen s.frame + 15 > s.frame.length then _ else ld8 (cutLen s.frame + 14) >>= _) _ _ _ _
      rw [if_neg h15, if_neg (by omega), if_neg (by omega)]
      exact Goes.l8 (by omega) h
    have guess : guessEthProtocol (oct s.frame (cutLen s.frame + 14)) = (innerType s.frame).map swap16 := by
      rw [guess4]; unfold innerType
      split
      · rfl
      · split <;> rfl
    rw [guess] at pre
    have lcut : (cutFrame s.frame 0).length = s.frame.length - cutLen s.frame := cutFrame_length 0 (by omega)
    have to : ∀ {t fr dp a}, innerType s.frame = some t →
        (∀ s' : PS, s'.frame = cutFrame s.frame t → s'.dp = s.dp → s'.frame.length = s.frame.length - cutLen s.frame →
          be16 s'.frame 12 = t → Goes (contextReinit {}) s' fr dp a) → Goes (removeGtpHeader (ctxU s.frame)) s fr dp a := by
      intro t fr dp a ht h
      refine pre ?_
      rw [ht]
      simp only [Option.map_some]
      refine Goes.lb (by omega) ?_
      have l0 : (slice s.frame 0 14).length = 14 := slice_length (by omega)
      refine Goes.st (by rw [l0]; omega) fun s1 f1 d1 n1 => ?_
      refine Goes.st (by rw [bytes16_length]; omega) fun s2 f2 d2 n2 => ?_
      refine Goes.via (bind_run (Act.modify_apply _ _)) rfl ?_
      have hf : s2.frame.drop (cutLen s.frame) = cutFrame s.frame t := by
        rw [f2, f1]; exact cut_frame _ (by omega)
      exact h _ hf (by simp only [d2, d1]) (by simp only; rw [hf]; exact cutFrame_length t (by omega)) (by simp only; rw [hf]; exact cutFrame_type t (by omega))
    rcases hT : innerType s.frame with _ | t
    · refine ⟨fun h => ?_, fun _ => ?_⟩
      · unfold cutOk at h; simp [hT] at h
      · refine ⟨ctxU s.frame, s.frame, pre ?_⟩
        rw [hT]
        exact Goes.pure _ _
    · have h2 : t = 0x0800 ∨ t = 0x86DD := by
        unfold innerType at hT
        split at hT
        · left; exact (Option.some.inj hT).symm
        · split at hT
          · right; exact (Option.some.inj hT).symm
          · cases hT
      rcases h2 with rfl | rfl
      · refine ⟨fun h => ?_, fun h => ?_⟩
        · unfold cutOk at h; simp [hT] at h
          refine ⟨_, ⟨l4Off (cutFrame s.frame 0x0800), some 0, some 14, none, none, none, none⟩, rfl, to hT fun s' f' d' n' t' => ?_, rfl, rfl, rfl, .inl ⟨rfl, rfl, rfl, h⟩⟩
          have := Goes.done ((reinit_eval s' (by omega)).1 t' (by omega))
          rw [f', d'] at this; exact this
        · unfold cutOk at h; simp [hT] at h
          refine ⟨⟨14, some 0, none, none, none, none, none⟩, cutFrame s.frame 0x0800, to hT fun s' f' d' n' t' => ?_⟩
          have := Goes.done ((reinit_eval s' (by omega)).2.2.1 t' (by omega))
          rw [f', d'] at this; exact this
      · refine ⟨fun h => ?_, fun h => ?_⟩
        · unfold cutOk at h; simp [hT] at h
          refine ⟨_, ⟨54, some 0, none, some 14, none, none, none⟩, rfl, to hT fun s' f' d' n' t' => ?_, rfl, rfl, rfl, .inr ⟨rfl, rfl, rfl, h⟩⟩
          have := Goes.done ((reinit_eval s' (by omega)).2.1 t' (by omega))
          rw [f', d'] at this; exact this
        · unfold cutOk at h; simp [hT] at h
          refine ⟨⟨14, some 0, none, none, none, none, none⟩, cutFrame s.frame 0x86DD, to hT fun s' f' d' n' t' => ?_⟩
          have := Goes.done ((reinit_eval s' (by omega)).2.2.2 t' (by omega))
          rw [f', d'] at this; exact this

end Eupf
