import Verif.Xdp.Eval
/- Which handler gets which frame. Models no code. -/
namespace Eupf

def ctxU (f : List U8) : Ctx :=
  { data := gtpOff f + 8 + (if gtpHasOpt f then 8 else 0), eth := some 0, ip4 := some 14, udp := some (l4Off f), gtp := some (gtpOff f) }
def down4Udp (f : List U8) : Option Nat := if oct f 23 = 17 ∧ l4Off f + 8 ≤ f.length then some (l4Off f) else none
def down4Tcp (f : List U8) : Option Nat := if oct f 23 = 6 ∧ l4Off f + 20 ≤ f.length then some (l4Off f) else none
def down6Tcp (f : List U8) : Option Nat := if oct f 20 = 6 ∧ 54 + 20 ≤ f.length then some 54 else none

theorem parse_ip4_frame {f : List U8} {s : PS} (hs : s.frame = f) (h : IsIp4 f) :
    parseEthernet {} s = (s, .ok ({ data := 14, eth := some 0 }, some 0x0800)) ∧
    parseIp4 { data := 14, eth := some 0 } s = (s, .ok ({ data := l4Off f, eth := some 0, ip4 := some 14 }, some (oct f 23))) := by
  have := h.len
  rw [parseEthernet_eval, parseIp4_eval, hs]
  constructor
  · rw [if_neg (by simp; omega)]
    simp [h.type]
  · rw [if_neg (by simp; omega)]; rfl

theorem parse_ip6_frame {f : List U8} {s : PS} (hs : s.frame = f) (h : IsIp6 f) :
    parseEthernet {} s = (s, .ok ({ data := 14, eth := some 0 }, some 0x86DD)) ∧
    parseIp6 { data := 14, eth := some 0 } s = (s, .ok ({ data := 54, eth := some 0, ip6 := some 14 }, some (oct f 20))) := by
  have := h.len
  rw [parseEthernet_eval, parseIp6_eval, hs]
  constructor
  · rw [if_neg (by simp; omega)]
    simp [h.type]
  · rw [if_neg (by simp; omega)]

/-- the state with other statistics -/
def PS.withSt (s : PS) (st : UpfStat) : PS := { s with st := st }
@[simp] theorem PS.withSt_frame (s : PS) (st) : (s.withSt st).frame = s.frame := rfl
@[simp] theorem PS.withSt_dp (s : PS) (st) : (s.withSt st).dp = s.dp := rfl
@[simp] theorem PS.withSt_rt (s : PS) (st) : (s.withSt st).rt = s.rt := rfl
@[simp] theorem PS.withSt_st (s : PS) (st) : (s.withSt st).st = st := rfl
@[simp] theorem PS.withSt_withSt (s : PS) (a b) : (s.withSt a).withSt b = s.withSt b := rfl
theorem count_withSt (s : PS) (f : UpfStat → UpfStat) : count f s = (s.withSt (f s.st), .ok ()) := rfl

/-- counters that leave the action counters alone -/
def SameActions (a b : UpfStat) : Prop := b.actions = a.actions

theorem step_count {α : Type} {s : PS} {st0 st1 : UpfStat} {f : UpfStat → UpfStat} {k : Unit → X α} {R : UpfStat → PS × Res α}
    (hf : ∀ x, (f x).actions = x.actions) (a : SameActions st0 st1)
    (h : ∀ st', SameActions st0 st' → ∃ st, SameActions st0 st ∧ k () (s.withSt st') = R st) :
    ∃ st, SameActions st0 st ∧ (count f >>= k) (s.withSt st1) = R st := by
  obtain ⟨st, h1, h2⟩ := h (f st1) ((hf st1).trans a)
  exact ⟨st, h1, h2⟩

theorem process_ip4 (e : Env) {f : List U8} {s : PS} (hs : s.frame = f) (h : IsIp4 f) :
    ∃ st, SameActions s.st st ∧ processPacket e s = handleIp4 e { data := 14, eth := some 0 } (s.withSt st) := by
  refine ⟨{ s.st with rxIp4 := s.st.rxIp4 + 1 }, rfl, ?_⟩
  unfold processPacket
  rw [bind_run (parse_ip4_frame hs h).1]
  rfl
theorem process_ip6 (e : Env) {f : List U8} {s : PS} (hs : s.frame = f) (h : IsIp6 f) :
    ∃ st, SameActions s.st st ∧ processPacket e s = handleIp6 e { data := 14, eth := some 0 } (s.withSt st) := by
  refine ⟨{ s.st with rxIp6 := s.st.rxIp6 + 1 }, rfl, ?_⟩
  unfold processPacket
  rw [bind_run (parse_ip6_frame hs h).1]
  rfl

theorem process_gtpu (e : Env) {f : List U8} {s : PS} (hs : s.frame = f) (h : IsGtpu e f) :
    ∃ st, SameActions s.st st ∧ processPacket e s =
      handleGtpu e { data := gtpOff f, eth := some 0, ip4 := some 14, udp := some (l4Off f) } (s.withSt st) := by
  obtain ⟨st1, a1, h1⟩ := process_ip4 e hs h.ip
  have hl := h.len
  have hl2 := h.ip.len
  rw [h1]
  unfold handleIp4
  rw [bind_run (parse_ip4_frame (s := s.withSt st1) hs h.ip).2]
  simp only [h.proto]
  rw [if_neg (by decide), if_pos trivial]
  refine step_count (fun _ => rfl) a1 (fun st2 a2 => ?_)
  rw [bind_run (parseUdp_eval _ _)]
  simp only [PS.withSt_frame, hs]
  rw [if_neg (show ¬ (l4Off f + 8 > f.length) by omega)]
  simp only [ptr]
  rw [bind_run (Act.pure_apply _ _), bind_run (ld32_eval _ (by simp only [PS.withSt_frame, hs]; omega))]
  simp only [PS.withSt_frame, hs]
  rw [if_pos ⟨by rw [h.port], by rw [le32_eq, le32_eq]; exact h.dst⟩]
  exact step_count (fun _ => rfl) a2 (fun st3 a3 => ⟨st3, a3, rfl⟩)

theorem process_msg (e : Env) {f : List U8} {s : PS} (hs : s.frame = f) {t : U8} (h : IsGtpMsg e f t) :
    ∃ st, SameActions s.st st ∧ processPacket e s =
      (if t = 255 then handleGtpPacket e (ctxU f) (s.withSt st)
       else if t = 1 then handleEchoRequest (ctxU f) (s.withSt st)
       else (s.withSt st, .ok .pass)) := by
  obtain ⟨st1, a1, h1⟩ := process_gtpu e hs h.gtpu
  have hl := h.len
  rw [h1]
  unfold handleGtpu
  rw [bind_run (parseGtp_eval _ _)]
  simp only [PS.withSt_frame, hs]
  rw [if_neg (show ¬ (gtpOff f + 8 > f.length) by omega)]
  simp only [h.type, gtpOpt_eq, Option.some.injEq]
  have hc : (⟨gtpOff f + 8 + (if decide ((oct f (gtpOff f)).toNat % 8 ≠ 0) = true then 8 else 0), some 0, some 14, none,
      some (l4Off f), none, some (gtpOff f)⟩ : Ctx) = ctxU f := rfl
  rw [hc]
  by_cases h255 : t = 255
  · simp only [h255, if_true]
    exact step_count (fun _ => rfl) a1 (fun st2 a2 => ⟨st2, a2, rfl⟩)
  · simp only [h255, if_false]
    by_cases ht1 : t = 1
    · simp only [ht1, if_true]
      exact step_count (fun _ => rfl) a1 (fun st2 a2 => ⟨st2, a2, rfl⟩)
    · simp only [ht1, if_false]
      by_cases ht2 : t = 2
      · simp only [ht2, if_true]
        exact ⟨st1, a1, rfl⟩
      · simp only [ht2, if_false]
        split
        · exact step_count (fun _ => rfl) a1 (fun st2 a2 => ⟨st2, a2, rfl⟩)
        · exact step_count (fun _ => rfl) a1 (fun st2 a2 => ⟨st2, a2, rfl⟩)

/-- a truncated GTP-U header -/
theorem process_short (e : Env) {f : List U8} {s : PS} (hs : s.frame = f) (h : IsGtpu e f) (hl : f.length < gtpOff f + 8) :
    ∃ st, SameActions s.st st ∧ processPacket e s = (s.withSt st, .ok .pass) := by
  obtain ⟨st1, a1, h1⟩ := process_gtpu e hs h
  rw [h1]
  unfold handleGtpu
  rw [bind_run (parseGtp_eval _ _)]
  simp only [PS.withSt_frame, hs]
  rw [if_pos (show gtpOff f + 8 > f.length by omega)]
  exact step_count (fun _ => rfl) a1 (fun st2 a2 => ⟨st2, a2, rfl⟩)

theorem process_down4 (e : Env) {f : List U8} {s : PS} (hs : s.frame = f) (h : IsDown4 e f) :
    ∃ d st, SameActions s.st st ∧ processPacket e s =
      handleN6Ip4 e { data := d, eth := some 0, ip4 := some 14, udp := down4Udp f, tcp := down4Tcp f } (s.withSt st) := by
  obtain ⟨st1, a1, h1⟩ := process_ip4 e hs h.ip
  have hl2 := h.ip.len
  rw [h1]
  unfold handleIp4
  rw [bind_run (parse_ip4_frame (s := s.withSt st1) hs h.ip).2]
  rcases h.proto with hp | hp | hp
  · have hu : down4Udp f = none := by simp [down4Udp, hp]
    have ht : down4Tcp f = none := by simp [down4Tcp, hp]
    simp only [hp, if_true, hu, ht]
    unfold n6Ip4
    refine ⟨l4Off f, step_count (fun _ => rfl) a1 (fun st2 a2 => ?_)⟩
    exact step_count (fun _ => rfl) a2 (fun st3 a3 => ⟨st3, a3, rfl⟩)
  · have hu : down4Udp f = none := by simp [down4Udp, hp]
    simp only [hp, hu]
    rw [if_neg (by decide), if_neg (by decide), if_pos trivial]
    unfold n6Ip4
    by_cases hl : l4Off f + 20 > f.length
    · have ht : down4Tcp f = none := by simp [down4Tcp, hl]
      rw [ht]
      refine ⟨l4Off f, step_count (fun _ => rfl) a1 (fun st2 a2 => ?_)⟩
      rw [bind_run (parseTcp_eval _ _)]
      simp only [PS.withSt_frame, hs]
      rw [if_pos hl]
      exact step_count (fun _ => rfl) a2 (fun st3 a3 => ⟨st3, a3, rfl⟩)
    · have ht : down4Tcp f = some (l4Off f) := by simp [down4Tcp, hp, Nat.not_lt.1 hl]
      rw [ht]
      refine ⟨l4Off f + 20, step_count (fun _ => rfl) a1 (fun st2 a2 => ?_)⟩
      rw [bind_run (parseTcp_eval _ _)]
      simp only [PS.withSt_frame, hs]
      rw [if_neg hl]
      exact step_count (fun _ => rfl) a2 (fun st3 a3 => ⟨st3, a3, rfl⟩)
  · have ht : down4Tcp f = none := by simp [down4Tcp, hp]
    simp only [hp, ht]
    rw [if_neg (by decide), if_pos trivial]
    unfold n6Ip4
    by_cases hl : l4Off f + 8 > f.length
    · have hu : down4Udp f = none := by simp [down4Udp, hl]
      rw [hu]
      refine ⟨l4Off f, step_count (fun _ => rfl) a1 (fun st2 a2 => ?_)⟩
      rw [bind_run (parseUdp_eval _ _)]
      simp only [PS.withSt_frame, hs]
      rw [if_pos hl]
      simp only [ptr]
      rw [bind_run (Act.pure_apply _ _), bind_run (ld32_eval _ (by simp only [PS.withSt_frame, hs]; omega)), if_neg (by simp)]
      exact step_count (fun _ => rfl) a2 (fun st3 a3 => ⟨st3, a3, rfl⟩)
    · have hu : down4Udp f = some (l4Off f) := by simp [down4Udp, hp, Nat.not_lt.1 hl]
      rw [hu]
      refine ⟨l4Off f + 8, step_count (fun _ => rfl) a1 (fun st2 a2 => ?_)⟩
      rw [bind_run (parseUdp_eval _ _)]
      simp only [PS.withSt_frame, hs]
      rw [if_neg hl]
      simp only [ptr]
      rw [bind_run (Act.pure_apply _ _), bind_run (ld32_eval _ (by simp only [PS.withSt_frame, hs]; omega)), if_neg ?_]
      · exact step_count (fun _ => rfl) a2 (fun st3 a3 => ⟨st3, a3, rfl⟩)
      · simp only [PS.withSt_frame, hs, Option.some.injEq]
        rintro ⟨q1, q2⟩
        exact h.notGtpu ⟨h.ip, hp, by omega, q1, by rw [le32_eq, le32_eq] at q2; exact q2⟩

theorem process_down6 (e : Env) {f : List U8} {s : PS} (hs : s.frame = f) (h : IsDown6 f) :
    ∃ d st, SameActions s.st st ∧ processPacket e s =
      handleN6Ip6 e { data := d, eth := some 0, ip6 := some 14, tcp := down6Tcp f } (s.withSt st) := by
  obtain ⟨st1, a1, h1⟩ := process_ip6 e hs h.ip
  have hl2 := h.ip.len
  rw [h1]
  unfold handleIp6
  rw [bind_run (parse_ip6_frame (s := s.withSt st1) hs h.ip).2]
  rcases h.proto with hp | hp
  · simp only [hp]
    rw [if_neg (by decide), if_neg (by decide), if_pos trivial]
    unfold n6Ip6
    by_cases hl : 54 + 20 > f.length
    · have ht : down6Tcp f = none := by unfold down6Tcp; rw [if_neg (by omega)]
      rw [ht]
      refine ⟨54, step_count (fun _ => rfl) a1 (fun st2 a2 => ?_)⟩
      rw [bind_run (parseTcp_eval _ _)]
      simp only [PS.withSt_frame, hs]
      rw [if_pos hl]
      exact step_count (fun _ => rfl) a2 (fun st3 a3 => ⟨st3, a3, rfl⟩)
    · have ht : down6Tcp f = some 54 := by unfold down6Tcp; rw [if_pos ⟨hp, by omega⟩]
      rw [ht]
      refine ⟨74, step_count (fun _ => rfl) a1 (fun st2 a2 => ?_)⟩
      rw [bind_run (parseTcp_eval _ _)]
      simp only [PS.withSt_frame, hs]
      rw [if_neg hl]
      exact step_count (fun _ => rfl) a2 (fun st3 a3 => ⟨st3, a3, rfl⟩)
  · have ht : down6Tcp f = none := by simp [down6Tcp, hp]
    simp only [hp, ht]
    rw [if_neg (by decide), if_pos trivial]
    unfold n6Ip6
    refine ⟨54, step_count (fun _ => rfl) a1 (fun st2 a2 => ?_)⟩
    exact step_count (fun _ => rfl) a2 (fun st3 a3 => ⟨st3, a3, rfl⟩)

theorem process_foreign (e : Env) {f : List U8} {s : PS} (hs : s.frame = f) (h : Foreign e f) :
    ∃ st, SameActions s.st st ∧ processPacket e s = (s.withSt st, .ok .pass) := by
  by_cases h4 : IsIp4 f
  · by_cases hg : IsGtpu e f
    · by_cases hl : f.length < gtpOff f + 8
      · exact process_short e hs hg hl
      · exact absurd ⟨hg, by omega, rfl⟩ (h.notMsg (oct f (gtpOff f + 1)))
    · have hp : ¬ (oct f 23 = 1 ∨ oct f 23 = 6 ∨ oct f 23 = 17) := fun hp => h.notDown4 ⟨h4, hp, hg⟩
      simp only [not_or] at hp
      obtain ⟨st1, a1, h1⟩ := process_ip4 e hs h4
      rw [h1]
      unfold handleIp4
      rw [bind_run (parse_ip4_frame (s := s.withSt st1) hs h4).2]
      simp only [Option.some.injEq, hp, if_false]
      exact step_count (fun _ => rfl) a1 (fun st2 a2 => ⟨st2, a2, rfl⟩)
  · by_cases h6 : IsIp6 f
    · have hp : ¬ (oct f 20 = 6 ∨ oct f 20 = 17) := fun hp => h.notDown6 ⟨h6, hp⟩
      simp only [not_or] at hp
      obtain ⟨st1, a1, h1⟩ := process_ip6 e hs h6
      rw [h1]
      unfold handleIp6
      rw [bind_run (parse_ip6_frame (s := s.withSt st1) hs h6).2]
      simp only [Option.some.injEq, hp, if_false]
      split
      · exact step_count (fun _ => rfl) a1 (fun st2 a2 => ⟨st2, a2, rfl⟩)
      · exact step_count (fun _ => rfl) a1 (fun st2 a2 => ⟨st2, a2, rfl⟩)
    · unfold processPacket
      rw [bind_run (parseEthernet_eval _ _)]
      rw [hs]
      have a0 : SameActions s.st s.st := rfl
      by_cases hl : 0 + 14 > f.length
      · rw [if_pos hl]; exact ⟨s.st, rfl, rfl⟩
      · rw [if_neg hl]
        simp only [Option.some.injEq]
        by_cases t6 : be16 f (0 + 12) = 0x86DD
        · rw [if_pos t6]
          refine step_count (s := s) (st1 := s.st) (fun _ => rfl) a0 (fun st2 a2 => ?_)
          unfold handleIp6
          rw [bind_run (parseIp6_eval _ _)]
          simp only [PS.withSt_frame, hs]
          rw [if_pos (show 0 + 14 + 40 > f.length from by
            by_cases hh : 0 + 14 + 40 > f.length
            · exact hh
            · exact absurd ⟨by omega, t6⟩ h6)]
          exact step_count (fun _ => rfl) a2 (fun st3 a3 => ⟨st3, a3, rfl⟩)
        · rw [if_neg t6]
          by_cases t4 : be16 f (0 + 12) = 0x0800
          · rw [if_pos t4]
            refine step_count (s := s) (st1 := s.st) (fun _ => rfl) a0 (fun st2 a2 => ?_)
            unfold handleIp4
            rw [bind_run (parseIp4_eval _ _)]
            simp only [PS.withSt_frame, hs]
            rw [if_pos (show 0 + 14 + 20 > f.length from by
              by_cases hh : 0 + 14 + 20 > f.length
              · exact hh
              · exact absurd ⟨by omega, t4⟩ h4)]
            exact step_count (fun _ => rfl) a2 (fun st3 a3 => ⟨st3, a3, rfl⟩)
          · rw [if_neg t4]
            split
            · exact step_count (s := s) (st1 := s.st) (fun _ => rfl) a0 (fun st3 a3 => ⟨st3, a3, rfl⟩)
            · exact ⟨s.st, rfl, rfl⟩

/-- Every frame is a GTP-U message for the UPF, a downlink packet, or foreign. -/
theorem frame_cases (e : Env) (f : List U8) : (∃ t, IsGtpMsg e f t) ∨ IsDown4 e f ∨ IsDown6 f ∨ Foreign e f := by
  by_cases h1 : ∃ t, IsGtpMsg e f t
  · exact .inl h1
  · by_cases h2 : IsDown4 e f
    · exact .inr (.inl h2)
    · by_cases h3 : IsDown6 f
      · exact .inr (.inr (.inl h3))
      · exact .inr (.inr (.inr ⟨fun t ht => h1 ⟨t, ht⟩, h2, h3⟩))

end Eupf
