import Verif.Xdp.Counters
import Verif.Props.Packets
/-
C62: the receive counters count exactly the frames of their kind.
-/
namespace Eupf

theorem isIp4_iff {f : List U8} : IsIp4 f ↔ 34 ≤ f.length ∧ be16 f 12 = 0x0800 := ⟨fun h => ⟨h.1, h.2⟩, fun h => ⟨h.1, h.2⟩⟩
theorem isIp6_iff {f : List U8} : IsIp6 f ↔ 54 ≤ f.length ∧ be16 f 12 = 0x86DD := ⟨fun h => ⟨h.1, h.2⟩, fun h => ⟨h.1, h.2⟩⟩
theorem isGtpMsg_iff {e : Env} {f : List U8} {t : U8} :
    IsGtpMsg e f t ↔ IsGtpu e f ∧ gtpOff f + 8 ≤ f.length ∧ oct f (gtpOff f + 1) = t :=
  ⟨fun h => ⟨h.1, h.2, h.3⟩, fun h => ⟨h.1, h.2.1, h.2.2⟩⟩
theorem isDown4_iff {e : Env} {f : List U8} :
    IsDown4 e f ↔ IsIp4 f ∧ (oct f 23 = 1 ∨ oct f 23 = 6 ∨ oct f 23 = 17) ∧ ¬ IsGtpu e f :=
  ⟨fun h => ⟨h.1, h.2, h.3⟩, fun h => ⟨h.1, h.2.1, h.2.2⟩⟩
theorem isDown6_iff {f : List U8} : IsDown6 f ↔ IsIp6 f ∧ (oct f 20 = 6 ∨ oct f 20 = 17) :=
  ⟨fun h => ⟨h.1, h.2⟩, fun h => ⟨h.1, h.2⟩⟩

open Classical in
/-- proof device: the kinds of a frame -/
noncomputable def kinds (e : Env) (f : List U8) : List RxKind :=
  if ¬ 14 ≤ f.length then []
  else if be16 f 12 = 0x86DD then
    .ip6 :: (if ¬ 54 ≤ f.length then [.other]
      else if oct f 20 = 58 then [.icmp6]
      else if oct f 20 = 17 then [.udp, .n6]
      else if oct f 20 = 6 then [.tcp, .n6] else [.other])
  else if be16 f 12 = 0x0800 then
    .ip4 :: (if ¬ 34 ≤ f.length then [.other]
      else if oct f 23 = 1 then [.icmp, .n6]
      else if oct f 23 = 17 then
        .udp :: (if IsGtpu e f then
          .n3 :: (if gtpOff f + 8 ≤ f.length then
            (if oct f (gtpOff f + 1) = 255 then [.gtpPdu] else if oct f (gtpOff f + 1) = 1 then [.gtpEcho]
             else if oct f (gtpOff f + 1) = 2 then []
             else if oct f (gtpOff f + 1) = 26 ∨ oct f (gtpOff f + 1) = 31 ∨ oct f (gtpOff f + 1) = 254 then [.gtpOther] else [.gtpUnexp])
            else [.gtpUnexp])
          else [.n6])
      else if oct f 23 = 6 then [.tcp, .n6] else [.other])
  else if be16 f 12 = 0x0806 then [.arp] else []

/-- decide membership for one frame kind -/
local macro "kinds_tac" k:ident : tactic => `(tactic|
  (cases $k:ident <;> simp_all [Counted, HasType, Carries, isIp4_iff, isIp6_iff, isGtpMsg_iff, isDown4_iff, isDown6_iff] <;> (intros; omega)))

theorem mem_kinds (e : Env) (f : List U8) (k : RxKind) : k ∈ kinds e f ↔ Counted e f k := by
  have g4 : IsGtpu e f → IsIp4 f := fun h => h.ip
  have gp : IsGtpu e f → oct f 23 = 17 := fun h => h.proto
  unfold kinds
  by_cases h14 : 14 ≤ f.length
  · rw [if_neg (by simpa using h14)]
    by_cases h6 : be16 f 12 = 0x86DD
    · rw [if_pos h6]
      have ng : ¬ IsGtpu e f := fun h => by have := (g4 h).type; rw [h6] at this; exact absurd this (by decide)
      by_cases h54 : 54 ≤ f.length
      · rw [if_neg (by simpa using h54)]
        split
        · kinds_tac k
        · split
          · kinds_tac k
          · split <;> kinds_tac k
      · rw [if_pos (by simpa using h54)]
        kinds_tac k
    · rw [if_neg h6]
      by_cases h4 : be16 f 12 = 0x0800
      · rw [if_pos h4]
        by_cases h34 : 34 ≤ f.length
        · rw [if_neg (by simpa using h34)]
          by_cases hg : IsGtpu e f
          · have h17 := gp hg
            simp only [h17, hg, if_true]
            rw [if_neg (by decide)]
            split
            · split
              · kinds_tac k
              · split
                · kinds_tac k
                · split
                  · kinds_tac k
                  · split
                    · rename_i hx
                      rcases hx with hx | hx | hx <;> kinds_tac k
                    · kinds_tac k
            · kinds_tac k
          · split
            · kinds_tac k
            · split
              · kinds_tac k
              · split <;> kinds_tac k
        · rw [if_pos (by simpa using h34)]
          have ng : ¬ IsGtpu e f := fun h => h34 (g4 h).len
          kinds_tac k
      · rw [if_neg h4]
        have ng : ¬ IsGtpu e f := fun h => h4 (g4 h).type
        split <;> kinds_tac k
  · rw [if_pos (by simpa using h14)]
    have n4 : ¬ IsIp4 f := fun h => h14 (by have := h.len; omega)
    have n6 : ¬ IsIp6 f := fun h => h14 (by have := h.len; omega)
    have ng : ¬ IsGtpu e f := fun h => n4 (g4 h)
    cases k <;> simp_all [Counted, HasType, Carries, isGtpMsg_iff, isDown4_iff, isDown6_iff] <;> (intros; omega)

theorem nd_ite {p : Prop} {_ : Decidable p} {a b : List RxKind} (ha : a.Nodup) (hb : b.Nodup) : (if p then a else b).Nodup := by
  by_cases h : p
  · rw [if_pos h]; exact ha
  · rw [if_neg h]; exact hb
theorem ni_ite {p : Prop} {_ : Decidable p} {k : RxKind} {a b : List RxKind} (ha : k ∉ a) (hb : k ∉ b) : k ∉ (if p then a else b) := by
  by_cases h : p
  · rw [if_pos h]; exact ha
  · rw [if_neg h]; exact hb
theorem ni_cons {k k' : RxKind} {l : List RxKind} (h : k ≠ k') (hl : k ∉ l) : k ∉ k' :: l := by
  simp [h, hl]

theorem nodup_kinds (e : Env) (f : List U8) : (kinds e f).Nodup := by
  unfold kinds
  repeat' first
    | with_reducible refine nd_ite ?_ ?_
    | with_reducible refine ni_ite ?_ ?_
    | with_reducible refine List.nodup_cons.2 ⟨?_, ?_⟩
    | with_reducible exact List.nodup_nil
    | with_reducible exact List.not_mem_nil
    | decide
    | with_reducible refine ni_cons (by decide) ?_

theorem adds_process (e : Env) (s : PS) : AddsRx (processPacket e) s (kinds e s.frame) := by
  generalize hs : s.frame = f
  unfold processPacket kinds
  refine AddsRx.run (parseEthernet_eval _ _) ?_
  rw [hs]
  by_cases h14 : 14 ≤ f.length
  · rw [if_neg (by show ¬ (0 + 14 > _); omega), if_neg (by simpa using h14)]
    simp only [Option.some.injEq]
    show AddsRx (if be16 f 12 = _ then _ else if be16 f 12 = _ then _ else if be16 f 12 = _ then _ else _) _ _
    by_cases h6 : be16 f 12 = 0x86DD
    · rw [if_pos h6, if_pos h6]
      bumps .ip6
      intro s1 hs1
      rw [hs] at hs1
      unfold handleIp6
      refine AddsRx.run (parseIp6_eval _ _) ?_
      rw [hs1]
      by_cases h54 : 54 ≤ f.length
      · rw [if_neg (by show ¬ (14 + 40 > _); omega), if_neg (by simpa using h54)]
        simp only [Option.some.injEq]
        show AddsRx (if oct f 20 = _ then _ else if oct f 20 = _ then _ else if oct f 20 = _ then _ else _) _ _
        split
        · bumps .icmp6; exact fun _ _ => (KeepsRx.pure _).adds _
        · split
          · bumps .udp; exact fun _ _ => adds_n6Ip6 _ _ _
          · split
            · bumps .tcp
              intro s2 hs2
              refine AddsRx.run (parseTcp_eval _ _) ?_
              exact adds_n6Ip6 _ _ _
            · bumps .other; exact fun _ _ => (KeepsRx.pure _).adds _
      · rw [if_pos (by show 14 + 40 > _; omega), if_pos (by simpa using h54)]
        simp only [reduceCtorEq, if_false]
        bumps .other; exact fun _ _ => (KeepsRx.pure _).adds _
    · rw [if_neg h6, if_neg h6]
      by_cases h4 : be16 f 12 = 0x0800
      · rw [if_pos h4, if_pos h4]
        bumps .ip4
        intro s1 hs1
        rw [hs] at hs1
        unfold handleIp4
        refine AddsRx.run (parseIp4_eval _ _) ?_
        rw [hs1]
        by_cases h34 : 34 ≤ f.length
        · rw [if_neg (by show ¬ (14 + 20 > _); omega), if_neg (by simpa using h34)]
          simp only [Option.some.injEq]
          show AddsRx (if oct f 23 = _ then _ else if oct f 23 = _ then _ else if oct f 23 = _ then _ else _) _ _
          split
          · bumps .icmp; exact fun _ _ => adds_n6Ip4 _ _ _
          · split
            · rename_i h17
              bumps .udp
              intro s2 hs2
              rw [hs1] at hs2
              refine AddsRx.run (parseUdp_eval _ _) ?_
              simp only [hs2]
              show AddsRx (ptr _ >>= _) _ _
              by_cases hl : l4Off f + 8 ≤ f.length
              · rw [if_neg (by show ¬ (l4Off f + 8 > _); omega)]
                refine AddsRx.run (a := 14) rfl ?_
                refine AddsRx.run (ld32_eval _ (by rw [hs2]; omega)) ?_
                simp only [hs2]
                have hiff : (some (be16 f (ip4End f (0 + 14) + 2)) = some (2152 : U16) ∧ (le32 f (14 + 16) = e.n3 ∨ le32 f (14 + 16) = e.n9)) ↔ IsGtpu e f := by
                  rw [le32_eq, le32_eq, Option.some.injEq]
                  exact ⟨fun h => ⟨⟨h34, h4⟩, h17, hl, h.1, h.2⟩, fun h => ⟨h.port, h.dst⟩⟩
                by_cases hg : IsGtpu e f
                · rw [if_pos (hiff.2 hg), if_pos hg]
                  bumps .n3
                  intro s3 hs3
                  exact adds_gtpu e (hs3.trans hs2) _ rfl
                · rw [if_neg (fun h => hg (hiff.1 h)), if_neg hg]
                  exact adds_n6Ip4 _ _ _
              · rw [if_pos (by show l4Off f + 8 > _; omega)]
                refine AddsRx.run (a := 14) rfl ?_
                refine AddsRx.run (ld32_eval _ (by rw [hs2]; omega)) ?_
                rw [if_neg (by simp), if_neg (fun h : IsGtpu e f => hl h.len)]
                exact adds_n6Ip4 _ _ _
            · split
              · bumps .tcp
                intro s2 hs2
                refine AddsRx.run (parseTcp_eval _ _) ?_
                exact adds_n6Ip4 _ _ _
              · bumps .other; exact fun _ _ => (KeepsRx.pure _).adds _
        · rw [if_pos (by show 14 + 20 > _; omega), if_pos (by simpa using h34)]
          simp only [reduceCtorEq, if_false]
          bumps .other; exact fun _ _ => (KeepsRx.pure _).adds _
      · rw [if_neg h4, if_neg h4]
        split
        · bumps .arp; exact fun _ _ => (KeepsRx.pure _).adds _
        · exact (KeepsRx.pure _).adds _
  · rw [if_pos (by show 0 + 14 > _; omega), if_pos (by simpa using h14)]
    simp only [reduceCtorEq, if_false]
    exact (KeepsRx.pure _).adds _

open Classical in
/-- one frame -/
theorem rx_packet (e : Env) (s : PS) (k : RxKind) :
    (runPacket e s).1.st.rx k = s.st.rx k + if Counted e s.frame k then 1 else 0 := by
  have h1 : (runPacket e s).1.st.rx k = (processPacket e s).1.st.rx k := by
    unfold runPacket entrypoint
    show (Act.bind (processPacket e) _ s).1.st.rx k = _
    unfold Act.bind
    rcases processPacket e s with ⟨s1, r⟩
    cases r <;> cases k <;> rfl
  rw [h1, adds_process e s k]
  have := nodup_kinds e s.frame
  rw [List.Nodup.count this]
  simp only [mem_kinds]
  split <;> rfl

open Classical in
/-- **C62.** After any sequence of frames every receive counter of the CPU has grown by exactly the number of frames of its kind
(modulo 2^64), whatever the tables contain and whatever was done with the frames. -/
theorem C62_rx_counters (d : Dev) (l : List (Env × List U8)) (k : RxKind) :
    (d.run l).1.st.rx k = d.st.rx k + BitVec.ofNat 64 (l.filter (fun x => decide (Counted x.1 x.2 k))).length := by
  induction l generalizing d with
  | nil => simp [Dev.run]
  | cons x l ih =>
    obtain ⟨e, f⟩ := x
    obtain ⟨s', a, h, _, _⟩ := entry_outcome e ⟨f, d.dp, d.st, d.rt⟩
    have hp := rx_packet e ⟨f, d.dp, d.st, d.rt⟩ k
    unfold Dev.run
    rw [h] at hp ⊢
    simp only at hp ⊢
    rw [ih, hp, List.filter_cons]
    by_cases hk : Counted e f k
    · simp only [hk, if_true, decide_true, List.length_cons]
      rw [BitVec.ofNat_add, BitVec.add_assoc, BitVec.add_comm (BitVec.ofNat 64 _) (BitVec.ofNat 64 1)]
      rfl
    · simp [hk]

/-- Non-vacuity: an uplink G-PDU is counted as IPv4, UDP, N3 and G-PDU and as nothing else. -/
example (k : RxKind) : Counted DemoDp.env DemoDp.up k ↔ k ∈ [.ip4, .udp, .n3, .gtpPdu] := by
  have h := DemoDp.up_gpdu
  rw [← mem_kinds]
  unfold kinds
  have hg := h.gtpu
  have h2 := h.type
  simp only [hg, h2, hg.proto, hg.ip.type, if_true]
  rw [if_neg (by decide +kernel), if_neg (by decide), if_neg (by decide +kernel), if_neg (by decide), if_pos h.len]

end Eupf
