import Verif.Spec.Counters
import Verif.Xdp.Dispatch
/- Which part of the packet program touches the receive counters. Models no code. -/
namespace Eupf

/-- leaves the receive counters alone -/
structure KeepsRx {α : Type} (m : X α) : Prop where
  keep : ∀ s, (m s).1.st.rx = s.st.rx

namespace KeepsRx
variable {α β : Type}
theorem pure (a : α) : KeepsRx (Pure.pure a : X α) := ⟨fun _ => rfl⟩
theorem panic : KeepsRx (Act.panic : X α) := ⟨fun _ => rfl⟩
theorem fail : KeepsRx (Act.fail : X α) := ⟨fun _ => rfl⟩
theorem get : KeepsRx (Act.get : X PS) := ⟨fun _ => rfl⟩
theorem bind {m : X α} {k : α → X β} (h1 : KeepsRx m) (h2 : ∀ a, KeepsRx (k a)) : KeepsRx (m >>= k) := by
  constructor
  intro s
  show (Act.bind m k s).1.st.rx = _
  unfold Act.bind
  have := h1.keep s
  rcases hm : m s with ⟨s1, r⟩
  rw [hm] at this
  cases r with
  | ok a => exact ((h2 a).keep s1).trans this
  | err => exact this
  | panic => exact this
theorem ld8 (o : Nat) : KeepsRx (ld8 o) := by constructor; intro s; unfold Eupf.ld8; split <;> rfl
theorem ld16 (o : Nat) : KeepsRx (ld16 o) := by constructor; intro s; unfold Eupf.ld16; split <;> rfl
theorem ld32 (o : Nat) : KeepsRx (ld32 o) := by constructor; intro s; unfold Eupf.ld32; split <;> rfl
theorem ldBytes (o n : Nat) : KeepsRx (ldBytes o n) := by constructor; intro s; unfold Eupf.ldBytes; split <;> rfl
theorem store (o : Nat) (b : List U8) : KeepsRx (store o b) := by constructor; intro s; unfold Eupf.store; split <;> rfl
theorem frameLen : KeepsRx frameLen := ⟨fun _ => rfl⟩
theorem ptr (p : Option Nat) : KeepsRx (ptr p) := by cases p; exact panic; exact pure _
theorem countRt (f : RouteStat → RouteStat) : KeepsRx (countRt f) := ⟨fun _ => rfl⟩
theorem count {f : UpfStat → UpfStat} (h : ∀ x k, (f x).rx k = x.rx k) : KeepsRx (count f) := ⟨fun s => funext (h s.st)⟩
theorem modify {f : PS → PS} (h : ∀ s, (f s).st = s.st) : KeepsRx (Act.modify f) := ⟨fun s => congrArg UpfStat.rx (h s)⟩
theorem updUrr (i : U32) (a b : U64) : KeepsRx (updUrr i a b) := ⟨fun _ => rfl⟩
theorem ite {p : Prop} [Decidable p] {m1 m2 : X α} (h1 : KeepsRx m1) (h2 : KeepsRx m2) : KeepsRx (if p then m1 else m2) := by
  by_cases h : p
  · rw [if_pos h]; exact h1
  · rw [if_neg h]; exact h2
end KeepsRx

/-- compose -/
macro "keeps" : tactic => `(tactic| repeat' (first
  | with_reducible exact KeepsRx.pure _ | with_reducible exact KeepsRx.panic | with_reducible exact KeepsRx.get
  | with_reducible exact KeepsRx.ld8 _ | with_reducible exact KeepsRx.ld16 _
  | with_reducible exact KeepsRx.ld32 _ | with_reducible exact KeepsRx.ldBytes _ _ | with_reducible exact KeepsRx.store _ _
  | with_reducible exact KeepsRx.frameLen | with_reducible exact KeepsRx.ptr _
  | with_reducible exact KeepsRx.countRt _ | with_reducible exact KeepsRx.updUrr _ _ _ 
  | ((with_reducible refine KeepsRx.modify ?_); intro _; rfl)
  | ((with_reducible refine KeepsRx.count ?_); intro _ k; cases k <;> rfl)
  | with_reducible refine KeepsRx.bind ?_ ?_ <;> intros | with_reducible refine KeepsRx.ite ?_ ?_ | split | dsimp only))

theorem keeps_applyRoute (e eth ans f g h) : KeepsRx (applyRoute e eth ans f g h) := by unfold applyRoute; keeps
theorem keeps_routeIp4 (e eth ip) : KeepsRx (routeIp4 e eth ip) := by
  unfold routeIp4; keeps; exact keeps_applyRoute ..
theorem keeps_routeIp6 (e eth ip) : KeepsRx (routeIp6 e eth ip) := by
  unfold routeIp6; keeps; exact keeps_applyRoute ..
theorem keeps_addGtpHeaders (e c a b t q i) : KeepsRx (addGtpHeaders e c a b t q i) := by unfold addGtpHeaders; keeps
theorem keeps_send (e c d t q i) : KeepsRx (sendToGtpTunnel e c d t q i) := by
  unfold sendToGtpTunnel
  keeps; all_goals first | exact keeps_addGtpHeaders .. | exact keeps_routeIp4 ..
theorem keeps_downlinkTail (e c p f q) : KeepsRx (downlinkTail e c p f q) := by
  unfold downlinkTail
  keeps; exact keeps_send ..
theorem keeps_ports (c) : KeepsRx (packetPorts c) := by unfold packetPorts; keeps
theorem keeps_match4 (c k) : KeepsRx (matchSdfIp4 c k) := by
  unfold matchSdfIp4
  keeps; all_goals exact keeps_ports ..
theorem keeps_match6 (c k) : KeepsRx (matchSdfIp6 c k) := by
  unfold matchSdfIp6
  keeps; all_goals exact keeps_ports ..
theorem keeps_n6Ip4 (e c) : KeepsRx (handleN6Ip4 e c) := by
  unfold handleN6Ip4
  keeps; all_goals first | exact keeps_match4 .. | exact keeps_downlinkTail ..
theorem keeps_n6Ip6 (e c) : KeepsRx (handleN6Ip6 e c) := by
  unfold handleN6Ip6
  keeps; all_goals first | exact keeps_match6 .. | exact keeps_downlinkTail ..
theorem keeps_parseIp4 (c) : KeepsRx (parseIp4 c) := by unfold parseIp4; keeps
theorem keeps_parseIp6 (c) : KeepsRx (parseIp6 c) := by unfold parseIp6; keeps
theorem keeps_parseUdp (c) : KeepsRx (parseUdp c) := by unfold parseUdp; keeps
theorem keeps_parseTcp (c) : KeepsRx (parseTcp c) := by unfold parseTcp; keeps
theorem keeps_parseEthernet (c) : KeepsRx (parseEthernet c) := by unfold parseEthernet; keeps
theorem keeps_parseL4 (p c) : KeepsRx (parseL4 p c) := by
  unfold parseL4; keeps; all_goals first | exact keeps_parseUdp _ | exact keeps_parseTcp _
theorem keeps_uplinkRule (c p) : KeepsRx (uplinkRule c p) := by
  unfold uplinkRule
  keeps; all_goals first | exact keeps_parseIp4 _ | exact keeps_parseIp6 _ | exact keeps_parseL4 .. | exact keeps_match4 .. | exact keeps_match6 ..
theorem keeps_swapMac (x) : KeepsRx (swapMac x) := by unfold swapMac; keeps
theorem keeps_swapPort (x) : KeepsRx (swapPort x) := by unfold swapPort; keeps
theorem keeps_swapIp (x) : KeepsRx (swapIp x) := by unfold swapIp; keeps
theorem keeps_reinit (c) : KeepsRx (contextReinit c) := by
  unfold contextReinit
  keeps; all_goals first | exact keeps_parseEthernet _ | exact keeps_parseIp4 _ | exact keeps_parseIp6 _ | exact keeps_parseL4 ..
theorem keeps_remove (c) : KeepsRx (removeGtpHeader c) := by
  unfold removeGtpHeader
  keeps; all_goals first | exact keeps_reinit _ | exact ⟨fun _ => rfl⟩
theorem keeps_updTunnel (c a b t) : KeepsRx (updateGtpTunnel c a b t) := by unfold updateGtpTunnel; keeps
theorem keeps_headers (e c f o) : KeepsRx (uplinkHeaders e c f o) := by
  unfold uplinkHeaders
  keeps; all_goals first | exact keeps_updTunnel .. | exact keeps_remove _
theorem keeps_ping (c) : KeepsRx (prepareIcmpEchoReply c) := by
  unfold prepareIcmpEchoReply
  keeps; all_goals first | exact keeps_swapMac _ | exact keeps_swapIp _
theorem keeps_uplinkOut (e c) : KeepsRx (uplinkOut e c) := by
  unfold uplinkOut
  keeps; all_goals first | exact keeps_ping _ | exact keeps_n6Ip4 .. | exact keeps_routeIp4 .. | exact keeps_routeIp6 ..
theorem keeps_uplinkTail (e c p o f q) : KeepsRx (uplinkTail e c p o f q) := by
  unfold uplinkTail
  keeps; all_goals first | exact keeps_headers .. | exact keeps_uplinkOut ..
theorem keeps_gtpPacket (e c) : KeepsRx (handleGtpPacket e c) := by
  unfold handleGtpPacket
  keeps; all_goals first | exact keeps_uplinkRule .. | exact keeps_uplinkTail ..
theorem keeps_recovery (g) : KeepsRx (insertRecovery g) := by unfold insertRecovery; keeps
theorem keeps_addBe16 (o n) : KeepsRx (addBe16 o n) := by unfold addBe16; keeps
theorem keeps_echo (c) : KeepsRx (handleEchoRequest c) := by
  unfold handleEchoRequest
  keeps
  all_goals first | exact keeps_swapMac _ | exact keeps_swapIp _ | exact keeps_swapPort _ | exact keeps_recovery _ | exact keeps_addBe16 .. | exact ⟨fun _ => rfl⟩

/-! ### what the front part adds -/

/-- `m` run in `s` adds one to each receive counter per occurrence in `ks` -/
def AddsRx {α : Type} (m : X α) (s : PS) (ks : List RxKind) : Prop :=
  ∀ k, (m s).1.st.rx k = s.st.rx k + BitVec.ofNat 64 (ks.count k)

theorem KeepsRx.adds {α : Type} {m : X α} (h : KeepsRx m) (s : PS) : AddsRx m s [] := by
  intro k
  rw [h.keep]
  simp

theorem AddsRx.count {α : Type} {f : UpfStat → UpfStat} {m : Unit → X α} {s : PS} (k0 : RxKind) {ks : List RxKind}
    (hf : ∀ k, (f s.st).rx k = s.st.rx k + if k = k0 then 1 else 0) (h : ∀ s1 : PS, s1.frame = s.frame → AddsRx (m ()) s1 ks) :
    AddsRx (Eupf.count f >>= m) s (k0 :: ks) := by
  intro k
  have e : (Eupf.count f >>= m) s = m () (s.withSt (f s.st)) := rfl
  rw [e, h (s.withSt (f s.st)) rfl k, PS.withSt_st, hf]
  by_cases hk : k = k0
  · subst hk
    simp only [if_true, List.count_cons_self]
    rw [BitVec.ofNat_add, BitVec.add_assoc, BitVec.add_comm (BitVec.ofNat 64 _) (BitVec.ofNat 64 1)]
    rfl
  · rw [if_neg hk, List.count_cons_of_ne (fun h => hk h.symm)]
    simp

theorem AddsRx.run {α β : Type} {m : X β} {f : β → X α} {s : PS} {a : β} {ks : List RxKind} (h : m s = (s, .ok a))
    (h2 : AddsRx (f a) s ks) : AddsRx (m >>= f) s ks := by
  intro k
  rw [bind_run h]
  exact h2 k

/-- the counting steps of one frame -/
macro "bumps" k:term : tactic => `(tactic| (refine AddsRx.count $k (by intro k'; cases k' <;> simp [UpfStat.rx]) ?_))

theorem adds_gtpu (e : Env) {f : List U8} {s : PS} (hs : s.frame = f) (c : Ctx) (hc : c.data = gtpOff f) :
    AddsRx (handleGtpu e c) s
      (if gtpOff f + 8 ≤ f.length then
        (if oct f (gtpOff f + 1) = 255 then [.gtpPdu] else if oct f (gtpOff f + 1) = 1 then [.gtpEcho]
         else if oct f (gtpOff f + 1) = 2 then []
         else if oct f (gtpOff f + 1) = 26 ∨ oct f (gtpOff f + 1) = 31 ∨ oct f (gtpOff f + 1) = 254 then [.gtpOther] else [.gtpUnexp])
       else [.gtpUnexp]) := by
  unfold handleGtpu
  refine AddsRx.run (parseGtp_eval _ _) ?_
  rw [hs, hc]
  by_cases hl : gtpOff f + 8 ≤ f.length
  · rw [if_neg (by omega), if_pos hl]
    simp only [Option.some.injEq]
    split
    · bumps .gtpPdu; exact fun _ _ => (keeps_gtpPacket ..).adds _
    · split
      · bumps .gtpEcho; exact fun _ _ => (keeps_echo ..).adds _
      · split
        · exact (KeepsRx.pure _).adds _
        · split
          · bumps .gtpOther; exact fun _ _ => (KeepsRx.pure _).adds _
          · bumps .gtpUnexp; exact fun _ _ => (KeepsRx.pure _).adds _
  · rw [if_pos (by omega), if_neg hl]
    simp only [reduceCtorEq, if_false, or_self]
    bumps .gtpUnexp; exact fun _ _ => (KeepsRx.pure _).adds _

theorem adds_n6Ip4 (e c s) : AddsRx (n6Ip4 e c) s [.n6] := by
  unfold n6Ip4
  bumps .n6; exact fun _ _ => (keeps_n6Ip4 ..).adds _
theorem adds_n6Ip6 (e c s) : AddsRx (n6Ip6 e c) s [.n6] := by
  unfold n6Ip6
  bumps .n6; exact fun _ _ => (keeps_n6Ip6 ..).adds _

end Eupf
