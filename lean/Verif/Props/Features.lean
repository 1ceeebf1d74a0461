import Verif.Props.Refresh
import Verif.Props.Chosen
import Verif.Props.Config
import Verif.Props.Requests
/-
C70: advertised features, and whether they are served.
-/
namespace Eupf

/-- A bit of the UP Function Features IE, numbered as in TS 29.244 8.2.25: octets from 5, bits from 1. -/
def hasFeature (f : List U8) (octet bit : Nat) : Bool := (f.getD (octet - 5) 0).getLsbD (bit - 1)

/-- the features this UPF knows: FTUP (the UPF allocates F-TEIDs), EMPU (it sends end markers), UEIP (it allocates UE addresses) -/
def ftup : Nat × Nat := (5, 5)
def empu : Nat × Nat := (6, 1)
def ueip : Nat × Nat := (7, 3)

theorem features_bits (c : NodeCfg) (octet bit : Nat) (ho : 5 ≤ octet) (hb : 1 ≤ bit ∧ bit ≤ 8) :
    hasFeature c.features octet bit = true ↔
      (octet, bit) = ftup ∧ c.featFTUP = true ∨ (octet, bit) = empu ∨ (octet, bit) = ueip ∧ c.featUEIP = true := by
  obtain ⟨o, rfl⟩ : ∃ o, octet = 5 + o := ⟨octet - 5, by omega⟩
  obtain ⟨b, rfl⟩ : ∃ b, bit = 1 + b := ⟨bit - 1, by omega⟩
  have hb : b < 8 := by omega
  simp only [hasFeature, Nat.add_sub_cancel_left, ftup, empu, ueip, NodeCfg.features, Prod.mk.injEq]
  match o with
  | 0 =>
    have : ∀ b < 8, (16#8).getLsbD b = true ↔ 1 + b = 5 := by decide
    cases c.featFTUP <;> simp [this b hb]
  | 1 =>
    have : ∀ b < 8, (1#8).getLsbD b = true ↔ 1 + b = 1 := by decide
    simp [this b hb]
  | 2 =>
    have : ∀ b < 8, (4#8).getLsbD b = true ↔ 1 + b = 3 := by decide
    cases c.featUEIP <;> simp [this b hb]
  | o + 3 => simp; omega

/-- **C70, advertised.** Of all responses exactly the accepted Association Setup Responses have UP function features; these are FTUP if the node was
started with it, UEIP if the node was started with it, and EMPU, in every history, whatever the configuration is replaced by. -/
theorem C70_advertised {cfg : NodeCfg} {rm : Option ResourceManager} {dp : BpfObjects} {h : List (Ev × Outcome)} {n : Node}
    (H : Hist (Node.init cfg rm dp) h n) (e : Ev) (r : Resp) (hr : (n.step e).2 = .reply r) :
    (r.features.isSome = true ↔ r.type = .assocSetup ∧ r.cause = 1) ∧
    ∀ f, r.features = some f → ∀ octet bit, 5 ≤ octet → 1 ≤ bit ∧ bit ≤ 8 →
      (hasFeature f octet bit = true ↔
        (octet, bit) = ftup ∧ cfg.featFTUP = true ∨ (octet, bit) = empu ∨ (octet, bit) = ueip ∧ cfg.featUEIP = true) := by
  have hcfg : n.cfg = cfg := by
    clear hr
    induction H with
    | init => rfl
    | step e _ _ ih => rw [step_cfg, ih]
    | traffic _ _ ih => exact ih
  have key : (r.features.isSome = true ↔ r.type = .assocSetup ∧ r.cause = 1) ∧ ∀ f, r.features = some f → f = n.cfg.features := by
    have plain : ∀ {r : Resp}, r.features = none → ¬ (r.type = .assocSetup ∧ r.cause = 1) →
        (r.features.isSome = true ↔ r.type = .assocSetup ∧ r.cause = 1) ∧ ∀ f, r.features = some f → f = n.cfg.features := by
      intro r h1 h2
      rw [h1]
      exact ⟨⟨fun h => (by cases h), fun h => absurd h h2⟩, fun f h => by cases h⟩
    cases e with
    | assocSetup a s i t =>
      rcases i with _ | _ | _ <;> rcases t with _ | _ | _ <;>
        simp only [Node.step, Node.assocSetup, Outcome.reply.injEq] at hr <;> subst hr <;>
        first
          | exact plain rfl (by simp [causeMandatoryIEMissing, causeMandatoryIEIncorrect])
          | exact ⟨⟨fun _ => ⟨rfl, rfl⟩, fun _ => rfl⟩, fun f hf => by cases hf; rfl⟩
    | assocSetupResp a i c f =>
      simp only [Node.step, Node.assocSetupResp] at hr
      split at hr
      · split at hr <;> cases hr
      · cases hr
    | assocUpdate a s i =>
      simp only [Node.step, Node.assocUpdate] at hr
      split at hr
      · cases hr; exact plain rfl (by simp)
      · cases hr; exact plain rfl (by simp)
      · split at hr <;> cases hr <;> exact plain rfl (by simp)
    | heartbeatReq a s t => rcases t with _ | _ | _ <;> cases hr; exact plain rfl (by simp)
    | heartbeatResp a s t => rcases t with _ | _ | _ <;> cases hr
    | establish a q =>
      simp only [Node.step, Node.establish] at hr
      split at hr
      · cases hr; exact plain rfl (by simp)
      · split at hr
        · cases hr; exact plain rfl (by simp)
        · split at hr <;> cases hr <;> exact plain rfl (by simp)
    | modify a q o =>
      simp only [Node.step, Node.modify] at hr
      split at hr
      · cases hr; exact plain rfl (by simp)
      · split at hr
        · cases hr; exact plain rfl (by simp)
        · split at hr <;> cases hr <;> exact plain rfl (by simp)
    | delete a q o =>
      simp only [Node.step, Node.delete] at hr
      split at hr
      · cases hr; exact plain rfl (by simp)
      · split at hr
        · cases hr; exact plain rfl (by simp)
        · split at hr <;> cases hr <;> exact plain rfl (by simp)
    | peerLost a o =>
      simp only [Node.step, Node.deleteAssociation] at hr
      split at hr
      · cases hr
      · split at hr <;> cases hr
    | setConfig u => cases hr
  refine ⟨key.1, fun f hf octet bit ho hb => ?_⟩
  rw [key.2 f hf, hcfg]
  exact features_bits cfg octet bit ho hb

/-- **C70, served.** A node started from a validated configuration without FTUP never accepts an establishment with a PDR that asks for a TEID, nor a
modification that creates one: what is not advertised is refused, in every history. -/
theorem C70_ftup_off {tags : UpfConfig → Bool} {c v : UpfConfig} (hv : c.validate tags = some v) (hoff : c.featureFTUP = false)
    {cfg : NodeCfg} {ips : List Ip4} {dp : BpfObjects} {h : List (Ev × Outcome)} {n : Node}
    (H : Hist (Node.init cfg (some (newResourceManager ips v.fteidPool)) dp) h n) (addr : Addr) :
    (∀ (r : EstReq) n' resp, n.step (.establish addr r) = (n', .reply resp) → resp.cause = 1 → teidAskers r.createPdr = []) ∧
    ∀ (r : ModReq) ord n' resp, n.step (.modify addr r ord) = (n', .reply resp) → resp.cause = 1 → teidAskers r.createPdr = [] := by
  have hp : v.fteidPool = 0 := by
    have := congrArg UpfConfig.fteidPool ((C47_validate tags c).2 v hv)
    simpa [hoff] using this
  rw [hp] at H
  have hfree : freeTeids n.rm = [] := by
    have inv := (ni_hist (pool_keep (teidInv_keeps 0)) (fun r hr => by cases hr; exact ⟨[], TeidInv.init ips 0⟩) H (fun _ _ => trivial)).2
    cases hrm : n.rm with
    | none => rfl
    | some r =>
      obtain ⟨out, ho⟩ := inv r hrm
      show r.fteidm.freeTEIDs = []
      rw [List.eq_nil_iff_forall_not_mem]
      intro t ht
      have := ho.freeRange t ht
      simp [teidPool] at this
  have close : ∀ {l : List PdrIE} {cr ts}, ChooseIdOk l cr ts → (∀ t ∈ ts, t ∈ freeTeids n.rm) → teidAskers l = [] := by
    intro l cr ts h1 h2
    have : ts = [] := by
      rw [List.eq_nil_iff_forall_not_mem]
      intro t ht
      have := h2 t ht
      rw [hfree] at this
      cases this
    rw [← List.length_eq_zero_iff, ← h1.length, this]
    rfl
  constructor
  · intro r n' resp hs hc
    obtain ⟨ts, h1, h2⟩ := C16_establishment (by rw [hfree]; exact List.nodup_nil) hs hc
    exact close h1 fun t ht => (h2 t ht).1
  · intro r ord n' resp hs hc
    cases hsess : n.session? addr r.seid with
    | none =>
      cases ha : n.assocs.get? addr with
      | none =>
        simp only [Node.step, Node.modify, ha, Prod.mk.injEq, Outcome.reply.injEq] at hs
        rw [← hs.2] at hc
        simp [causeNoAssociation] at hc
      | some a =>
        rw [(C02_unknown_seid n addr a ha r.seid hsess).1 r ord rfl] at hs
        simp only [Prod.mk.injEq, Outcome.reply.injEq] at hs
        rw [← hs.2] at hc
        simp at hc
    | some sess =>
      obtain ⟨ts, h1, h2⟩ := C16_modification hsess (by rw [hfree]; exact List.nodup_nil) hs hc
      exact close h1 h2

/-! ### examples -/

/-- a configuration without FTUP -/
def Demo.noFtup : UpfConfig := { maxSessions := 4, fteidPool := 8, featureUEIP := true }
/-- the node started from it: no TEIDs -/
def Demo.nNoFtup : Node := Node.init ⟨false, true, 0x0a000001⟩ (some (newResourceManager [0x0a2d0001] 0)) Demo.dp
/-- A plain session is accepted there, one that asks for a TEID is not; the setup response advertises UEIP and EMPU only. -/
example : (Demo.noFtup.validate (fun _ => true)).map (fun v => v.fteidPool) = some 0 ∧
    (Demo.nNoFtup.run [.assocSetup 1 1 (some (some ())) (some (some ())), .establish 1 (Demo.est 100),
      .establish 1 { Demo.est 101 with createPdr := (Demo.est 101).createPdr.drop 1 }]).2.map
        (fun o => match o with | .reply r => some (r.cause, r.features) | _ => none) =
      [some (1, some [0, 1, 4]), some (73, none), some (1, none)] ∧ teidAskers (Demo.est 100).createPdr ≠ [] := by
  decide +kernel

end Eupf
