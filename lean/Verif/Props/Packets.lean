import Verif.Xdp.DemoDp
import Verif.Node
/-
C25, C26, C40, C49, C50: what the packet program does to every frame.
-/
namespace Eupf

/-! ### C49 -/

/-- **C49.** The packet program ends normally on every frame, with every table content, environment and counter values: no header
field outside of the frame is read or written and no missing header is dereferenced (both would be `panic`). -/
theorem C49_no_out_of_bounds (e : Env) (s : PS) : ∃ s' a, runPacket e s = (s', .ok a) := by
  obtain ⟨s', a, h, _⟩ := entry_outcome e s
  exact ⟨s', a, h⟩

/-- The loads and stores of the model do fail out of bounds: the theorem is about something. -/
example : (ld32 10 (⟨[1, 2, 3, 4], BpfObjects.load 1 1 1 1, {}, {}⟩ : PS)).2 = .panic := rfl

/-! ### C25 -/

/-- A frame no PDR applies to. -/
inductive Unclassified (e : Env) (b : BpfObjects) (f : List U8) : Prop
  | foreign : Foreign e f → Unclassified e b f
  | gpdu : IsGtpMsg e f 255 → ulRule b f = none → Unclassified e b f
  | down4 : IsDown4 e f → dlRule4 b f = none → Unclassified e b f
  | down6 : IsDown6 f → dlRule6 b f = none → Unclassified e b f

/-- **C25.** A frame no PDR applies to is left to the kernel, octet by octet, and no table changes. -/
theorem C25_unclassified_untouched (e : Env) (s : PS) (h : Unclassified e s.dp s.frame) :
    ∃ s', runPacket e s = (s', .ok .pass) ∧ s'.frame = s.frame ∧ s'.dp = s.dp := by
  obtain ⟨s', a, hr, r, _⟩ := entry_outcome e s
  have key : a = .pass ∧ s'.frame = s.frame ∧ s'.dp = s.dp := by
    generalize s'.frame = fr at r ⊢
    generalize s'.dp = dp at r ⊢
    cases h with
    | foreign hf =>
      cases r with
      | foreign _ => exact ⟨rfl, rfl, rfl⟩
      | otherMsg h _ _ => exact absurd h (hf.notMsg _)
      | echo h => exact absurd h (hf.notMsg _)
      | gpdu h _ => exact absurd h (hf.notMsg _)
      | down4 h _ => exact absurd h hf.notDown4
      | down6 h _ => exact absurd h hf.notDown6
    | gpdu hm hn =>
      have hx : ∀ {t}, IsGtpMsg e s.frame t → t = 255 := fun h => by rw [← h.type, hm.type]
      cases r with
      | foreign _ => exact ⟨rfl, rfl, rfl⟩
      | otherMsg h h2 _ => exact absurd (hx h) h2
      | echo h => exact absurd (hx h) (by decide)
      | gpdu h r =>
        cases r with
        | unclassified _ => exact ⟨rfl, rfl, rfl⟩
        | denied h1 | policed h1 => rw [hn] at h1; cases h1
        | n9 _ _ h1 | kept _ h1 | garbled _ _ h1 | cut4 _ _ h1 | cut6 _ _ h1 | selfOther _ _ _ h1 | ping _ _ h1 => rw [hn] at h1; cases h1
      | down4 h _ => exact absurd hm.gtpu h.notGtpu
      | down6 h _ => exact absurd (h.ip.type.symm.trans hm.gtpu.ip.type) (by decide)
    | down4 hm hn =>
      cases r with
      | foreign _ => exact ⟨rfl, rfl, rfl⟩
      | otherMsg h _ _ => exact absurd h.gtpu hm.notGtpu
      | echo h => exact absurd h.gtpu hm.notGtpu
      | gpdu h _ => exact absurd h.gtpu hm.notGtpu
      | down4 h r =>
        cases r with
        | unclassified _ => exact ⟨rfl, rfl, rfl⟩
        | denied h1 | policed h1 | noRoom _ h1 | sent _ _ h1 => rw [hn] at h1; cases h1
      | down6 h _ => exact absurd (h.ip.type.symm.trans hm.ip.type) (by decide)
    | down6 hm hn =>
      cases r with
      | foreign _ => exact ⟨rfl, rfl, rfl⟩
      | otherMsg h _ _ => exact absurd (hm.ip.type.symm.trans h.gtpu.ip.type) (by decide)
      | echo h => exact absurd (hm.ip.type.symm.trans h.gtpu.ip.type) (by decide)
      | gpdu h _ => exact absurd (hm.ip.type.symm.trans h.gtpu.ip.type) (by decide)
      | down4 h _ => exact absurd (hm.ip.type.symm.trans h.ip.type) (by decide)
      | down6 h r =>
        cases r with
        | unclassified _ => exact ⟨rfl, rfl, rfl⟩
        | denied h1 | policed h1 | noRoom _ h1 | sent _ _ h1 => rw [hn] at h1; cases h1
  exact ⟨s', by rw [hr, key.1], key.2⟩

/-- A G-PDU with an unknown TEID among tables with three known ones. -/
example : Unclassified DemoDp.env DemoDp.dp DemoDp.upUnknown := .gpdu DemoDp.upUnknown_gpdu (by decide +kernel)
/-- The property is about more than passing everything: this frame with a known TEID is not passed. -/
example : (runPacket DemoDp.env (DemoDp.ps DemoDp.up)).2 = .ok (.redirect 7) := DemoDp.runs.1

/-- **C25, unknown TEID.** -/
theorem C25_unknown_teid (e : Env) (s : PS) (h : IsGtpMsg e s.frame 255) (hn : s.dp.entry? (.ul (gtpTeid s.frame)) = none) :
    ∃ s', runPacket e s = (s', .ok .pass) ∧ s'.frame = s.frame ∧ s'.dp = s.dp :=
  C25_unclassified_untouched e s (.gpdu h (by unfold ulRule; rw [show s.dp.pdrUl.lookup _ = none from hn]))
/-- **C25, unknown UE address.** -/
theorem C25_unknown_ue4 (e : Env) (s : PS) (h : IsDown4 e s.frame) (hn : s.dp.entry? (.dl4 (be32 s.frame 30)) = none) :
    ∃ s', runPacket e s = (s', .ok .pass) ∧ s'.frame = s.frame ∧ s'.dp = s.dp :=
  C25_unclassified_untouched e s (.down4 h (by unfold dlRule4 classify; rw [show s.dp.pdrDl4.lookup _ = none from hn]))
theorem C25_unknown_ue6 (e : Env) (s : PS) (h : IsDown6 s.frame) (hn : s.dp.entry? (.dl6 (be128 (slice s.frame 38 16))) = none) :
    ∃ s', runPacket e s = (s', .ok .pass) ∧ s'.frame = s.frame ∧ s'.dp = s.dp :=
  C25_unclassified_untouched e s (.down6 h (by unfold dlRule6 classify; rw [show s.dp.pdrDl6.lookup _ = none from hn]))
/-- **C25, neither IPv4 nor IPv6.** -/
theorem C25_not_ip (e : Env) (s : PS) (h4 : ¬ IsIp4 s.frame) (h6 : ¬ IsIp6 s.frame) :
    ∃ s', runPacket e s = (s', .ok .pass) ∧ s'.frame = s.frame ∧ s'.dp = s.dp :=
  C25_unclassified_untouched e s (.foreign ⟨fun _ h => h4 h.gtpu.ip, fun h => h4 h.ip, fun h => h6 h.ip⟩)

/-! ### C26 -/

/-- The frame may be sent on as user traffic: a rule applies to it, its FAR says forward, the gate of its QER for this direction is
open (and downlink has a tunnel to go to). -/
inductive MayForward (e : Env) (b : BpfObjects) (f : List U8) : Prop
  | up {r : Rule} {far : FarInfo} {qer : QerInfo} : IsGtpMsg e f 255 → ulRule b f = some r → PermitsUl b r far qer → MayForward e b f
  | down4 {r : Rule} {far : FarInfo} {qer : QerInfo} : IsDown4 e f → dlRule4 b f = some r → PermitsDl b r far qer → MayForward e b f
  | down6 {r : Rule} {far : FarInfo} {qer : QerInfo} : IsDown6 f → dlRule6 b f = some r → PermitsDl b r far qer → MayForward e b f

/-- **C26.** A frame is only sent out if it may be forwarded, or is a GTP-U echo request (which is answered). -/
theorem C26_sent_needs_permission (e : Env) (s s' : PS) (a : XAction) (hrun : runPacket e s = (s', .ok a)) (hs : a.sent = true) :
    MayForward e s.dp s.frame ∨ IsGtpMsg e s.frame 1 := by
  have r := entry_det hrun
  clear hrun
  generalize s'.frame = fr at r
  generalize s'.dp = dp at r
  cases r with
  | foreign _ | otherMsg _ _ _ => cases hs
  | echo h => exact .inr h
  | gpdu h r =>
    cases r with
    | unclassified _ | denied h1 h2 | policed h1 => cases hs
    | garbled _ _ h1 h2 | selfOther _ _ _ h1 h2 => cases hs
    | n9 _ _ h1 h2 | kept _ h1 h2 | cut4 _ _ h1 h2 | cut6 _ _ h1 h2 | ping _ _ h1 h2 => exact .inl (.up h h1 h2)
  | down4 h r =>
    cases r with
    | unclassified _ | denied h1 h2 | policed h1 | noRoom => cases hs
    | sent _ _ h1 h2 => exact .inl (.down4 h h1 h2)
  | down6 h r =>
    cases r with
    | unclassified _ | denied h1 h2 | policed h1 | noRoom => cases hs
    | sent _ _ h1 h2 => exact .inl (.down6 h h1 h2)

/-- Frames in both directions that are sent, and one whose FAR does not say forward. -/
example : (runPacket DemoDp.env (DemoDp.ps DemoDp.up)).2 = .ok (.redirect 7) ∧ (runPacket DemoDp.env (DemoDp.ps DemoDp.down)).2 = .ok (.redirect 7) ∧
    (runPacket DemoDp.env (DemoDp.ps DemoDp.upDropped)).2 = .ok .drop := ⟨DemoDp.runs.1, DemoDp.runs.2.1, DemoDp.runs.2.2.2.1⟩

/-! #### what packets do to tables -/

theorem TrafficEffect.refl (b : BpfObjects) : TrafficEffect b b := ⟨rfl, rfl, rfl, rfl, rfl, fun _ => rfl, rfl, rfl, rfl, rfl⟩
theorem TrafficEffect.trans {a b c : BpfObjects} (h : TrafficEffect a b) (g : TrafficEffect b c) : TrafficEffect a c :=
  ⟨g.pdrUl.trans h.pdrUl, g.pdrDl4.trans h.pdrDl4, g.pdrDl6.trans h.pdrDl6, g.far.trans h.far, g.qerSize.trans h.qerSize,
   fun i => (g.qerVal i).trans (h.qerVal i), g.urrSize.trans h.urrSize, g.farIds.trans h.farIds, g.qerIds.trans h.qerIds, g.urrIds.trans h.urrIds⟩
theorem addUrr_effect (b : BpfObjects) (i : U32) (u d : U64) : TrafficEffect b (b.addUrr i u d) := by
  unfold BpfObjects.addUrr
  split
  · exact ⟨rfl, rfl, rfl, rfl, rfl, fun _ => rfl, rfl, rfl, rfl, rfl⟩
  · exact .refl b
theorem chargeUl_effect (b : BpfObjects) (p : PdrEntry) (q : U32) (t : U64) (n : Nat) : TrafficEffect b (chargeUl b p q t n) := by
  have h1 : TrafficEffect b (b.setStart q (fun x => { x with startUL := t })) := by
    refine ⟨rfl, rfl, rfl, rfl, rfl, fun i => ?_, rfl, rfl, rfl, rfl⟩
    simp only [BpfObjects.setStart]
    split
    · rename_i h; subst h; rfl
    · rfl
  exact h1.trans ((addUrr_effect ..).trans (addUrr_effect ..))
theorem chargeDl_effect (b : BpfObjects) (p : PdrEntry) (q : U32) (t : U64) (n : Nat) : TrafficEffect b (chargeDl b p q t n) := by
  have h1 : TrafficEffect b (b.setStart q (fun x => { x with startDL := t })) := by
    refine ⟨rfl, rfl, rfl, rfl, rfl, fun i => ?_, rfl, rfl, rfl, rfl⟩
    simp only [BpfObjects.setStart]
    split
    · rename_i h; subst h; rfl
    · rfl
  exact h1.trans ((addUrr_effect ..).trans (addUrr_effect ..))
theorem downRes_effect {e : Env} {b : BpfObjects} {f : List U8} {p r n fr dp a} (h : DownRes e b f p r n fr dp a) : TrafficEffect b dp := by
  cases h with
  | unclassified _ | denied _ _ | policed _ _ _ => exact .refl b
  | noRoom | sent => exact chargeDl_effect ..
theorem packetRes_effect {e : Env} {b : BpfObjects} {f fr : List U8} {dp : BpfObjects} {a : XAction} (h : PacketRes e b f fr dp a) : TrafficEffect b dp := by
  cases h with
  | foreign _ | otherMsg _ _ _ | echo _ => exact .refl b
  | gpdu _ r =>
    cases r with
    | unclassified _ | denied _ _ | policed _ _ _ => exact .refl b
    | n9 | kept | garbled | cut4 | cut6 | selfOther => exact chargeUl_effect ..
    | ping _ _ _ _ _ _ _ _ _ _ _ _ d => exact (chargeUl_effect ..).trans (downRes_effect d)
  | down4 _ r => exact downRes_effect r
  | down6 _ r => exact downRes_effect r

theorem TrafficEffect.dlRule4 {b b' : BpfObjects} (h : TrafficEffect b b') (f : List U8) : Eupf.dlRule4 b' f = Eupf.dlRule4 b f := by
  unfold Eupf.dlRule4; rw [h.pdrDl4]
theorem TrafficEffect.permitsDl' {b b' : BpfObjects} (h : TrafficEffect b b') {r : Rule} {far : FarInfo} {qer : QerInfo} (hp : PermitsDl b' r far qer) :
    ∃ qer', PermitsDl b r far qer' ∧ qer'.qfi = qer.qfi := by
  have hg := hp.hasQer
  unfold ArrMap.lookup at hg
  split at hg
  · rename_i hh
    cases hg
    refine ⟨b.qer.val r.qer, ⟨h.far ▸ hp.hasFar, hp.forw, hp.tunnel, ?_, ?_⟩, ?_⟩
    · unfold ArrMap.lookup; rw [if_pos (h.qerSize ▸ hh)]
    · exact (congrArg QerInfo.gateDL (h.qerVal r.qer)).symm.trans hp.gate
    · exact (congrArg QerInfo.qfi (h.qerVal r.qer)).symm
  · cases hg
theorem TrafficEffect.permitsDl {b b' : BpfObjects} (h : TrafficEffect b b') {r : Rule} {far : FarInfo} {qer : QerInfo} (hp : PermitsDl b' r far qer) :
    ∃ qer', PermitsDl b r far qer' := by
  obtain ⟨q, hq, _⟩ := h.permitsDl' hp; exact ⟨q, hq⟩

/-- **C26, echo replies.** The UPF's answer to an uplink ping is itself downlink traffic: it is sent only if the reply may be
forwarded as such. -/
theorem C26_ping_reply_needs_permission (e : Env) (s s' : PS) (a : XAction) (hrun : runPacket e s = (s', .ok a)) (hs : a.sent = true)
    {r : Rule} {far : FarInfo} {qer : QerInfo} (hm : IsGtpMsg e s.frame 255) (hr : ulRule s.dp s.frame = some r)
    (hp : PermitsUl s.dp r far qer) (h1 : far.ohc.getLsbD 0 = false) (h2 : r.ohr = 0) (h3 : innerType s.frame = some 0x0800)
    (h4 : ToSelf e (cutFrame s.frame 0x0800)) :
    ∃ r' far' qer', dlRule4 s.dp (pingReply (cutFrame s.frame 0x0800)) = some r' ∧ PermitsDl s.dp r' far' qer' := by
  have res := entry_det hrun
  clear hrun
  generalize s'.frame = fr at res
  generalize s'.dp = dp at res
  have hx : ∀ {t}, IsGtpMsg e s.frame t → t = 255 := fun h => by rw [← h.type, hm.type]
  cases res with
  | foreign _ | otherMsg _ _ _ => cases hs
  | echo h => exact absurd (hx h) (by decide)
  | down4 h _ => exact absurd hm.gtpu h.notGtpu
  | down6 h _ => exact absurd (h.ip.type.symm.trans hm.gtpu.ip.type) (by decide)
  | gpdu _ res =>
    have same : ∀ {r' : Rule} {far' : FarInfo} {qer' : QerInfo}, ulRule s.dp s.frame = some r' → PermitsUl s.dp r' far' qer' → r' = r ∧ far' = far := by
      intro r' far' qer' q1 q2
      have : r' = r := Option.some.inj (q1.symm.trans hr)
      subst this
      exact ⟨rfl, Option.some.inj (q2.hasFar.symm.trans hp.hasFar)⟩
    cases res with
    | unclassified _ | denied _ _ | policed _ => cases hs
    | garbled _ _ _ _ | selfOther _ _ _ _ _ => cases hs
    | n9 g _ q1 q2 _ q3 => rw [(same q1 q2).2, h1] at q3; cases q3
    | kept _ q1 q2 _ _ q3 => rw [(same q1 q2).1] at q3; exact absurd h2 q3
    | cut4 g _ q1 q2 _ _ _ _ _ q3 q4 => subst q3; exact absurd h4 q4
    | cut6 g _ q1 q2 _ _ _ _ q3 => rw [h3] at q3; cases q3
    | ping g _ q1 q2 _ _ _ _ _ q3 _ _ d =>
      subst q3
      obtain ⟨b, hb, he⟩ : ∃ b, b = chargeUl s.dp _ _ _ _ ∧ TrafficEffect s.dp b := ⟨_, rfl, chargeUl_effect ..⟩
      rw [← hb] at d
      cases d with
      | unclassified _ | denied _ _ | policed _ | noRoom => cases hs
      | sent g' _ d1 d2 =>
        obtain ⟨q, hq⟩ := he.permitsDl d2
        exact ⟨_, _, q, (he.dlRule4 _).symm.trans d1, hq⟩

/-- A ping of the UPF by the UE that is answered. -/
example : innerType DemoDp.upPing = some 0x0800 ∧ ToSelf DemoDp.env (cutFrame DemoDp.upPing 0x0800) ∧
    ulRule DemoDp.dp DemoDp.upPing = some ⟨0, 0, 0⟩ ∧ PermitsUl DemoDp.dp ⟨0, 0, 0⟩ { action := 2 } { qfi := 9, mbrUL := 10000000, mbrDL := 10000000 } ∧
    (runPacket DemoDp.env (DemoDp.ps DemoDp.upPing)).2 = .ok (.redirect 7) :=
  ⟨by decide +kernel, ⟨by decide +kernel, by decide +kernel⟩, by decide +kernel, ⟨by decide +kernel, by decide, by decide +kernel, by decide⟩, DemoDp.runs.2.2.2.2.2.1⟩

/-- **C26, otherwise dropped.** A frame to which a rule applies, but whose rule does not let it through, is dropped unchanged, and
no table changes. -/
theorem C26_not_permitted_dropped (e : Env) (s : PS) (r : Rule)
    (h : (IsGtpMsg e s.frame 255 ∧ ulRule s.dp s.frame = some r ∧ ¬ ∃ far qer, PermitsUl s.dp r far qer) ∨
      (IsDown4 e s.frame ∧ dlRule4 s.dp s.frame = some r ∧ ¬ ∃ far qer, PermitsDl s.dp r far qer) ∨
      (IsDown6 s.frame ∧ dlRule6 s.dp s.frame = some r ∧ ¬ ∃ far qer, PermitsDl s.dp r far qer)) :
    ∃ s', runPacket e s = (s', .ok .drop) ∧ s'.frame = s.frame ∧ s'.dp = s.dp := by
  obtain ⟨s', a, hrun, res, _⟩ := entry_outcome e s
  have key : a = .drop ∧ s'.frame = s.frame ∧ s'.dp = s.dp := by
    generalize s'.frame = fr at res ⊢
    generalize s'.dp = dp at res ⊢
    have downc : ∀ {pdr? n rule}, rule = some r → (¬ ∃ far qer, PermitsDl s.dp r far qer) → DownRes e s.dp s.frame pdr? rule n fr dp a →
        a = .drop ∧ fr = s.frame ∧ dp = s.dp := by
      intro pdr? n rule hr hp d
      cases d with
      | unclassified h1 => rw [hr] at h1; cases h1
      | denied _ _ | policed _ _ _ => exact ⟨rfl, rfl, rfl⟩
      | noRoom _ h1 h2 | sent _ _ h1 h2 => rw [hr] at h1; cases h1; exact absurd ⟨_, _, h2⟩ hp
    rcases h with ⟨hm, hr, hp⟩ | ⟨hm, hr, hp⟩ | ⟨hm, hr, hp⟩
    · have hx : ∀ {t}, IsGtpMsg e s.frame t → t = 255 := fun h => by rw [← h.type, hm.type]
      cases res with
      | foreign h => exact absurd hm (h.notMsg _)
      | otherMsg h h2 _ => exact absurd (hx h) h2
      | echo h => exact absurd (hx h) (by decide)
      | gpdu _ res =>
        cases res with
        | unclassified h1 => rw [hr] at h1; cases h1
        | denied _ _ | policed _ _ _ => exact ⟨rfl, rfl, rfl⟩
        | n9 _ _ h1 h2 | kept _ h1 h2 | garbled _ _ h1 h2 | cut4 _ _ h1 h2 | cut6 _ _ h1 h2 | selfOther _ _ _ h1 h2 | ping _ _ h1 h2 =>
          rw [hr] at h1; cases h1; exact absurd ⟨_, _, h2⟩ hp
      | down4 h _ => exact absurd hm.gtpu h.notGtpu
      | down6 h _ => exact absurd (h.ip.type.symm.trans hm.gtpu.ip.type) (by decide)
    · cases res with
      | foreign h => exact absurd hm h.notDown4
      | otherMsg h _ _ => exact absurd h.gtpu hm.notGtpu
      | echo h => exact absurd h.gtpu hm.notGtpu
      | gpdu h _ => exact absurd h.gtpu hm.notGtpu
      | down4 h d => exact downc hr hp d
      | down6 h _ => exact absurd (h.ip.type.symm.trans hm.ip.type) (by decide)
    · cases res with
      | foreign h => exact absurd hm h.notDown6
      | otherMsg h _ _ => exact absurd (hm.ip.type.symm.trans h.gtpu.ip.type) (by decide)
      | echo h => exact absurd (hm.ip.type.symm.trans h.gtpu.ip.type) (by decide)
      | gpdu h _ => exact absurd (hm.ip.type.symm.trans h.gtpu.ip.type) (by decide)
      | down4 h _ => exact absurd (hm.ip.type.symm.trans h.ip.type) (by decide)
      | down6 h d => exact downc hr hp d
  exact ⟨s', by rw [hrun, key.1], key.2⟩

/-- A frame to which this applies: TEID 0x101 has a FAR without forward. -/
example : IsGtpMsg DemoDp.env DemoDp.upDropped 255 ∧ ulRule DemoDp.dp DemoDp.upDropped = some ⟨0, 2, 0⟩ ∧ ¬ ∃ far qer, PermitsUl DemoDp.dp ⟨0, 2, 0⟩ far qer := by
  refine ⟨DemoDp.upDropped_gpdu, by decide +kernel, ?_⟩
  rintro ⟨far, qer, h⟩
  have h1 : far = {} := Option.some.inj (h.hasFar.symm.trans (by decide +kernel))
  have h2 := h.forw
  rw [h1] at h2
  exact absurd h2 (by decide)

/-! ### sequences of frames -/

/-- What stays between packets: tables and counters. -/
structure Dev where
  dp : BpfObjects
  st : UpfStat
  rt : RouteStat

/-- Process frames one after the other; the actions, oldest first. -/
def Dev.run (d : Dev) : List (Env × List U8) → Dev × List XAction
  | [] => (d, [])
  | (e, f) :: l =>
    match runPacket e ⟨f, d.dp, d.st, d.rt⟩ with
    | (s, .ok a) => let r := Dev.run ⟨s.dp, s.st, s.rt⟩ l; (r.1, a :: r.2)
    | (s, _) => (⟨s.dp, s.st, s.rt⟩, [])

/-- **C40.** After any sequence of frames each action counter has grown by exactly the number of frames that got this action (modulo
2^64). -/
theorem C40_action_counters (d : Dev) (l : List (Env × List U8)) (i : Fin 8) :
    (d.run l).2.length = l.length ∧
    (d.run l).1.st.actions i = d.st.actions i + BitVec.ofNat 64 ((d.run l).2.filter (fun a => decide (a.code = i))).length := by
  induction l generalizing d with
  | nil => simp [Dev.run]
  | cons x l ih =>
    obtain ⟨e, f⟩ := x
    obtain ⟨s', a, h, _, hc⟩ := entry_outcome e ⟨f, d.dp, d.st, d.rt⟩
    unfold Dev.run
    rw [h]
    simp only
    obtain ⟨ih1, ih2⟩ := ih ⟨s'.dp, s'.st, s'.rt⟩
    refine ⟨by simp [ih1], ?_⟩
    rw [ih2, hc]
    simp only [List.filter_cons]
    by_cases hi : i = a.code
    · subst hi
      simp only [if_true, decide_true, List.length_cons]
      rw [BitVec.ofNat_add, BitVec.add_assoc, BitVec.add_comm (BitVec.ofNat 64 _) (BitVec.ofNat 64 1)]
      rfl
    · rw [if_neg hi, if_neg (by simpa using fun h => hi h.symm)]

/-- A sequence with four different actions. -/
example : ((⟨DemoDp.dp, {}, {}⟩ : Dev).run [(DemoDp.env, DemoDp.up), (DemoDp.env, DemoDp.upUnknown), (DemoDp.env, DemoDp.echo), (DemoDp.env, DemoDp.upDropped)]).2 =
    [.redirect 7, .pass, .tx, .drop] := by decide +kernel

/-! ### C50 -/

/-- **C50.** Processing any sequence of frames leaves the PDR tables, the FAR slots, the slot allocators, the table sizes and every
field of the QER slots but the rate limiting timers as they were (`TrafficEffect`). -/
theorem C50_packets_keep_rules (d : Dev) (l : List (Env × List U8)) : TrafficEffect d.dp (d.run l).1.dp := by
  induction l generalizing d with
  | nil => exact .refl _
  | cons x l ih =>
    obtain ⟨e, f⟩ := x
    obtain ⟨s', a, h, r, _⟩ := entry_outcome e ⟨f, d.dp, d.st, d.rt⟩
    unfold Dev.run
    rw [h]
    exact (packetRes_effect r).trans (ih ⟨s'.dp, s'.st, s'.rt⟩)

/-- Packets do change the tables within these limits: the uplink frame moves the timer of QER 0. -/
example : ((⟨DemoDp.dp, {}, {}⟩ : Dev).run [(DemoDp.env, DemoDp.up)]).1.dp.qer.val 0 ≠ DemoDp.dp.qer.val 0 := by decide +kernel

/-- **C50, sessions.** Traffic is one of the steps under which the reachable states of the control plane model are closed, and that
step changes nothing but the tables: no session record changes. -/
theorem C50_sessions_untouched {n0 n : Node} (h : Reach n0 n) (d : Dev) (hd : d.dp = n.dp) (l : List (Env × List U8)) :
    Reach n0 { n with dp := (d.run l).1.dp } ∧ ({ n with dp := (d.run l).1.dp } : Node).assocs = n.assocs :=
  ⟨.traffic h (hd ▸ C50_packets_keep_rules d l), rfl⟩

end Eupf
