import Verif.Spec.Idle
import Verif.Props.Restart
import Verif.Props.AbstractCases
/-
C121: packets for idle UEs are not reported and not kept; C122: GTP-U messages other than G-PDUs and Echo Requests are not handled. The theorems
are about the models of the PFCP endpoint (Verif/Wire.lean) and of the packet program (Verif/Xdp); no further code is modelled here.
-/
namespace Eupf

/-! ### what the UPF says -/

/-- **C121, negation: packets make the UPF say nothing.** In every execution, whatever packets are processed at whatever points of it, the messages
sent are those that the turns of the PFCP endpoint account for: the user plane never causes a message. -/
theorem C121_says_nothing {w0 w : Endpoint} {h : List (Turn × Outcome)} (hs0 : w0.sent = []) (h0 : w0.node.assocs = GoMap.empty)
    (hr : Endpoint.Run w0 h w) : w.sent = messagesOf w0.node.cfg w0.remotes w0.resolves h := by
  induction hr with
  | init => simp [hs0, messagesOf]
  | traffic _ _ ih => exact ih
  | @turn h w t ha hr ih =>
    obtain ⟨c1, c2, c3⟩ := run_const hr
    rcases turn_sent w t with ⟨e, r, rfl, ho, hs⟩ | ⟨e, rfl, ho, hs⟩ | ⟨a, q, rfl, hx, hs⟩ | ⟨a, q, rfl, hx, hs⟩ | ⟨rfl, hs⟩ | ⟨h1, h2, h3, hs⟩
    · rw [hs, ih]
      simp only [ho, messagesOf]
    · rw [hs, ih]
      show _ = messagesOf _ _ _ ((.event e, (w.node.step e).2) :: h)
      cases hh : (w.node.step e).2 with
      | reply r => exact absurd hh (ho r)
      | silent => rfl
      | crash => rfl
    · rw [hs, ih]
      rw [c2] at hx
      simp only [messagesOf, hx, if_true]
    · rw [hs, ih]
      rw [c2] at hx
      simp only [messagesOf, hx]
      rfl
    · rw [hs, ih]
      simp only [messagesOf]
      congr 2
      unfold Endpoint.refresh
      rw [c1, c2, c3]
      have hf : (fun a => (w.node.assocs.get? a).isNone) = fun a => !associated a h := by
        funext a
        rw [← C68_associated h0 hr ha a]
        cases w.node.assocs.get? a <;> rfl
      rw [hf]
    · rw [hs, ih]
      cases t with
      | event e => exact absurd rfl (h1 e)
      | probe a q => exact absurd rfl (h2 a q)
      | tick => exact absurd rfl h3
      | undecodable => rfl
      | unexpected k => rfl

/-- **C121, negation: no reports.** The UPF sends responses, Heartbeat Requests and Association Setup Requests, and nothing else: no Session Report
Request (downlink data, usage, error indication) and no Node Report Request, ever. -/
theorem C121_no_reports {w0 w : Endpoint} {h : List (Turn × Outcome)} (hs0 : w0.sent = []) (h0 : w0.node.assocs = GoMap.empty)
    (hr : Endpoint.Run w0 h w) : ∀ s ∈ w.sent, s.name.unasked = true ∨ s.name.response = true := by
  rw [C121_says_nothing hs0 h0 hr]
  generalize w0.node.cfg = cfg
  generalize w0.remotes = rs
  generalize w0.resolves = re
  clear hr hs0 h0
  induction h with
  | nil => intro s hs; cases hs
  | cons x h ih =>
    obtain ⟨t, o⟩ := x
    intro s hs
    cases t with
    | undecodable => exact ih s hs
    | unexpected k => exact ih s hs
    | event e =>
      cases o with
      | reply r =>
        rcases List.mem_cons.1 hs with rfl | hs
        · right; cases r.type <;> rfl
        · exact ih s hs
      | silent => exact ih s hs
      | crash => exact ih s hs
    | tick =>
      simp only [messagesOf, List.mem_append, List.mem_reverse, List.mem_map] at hs
      rcases hs with ⟨a, -, rfl⟩ | hs
      · exact .inl rfl
      · exact ih s hs
    | probe a q =>
      simp only [messagesOf] at hs
      split at hs
      · rcases List.mem_cons.1 hs with rfl | hs
        · exact .inl rfl
        · exact ih s hs
      · exact ih s hs

/-- Non-vacuity: an execution with messages of both kinds. -/
example : Demo.w0.sent = [] ∧ Demo.w0.node.assocs = GoMap.empty ∧ (∃ h, Endpoint.Run Demo.w0 h Demo.wEnd) ∧
    Demo.wEnd.sent.map (fun s => (s.name.unasked, s.name.response)) = [(false, true), (true, false), (false, true), (true, false)] := by
  refine ⟨rfl, rfl, ?_, by decide +kernel⟩
  obtain ⟨h, H, _⟩ := run_turns (w0 := Demo.w0)
    [.tick, .undecodable, .unexpected 12, .event (.assocSetup 1 1 (some (some ())) (some (some ()))), .probe 1 2,
     .event (.establish 2 (Demo.est 100))] .init (by decide +kernel)
  exact ⟨_, H⟩

/-! ### what happens to the packets -/

/-- **C121, negation: nothing is kept.** After a clean history, a packet for a PDR whose FAR, as last told, does not forward - whatever else its
Apply Action says: BUFF, NOCP or both - is dropped: it does not leave, and no table changes, so that nothing tells a later state that it came. -/
theorem C121_dropped_partial {cfg : NodeCfg} {rm : Option ResourceManager} {pz fz qz uz : U32} (hfz : 0 < fz.toNat) (hqz : 0 < qz.toNat)
    (huz : 0 < uz.toNat) {h : List (Ev × Outcome)} {n : Node} (H : HistP Clean (Node.init cfg rm (BpfObjects.load pz fz qz uz)) h n)
    (hb : attempts h < 2 ^ 64 - 2) {a : Addr} {sd : U64} {i : U32} {P : APdr} {F : AFar} {Q : AQer} (hs : Said h a sd i P F Q)
    (hidle : ¬ F.forwards) (e : Env) (s : PS) (hdp : s.dp = n.dp) (hf : FrameFor e s.frame P.key) (hfit : P.fits s.frame) :
    ∃ s', runPacket e s = (s', .ok .drop) ∧ s'.frame = s.frame ∧ s'.dp = s.dp :=
  C100_stopped_partial hfz hqz huz H hb hs e s hdp hf hfit fun hl => hidle hl.forw

/-- **C121, negation: a stream to an idle UE.** Any number of such packets, at any times: all are dropped, and afterwards the UPF is as if none had
come; packets that come once the FAR forwards again find nothing to go before them. -/
theorem C121_stream_partial {cfg : NodeCfg} {rm : Option ResourceManager} {pz fz qz uz : U32} (hfz : 0 < fz.toNat) (hqz : 0 < qz.toNat)
    (huz : 0 < uz.toNat) {h : List (Ev × Outcome)} {n : Node} (H : HistP Clean (Node.init cfg rm (BpfObjects.load pz fz qz uz)) h n)
    (hb : attempts h < 2 ^ 64 - 2) {a : Addr} {sd : U64} {i : U32} {P : APdr} {F : AFar} {Q : AQer} (hs : Said h a sd i P F Q)
    (hidle : ¬ F.forwards) (l : List (Env × List U8)) (hl : ∀ x ∈ l, FrameFor x.1 x.2 P.key ∧ P.fits x.2) (d : Dev) (hdp : d.dp = n.dp) :
    (d.run l).2 = l.map (fun _ => .drop) ∧ (d.run l).1.dp = n.dp := by
  induction l generalizing d with
  | nil => exact ⟨rfl, hdp⟩
  | cons x l ih =>
    obtain ⟨e, f⟩ := x
    obtain ⟨h1, h2⟩ := hl (e, f) (List.mem_cons_self ..)
    obtain ⟨s', g1, -, g3⟩ := C121_dropped_partial hfz hqz huz H hb hs hidle e ⟨f, d.dp, d.st, d.rt⟩ hdp h1 h2
    unfold Dev.run
    rw [g1]
    obtain ⟨r1, r2⟩ := ih (fun x hx => hl x (List.mem_cons_of_mem _ hx)) ⟨s'.dp, s'.st, s'.rt⟩ (g3.trans hdp)
    exact ⟨by simp only [r1, List.map_cons], r2⟩

/-! ### a UE that goes idle and is woken -/

/-- FAR 1 says BUFF and NOCP (0x0C) -/
def Demo.req121 : EstReq := { Demo.req [Demo.toUe 1 1 0x0A3C0001 none] with
  createFar := [{ Demo.into 1 0x200 with applyAction := some [12] }] }
def Demo.n121 : Node := (Demo.nSvc0.step (.establish 1 Demo.req121)).1
theorem Demo.n121_step : Demo.nSvc0.step (.establish 1 Demo.req121) = (Demo.n121, .reply Demo.svcResp) := by
  have : (Demo.nSvc0.step (.establish 1 Demo.req121)).2 = .reply Demo.svcResp := by decide +kernel
  exact Prod.ext (by simp only [Demo.n121]) this
theorem Demo.req121_own : ∀ ie ∈ Demo.req121.createPdr, (∃ i, ie.farId = some i ∧ ∃ c ∈ Demo.req121.createFar, c.farId.getD 0 = i) ∧
    ∃ i, ie.qerId = some i ∧ ∃ c ∈ Demo.req121.createQer, c.qerId = some i := by
  intro ie hie
  simp only [Demo.req121, Demo.req, List.mem_cons, List.not_mem_nil, or_false] at hie
  subst hie
  exact ⟨⟨1, rfl, Demo.req121.createFar[0], by simp [Demo.req121, Demo.req], rfl⟩, 1, rfl, Demo.req121.createQer[0], by simp [Demo.req121, Demo.req], rfl⟩
theorem Demo.hist121 : ∃ h, HistP Clean Demo.n0 ((.establish 1 Demo.req121, .reply Demo.svcResp) :: h) Demo.n121 ∧
    attempts ((.establish 1 Demo.req121, .reply Demo.svcResp) :: h) = 1 := by
  obtain ⟨h, s2, hb⟩ := Demo.two99
  have s3 := HistP.snoc s2 (clean_establish (orderly_establish (a := 1) (r := Demo.req121) (by decide) (by decide +kernel) (by decide +kernel) (by decide +kernel))
    (by decide) (by decide) (by decide) Demo.req121_own) Demo.n121_step
  refine ⟨h, s3, ?_⟩
  show attempts h + 1 = 1
  rw [hb]
theorem Demo.n121_said (h : List (Ev × Outcome)) : Said ((.establish 1 Demo.req121, .reply Demo.svcResp) :: h) 1 2 1
    ⟨.dl4 0x0A3C0001, 0, none, 1, 1⟩ ⟨12, 0x0100, 0x200, 0x0A000314, 0⟩ ⟨0, 0, 0, 0, 9⟩ :=
  ⟨_, by simp [said, Demo.svcResp]; rfl, rfl, rfl, rfl⟩

/-- Non-vacuity: three packets for the idle UE of this session are dropped. -/
example : ((⟨Demo.n121.dp, {}, {}⟩ : Dev).run (List.replicate 3 (DemoDp.env, DemoDp.down))).2 = [.drop, .drop, .drop] := by
  obtain ⟨h, H, b⟩ := Demo.hist121
  have hs := Demo.n121_said h
  have hf := Demo.down_for
  generalize Demo.n121 = n at H ⊢
  generalize DemoDp.down = f at hf ⊢
  generalize DemoDp.env = e at hf ⊢
  exact (C121_stream_partial (fz := 4) (qz := 4) (uz := 4) (by decide) (by decide) (by decide) H (by rw [b]; decide) hs
    (by unfold AFar.forwards; decide) (List.replicate 3 (e, f))
    (by intro x hx; rw [List.eq_of_mem_replicate hx]; exact ⟨hf, by intro sdf h; cases h⟩) ⟨n.dp, {}, {}⟩ rfl).1

/-- The request that wakes the UE: FAR 1 forwards again. -/
def Demo.wake121 : ModReq := { seid := 2, seq := 9, updateFar := [{ kind := .update, farId := some 1, applyAction := some [2] }] }
def Demo.n121w : Node := (Demo.n121.step (.modify 1 Demo.wake121 default)).1

/-- **C121, negation, concrete.** A packet for an idle UE comes, then the UE is woken, then a second packet comes: the first is dropped and the second
is sent; nobody ever sends the first. -/
theorem C121_first_packet_lost : (runPacket DemoDp.env ⟨DemoDp.down, Demo.n121.dp, {}, {}⟩).2 = .ok .drop ∧
    (match (Demo.n121.step (.modify 1 Demo.wake121 default)).2 with | .reply r => r.cause | _ => 0) = 1 ∧
    (runPacket DemoDp.env ⟨DemoDp.down, Demo.n121w.dp, {}, {}⟩).2 = .ok (.redirect 7) := by
  refine ⟨by decide +kernel, by decide +kernel, by decide +kernel⟩

/-! ### GTP-U messages -/

/-- **C122, negation: other GTP-U messages are not handled.** A GTP-U message that is neither a G-PDU (255) nor an Echo Request (1) - an End Marker
(254) that a UPF or the access network sends through the tunnel of a session, an Error Indication (26), an Echo Response - is left to the kernel as it
came, whatever rules there are for its TEID; no table changes. -/
theorem C122_not_carried (e : Env) (s : PS) {t : U8} (hm : IsGtpMsg e s.frame t) (h1 : t ≠ 255) (h2 : t ≠ 1) :
    ∃ s', runPacket e s = (s', .ok .pass) ∧ s'.frame = s.frame ∧ s'.dp = s.dp := by
  obtain ⟨s', a, h, r, -⟩ := entry_outcome e s
  have hx : ∀ {t'}, IsGtpMsg e s.frame t' → t' = t := fun h => by rw [← h.type, hm.type]
  refine ⟨s', ?_⟩
  generalize hfr : s'.frame = fr at r ⊢
  generalize hdp : s'.dp = dp at r ⊢
  cases r with
  | foreign hn => exact ⟨h, rfl, rfl⟩
  | otherMsg _ _ _ => exact ⟨h, rfl, rfl⟩
  | echo h' => exact absurd (hx h').symm h2
  | gpdu h' _ => exact absurd (hx h').symm h1
  | down4 h' _ => exact absurd hm.gtpu h'.notGtpu
  | down6 h' _ => exact absurd (hm.gtpu.ip.type.symm.trans h'.ip.type) (by decide)

/-- An End Marker (254) for TEID 0x102, which has a rule that sends G-PDUs on to the UPF 10.0.9.20. -/
def Demo.endMarker : List U8 :=
  DemoDp.macsIn ++ [8, 0] ++ DemoDp.ip4h 36 17 [10, 0, 3, 20] [10, 0, 3, 10] ++ [8, 0x68, 8, 0x68, 0, 16, 0, 0] ++ [0x30, 254, 0, 0] ++ [0, 0, 1, 2]

/-- Non-vacuity of C122_not_carried, and the negation in the concrete: the G-PDUs of the tunnel are sent on, its End Marker is not, so that the
access network at the end of the way waits for it in vain. -/
theorem C122_end_marker_lost : IsGtpMsg DemoDp.env Demo.endMarker 254 ∧ gtpTeid Demo.endMarker = gtpTeid DemoDp.upN9 ∧
    (runPacket DemoDp.env ⟨DemoDp.upN9, DemoDp.dp, {}, {}⟩).2 = .ok (.redirect 7) ∧
    (runPacket DemoDp.env ⟨Demo.endMarker, DemoDp.dp, {}, {}⟩).2 = .ok .pass :=
  ⟨⟨⟨⟨by decide, by decide⟩, by decide, by decide, by decide, by decide⟩, by decide, by decide⟩, by decide, by decide +kernel, by decide +kernel⟩

/-- **C122, negation: no Error Indication.** After a clean history a G-PDU with a TEID that nobody was given is left to the kernel: the
UPF sends nothing back to tell the sender. -/
theorem C122_no_error_indication_partial {cfg : NodeCfg} {rm : Option ResourceManager} {pz fz qz uz : U32} (hfz : 0 < fz.toNat) (hqz : 0 < qz.toNat)
    (huz : 0 < uz.toNat) {h : List (Ev × Outcome)} {n : Node} (H : HistP Clean (Node.init cfg rm (BpfObjects.load pz fz qz uz)) h n)
    (hb : attempts h < 2 ^ 64 - 2) {t : U32} (hK : ∀ a s i P F Q, Said h a s i P F Q → P.key ≠ .ul t) (e : Env) (s : PS) (hdp : s.dp = n.dp)
    (hm : IsGtpMsg e s.frame 255) (ht : gtpTeid s.frame = t) : ∃ s', runPacket e s = (s', .ok .pass) ∧ s'.frame = s.frame ∧ s'.dp = s.dp :=
  C100_unknown_partial hfz hqz huz H hb hK e s hdp ⟨hm, ht⟩

/-- Non-vacuity of C122_no_error_indication_partial: TEID 0x100, which was removed. -/
example (e : Env) (s : PS) (hdp : s.dp = Demo.nEnd98.dp) (hm : IsGtpMsg e s.frame 255) (ht : gtpTeid s.frame = 0x100) :
    ∃ s', runPacket e s = (s', .ok .pass) ∧ s'.frame = s.frame ∧ s'.dp = s.dp := by
  obtain ⟨h, H, b⟩ := Demo.hist100
  have hk := Demo.keys98
  have hsd := fun a s => C100_said_partial (fz := 4) (qz := 4) (uz := 4) (by decide) (by decide) (by decide) H a s
  generalize Demo.nEnd98 = n at H hdp hk hsd
  refine C122_no_error_indication_partial (fz := 4) (qz := 4) (uz := 4) (by decide) (by decide) (by decide) H (by rw [b]; decide) (t := 0x100) ?_ e s hdp hm ht
  intro a sd i P F Q hs hkey
  obtain ⟨A, hA, hP, -⟩ := hs.pdr
  have h1 := hsd a sd
  rw [hA] at h1
  obtain ⟨x, hx, hI⟩ := both_some h1
  have h2 := hI.pdrs i
  rw [hP] at h2
  obtain ⟨p, hp, hIs⟩ := both_some h2
  have := mem_keyList.2 ⟨p, ⟨x, hx, hp⟩, hIs.key.trans hkey⟩
  rw [hk] at this
  simp at this

example : IsGtpMsg DemoDp.env DemoDp.up 255 ∧ gtpTeid DemoDp.up = 0x100 := ⟨DemoDp.up_gpdu, by decide⟩

/-- **C122: what the UPF answers.** Of all frames the only ones that the UPF sends back itself (XDP_TX) and that it does not forward by a rule are
answers to Echo Requests. -/
theorem C122_answers_only_echo (e : Env) (s s' : PS) {act : XAction} (hrun : runPacket e s = (s', .ok act)) (hs : act.sent = true)
    (hr : ¬ MayForward e s.dp s.frame) : IsGtpMsg e s.frame 1 :=
  (C26_sent_needs_permission e s s' act hrun hs).resolve_left hr

/-- Non-vacuity: the Echo Request of the demo. -/
example : ¬ MayForward DemoDp.env DemoDp.dp DemoDp.echo := by
  intro h
  have hm := DemoDp.echo_msg
  cases h with
  | up h1 _ _ => exact absurd (h1.type.symm.trans hm.type) (by decide)
  | down4 h1 _ _ => exact h1.notGtpu hm.gtpu
  | down6 h1 _ _ => exact absurd (hm.gtpu.ip.type.symm.trans h1.ip.type) (by decide)
example : (runPacket DemoDp.env ⟨DemoDp.echo, DemoDp.dp, {}, {}⟩).2 = .ok .tx := by decide +kernel

end Eupf
