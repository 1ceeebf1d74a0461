import Verif.Spec.Restart
import Verif.Props.Refresh
import Verif.Props.Ledger
import Verif.Props.Requests
import Verif.DeleteLemmas
/-
C06 on the wire, and C88: restarts.
-/
namespace Eupf

/-! ### What is on the wire -/

/-- proof device: what a turn adds to the messages sent -/
theorem turn_sent (w : Endpoint) (t : Turn) :
    (∃ e r, t = .event e ∧ (w.node.step e).2 = .reply r ∧ (w.turn t).sent = ⟨e.from, r.type.respName, r.seq, r.features⟩ :: w.sent) ∨
    (∃ e, t = .event e ∧ (∀ r, (w.node.step e).2 ≠ .reply r) ∧ (w.turn t).sent = w.sent) ∨
    (∃ a q, t = .probe a q ∧ w.resolves a = true ∧ (w.turn t).sent = ⟨a, .heartbeatRequest, q, none⟩ :: w.sent) ∨
    (∃ a q, t = .probe a q ∧ w.resolves a = false ∧ (w.turn t).sent = w.sent) ∨
    (t = .tick ∧ (w.turn t).sent = w.refresh.reverse ++ w.sent) ∨
    ((∀ e, t ≠ .event e) ∧ (∀ a q, t ≠ .probe a q) ∧ t ≠ .tick ∧ (w.turn t).sent = w.sent) := by
  cases t with
  | undecodable => simp [Endpoint.turn]
  | unexpected k => simp [Endpoint.turn]
  | tick => simp [Endpoint.turn]
  | probe a q =>
    by_cases h : w.resolves a = true
    · refine Or.inr (Or.inr (Or.inl ⟨a, q, rfl, h, ?_⟩))
      simp [Endpoint.turn, h]
    · refine Or.inr (Or.inr (Or.inr (Or.inl ⟨a, q, rfl, by simpa using h, ?_⟩)))
      simp [Endpoint.turn, h]
  | event e =>
    rcases hs : w.node.step e with ⟨n, o⟩
    cases o with
    | crash => exact Or.inr (Or.inl ⟨e, rfl, by simp [hs], by simp [Endpoint.turn, hs]⟩)
    | silent => exact Or.inr (Or.inl ⟨e, rfl, by simp [hs], by simp [Endpoint.turn, hs]⟩)
    | reply r => exact Or.inl ⟨e, r, rfl, by simp [hs], by simp [Endpoint.turn, hs]⟩

/-- proof device: the answer to a request -/
theorem answer_of_reply {n : Node} {e : Ev} {r : Resp} (h : (n.step e).2 = .reply r) :
    e.answer = some (e.from, r.type.respName, r.seq) := by
  have hx := C06_sequence n e r h
  clear h
  cases e <;> simp only [Ev.expected, Option.some.injEq, Prod.mk.injEq, reduceCtorEq] at hx <;>
    (obtain ⟨h1, h2⟩ := hx; simp [Ev.answer, Ev.from, ← h1, ← h2, MsgType.respName])

/-- **C06, on the wire.** In every execution of the endpoint, the messages sent, apart from the Association Setup Requests (C68), are, in
order: for every request of a peer that is answered, one response, to this peer, of the matching name and with the sequence number of the
request; for every heartbeat that is due to a peer whose address resolves, one Heartbeat Request to this peer with the sequence number of
the scheduler. -/
theorem C06_on_the_wire {w0 w : Endpoint} {h : List (Turn × Outcome)} (hs0 : w0.sent = []) (hr : Endpoint.Run w0 h w) :
    (w.sent.filter (fun s => s.name ≠ .associationSetupRequest)).map Sent.head = h.filterMap (saysOf w0.resolves) := by
  induction hr with
  | init => simp [hs0]
  | traffic _ _ ih => exact ih
  | @turn h w t ha hr ih =>
    have hres := (run_const hr).2.1
    rcases turn_sent w t with ⟨e, r, rfl, ho, hs⟩ | ⟨e, rfl, ho, hs⟩ | ⟨a, q, rfl, hx, hs⟩ | ⟨a, q, rfl, hx, hs⟩ | ⟨rfl, hs⟩ | ⟨h1, h2, h3, hs⟩
    · have hn : r.type.respName ≠ .associationSetupRequest := by cases r.type <;> simp [MsgType.respName]
      rw [hs, List.filterMap_cons]
      simp only [ho, saysOf]
      rw [answer_of_reply ho, List.filter_cons]
      simp only [hn, ne_eq, not_false_eq_true, decide_true, if_true, List.map_cons, ← ih]
      rfl
    · rw [hs, List.filterMap_cons]
      have : saysOf w0.resolves (.event e, (w.node.step e).2) = none := by
        cases hh : (w.node.step e).2 with
        | reply r => exact absurd hh (ho r)
        | silent => rfl
        | crash => rfl
      simp only [this]
      exact ih
    · rw [hs, List.filterMap_cons]
      rw [hres] at hx
      simp only [saysOf, hx, if_true]
      rw [List.filter_cons]
      simp only [ne_eq, reduceCtorEq, not_false_eq_true, decide_true, if_true, List.map_cons, ← ih]
      rfl
    · rw [hs, List.filterMap_cons]
      rw [hres] at hx
      simp only [saysOf, hx]
      exact ih
    · rw [hs, List.filter_append]
      have : w.refresh.reverse.filter (fun s => s.name ≠ .associationSetupRequest) = [] := by
        rw [List.filter_eq_nil_iff]
        intro s hs
        rw [List.mem_reverse] at hs
        simp [refresh_names w s hs]
      rw [this, List.nil_append, ih, List.filterMap_cons]
      simp only [saysOf]
    · rw [hs, List.filterMap_cons, ih]
      cases t with
      | event e => exact absurd rfl (h1 e)
      | probe a q => exact absurd rfl (h2 a q)
      | tick => exact absurd rfl h3
      | undecodable => rfl
      | unexpected k => rfl

/-- Non-vacuity: an execution with three messages of this kind, to two peers. -/
example : Demo.w0.sent = [] ∧ (∃ h, Endpoint.Run Demo.w0 h Demo.wEnd) ∧
    (Demo.wEnd.sent.filter (fun s => s.name ≠ .associationSetupRequest)).map Sent.head =
      [(2, .sessionEstablishmentResponse, 5), (1, .heartbeatRequest, 2), (1, .associationSetupResponse, 1)] := by
  refine ⟨rfl, ?_, by decide +kernel⟩
  obtain ⟨h, H, _⟩ := run_turns (w0 := Demo.w0)
    [.tick, .undecodable, .unexpected 12, .event (.assocSetup 1 1 (some (some ())) (some (some ()))), .probe 1 2,
     .event (.establish 2 (Demo.est 100))] .init (by decide +kernel)
  exact ⟨_, H⟩

/-! ### Restarts -/

/-- the current start is the last one, and the process ran since then as if there had been nothing before -/
theorem since_boot {h : List WEv} {x : World} (hr : World.Run h x) :
    lastBoot h = some x.boot ∧ Endpoint.Run x.boot.endpoint (sinceBoot h) x.w := by
  induction hr with
  | first b => exact ⟨rfl, .init⟩
  | @turn h x t ha _ ih =>
    refine ⟨ih.1, ?_⟩
    have := Endpoint.Run.turn t ha ih.2
    cases t <;> exact this
  | traffic _ tr ih => exact ⟨ih.1, .traffic ih.2 tr⟩
  | restart b _ _ _ => exact ⟨rfl, .init⟩

theorem turn_node (w : Endpoint) (e : Ev) : (w.turn (.event e)).node = (w.node.step e).1 ∧
    (w.turn (.event e)).alive = (match (w.node.step e).2 with | .crash => false | _ => w.alive) := by
  rcases hs : w.node.step e with ⟨n, o⟩
  cases o <;> simp [Endpoint.turn, hs]

theorem turn_other (w : Endpoint) (t : Turn) (ht : ∀ e, t ≠ .event e) : (w.turn t).node = w.node ∧ (w.turn t).alive = w.alive := by
  cases t with
  | event e => exact absurd rfl (ht e)
  | probe a q => simp only [Endpoint.turn]; split <;> exact ⟨rfl, rfl⟩
  | _ => exact ⟨rfl, rfl⟩

/-- proof device: the node of a running endpoint has a history -/
theorem Endpoint.Run.hist {w0 w : Endpoint} {h : List (Turn × Outcome)} (hr : Endpoint.Run w0 h w) (ha : w.alive = true) :
    Hist w0.node (evsOf h) w.node := by
  induction hr with
  | init => exact .init
  | traffic _ tr ih => exact .traffic (ih ha) tr
  | @turn h w t hw _ ih =>
    by_cases ht : ∃ e, t = .event e
    · obtain ⟨e, rfl⟩ := ht
      obtain ⟨h1, h2⟩ := turn_node w e
      have hc : (w.node.step e).2 ≠ .crash := by
        intro hc
        rw [hc] at h2
        rw [h2] at ha
        cases ha
      rw [h1]
      exact Hist.step e (ih hw) hc
    · have hn : ∀ e, t ≠ .event e := fun e he => ht ⟨e, he⟩
      rw [(turn_other w t hn).1]
      cases t with
      | event e => exact absurd rfl (hn e)
      | _ => exact ih hw

/-- The session requests. -/
def Ev.isSession : Ev → Bool
  | .establish .. => true
  | .modify .. => true
  | .delete .. => true
  | _ => false

theorem accepted_associated {n : Node} {e : Ev} (he : e.isSession = true) {r : Resp} (hr : (n.step e).2 = .reply r) (hc : r.cause = 1) :
    (n.assocs.get? e.from).isSome := by
  cases ha : n.assocs.get? e.from with
  | some _ => rfl
  | none =>
    exfalso
    have h := C01_no_association n e.from ha
    cases e with
    | establish a q =>
      by_cases hm : q.nodeId = some (some ()) ∧ ∃ s, q.cpFseid = some (some s)
      · rw [show Ev.from (.establish a q) = a from rfl] at h
        rw [h.1 q hm.1 hm.2] at hr; cases hr; cases hc
      · have := (C03_mandatory n a).1 q (by
          by_cases h1 : q.nodeId = some (some ())
          · exact Or.inr fun h2 => hm ⟨h1, h2⟩
          · exact Or.inl h1)
        rw [this] at hr; cases hr; cases hc
    | modify a q o =>
      rw [show Ev.from (.modify a q o) = a from rfl] at h
      rw [h.2.1 q o] at hr; cases hr; cases hc
    | delete a q o =>
      rw [show Ev.from (.delete a q o) = a from rfl] at h
      rw [h.2.2 q o] at hr; cases hr; cases hc
    | _ => cases he

/-- **C88.** Over any number of restarts, at any points: a session request is accepted only from a peer with which an association was made
since the last start and not lost since; whatever happened before counts for nothing. -/
theorem C88_associated_again {h : List WEv} {x : World} (hr : World.Run h x) (ha : x.w.alive = true) {e : Ev} (he : e.isSession = true)
    {r : Resp} (ho : (x.w.node.step e).2 = .reply r) (hc : r.cause = 1) : associated e.from (sinceBoot h) = true := by
  rw [← C68_associated rfl (since_boot hr).2 ha]
  exact accepted_associated he ho hc

/-- **C88.** Over any number of restarts, at any points: a modification or deletion is accepted only for a session of this peer that was
established since the last start and lives. -/
theorem C88_session_again {h : List WEv} {x : World} (hr : World.Run h x) (ha : x.w.alive = true) (hb : attempts (evsOf (sinceBoot h)) < 2 ^ 64 - 2)
    {a : Addr} {seid : U64} {r : Resp} (ho : (∃ q ord, q.seid = seid ∧ (x.w.node.step (.modify a q ord)).2 = .reply r) ∨
      (∃ q ord, q.seid = seid ∧ (x.w.node.step (.delete a q ord)).2 = .reply r)) (hc : r.cause = 1) :
    ∃ cp, (⟨a, seid, cp⟩ : LedgerEntry) ∈ ledger (evsOf (sinceBoot h)) := by
  have H := (since_boot hr).2.hist ha
  have hi := linv_hist H hb
  have hs : ∃ sess, x.w.node.session? a seid = some sess := by
    rw [← Option.isSome_iff_exists]
    cases hn : x.w.node.session? a seid with
    | some _ => rfl
    | none =>
      exfalso
      cases has : x.w.node.assocs.get? a with
      | none =>
        have := C01_no_association _ a has
        rcases ho with ⟨q, ord, _, ho⟩ | ⟨q, ord, _, ho⟩
        · rw [this.2.1] at ho; cases ho; cases hc
        · rw [this.2.2] at ho; cases ho; cases hc
      | some as =>
        have := C02_unknown_seid _ a as has seid hn
        rcases ho with ⟨q, ord, hq, ho⟩ | ⟨q, ord, hq, ho⟩
        · rw [this.1 q ord hq] at ho; cases ho; cases hc
        · rw [this.2 q ord hq] at ho; cases ho; cases hc
  obtain ⟨sess, hs⟩ := hs
  exact ⟨_, (hi.live a seid sess.remoteSEID).1 ⟨sess, hs, rfl⟩⟩

/-- **C88, a peer is told.** Over any number of restarts: a session request is accepted from a peer that has not answered an Association Setup
Request since the last start only if a message with the Recovery Time Stamp of the running process was sent to this peer before.
Missing: peers that sent an Association Setup Response (false for them, C88_late_answer). -/
theorem C88_told_partial {h : List WEv} {x : World} (hr : World.Run h x) (ha : x.w.alive = true) {e : Ev} (he : e.isSession = true)
    {r : Resp} (ho : (x.w.node.step e).2 = .reply r) (hc : r.cause = 1)
    (hno : ∀ y ∈ sinceBoot h, ∀ i c f, y.1 ≠ .event (.assocSetupResp e.from i c f)) :
    ∃ m ∈ messagesSince h, m.1.dst = e.from ∧ m.2 = some x.boot.stamp := by
  have hass := C88_associated_again hr ha he ho hc
  clear ho hc he
  generalize e.from = a at *
  induction hr with
  | first b => simp [sinceBoot, associated] at hass
  | restart b _ _ _ => simp [sinceBoot, associated] at hass
  | traffic _ tr ih => exact ih ha hno hass
  | @turn h x t hx _ ih =>
    have ih := ih hx (fun y hy => hno y (List.mem_cons_of_mem _ hy))
    suffices hs : associated a (sinceBoot h) = true ∨ ∃ m ∈ (x.w.says t).map fun s => (s, x.boot.recovery s), m.1.dst = a ∧ m.2 = some x.boot.stamp by
      rcases hs with hs | ⟨m, hm, h1, h2⟩
      · obtain ⟨m, hm, h1, h2⟩ := ih hs
        exact ⟨m, List.mem_append_right _ hm, h1, h2⟩
      · exact ⟨m, List.mem_append_left _ hm, h1, h2⟩
    have hno := fun i c f => hno _ List.mem_cons_self i c f
    have hass : associated a ((t, x.w.outcome t) :: sinceBoot h) = true := hass
    cases t with
    | event e =>
      simp only [Endpoint.outcome] at hass
      cases hs : (x.w.node.step e).2 with
      | crash => rw [hs] at hass; left; cases e <;> simpa [associated] using hass
      | silent =>
        rw [hs] at hass
        left
        cases e with
        | peerLost b o =>
          simp only [associated] at hass
          split at hass
          · cases hass
          · exact hass
        | assocSetupResp b i c f =>
          simp only [associated] at hass
          split at hass
          · rename_i hh; exact absurd (by rw [hh.1]) (hno i c f)
          · exact hass
        | _ => simpa [associated] using hass
      | reply r =>
        rw [hs] at hass
        cases e with
        | assocSetup b q i ts =>
          simp only [associated] at hass
          split at hass
          · rename_i hh
            right
            obtain ⟨rfl, hc⟩ := hh
            have hsent : (x.w.turn (.event (.assocSetup b q i ts))).sent = ⟨b, r.type.respName, r.seq, r.features⟩ :: x.w.sent := by
              have : x.w.node.step (.assocSetup b q i ts) = ((x.w.node.step (.assocSetup b q i ts)).1, .reply r) := Prod.ext rfl hs
              simp only [Endpoint.turn]
              rw [this]
              rfl
            have hr' : r.type = .assocSetup ∧ r.features.isSome := by
              have ho' : (x.w.node.assocSetup b q i ts).2 = .reply r := hs
              unfold Node.assocSetup at ho'
              split at ho'
              · cases ho'; cases hc
              · cases ho'; cases hc
              · split at ho'
                · cases ho'; cases hc
                · cases ho'; cases hc
                · cases ho'; exact ⟨rfl, rfl⟩
            refine ⟨(⟨b, r.type.respName, r.seq, r.features⟩, some x.boot.stamp), ?_, rfl, rfl⟩
            simp only [List.mem_map]
            refine ⟨⟨b, r.type.respName, r.seq, r.features⟩, ?_, ?_⟩
            · simp [Endpoint.says, hsent]
            · simp [Boot.recovery, hr'.1, MsgType.respName, hr'.2]
          · exact Or.inl hass
        | _ => left; simpa [associated] using hass
    | _ => left; simpa [associated] using hass

/-- an establishment or modification request -/
def Ev.installs : Ev → Bool
  | .establish .. => true
  | .modify .. => true
  | _ => false

/-- **C88, forwarding plane.** As long as no establishment or modification request has come since the last start, no TEID and no UE address
has an entry in the forwarding plane: packets of the sessions from before the restart match nothing. -/
theorem C88_forwards_nothing {h : List WEv} {x : World} (hr : World.Run h x) (ha : x.w.alive = true)
    (hn : ∀ y ∈ evsOf (sinceBoot h), y.1.installs = false) (k : PdrKey) : x.w.node.dp.entry? k = none := by
  obtain ⟨_, hrun⟩ := since_boot hr
  have H := hrun.hist ha
  clear hrun hr
  generalize evsOf (sinceBoot h) = l at hn H
  suffices hs : (∀ a s, x.w.node.session? a s = none) ∧ ∀ k, x.w.node.dp.entry? k = none from hs.2 k
  clear k
  have hnode : ∀ a s, x.boot.endpoint.node.session? a s = none := by intro a s; simp [Boot.endpoint, Node.init, Node.session?]
  have hdp : ∀ k, x.boot.endpoint.node.dp.entry? k = none := by
    intro k
    cases k <;> rfl
  generalize x.boot.endpoint.node = n0 at *
  generalize x.w.node = n at *
  clear ha
  induction H with
  | init => exact ⟨hnode, hdp⟩
  | traffic _ tr ih =>
    obtain ⟨i1, i2⟩ := ih hn
    exact ⟨i1, fun k => by rw [entry_pdr tr.pdrUl tr.pdrDl4 tr.pdrDl6]; exact i2 k⟩
  | @step l n e _ hc ih =>
    obtain ⟨i1, i2⟩ := ih fun y hy => hn y (List.mem_cons_of_mem _ hy)
    have hi := hn _ List.mem_cons_self
    by_cases hm : e.isNodeMsg = true
    · have := fun a s => C05_association_messages n a s e hm
      exact ⟨fun a s => by rw [(this a s).1]; exact i1 a s, fun k => by rw [(this 0 0).2.1]; exact i2 k⟩
    · cases e with
      | establish a r => cases hi
      | modify a r o => cases hi
      | delete a r o =>
        cases has : n.assocs.get? a with
        | none => rw [(C01_no_association n a has).2.2 r o]; exact ⟨i1, i2⟩
        | some as => rw [(C02_unknown_seid n a as has r.seid (i1 a r.seid)).2 r o rfl]; exact ⟨i1, i2⟩
      | setConfig u => exact ⟨i1, i2⟩
      | peerLost a o =>
        have hst : n.step (.peerLost a o) = n.deleteAssociation a o := rfl
        rw [hst] at hc ⊢
        unfold Node.deleteAssociation at hc ⊢
        cases has : n.assocs.get? a with
        | none => rw [has] at hc; exact absurd rfl hc
        | some as =>
          have hempty : o.sessions.run as.sessions.entries = [] := by
            rw [List.eq_nil_iff_forall_not_mem]
            rintro ⟨s, sess⟩ hx
            have := (GoMap.mem_entries_iff _ _ _).1 ((o.sessions.perm _).mem_iff.1 hx)
            have h2 := i1 a s
            simp only [Node.session?, has, Option.bind_some] at h2
            rw [h2] at this; cases this
          simp only [hempty, dropSessions]
          refine ⟨fun b s => ?_, i2⟩
          have := i1 b s
          simp only [Node.session?, GoMap.get?_erase] at this ⊢
          by_cases hb : b = a
          · simp [hb]
          · simp only [hb, if_false]; exact this
      | _ => exact absurd rfl hm

/-- **C88, stamps.** Over any number of restarts: every Recovery Time Stamp the UPF sends is the second, since 1900 and as 32 bits, in which
the process that sends it was started; every heartbeat request and response, every Association Setup Request and every accepted Association
Setup Response has one. -/
theorem C88_stamps {h1 h2 : List WEv} {t : Turn} {o : Outcome} {sent : List (Sent × Option U32)} {x : World}
    (hr : World.Run (h1 ++ .turn t o sent :: h2) x) : ∃ b, lastBoot h2 = some b ∧ ∀ y ∈ sent,
      (∀ r, y.2 = some r → r.toNat = b.time / 1000000000 % 2 ^ 32) ∧
      (y.1.name ∈ [MsgName.heartbeatRequest, .heartbeatResponse, .associationSetupRequest] → y.2.isSome) ∧
      (y.1.name = .associationSetupResponse → (y.2.isSome ↔ ∃ r, o = .reply r ∧ r.cause = 1)) := by
  have base : ∀ (h2 : List WEv) (x : World) (t : Turn), World.Run h2 x → ∀ y ∈ (x.w.says t).map fun s => (s, x.boot.recovery s),
      (∀ r, y.2 = some r → r.toNat = x.boot.time / 1000000000 % 2 ^ 32) ∧
      (y.1.name ∈ [MsgName.heartbeatRequest, .heartbeatResponse, .associationSetupRequest] → y.2.isSome) ∧
      (y.1.name = .associationSetupResponse → (y.2.isSome ↔ ∃ r, x.w.outcome t = .reply r ∧ r.cause = 1)) := by
    intro h2 x t _ y hy
    simp only [List.mem_map] at hy
    obtain ⟨s, hs, rfl⟩ := hy
    refine ⟨?_, ?_, ?_⟩
    · intro r hr
      have : r = x.boot.stamp := by
        simp only [Boot.recovery] at hr
        split at hr <;> first | (cases hr; rfl) | (split at hr <;> cases hr; rfl) | cases hr
      subst this
      simp [Boot.stamp]
    · simp only [List.mem_cons, List.not_mem_nil, or_false]
      rintro (h | h | h) <;> simp [Boot.recovery, h]
    · intro hn
      simp only at hn
      simp only [Boot.recovery, hn]
      rcases turn_sent x.w t with ⟨e, r, rfl, ho, hsent⟩ | ⟨e, rfl, ho, hsent⟩ | ⟨a, q, rfl, hx, hsent⟩ | ⟨a, q, rfl, hx, hsent⟩ | ⟨rfl, hsent⟩ | ⟨_, _, _, hsent⟩
      · have hm : s = ⟨e.from, r.type.respName, r.seq, r.features⟩ := by
          simp only [Endpoint.says, hsent, List.length_cons, Nat.add_sub_cancel_left] at hs
          simpa [List.take_succ_cons] using hs
        subst hm
        have hexp := C06_sequence _ _ _ ho
        have htype : r.type = .assocSetup := by
          have : r.type.respName = .associationSetupResponse := hn
          cases hh : r.type <;> rw [hh] at this <;> first | rfl | cases this
        rw [htype] at hexp
        cases e with
        | assocSetup a q i ts =>
          simp only [Endpoint.outcome, ho]
          have ho' : (x.w.node.assocSetup a q i ts).2 = .reply r := ho
          unfold Node.assocSetup at ho'
          split at ho'
          · cases ho'; simp [causeMandatoryIEMissing]
          · cases ho'; simp [causeMandatoryIEIncorrect]
          · split at ho'
            · cases ho'; simp [causeMandatoryIEMissing]
            · cases ho'; simp [causeMandatoryIEIncorrect]
            · cases ho'; simp [causeAccepted]
        | _ => simp [Ev.expected] at hexp
      · simp [Endpoint.says, hsent] at hs
      · have hm : s = ⟨a, .heartbeatRequest, q, none⟩ := by
          simp only [Endpoint.says, hsent, List.length_cons, Nat.add_sub_cancel_left] at hs
          simpa [List.take_succ_cons] using hs
        subst hm; cases hn
      · simp [Endpoint.says, hsent] at hs
      · have hm : s ∈ x.w.refresh.reverse := by
          simp only [Endpoint.says, hsent, List.length_append, Nat.add_sub_cancel_right] at hs
          simpa using hs
        have := refresh_names x.w s (List.mem_reverse.1 hm)
        rw [this] at hn; cases hn
      · simp [Endpoint.says, hsent] at hs
  generalize hl : h1 ++ .turn t o sent :: h2 = l at hr
  induction hr generalizing h1 with
  | first b =>
    cases h1 with
    | nil => cases hl
    | cons y ys => have := (List.cons.inj hl).2; simp at this
  | traffic _ _ ih => exact ih hl
  | @turn l x t' ha hr ih =>
    cases h1 with
    | nil =>
      rw [List.nil_append] at hl
      injection hl with e1 e2
      injection e1 with e3 e4 e5
      subst e2 e3 e4 e5
      exact ⟨x.boot, (since_boot hr).1, base _ x t hr⟩
    | cons y ys => exact ih (List.cons.inj hl).2
  | restart b _ _ ih =>
    cases h1 with
    | nil => cases (List.cons.inj hl).1
    | cons y ys => exact ih (List.cons.inj hl).2

/-- **C88, a restart shows.** Two starts at least a second and less than 2^32 - 1 seconds apart have different stamps. -/
theorem C88_stamp_changes (b b' : Boot) (h1 : b.time + 1000000000 ≤ b'.time) (h2 : b'.time < b.time + (2 ^ 32 - 1) * 1000000000) :
    b.stamp ≠ b'.stamp := by
  intro h
  have := congrArg BitVec.toNat h
  simp only [Boot.stamp, BitVec.toNat_ofNat] at this
  have e1 : b.time / 1000000000 + 1 ≤ b'.time / 1000000000 := by omega
  have e2 : b'.time / 1000000000 < b.time / 1000000000 + 2 ^ 32 := by omega
  generalize b.time / 1000000000 = u at *
  generalize b'.time / 1000000000 = v at *
  omega

/-- **C88, negation.** Two starts within the same second have the same stamp. -/
theorem C88_same_second (b b' : Boot) (h : b.time / 1000000000 = b'.time / 1000000000) : b.stamp = b'.stamp := by
  simp [Boot.stamp, h]

/-- **C88, negation: SEIDs are used again.** After every start, the first session established gets SEID 2, whatever sessions with that SEID
there were before. -/
theorem C88_seid_again {h : List WEv} {x : World} (hr : World.Run h x) (ha : x.w.alive = true) (hb : attempts (evsOf (sinceBoot h)) = 0)
    {a : Addr} {q : EstReq} {r : Resp} (ho : (x.w.node.step (.establish a q)).2 = .reply r) (hc : r.cause = 1) : r.fseid = some 2 := by
  have H := (since_boot hr).2.hist ha
  have hi := linv_hist H (by rw [hb]; decide)
  simp only [Node.step] at ho
  cases establish_cases x.w.node a q with
  | refused c hcc he =>
    rw [he] at ho
    cases ho
    rcases hcc with rfl | rfl <;> cases hc
  | ran remote as hs' res hid hcp has hbody hl hrem he =>
    rw [he] at ho
    have hn := hi.next a as has
    rw [hb] at hn
    have h1 : as.nextSessionID = 1 := by
      apply BitVec.eq_of_toNat_eq
      have : (1 : U64).toNat = 1 := rfl
      omega
    cases res with
    | panic => cases ho
    | err => cases ho; cases hc
    | ok _ =>
      cases ho
      simp [h1]

/-- **C88, negation: a late answer.** In every state a flawless Association Setup Response makes an association, although the UPF answers
nothing to it and does not look whether it asked: the answer to a request of the process before the restart will do. -/
theorem C88_late_answer {h : List WEv} {x : World} (_hr : World.Run h x) (ha : x.w.alive = true) (a : Addr) :
    (x.w.turn (.event (.assocSetupResp a (some (some ())) (some (some 1)) (some (some ()))))).alive = true ∧
    x.w.says (.event (.assocSetupResp a (some (some ())) (some (some 1)) (some (some ())))) = [] ∧
    ((x.w.turn (.event (.assocSetupResp a (some (some ())) (some (some 1)) (some (some ()))))).node.assocs.get? a).isSome := by
  have hs : x.w.node.step (.assocSetupResp a (some (some ())) (some (some 1)) (some (some ()))) = (x.w.node.addAssoc a, .silent) := by
    simp [Node.step, Node.assocSetupResp, causeAccepted]
  generalize Ev.assocSetupResp a (some (some ())) (some (some 1)) (some (some ())) = e at hs ⊢
  have ht : (x.w.turn (.event e)).alive = true ∧ (x.w.turn (.event e)).sent = x.w.sent ∧ (x.w.turn (.event e)).node = x.w.node.addAssoc a := by
    simp [Endpoint.turn, hs, ha]
  refine ⟨ht.1, by simp [Endpoint.says, ht.2.1], ?_⟩
  rw [ht.2.2, addAssoc_isSome]
  simp

namespace Demo
/-- two starts of the demo configuration, with peer 7 configured, 5 s apart -/
def b1 : Boot := { time := 10000000000, cfg := Demo.cfg, pools := some ([0x0a2d0001, 0x0a2d0002], 8), sizes := (8, 4, 4, 4), remotes := [7] }
def b2 : Boot := { b1 with time := 15000000000 }
/-- the first process: sets up an association with peer 1, establishes a session, and asks peer 7 -/
def x0 : World := ⟨b1, b1.endpoint⟩
def x1 : World := ⟨b1, x0.w.turn (.event (.assocSetup 1 1 (some (some ())) (some (some ()))))⟩
def x2 : World := ⟨b1, x1.w.turn (.event (.establish 1 (Demo.est 100)))⟩
def x3 : World := ⟨b1, x2.w.turn .tick⟩
/-- the second process: the answer of peer 7 arrives -/
def y0 : World := ⟨b2, b2.endpoint⟩
def y1 : World := ⟨b2, y0.w.turn (.event (.assocSetupResp 7 (some (some ())) (some (some 1)) (some (some ()))))⟩
/-- the second process: peer 1 sets up its association again -/
def z1 : World := ⟨b2, y0.w.turn (.event (.assocSetup 1 9 (some (some ())) (some (some ()))))⟩

/-- the history of the first process -/
def hx3 : List WEv :=
  [.turn .tick (x2.w.outcome .tick) ((x2.w.says .tick).map fun s => (s, b1.recovery s)),
   .turn (.event (.establish 1 (Demo.est 100))) (x1.w.outcome (.event (.establish 1 (Demo.est 100))))
     ((x1.w.says (.event (.establish 1 (Demo.est 100)))).map fun s => (s, b1.recovery s)),
   .turn (.event (.assocSetup 1 1 (some (some ())) (some (some ())))) (x0.w.outcome (.event (.assocSetup 1 1 (some (some ())) (some (some ())))))
     ((x0.w.says (.event (.assocSetup 1 1 (some (some ())) (some (some ()))))).map fun s => (s, b1.recovery s)),
   .boot b1]

theorem run_x3 : World.Run hx3 x3 :=
  World.Run.turn (x := x2) .tick (by decide +kernel) (World.Run.turn (x := x1) (.event (.establish 1 (Demo.est 100))) (by decide +kernel)
    (World.Run.turn (x := x0) (.event (.assocSetup 1 1 (some (some ())) (some (some ())))) (by decide +kernel) (World.Run.first b1)))
theorem run_y0 : World.Run (.boot b2 :: hx3) y0 := World.Run.restart (x := x3) b2 run_x3 (by decide)
theorem run_y1 : World.Run (.turn (.event (.assocSetupResp 7 (some (some ())) (some (some 1)) (some (some ())))) (y0.w.outcome (.event (.assocSetupResp 7 (some (some ())) (some (some 1)) (some (some ())))))
    ((y0.w.says (.event (.assocSetupResp 7 (some (some ())) (some (some 1)) (some (some ()))))).map fun s => (s, b2.recovery s)) :: .boot b2 :: hx3) y1 :=
  World.Run.turn (x := y0) (.event (.assocSetupResp 7 (some (some ())) (some (some 1)) (some (some ())))) (by decide +kernel) run_y0
theorem run_z1 : World.Run (.turn (.event (.assocSetup 1 9 (some (some ())) (some (some ())))) (y0.w.outcome (.event (.assocSetup 1 9 (some (some ())) (some (some ())))))
    ((y0.w.says (.event (.assocSetup 1 9 (some (some ())) (some (some ()))))).map fun s => (s, b2.recovery s)) :: .boot b2 :: hx3) z1 :=
  World.Run.turn (x := y0) (.event (.assocSetup 1 9 (some (some ())) (some (some ())))) (by decide +kernel) run_y0
end Demo

/-- **C88, negation, concrete.** After a restart a peer that answers the request of the process before establishes a session, although no
message with the new stamp, or any message at all, was sent since the restart: the peer cannot know. -/
theorem C88_unaware_peer : ∃ h x r, World.Run h x ∧ (x.w.node.step (.establish 7 (Demo.est 100))).2 = .reply r ∧ r.cause = 1 ∧
    x.w.sent = [] ∧ (.boot Demo.b2) ∈ h ∧ (.boot Demo.b1) ∈ h ∧ Demo.b1.stamp ≠ Demo.b2.stamp := by
  refine ⟨_, Demo.y1, (match (Demo.y1.w.node.step (.establish 7 (Demo.est 100))).2 with | .reply r => r | _ => { type := .heartbeat, seq := 0, cause := 0 }),
    Demo.run_y1, ?_, ?_, ?_, ?_, ?_, ?_⟩
  · decide +kernel
  · decide +kernel
  · decide +kernel
  · simp
  · simp [Demo.hx3]
  · decide +kernel

/-- Non-vacuity of C88: the session of the first process; after the restart peer 1 is refused until it sets up its association again, a
request for the old session then is refused, and a new session gets the SEID of the old one. -/
example : (Demo.x3.w.node.session? 1 2).isSome ∧ (Demo.x3.w.node.dp.entry? (.ul 1)).isSome ∧
    (Demo.y0.w.node.step (.delete 1 ⟨2, 9⟩ default)).2 = .reply { type := .deletion, seq := 9, cause := 72 } ∧
    (Demo.z1.w.node.step (.delete 1 ⟨2, 9⟩ default)).2 = .reply { type := .deletion, seq := 9, cause := 65 } ∧
    (match (Demo.z1.w.node.step (.establish 1 (Demo.est 100))).2 with | .reply r => (r.cause, r.fseid) | _ => (0, none)) = (1, some 2) ∧
    Demo.z1.w.alive = true ∧ (Demo.y0.w.says (.event (.assocSetup 1 9 (some (some ())) (some (some ()))))).map
      (fun s => (s.name, Demo.b2.recovery s)) = [(.associationSetupResponse, some 15)] := by
  refine ⟨by decide +kernel, by decide +kernel, by decide +kernel, by decide +kernel, by decide +kernel, by decide +kernel, by decide +kernel⟩

/-- Non-vacuity of C88_stamp_changes. -/
example : Demo.b1.time + 1000000000 ≤ Demo.b2.time ∧ Demo.b2.time < Demo.b1.time + (2 ^ 32 - 1) * 1000000000 := by decide

end Eupf
