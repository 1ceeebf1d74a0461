import Verif.Props.Wire
import Verif.HeartbeatLemmas
/-
C68: associations as the messages tell them, and the periodic association setup. C69: peers with IPv6 addresses. C70: advertised features.
-/
namespace Eupf

/-- proof device: other events keep the set of associations -/
theorem assocs_kept (n : Node) (e : Ev) (a : Addr) (h1 : e.setupAddr = none) (h2 : ∀ b o, e ≠ .peerLost b o) :
    ((n.step e).1.assocs.get? a).isSome = (n.assocs.get? a).isSome := by
  have key : e.plain → ((n.step e).1.assocs.get? a).isSome = (n.assocs.get? a).isSome := by
    intro hp
    have := plain_assocs n e hp a
    rw [h1] at this
    cases hb : n.assocs.get? a with
    | some x => exact this.1 (by rw [hb]; rfl)
    | none =>
      have h := this.2 (by simp) (by rw [hb]; rfl)
      cases hc : (n.step e).1.assocs.get? a with
      | none => rfl
      | some y => rw [hc] at h; cases h
  cases e with
  | peerLost b o => exact absurd rfl (h2 b o)
  | setConfig u => rfl
  | heartbeatResp b s t => rcases t with _ | _ | _ <;> rfl
  | _ => exact key trivial

theorem addAssoc_isSome (n : Node) (a b : Addr) :
    ((n.addAssoc b).assocs.get? a).isSome = if b = a then true else (n.assocs.get? a).isSome := by
  unfold Node.addAssoc
  split
  · rename_i x hx
    by_cases h : b = a
    · subst h; simp [hx]
    · simp [h]
  · simp only [GoMap.get?_set]
    by_cases h : a = b
    · subst h; simp
    · have h' : ¬ b = a := fun e => h e.symm
      simp [h, h']

/-- **C68, associations.** In every execution of a freshly started node (as long as the process lives), the node has an association with
a peer exactly when the messages exchanged say so. -/
theorem C68_associated {w0 w : Endpoint} {h : List (Turn × Outcome)} (h0 : w0.node.assocs = GoMap.empty) (hr : Endpoint.Run w0 h w)
    (ha : w.alive = true) (a : Addr) : (w.node.assocs.get? a).isSome = associated a h := by
  induction hr with
  | init => simp [h0, associated]
  | traffic _ _ ih => exact ih ha
  | @turn h w t hw _ ih =>
    have ih := ih hw
    cases t with
    | undecodable => simpa [associated, Endpoint.turn] using ih
    | unexpected t => simpa [associated, Endpoint.turn] using ih
    | tick => simpa [associated, Endpoint.turn] using ih
    | probe b q =>
      have : (w.turn (.probe b q)).node = w.node := by simp only [Endpoint.turn]; split <;> rfl
      rw [this, ih]
      rfl
    | event e =>
      have hnode : (w.turn (.event e)).node = (w.node.step e).1 := by
        simp only [Endpoint.turn]
        rcases w.node.step e with ⟨n, _ | _ | _⟩ <;> rfl
      have hcr : (w.node.step e).2 ≠ .crash := by
        intro hc
        have : (w.turn (.event e)).alive = false := by
          simp only [Endpoint.turn]
          rcases hs : w.node.step e with ⟨n, _ | _ | _⟩ <;> rw [hs] at hc <;> first | rfl | cases hc
        rw [this] at ha
        cases ha
      rw [hnode]
      simp only
      cases e with
      | assocSetup b s i t =>
        simp only [Node.step, Node.assocSetup]
        rcases i with _ | _ | _
        · simpa [associated, causeMandatoryIEMissing] using ih
        · simpa [associated, causeMandatoryIEIncorrect] using ih
        rcases t with _ | _ | _
        · simpa [associated, causeMandatoryIEMissing] using ih
        · simpa [associated, causeMandatoryIEIncorrect] using ih
        simp only [associated, causeAccepted, addAssoc_isSome, ih]
        by_cases hb : b = a <;> simp [hb]
      | assocSetupResp b i c f =>
        have hv := errOf_verdict w.node (.assocSetupResp b i c f)
        have hs : w.node.step (.assocSetupResp b i c f) =
            (if setupRespDefect i c f = none then w.node.addAssoc b else w.node, .silent) := by
          simp only [Node.step, Node.assocSetupResp, setupRespDefect]
          rcases i with _ | _ | _ <;> rcases c with _ | _ | c <;> rcases f with _ | _ | _ <;> simp [causeAccepted] <;>
            by_cases hc : c = 1#8 <;> simp [hc]
        rw [hs]
        simp only [associated]
        by_cases hd : setupRespDefect i c f = none
        · simp only [hd, if_true, addAssoc_isSome, ih, and_true]
        · simp only [hd, if_false, and_false, ih]
      | peerLost b o =>
        rw [peerLost_assocs w.node b b o hcr]
        have hs : (w.node.step (.peerLost b o)).2 = .silent := by
          have hr := errOf_verdict w.node (.peerLost b o)
          simp only [Node.errOf] at hr
          cases hs : (w.node.step (.peerLost b o)).2 with
          | silent => rfl
          | crash => exact absurd hs hcr
          | reply r =>
            simp only [Node.step, Node.deleteAssociation] at hs
            split at hs
            · cases hs
            · split at hs <;> cases hs
        rw [hs]
        simp only [associated, GoMap.get?_erase]
        by_cases hb : a = b
        · subst hb; simp
        · have hb' : ¬ b = a := fun e => hb e.symm
          simp only [hb, hb', if_false, ih]
      | _ =>
        rw [assocs_kept _ _ _ rfl (by intro b o; simp), ih]
        simp only [associated]

/-- **C68, gauge.** The number of associations exported is the number of peers with an association according to the messages. -/
theorem C68_gauge {w0 w : Endpoint} {h : List (Turn × Outcome)} (h0 : w0.node.assocs = GoMap.empty) (hr : Endpoint.Run w0 h w)
    (ha : w.alive = true) : ∃ peers : List Addr, peers.Nodup ∧ (∀ a, a ∈ peers ↔ associated a h = true) ∧
      w.node.assocs.size = peers.length := by
  refine ⟨w.node.assocs.keys, GoMap.keys_nodup _, fun a => ?_, ?_⟩
  · rw [← C68_associated h0 hr ha a, GoMap.mem_keys_iff]
  · simp [GoMap.size, GoMap.keys]

theorem step_cfg (n : Node) (e : Ev) : (n.step e).1.cfg = n.cfg := by
  have add : ∀ a, (n.addAssoc a).cfg = n.cfg := by intro a; unfold Node.addAssoc; split <;> rfl
  cases e with
  | establish a r =>
    simp only [Node.step, Node.establish]
    split
    · rfl
    · split
      · rfl
      · split <;> rfl
  | modify a r o =>
    simp only [Node.step, Node.modify]
    split
    · rfl
    · split
      · rfl
      · split <;> rfl
  | delete a r o =>
    simp only [Node.step, Node.delete]
    split
    · rfl
    · split
      · rfl
      · split <;> rfl
  | assocSetup a s i t => rcases i with _ | _ | _ <;> rcases t with _ | _ | _ <;> first | rfl | exact add a
  | assocSetupResp a i c f =>
    simp only [Node.step, Node.assocSetupResp]
    split
    · split
      · exact add a
      · rfl
    · rfl
  | assocUpdate a s i =>
    simp only [Node.step, Node.assocUpdate]
    split
    · rfl
    · rfl
    · split <;> rfl
  | heartbeatReq a s t => rcases t with _ | _ | _ <;> rfl
  | heartbeatResp a s t => rcases t with _ | _ | _ <;> rfl
  | peerLost a o =>
    simp only [Node.step, Node.deleteAssociation]
    split
    · rfl
    · split <;> rfl
  | setConfig u => rfl

/-- proof device: what a run does not change -/
theorem run_const {w0 w : Endpoint} {h : List (Turn × Outcome)} (hr : Endpoint.Run w0 h w) :
    w.remotes = w0.remotes ∧ w.resolves = w0.resolves ∧ w.node.cfg = w0.node.cfg := by
  induction hr with
  | init => exact ⟨rfl, rfl, rfl⟩
  | traffic _ _ ih => exact ih
  | @turn h w t hw _ ih =>
    cases t with
    | probe b q => simp only [Endpoint.turn]; split <;> exact ih
    | event e =>
      have hc : (w.node.step e).1.cfg = w.node.cfg := step_cfg w.node e
      simp only [Endpoint.turn]
      rcases hs : w.node.step e with ⟨n, _ | _ | _⟩ <;> rw [hs] at hc <;> exact ⟨ih.1, ih.2.1, hc.trans ih.2.2⟩
    | _ => exact ih

/-- **C68, requests.** Whenever the association timer ticks, an Association Setup Request with sequence number 0 and the advertised features goes
to every configured peer with which, according to the messages, there is no association and whose address resolves, and to nobody else. -/
theorem C68_refresh {w0 w : Endpoint} {h : List (Turn × Outcome)} (h0 : w0.node.assocs = GoMap.empty) (hr : Endpoint.Run w0 h w)
    (ha : w.alive = true) : ∃ new, (w.turn .tick).sent = new ++ w.sent ∧
      (∀ s ∈ new, s.name = .associationSetupRequest ∧ s.seq = 0 ∧ s.features = some w0.node.cfg.features) ∧
      ∀ a, new.countP (fun s => s.dst = a) = if associated a h = false ∧ w0.resolves a = true then w0.remotes.count a else 0 := by
  obtain ⟨hrem, hres, hcfg⟩ := run_const hr
  refine ⟨w.refresh.reverse, rfl, ?_, ?_⟩
  · intro s hs
    simp only [Endpoint.refresh, List.mem_reverse, List.mem_map] at hs
    obtain ⟨a, _, rfl⟩ := hs
    exact ⟨rfl, rfl, by rw [hcfg]⟩
  · intro a
    rw [List.countP_reverse]
    simp only [Endpoint.refresh, List.countP_map, List.countP_filter, hrem, hres, Function.comp_def]
    rw [← C68_associated h0 hr ha a]
    by_cases hc : (w.node.assocs.get? a).isSome = false ∧ w0.resolves a = true
    · rw [if_pos hc, List.count]
      refine List.countP_congr fun b _ => ?_
      simp only [Bool.and_eq_true, decide_eq_true_eq, beq_iff_eq]
      constructor
      · exact fun h => h.1.1
      · rintro rfl
        exact ⟨⟨rfl, hc.2⟩, by simpa using hc.1⟩
    · rw [if_neg hc, List.countP_eq_zero]
      intro b _ hb
      simp only [Bool.and_eq_true, decide_eq_true_eq] at hb
      obtain ⟨⟨rfl, h1⟩, h2⟩ := hb
      exact hc ⟨by simpa using h2, h1⟩

/-- **C68, host names.** Associations are kept under the address of the packets. A peer configured under any other text (a host name, an IP address
written differently) is asked for an association at every tick, also while its association exists under its address. -/
theorem C68_other_name {w0 w : Endpoint} {h : List (Turn × Outcome)} (h0 : w0.node.assocs = GoMap.empty) (hr : Endpoint.Run w0 h w)
    (ha : w.alive = true) (name : Addr) (hn : name ∈ w0.remotes) (hres : w0.resolves name = true)
    (hsrc : ∀ t ∈ h, ∀ e, t.1 = .event e → e.from ≠ name) :
    ∃ new, (w.turn .tick).sent = new ++ w.sent ∧ ∃ s ∈ new, s.dst = name ∧ s.name = .associationSetupRequest := by
  have hass : ∀ h : List (Turn × Outcome), (∀ t ∈ h, ∀ e, t.1 = .event e → e.from ≠ name) → associated name h = false := by
    intro h hs
    induction h with
    | nil => rfl
    | cons t h ih =>
      have ih := ih fun t ht => hs t (List.mem_cons_of_mem _ ht)
      have hne := hs t List.mem_cons_self
      clear hs
      obtain ⟨t, o⟩ := t
      cases t with
      | event e =>
        replace hne := hne e rfl
        cases e <;> cases o <;> simp only [Ev.from] at hne <;> simp [associated, hne, ih]
      | _ => simpa [associated] using ih
  obtain ⟨hrem, hr2, _⟩ := run_const hr
  have hna : (w.node.assocs.get? name).isSome = false := by rw [C68_associated h0 hr ha, hass h hsrc]
  refine ⟨w.refresh.reverse, rfl, ⟨name, .associationSetupRequest, 0, some w.node.cfg.features⟩, ?_, rfl, rfl⟩
  simp only [Endpoint.refresh, List.mem_reverse, List.mem_map, List.mem_filter, hrem, hr2]
  exact ⟨name, ⟨⟨hn, by simpa using hna⟩, hres⟩, rfl⟩

/-! ### C69: where requests go -/

theorem findIdx_reverse_append (a p : List Char) (hp : ':' ∉ p) :
    (a ++ ':' :: p).reverse.findIdx? (· = ':') = some p.length := by
  have : ∀ (l m : List Char), ':' ∉ l → (l ++ ':' :: m).findIdx? (· = ':') = some l.length := by
    intro l m hl
    induction l with
    | nil => simp [List.findIdx?_cons]
    | cons c l ih =>
      simp only [List.mem_cons, not_or] at hl
      have hc : ¬ c = ':' := fun e => hl.1 e.symm
      simp only [List.cons_append, List.findIdx?_cons, hc, decide_false, ih hl.2]
      simp
  rw [List.reverse_append, List.reverse_cons, List.append_assoc]
  have h := this p.reverse a.reverse (by simpa using hp)
  rw [List.length_reverse] at h
  exact h

/-- **C69, negation.** A request to a peer whose address text has a colon (every IPv6 address has) and no bracket in front has no
destination: the UPF never sends it, whatever name resolution would say. -/
theorem C69_ipv6_unreachable (lookup : List Char → Option Ip4) (addr : List Char) (hc : ':' ∈ addr) (hb : addr.head? ≠ some '[') :
    requestDst lookup addr = none := by
  have hf := findIdx_reverse_append addr ['8', '8', '0', '5'] (by decide)
  have hh : (addr ++ [':', '8', '8', '0', '5']).head? ≠ some '[' := by
    cases addr with
    | nil => cases hc
    | cons x l => simpa using hb
  simp only [requestDst, splitHostPort]
  rw [hf]
  simp only [hh, if_false]
  have hi : (addr ++ [':', '8', '8', '0', '5']).length - 1 - ['8', '8', '0', '5'].length = addr.length := by
    simp
  rw [hi, List.take_append_of_le_length (Nat.le_refl _), List.take_length]
  simp [hc]

/-- **C69, requests (part).** A request to a peer whose address text has neither colon nor bracket goes where the text resolves to.
Missing: IPv6 addresses, for which it is false. -/
theorem C69_request_destination_partial (lookup : List Char → Option Ip4) (addr : List Char) (hc : ':' ∉ addr) (h1 : '[' ∉ addr) (h2 : ']' ∉ addr) :
    requestDst lookup addr = lookup addr := by
  have hf := findIdx_reverse_append addr ['8', '8', '0', '5'] (by decide)
  have hh : (addr ++ [':', '8', '8', '0', '5']).head? ≠ some '[' := by
    cases addr with
    | nil => simp
    | cons x l =>
      simp only [List.mem_cons, not_or] at h1
      simp only [List.cons_append, List.head?_cons, ne_eq, Option.some.injEq]
      exact fun e => h1.1 e.symm
  simp only [requestDst, splitHostPort]
  rw [hf]
  simp only [hh, if_false]
  have hi : (addr ++ [':', '8', '8', '0', '5']).length - 1 - ['8', '8', '0', '5'].length = addr.length := by
    simp
  rw [hi, List.take_append_of_le_length (Nat.le_refl _), List.take_length]
  simp [hc, h1, h2]

theorem findIdx_close (t m : List Char) (ht : ']' ∉ t) : (t ++ ']' :: m).findIdx? (· = ']') = some t.length := by
  induction t with
  | nil => simp [List.findIdx?_cons]
  | cons c l ih =>
    simp only [List.mem_cons, not_or] at ht
    have hc : ¬ c = ']' := fun e => ht.1 e.symm
    simp only [List.cons_append, List.findIdx?_cons, hc, decide_false, ih ht.2]
    simp

/-- **C69, bracketed texts.** A request to a peer configured with an address in brackets goes where the text between them resolves to (so an
IPv6 peer can be configured as `[2001:db8::1]`; but the addresses of received messages have no brackets). -/
theorem C69_bracketed (lookup : List Char → Option Ip4) (t : List Char) (h1 : '[' ∉ t) (h2 : ']' ∉ t) :
    requestDst lookup ('[' :: t ++ [']']) = lookup t := by
  have hf := findIdx_reverse_append ('[' :: t ++ [']']) ['8', '8', '0', '5'] (by decide)
  have hs : ('[' :: t ++ [']'] ++ [':', '8', '8', '0', '5']) = ('[' :: t) ++ ']' :: [':', '8', '8', '0', '5'] := by simp
  have hc := findIdx_close ('[' :: t) [':', '8', '8', '0', '5'] (by simpa using h2)
  simp only [requestDst, splitHostPort]
  rw [hf]
  have hi : ('[' :: t ++ [']'] ++ [':', '8', '8', '0', '5']).length - 1 - ['8', '8', '0', '5'].length = t.length + 2 := by simp
  simp only []
  rw [hi, hs, if_pos (by rfl), hc]
  simp only [List.length_cons]
  rw [if_neg (by simp), if_neg (by simp [h1]), if_neg]
  · have e1 : ((('[' :: t) ++ ']' :: [':', '8', '8', '0', '5']).take (t.length + 1)).drop 1 = t := by
      simp
    show lookup _ = _
    rw [e1]
  · have e2 : (('[' :: t) ++ ']' :: [':', '8', '8', '0', '5']).drop (t.length + 1 + 1) = [':', '8', '8', '0', '5'] := by
      simp
    rw [e2]; decide

/-- `[::1]` -/
example (lookup : List Char → Option Ip4) : requestDst lookup ['[', ':', ':', '1', ']'] = lookup [':', ':', '1'] := C69_bracketed lookup [':', ':', '1'] (by decide) (by decide)

/-- The addresses of an endpoint: the texts of the peers, and what resolves. -/
def Endpoint.addressed (w : Endpoint) (text : Addr → List Char) (lookup : List Char → Option Ip4) : Prop :=
  ∀ a, w.resolves a = (requestDst lookup (text a)).isSome

/-- **C69, negation, in executions.** A peer with an IPv6 address is sent responses but never a heartbeat request nor an association
setup request, in any execution. -/
theorem C69_never_probed {w0 w : Endpoint} {h : List (Turn × Outcome)} (hs0 : w0.sent = []) (hr : Endpoint.Run w0 h w)
    (text : Addr → List Char) (lookup : List Char → Option Ip4) (had : w0.addressed text lookup) (a : Addr) (hc : ':' ∈ text a)
    (hb : (text a).head? ≠ some '[') : ∀ s ∈ w.sent, s.dst = a → s.name.isRequest = false := by
  have hra : w0.resolves a = false := by rw [had, C69_ipv6_unreachable lookup _ hc hb]; rfl
  induction hr with
  | init => intro s hs; rw [hs0] at hs; cases hs
  | traffic _ _ ih => exact ih
  | @turn h w t hw hr ih =>
    have hres := (run_const hr).2.1
    cases t with
    | undecodable => exact ih
    | unexpected t => exact ih
    | tick =>
      intro s hs hd
      simp only [Endpoint.turn, List.mem_append, List.mem_reverse] at hs
      rcases hs with hs | hs
      · simp only [Endpoint.refresh, List.mem_map, List.mem_filter] at hs
        obtain ⟨b, ⟨_, hb2⟩, rfl⟩ := hs
        simp only at hd
        subst hd
        rw [hres, hra] at hb2
        cases hb2
      · exact ih s hs hd
    | probe b q =>
      simp only [Endpoint.turn]
      split
      · rename_i hb2
        intro s hs hd
        rcases List.mem_cons.1 hs with rfl | hs
        · simp only at hd
          subst hd
          rw [hres, hra] at hb2
          cases hb2
        · exact ih s hs hd
      · exact ih
    | event e =>
      simp only [Endpoint.turn]
      rcases w.node.step e with ⟨n, r | _ | _⟩
      · intro s hs hd
        rcases List.mem_cons.1 hs with rfl | hs
        · exact respName_not_request _
        · exact ih s hs hd
      · exact ih
      · exact ih

/-! ### examples -/

/-- The endpoint of the demo asks peer 7, which answers, is given up, and is asked again. -/
def Demo.wRefresh : Endpoint := Demo.w0.turns
  [.tick, .event (.assocSetupResp 7 (some (some ())) (some (some 1)) (some (some ()))), .tick, .event (.peerLost 7 default), .tick]
example : Demo.wRefresh.sent = [⟨7, .associationSetupRequest, 0, some [16, 1, 4]⟩, ⟨7, .associationSetupRequest, 0, some [16, 1, 4]⟩] ∧
    Demo.wRefresh.alive = true := by decide +kernel
/-- Peer 7 is another name of peer 1: it is asked although peer 1 is associated. -/
example : (Demo.w0.turns [.event (.assocSetup 1 1 (some (some ())) (some (some ()))), .tick]).sent.map (fun s => (s.dst, s.name)) =
    [(7, .associationSetupRequest), (1, .associationSetupResponse)] := by decide +kernel
/-- An IPv6 and an IPv4 peer. -/
example : requestDst (fun _ => some 5) "2001:db8::7".toList = none ∧ requestDst (fun _ => some 5) "10.0.0.7".toList = some 5 := by decide

end Eupf
