import Verif.Props.Requests
import Verif.Props.Ledger
/-
C105: a peer that has restarted. It has lost its sessions and sets up its association again (with a new Recovery Time Stamp, which the handlers only decode,
pfcp_handlers.go 84-95, pfcp_hearbeat.go 11-24); 3GPP TS 29.244, 5.22 asks the UP function to delete the sessions of the old association.
-/
namespace Eupf

/-- **C105, negation**: in every state, whatever association and heartbeat messages a restarted peer (or anyone) sends, every session of every peer is kept, and so are the tables of the
forwarding plane and the pools: nothing of what the peer had is given back. -/
theorem C105_nothing_given_back : ∀ (es : List Ev) (n : Node), (∀ e ∈ es, e.isNodeMsg = true) →
    (∀ a s, (n.run es).1.session? a s = n.session? a s) ∧ (n.run es).1.dp = n.dp ∧ (n.run es).1.rm = n.rm := by
  intro es
  induction es with
  | nil => intro n _; exact ⟨fun _ _ => rfl, rfl, rfl⟩
  | cons e es ih =>
    intro n h
    have h1 := fun a s => C05_association_messages n a s e (h e List.mem_cons_self)
    have h2 := ih (n.step e).1 (fun x hx => h x (List.mem_cons_of_mem _ hx))
    rcases hs : n.step e with ⟨m, o⟩
    rw [hs] at h1 h2
    unfold Node.run
    rw [hs]
    have key : (∀ a s, (m.run es).1.session? a s = n.session? a s) ∧ (m.run es).1.dp = n.dp ∧ (m.run es).1.rm = n.rm :=
      ⟨fun a s => (h2.1 a s).trans (h1 a s).1, h2.2.1.trans (h1 0 0).2.1, h2.2.2.trans (h1 0 0).2.2⟩
    cases o with
    | crash => exact ⟨fun a s => (h1 a s).1, (h1 0 0).2.1, (h1 0 0).2.2⟩
    | reply r => exact key
    | silent => exact key

/-- four sessions of peer 1, for which all four FAR slots are used; then the peer restarts: association setup, heartbeats, association setup again -/
def Demo.filled : List Ev :=
  [.assocSetup 1 1 (some (some ())) (some (some ())), .establish 1 (Demo.est 100), .establish 1 (Demo.est 101), .establish 1 (Demo.est 102), .establish 1 (Demo.est 103)]
def Demo.restarts : List Ev :=
  [.assocSetup 1 1 (some (some ())) (some (some ())), .heartbeatReq 1 2 (some (some ())), .assocSetup 1 3 (some (some ())) (some (some ()))]

/-- **C105, negation, consequence**: a restarted peer that wants to establish its sessions again is refused, since its old sessions still hold the slots; a UPF without the old sessions accepts the same request. -/
theorem C105_refused_after_restart : ∃ (h : List (Ev × Outcome)) (n : Node), Hist Demo.n0 h n ∧ n.sessionCount = 4 ∧ (∀ e ∈ Demo.restarts, e.isNodeMsg = true) ∧
    ((n.run Demo.restarts).1.step (.establish 1 (Demo.est 100))).2 = .reply { type := .establishment, seid := 100, seq := 5, cause := 73 } ∧
    ∃ resp, ((Demo.n0.run Demo.restarts).1.step (.establish 1 (Demo.est 100))).2 = .reply resp ∧ resp.cause = 1 :=
  ⟨Demo.n0.observed Demo.filled, (Demo.n0.run Demo.filled).1, hist_run_init _ (by decide +kernel), by decide +kernel, by decide, by decide +kernel,
    { type := .establishment, seid := 100, seq := 5, cause := 1, fseid := some 2, created := [.fteid 1 1 0x0a000001, .ueIp 2 0x0a2d0001] }, by decide +kernel, rfl⟩

end Eupf
