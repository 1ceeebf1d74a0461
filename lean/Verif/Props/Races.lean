import Verif.RaceLemmas
import Verif.RaceCover
import Verif.NodeLemmas
import Verif.Demo
/-
C86. Queries and metrics are served by other goroutines than the one that handles PFCP messages. They read the tables of associations and
sessions without any lock, so a query that comes while a request is being handled may end the process.
-/
namespace Eupf

/-! ### specification -/

/-- the maps of the control plane (not the pools) -/
def Loc.isState : Loc → Prop
  | .busyIPs => False
  | .busyTEIDs => False
  | .teidsOf _ => False
  | _ => True

/-- A program that only reads the associations, sessions and rules: what every query and the metrics do. -/
def Reads (p : List Op) : Prop := ∀ o ∈ p, ∃ x : Loc, o = .rd x ∧ x.isState

/-- What runs besides the main loop: heartbeat schedulers, and queries (any number of goroutines of each). -/
inductive Background : List Op → Prop
  | heartbeats (a : Addr) (c : Nat) : Background (List.replicate c (heartbeatOps a)).flatten
  | query {p : List Op} (h : Reads p) : Background p

/-- Goroutine 0 is the main loop, which handles these events from this state; the others are background. -/
structure Served (n : Node) (evs : List Ev) (prog : Nat → List Op) : Prop where
  main : prog 0 = n.opsRun evs
  rest : ∀ i, i ≠ 0 → Background (prog i)

/-- The main loop handles `evs`, goroutine 1 serves one query. -/
def oneQuery (n : Node) (evs : List Ev) (q : List Op) : Nat → List Op
  | 0 => n.opsRun evs
  | 1 => q
  | _ => []

/-! ### background programs -/

theorem isState_guard {x : Loc} (h : x.isState) : guardOf x = none := by
  cases x <;> first | rfl | exact h.elim

theorem reads_ok {p : List Op} (h : Reads p) : okProg none none p :=
  okProg_reads fun o ho => by
    obtain ⟨x, e, hx⟩ := h o ho
    exact ⟨x, e, isState_guard hx⟩

theorem ok_heartbeats (a : Addr) : ∀ c : Nat, okProg none none (List.replicate c (heartbeatOps a)).flatten
  | 0 => ok_nil
  | c + 1 => by
    rw [List.replicate_succ, List.flatten_cons]
    exact okProg.append (ok_heartbeats a c) ⟨rfl, rfl, rfl, rfl, rfl, rfl⟩

theorem Background.ok {p : List Op} (h : Background p) : okProg none none p := by
  cases h with
  | heartbeats a c => exact ok_heartbeats a c
  | query h => exact reads_ok h

theorem Background.no_write {p : List Op} (h : Background p) (x : Loc) : Op.wb x ∉ p := by
  cases h with
  | heartbeats a c =>
    intro hm
    rw [List.mem_flatten] at hm
    obtain ⟨l, hl, hm⟩ := hm
    rw [(List.mem_replicate.1 hl).2] at hm
    simp [heartbeatOps] at hm
  | query h =>
    intro hm
    obtain ⟨y, e, _⟩ := h _ hm
    cases e

theorem Background.reader {p : List Op} (h : Background p) {x : Loc} (hx : Op.rd x ∈ p) : Reads p := by
  cases h with
  | heartbeats a c =>
    rw [List.mem_flatten] at hx
    obtain ⟨l, hl, hm⟩ := hx
    rw [(List.mem_replicate.1 hl).2] at hm
    simp [heartbeatOps] at hm
  | query h => exact h

theorem Served.ok {n : Node} {evs : List Ev} {prog : Nat → List Op} (h : Served n evs prog) (i : Nat) : okProg none none (prog i) := by
  by_cases hi : i = 0
  · subst hi; rw [h.main]; exact ok_opsRun evs n
  · exact (h.rest i hi).ok

theorem reads_append {p q : List Op} (hp : Reads p) (hq : Reads q) : Reads (p ++ q) := by
  intro o ho
  rcases List.mem_append.1 ho with h | h
  · exact hp o h
  · exact hq o h

theorem reads_rdOf {x : Loc} {k : Nat} (h : x.isState) : Reads (rdOf x k) := by
  unfold rdOf
  split
  · intro o ho; cases ho
  · intro o ho
    rw [List.mem_singleton] at ho
    exact ⟨x, ho, h⟩

/-- Listing the sessions is a query. -/
theorem reads_listSessions (n : Node) (o : QueryOrder) : Reads (n.listSessionsOps o) := by
  unfold Node.listSessionsOps
  refine reads_append (reads_append ?_ (reads_rdOf (by trivial))) ?_
  · intro op h
    obtain ⟨a, _, h⟩ := List.mem_flatMap.1 h
    refine reads_append (reads_append ?_ ?_) (reads_rdOf (by trivial)) op h
    · intro op h; rw [List.mem_singleton] at h; exact ⟨_, h, trivial⟩
    · intro op h
      obtain ⟨_, _, rfl⟩ := List.mem_map.1 h
      exact ⟨_, rfl, trivial⟩
  · intro op h
    obtain ⟨x, _, h⟩ := List.mem_flatMap.1 h
    exact reads_append (reads_append (reads_append (reads_rdOf (by trivial)) (reads_rdOf (by trivial))) (reads_rdOf (by trivial))) (reads_rdOf (by trivial)) op h

/-- Listing the associations, and reading the session counter of the metrics, is a query. -/
theorem reads_walkAssocs (n : Node) : Reads n.walkAssocsOps := by
  refine reads_append ?_ (reads_rdOf (by trivial))
  intro o ho
  exact ⟨.assocs, (List.mem_replicate.1 ho).2, trivial⟩

/-- With an association, both start by reading the table of associations. -/
theorem walkAssocs_reads {n : Node} (h : n.assocs.size ≠ 0) : Op.rd .assocs ∈ n.walkAssocsOps := by
  unfold Node.walkAssocsOps rdOf
  simp [h]

theorem listSessions_reads {n : Node} (o : QueryOrder) (h : n.assocs.size ≠ 0) : Op.rd .assocs ∈ n.listSessionsOps o := by
  unfold Node.listSessionsOps rdOf
  simp [h]

/-! ### what is safe -/

/-- **C86** (pools). Whatever the main loop handles and whatever is queried meanwhile: the pools' tables are never accessed concurrently, and
no mutex is released that is not held. -/
theorem C86_pools_safe_partial {n : Node} {evs : List Ev} {prog : Nat → List Op} (h : Served n evs prog) :
    (∀ k, ¬ CanDie prog (.mutex k)) ∧ ¬ CanDie prog (.map .busyIPs) ∧ ¬ CanDie prog (.map .busyTEIDs) ∧
    ∀ s, ¬ CanDie prog (.map (.teidsOf s)) := by
  have key : ∀ f, CanDie prog f → ∃ x : Loc, f = .map x ∧ guardOf x = none := by
    rintro f ⟨m, i, hr, hs⟩
    obtain ⟨held, w, I⟩ := rinv_runs h.ok hr
    obtain ⟨x, j, e, hg, _⟩ := I.fatal hs
    exact ⟨x, e, hg⟩
  refine ⟨fun k hd => ?_, fun hd => ?_, fun hd => ?_, fun s hd => ?_⟩
  · obtain ⟨x, e, _⟩ := key _ hd; cases e
  · obtain ⟨x, e, hg⟩ := key _ hd; cases e; cases hg
  · obtain ⟨x, e, hg⟩ := key _ hd; cases e; cases hg
  · obtain ⟨x, e, hg⟩ := key _ hd; cases e; cases hg

/-- **C86** (no deadlock). As long as a goroutine has something to do, some goroutine can go on: the mutexes of the control plane never block
each other. -/
theorem C86_no_deadlock {n : Node} {evs : List Ev} {prog : Nat → List Op} (h : Served n evs prog) {m : Mach}
    (hr : (Mach.start prog).Runs m) {i : Nat} (hne : m.prog i ≠ []) : ∃ j, m.step j ≠ .stuck := by
  obtain ⟨held, w, I⟩ := rinv_runs h.ok hr
  exact I.progress hne

/-- **C86** (exactly when). Some interleaving ends the process if and only if a query reads a table that the main loop writes while it handles
the events. -/
theorem C86_killed_iff {n : Node} {evs : List Ev} {prog : Nat → List Op} (h : Served n evs prog) :
    (∃ f, CanDie prog f) ↔ ∃ x, Op.wb x ∈ n.opsRun evs ∧ ∃ i, i ≠ 0 ∧ Op.rd x ∈ prog i := by
  constructor
  · rintro ⟨f, m, i, hr, hs⟩
    obtain ⟨held, w, I⟩ := rinv_runs h.ok hr
    obtain ⟨x, j, rfl, _, hne, hj, hi⟩ := I.fatal hs
    have hj0 : j = 0 := by
      by_cases hj0 : j = 0
      · exact hj0
      · exact absurd hj ((h.rest j hj0).no_write x)
    subst hj0
    have hi0 : i ≠ 0 := fun e => hne e.symm
    rw [h.main] at hj
    refine ⟨x, hj, i, hi0, ?_⟩
    rcases hi with hi | hi
    · exact hi
    · exact absurd hi ((h.rest i hi0).no_write x)
  · rintro ⟨x, hw, i, hi, hr⟩
    refine ⟨.map x, ?_⟩
    have hreads := (h.rest i hi).reader hr
    obtain ⟨p1, p2, hp⟩ := List.append_of_mem hr
    obtain ⟨q1, q2, hq⟩ := List.append_of_mem hw
    -- the query runs up to its read
    have al0 : Alone (Mach.start prog) i none none := ⟨fun _ => rfl, fun _ => rfl⟩
    have ok1 := h.ok i
    rw [hp] at ok1
    obtain ⟨m1, h1, w1, r1, al1, ok1', e1⟩ := run_alone .init al0 ok1 (show (Mach.start prog).prog i = _ from hp)
    obtain ⟨rfl, _, _⟩ := ok1'
    have hh1 : h1 = none := by
      cases h1 with
      | none => rfl
      | some k =>
        exfalso
        obtain ⟨held, w, I⟩ := rinv_runs h.ok r1
        have o1 := al1.own k
        rw [if_pos rfl] at o1
        have hk := (I.own i k).1 o1
        have hok := I.ok i
        rw [hk, e1, at_self] at hok
        have : ∀ (l : List Op) (w : Option Loc), (∀ o ∈ l, ∃ x : Loc, o = .rd x) → ¬ okProg (some k) w l := by
          intro l
          induction l with
          | nil => intro w _ hc; exact absurd hc.1 (by simp)
          | cons o l ih =>
            intro w hl hc
            obtain ⟨y, rfl⟩ := hl o List.mem_cons_self
            exact ih none (fun o ho => hl o (List.mem_cons_of_mem _ ho)) hc.2.2
        refine this _ _ ?_ hok
        intro o ho
        have ho' : o ∈ prog i := by rw [hp]; exact List.mem_append_right _ ho
        obtain ⟨y, e, _⟩ := hreads o ho'
        exact ⟨y, e⟩
    subst hh1
    -- then the main loop runs into its write
    have al1' : Alone m1 0 none none := ⟨al1.own, al1.flag⟩
    have hp0 : m1.prog 0 = q1 ++ Op.wb x :: q2 := by
      rw [e1, at_ne _ _ (fun e => hi e.symm)]
      show prog 0 = _
      rw [h.main, hq]
    have ok2 := h.ok 0
    rw [h.main, hq] at ok2
    obtain ⟨m2, h2, w2, r2, al2, ok2', e2⟩ := run_alone r1 al1' ok2 hp0
    obtain ⟨rfl, _, _⟩ := ok2'
    have hnw : m2.writing x = false := by rw [al2.flag x]; rfl
    have hs2 : m2.step 0 = .next { m2 with prog := upd m2.prog 0 q2, writing := upd m2.writing x true } := by
      unfold Mach.step
      rw [e2, at_self]
      simp [hnw]
    refine ⟨_, i, r2.step 0 hs2, ?_⟩
    unfold Mach.step
    have : upd m2.prog 0 q2 i = .rd x :: p2 := by
      rw [at_ne _ _ hi, e2, at_ne _ _ hi, e1, at_self]
    simp only [this, at_self]
    rfl

/-- **C86** (without queries). The main loop and any number of heartbeat schedulers never end the process this way, whatever messages come. -/
theorem C86_alone_safe_partial {n : Node} {evs : List Ev} {prog : Nat → List Op} (h : Served n evs prog)
    (hq : ∀ i, i ≠ 0 → ∃ a c, prog i = (List.replicate c (heartbeatOps a)).flatten) (f : Fatal) : ¬ CanDie prog f := by
  intro hd
  obtain ⟨x, _, i, hi, hr⟩ := (C86_killed_iff h).1 ⟨f, hd⟩
  obtain ⟨a, c, e⟩ := hq i hi
  rw [e, List.mem_flatten] at hr
  obtain ⟨l, hl, hm⟩ := hr
  rw [(List.mem_replicate.1 hl).2] at hm
  simp [heartbeatOps] at hm

/-! ### which messages write -/

theorem mem_wrOf (x : Loc) : Op.wb x ∈ wrOf x := List.mem_cons_self

theorem size_ne_zero {K V : Type} [DecidableEq K] {m : GoMap K V} {k : K} {v : V} (h : m.get? k = some v) : m.size ≠ 0 := by
  intro h0
  have : m.entries = [] := List.length_eq_zero_iff.1 h0
  have hm := (GoMap.mem_entries_iff m k v).2 h
  rw [this] at hm
  cases hm

/-- **C86** (accepted establishments). An accepted Session Establishment Request writes the table of associations and the peer's table of
sessions. -/
theorem C86_establishment_writes {n n' : Node} {a : Addr} {r : EstReq} {resp : Resp}
    (h : n.step (.establish a r) = (n', .reply resp)) (hc : resp.cause = causeAccepted) :
    Op.wb .assocs ∈ n.ops (.establish a r) ∧ Op.wb (.sessions a) ∈ n.ops (.establish a r) := by
  have h' : n.establish a r = (n', .reply resp) := h
  show Op.wb .assocs ∈ n.establishOps a r ∧ _ ∈ n.establishOps a r
  unfold Node.establish at h'
  unfold Node.establishOps
  cases hv : validateRequest r.nodeId r.cpFseid with
  | none =>
    rw [hv] at h'
    simp only [Prod.mk.injEq, Outcome.reply.injEq] at h'
    rw [← h'.2] at hc
    exact absurd hc (by simp only; decide)
  | some remote =>
    rw [hv] at h'
    simp only at h' ⊢
    cases ha : n.assocs.get? a with
    | none =>
      rw [ha] at h'
      simp only [Prod.mk.injEq, Outcome.reply.injEq] at h'
      rw [← h'.2] at hc
      exact absurd hc (by simp only; decide)
    | some as =>
      rw [ha] at h'
      simp only at h' ⊢
      cases hb : (establishBody n.ueip r (n.hs (Session.new as.newLocalSEID.2 remote))).2 with
      | ok _ =>
        simp [wrOf]
      | err =>
        rw [hb] at h'
        simp only [Prod.mk.injEq, Outcome.reply.injEq] at h'
        rw [← h'.2] at hc
        exact absurd hc (by simp only; decide)
      | panic =>
        rw [hb] at h'
        simp only [Prod.mk.injEq] at h'
        exact absurd h'.2 (by simp)

/-- **C86** (accepted modifications and deletions). They write the peer's table of sessions. -/
theorem C86_modification_writes {n n' : Node} {a : Addr} {r : ModReq} {ord : Orders} {resp : Resp}
    (h : n.step (.modify a r ord) = (n', .reply resp)) (hc : resp.cause = causeAccepted) :
    Op.wb (.sessions a) ∈ n.ops (.modify a r ord) := by
  have h' : n.modify a r ord = (n', .reply resp) := h
  show Op.wb (.sessions a) ∈ n.modifyOps a r ord
  unfold Node.modify at h'
  unfold Node.modifyOps
  cases ha : n.assocs.get? a with
  | none =>
    rw [ha] at h'
    simp only [Prod.mk.injEq, Outcome.reply.injEq] at h'
    rw [← h'.2] at hc
    exact absurd hc (by simp only; decide)
  | some as =>
    rw [ha] at h'
    simp only at h' ⊢
    cases hs : as.sessions.get? r.seid with
    | none =>
      rw [hs] at h'
      simp only [Prod.mk.injEq, Outcome.reply.injEq] at h'
      rw [← h'.2] at hc
      exact absurd hc (by simp only; decide)
    | some sess =>
      rw [hs] at h'
      simp only at h' ⊢
      cases hb : (modifyBody n.ueip ord r (n.hs (sess.setRemote r.cpFseid))).2 with
      | ok _ => simp [wrOf]
      | err =>
        rw [hb] at h'
        simp only [Prod.mk.injEq, Outcome.reply.injEq] at h'
        rw [← h'.2] at hc
        exact absurd hc (by simp only; decide)
      | panic =>
        rw [hb] at h'
        simp only [Prod.mk.injEq] at h'
        exact absurd h'.2 (by simp)

theorem C86_deletion_writes {n n' : Node} {a : Addr} {r : DelReq} {ord : Orders} {resp : Resp}
    (h : n.step (.delete a r ord) = (n', .reply resp)) (hc : resp.cause = causeAccepted) :
    Op.wb (.sessions a) ∈ n.ops (.delete a r ord) := by
  have h' : n.delete a r ord = (n', .reply resp) := h
  show Op.wb (.sessions a) ∈ n.deleteOps a r ord
  unfold Node.delete at h'
  unfold Node.deleteOps
  cases ha : n.assocs.get? a with
  | none =>
    rw [ha] at h'
    simp only [Prod.mk.injEq, Outcome.reply.injEq] at h'
    rw [← h'.2] at hc
    exact absurd hc (by simp only; decide)
  | some as =>
    rw [ha] at h'
    simp only at h' ⊢
    cases hs : as.sessions.get? r.seid with
    | none =>
      rw [hs] at h'
      simp only [Prod.mk.injEq, Outcome.reply.injEq] at h'
      rw [← h'.2] at hc
      exact absurd hc (by simp only; decide)
    | some sess =>
      rw [hs] at h'
      simp only at h' ⊢
      have hsz := size_ne_zero hs
      rcases hb : deleteBody ord sess (n.hs sess) with ⟨x, res⟩
      rw [hb] at h'
      cases res with
      | ok _ => simp [wrOf, delOf, hsz]
      | err =>
        simp only [Prod.mk.injEq] at h'
        exact absurd h'.2 (by simp)
      | panic =>
        simp only [Prod.mk.injEq] at h'
        exact absurd h'.2 (by simp)

/-- **C86** (new peers and lost peers). An association that appears or disappears writes the table of associations. -/
theorem C86_association_writes {n : Node} {e : Ev} {a : Addr}
    (h : (n.assocs.get? a).isSome ≠ ((n.step e).1.assocs.get? a).isSome) : Op.wb .assocs ∈ n.ops e := by
  have hset : ∀ (b : Addr) (v : Assoc), (n.assocs.get? b).isSome →
      (n.assocs.get? a).isSome = ((n.assocs.set b v).get? a).isSome := by
    intro b v hb
    rw [GoMap.get?_set]
    by_cases hba : a = b
    · subst hba; rw [if_pos rfl, hb]; rfl
    · rw [if_neg hba]
  have hadd : ∀ b, (n.assocs.get? a).isSome ≠ ((n.addAssoc b).assocs.get? a).isSome → Op.wb .assocs ∈ n.addAssocOps b := by
    intro b hne
    unfold Node.addAssoc at hne
    unfold Node.addAssocOps
    cases hb : n.assocs.get? b with
    | some v => rw [hb] at hne; exact absurd rfl hne
    | none => simp [wrOf]
  cases e with
  | assocSetup b s i t =>
    unfold Node.step Node.assocSetup at h
    unfold Node.ops
    rcases i with _ | _ | i <;> rcases t with _ | _ | t <;> first | exact absurd rfl h | exact hadd b h
  | assocSetupResp b i c f =>
    unfold Node.step Node.assocSetupResp at h
    unfold Node.ops
    rcases i with _ | _ | i <;> rcases c with _ | _ | c <;> rcases f with _ | _ | f <;>
      first
      | exact absurd rfl h
      | (simp only at h ⊢
         split at h
         · rename_i hc; rw [if_pos hc]; exact hadd b h
         · exact absurd rfl h)
  | assocUpdate b s i =>
    unfold Node.step Node.assocUpdate at h
    rcases i with _ | _ | i
    · exact absurd rfl h
    · exact absurd rfl h
    · simp only at h
      split at h <;> exact absurd rfl h
  | heartbeatReq b s t =>
    unfold Node.step Node.heartbeatReq at h
    rcases t with _ | _ | t <;> exact absurd rfl h
  | heartbeatResp b s t =>
    unfold Node.step Node.heartbeatResp at h
    rcases t with _ | _ | t <;> exact absurd rfl h
  | setConfig u => exact absurd rfl h
  | establish b r =>
    exfalso
    apply h
    show _ = ((n.establish b r).1.assocs.get? a).isSome
    unfold Node.establish
    split
    · rfl
    · split
      · rfl
      · rename_i as hb
        have hb' : (n.assocs.get? b).isSome := by rw [hb]; rfl
        simp only
        split <;> exact hset b _ hb'
  | modify b r o =>
    exfalso
    apply h
    show _ = ((n.modify b r o).1.assocs.get? a).isSome
    unfold Node.modify
    split
    · rfl
    · rename_i as hb
      have hb' : (n.assocs.get? b).isSome := by rw [hb]; rfl
      split
      · rfl
      · simp only
        split <;> exact hset b _ hb'
  | delete b r o =>
    exfalso
    apply h
    show _ = ((n.delete b r o).1.assocs.get? a).isSome
    unfold Node.delete
    split
    · rfl
    · rename_i as hb
      have hb' : (n.assocs.get? b).isSome := by rw [hb]; rfl
      split
      · rfl
      · simp only
        split
        · exact hset b _ hb'
        · rfl
        · rfl
  | peerLost b o =>
    have h' : (n.assocs.get? a).isSome ≠ ((n.deleteAssociation b o).1.assocs.get? a).isSome := h
    show Op.wb .assocs ∈ n.peerLostOps b o
    unfold Node.deleteAssociation at h'
    unfold Node.peerLostOps
    cases hb : n.assocs.get? b with
    | none => rw [hb] at h'; exact absurd rfl h'
    | some as =>
      rw [hb] at h'
      have hsz := size_ne_zero hb
      simp only at h' ⊢
      rcases hd : dropSessions o (o.sessions.run as.sessions.entries) n.rm n.dp with ⟨rm, dp, ok⟩
      rw [hd] at h'
      cases ok with
      | true => simp [wrOf, delOf, hsz]
      | false => exact absurd rfl h'

/-- **C86** (rule changes). A Session Modification Request - accepted or not - that changes the PDRs, FARs, QERs or URRs of a session writes
that table of the session, which queries read without lock. -/
theorem C86_rule_change_writes {n : Node} {a : Addr} {r : ModReq} {ord : Orders} {s s' : Session}
    (hs : n.session? a r.seid = some s) (hs' : (n.step (.modify a r ord)).1.session? a r.seid = some s') :
    (s'.pdrs ≠ s.pdrs → Op.wb (.pdrs a r.seid) ∈ n.ops (.modify a r ord)) ∧
    (s'.fars ≠ s.fars → Op.wb (.fars a r.seid) ∈ n.ops (.modify a r ord)) ∧
    (s'.qers ≠ s.qers → Op.wb (.qers a r.seid) ∈ n.ops (.modify a r ord)) ∧
    (s'.urrs ≠ s.urrs → Op.wb (.urrs a r.seid) ∈ n.ops (.modify a r ord)) := by
  cases ha : n.assocs.get? a with
  | none => simp [Node.session?, ha] at hs
  | some as =>
    have hse : as.sessions.get? r.seid = some s := by simpa [Node.session?, ha] using hs
    have hs1 : s' = (modifyBody n.ueip ord r (n.hs (s.setRemote r.cpFseid))).1.sess := by
      have h2 : (n.modify a r ord).1.session? a r.seid = some s' := hs'
      unfold Node.modify at h2
      rw [ha] at h2
      simp only [hse] at h2
      cases hb : (modifyBody n.ueip ord r (n.hs (s.setRemote r.cpFseid))).2 <;> rw [hb] at h2 <;>
        simp only [Node.session?, GoMap.get?_set, if_pos, Option.bind_some, Option.some.injEq] at h2 <;> exact h2.symm
    have hsub : ∀ x : Loc, Op.wb x ∈ (trModify a r.seid n.ueip ord r).ops (n.hs (s.setRemote r.cpFseid)) →
        Op.wb x ∈ n.ops (.modify a r ord) := by
      intro x hx
      show _ ∈ n.modifyOps a r ord
      unfold Node.modifyOps
      simp only [ha, hse]
      exact List.mem_append_right _ (List.mem_append_right _ (List.mem_append_left _ (List.mem_append_right _ hx)))
    have hact := trModify_act a r.seid n.ueip ord r
    have hrem : (s.setRemote r.cpFseid).pdrs = s.pdrs ∧ (s.setRemote r.cpFseid).fars = s.fars ∧ (s.setRemote r.cpFseid).qers = s.qers ∧
        (s.setRemote r.cpFseid).urrs = s.urrs := by
      unfold Session.setRemote
      split <;> exact ⟨rfl, rfl, rfl, rfl⟩
    subst hs1
    refine ⟨fun h => hsub _ (covers_pdrs_modify a r.seid n.ueip ord r _ ?_), fun h => hsub _ (covers_fars_modify a r.seid n.ueip ord r _ ?_),
      fun h => hsub _ (covers_qers_modify a r.seid n.ueip ord r _ ?_), fun h => hsub _ (covers_urrs_modify a r.seid n.ueip ord r _ ?_)⟩
    · rw [hact]; exact fun e => h (e.trans hrem.1)
    · rw [hact]; exact fun e => h (e.trans hrem.2.1)
    · rw [hact]; exact fun e => h (e.trans hrem.2.2.1)
    · rw [hact]; exact fun e => h (e.trans hrem.2.2.2)

/-- **C86** (harmless requests). A request that is refused because an information element is missing or wrong, or because there is no such
association or session (causes 65, 66, 69, 72), and every heartbeat, writes nothing: no query can do harm while it is handled. -/
theorem C86_refused_writes_nothing {n n' : Node} {e : Ev} {resp : Resp} (h : n.step e = (n', .reply resp))
    (hc : resp.type = .heartbeat ∨ resp.cause = causeSessionNotFound ∨ resp.cause = causeMandatoryIEMissing ∨
      resp.cause = causeMandatoryIEIncorrect ∨ resp.cause = causeNoAssociation) (x : Loc) : Op.wb x ∉ n.ops e := by
  have hrd : ∀ y k, Op.wb x ∉ rdOf y k := by
    intro y k hm
    unfold rdOf at hm
    split at hm
    · cases hm
    · simp at hm
  cases e with
  | assocSetup b s i t =>
    unfold Node.step Node.assocSetup at h
    unfold Node.ops
    rcases i with _ | _ | i <;> rcases t with _ | _ | t <;> first | exact List.not_mem_nil | skip
    simp only [Prod.mk.injEq, Outcome.reply.injEq] at h
    rw [← h.2] at hc
    exact absurd hc (by simp; decide)
  | assocSetupResp b i c f =>
    unfold Node.step Node.assocSetupResp at h
    rcases i with _ | _ | i <;> rcases c with _ | _ | c <;> rcases f with _ | _ | f <;> simp only at h <;>
      first
      | (cases h; done)
      | (split at h <;> cases h)
  | assocUpdate b s i =>
    unfold Node.ops
    rcases i with _ | _ | i
    · exact List.not_mem_nil
    · exact List.not_mem_nil
    · simp only
      intro hm
      simp only [List.mem_append, List.mem_singleton, reduceCtorEq, false_or, or_false] at hm
      exact hrd _ _ hm
  | heartbeatReq b s t => exact List.not_mem_nil
  | heartbeatResp b s t =>
    unfold Node.ops
    rcases t with _ | _ | t
    · exact List.not_mem_nil
    · exact List.not_mem_nil
    · exact hrd _ _
  | setConfig u => exact List.not_mem_nil
  | establish b r =>
    have h' : n.establish b r = (n', .reply resp) := h
    show Op.wb x ∉ n.establishOps b r
    unfold Node.establish at h'
    unfold Node.establishOps
    cases hv : validateRequest r.nodeId r.cpFseid with
    | none => exact List.not_mem_nil
    | some remote =>
      rw [hv] at h'
      simp only at h' ⊢
      cases ha : n.assocs.get? b with
      | none => simp only [List.append_nil]; exact hrd _ _
      | some as =>
        rw [ha] at h'
        simp only at h'
        cases hb : (establishBody n.ueip r (n.hs (Session.new as.newLocalSEID.2 remote))).2 <;> rw [hb] at h' <;>
          simp only [Prod.mk.injEq, Outcome.reply.injEq, reduceCtorEq, and_false] at h' <;>
          rw [← h'.2] at hc <;> exact absurd hc (by simp; decide)
  | modify b r o =>
    have h' : n.modify b r o = (n', .reply resp) := h
    show Op.wb x ∉ n.modifyOps b r o
    unfold Node.modify at h'
    unfold Node.modifyOps
    cases ha : n.assocs.get? b with
    | none => simp only [List.append_nil]; exact hrd _ _
    | some as =>
      rw [ha] at h'
      simp only at h' ⊢
      cases hs : as.sessions.get? r.seid with
      | none =>
        simp only [List.append_nil]
        intro hm
        rcases List.mem_append.1 hm with hm | hm <;> exact hrd _ _ hm
      | some sess =>
        rw [hs] at h'
        simp only at h'
        cases hb : (modifyBody n.ueip o r (n.hs (sess.setRemote r.cpFseid))).2 <;> rw [hb] at h' <;>
          simp only [Prod.mk.injEq, Outcome.reply.injEq, reduceCtorEq, and_false] at h' <;>
          rw [← h'.2] at hc <;> exact absurd hc (by simp; decide)
  | delete b r o =>
    have h' : n.delete b r o = (n', .reply resp) := h
    show Op.wb x ∉ n.deleteOps b r o
    unfold Node.delete at h'
    unfold Node.deleteOps
    cases ha : n.assocs.get? b with
    | none => simp only [List.append_nil]; exact hrd _ _
    | some as =>
      rw [ha] at h'
      simp only at h' ⊢
      cases hs : as.sessions.get? r.seid with
      | none =>
        simp only [List.append_nil]
        intro hm
        rcases List.mem_append.1 hm with hm | hm <;> exact hrd _ _ hm
      | some sess =>
        rw [hs] at h'
        simp only at h'
        cases hb : (deleteBody o sess (n.hs sess)).2 <;> rw [hb] at h' <;>
          simp only [Prod.mk.injEq, Outcome.reply.injEq, reduceCtorEq, and_false] at h' <;>
          rw [← h'.2] at hc <;> exact absurd hc (by simp; decide)
  | peerLost b o =>
    have h' : n.deleteAssociation b o = (n', .reply resp) := h
    unfold Node.deleteAssociation at h'
    split at h'
    · cases h'
    · split at h' <;> cases h'

/-! ### the query that kills -/

theorem oneQuery_served {n : Node} {evs : List Ev} {q : List Op} (hq : Reads q) : Served n evs (oneQuery n evs q) where
  main := rfl
  rest := by
    intro i hi
    match i with
    | 0 => exact absurd rfl hi
    | 1 => exact .query hq
    | _ + 2 => exact .query (fun o ho => by cases ho)

theorem opsRun_append_mem : ∀ {es : List Ev} {n m : Node} {os : List Outcome} {e : Ev} {op : Op}, n.run es = (m, os) → .crash ∉ os →
    op ∈ m.ops e → op ∈ n.opsRun (es ++ [e])
  | [], n, m, os, e, op, hr, _, hm => by
    cases hr
    unfold Node.opsRun
    exact List.mem_append_left _ hm
  | e0 :: es, n, m, os, e, op, hr, hc, hm => by
    unfold Node.run at hr
    rw [List.cons_append]
    unfold Node.opsRun
    rcases hs : n.step e0 with ⟨n', o⟩
    rw [hs] at hr
    refine List.mem_append_right _ ?_
    cases o with
    | crash =>
      simp only [Prod.mk.injEq] at hr
      exact absurd (by rw [← hr.2]; simp) hc
    | reply r =>
      simp only [Prod.mk.injEq] at hr ⊢
      rcases hr' : n'.run es with ⟨m', os'⟩
      rw [hr'] at hr
      obtain ⟨rfl, rfl⟩ := hr
      exact opsRun_append_mem hr' (fun h => hc (List.mem_cons_of_mem _ h)) hm
    | silent =>
      simp only [Prod.mk.injEq] at hr ⊢
      rcases hr' : n'.run es with ⟨m', os'⟩
      rw [hr'] at hr
      obtain ⟨rfl, rfl⟩ := hr
      exact opsRun_append_mem hr' (fun h => hc (List.mem_cons_of_mem _ h)) hm

/-- **C86** (refuted: queries are safe). After any messages: if the next message is a Session Establishment Request that is accepted, then one
query - the list of sessions, the list of associations, or a reading of the metrics - of a node that has an association, coming at the wrong
moment, ends the process. -/
theorem C86_query_kills {n m n' : Node} {es : List Ev} {os : List Outcome} {a : Addr} {r : EstReq} {resp : Resp}
    (hr : n.run es = (m, os)) (hnc : .crash ∉ os)
    (h : m.step (.establish a r) = (n', .reply resp)) (hc : resp.cause = causeAccepted)
    (seen : Node) (hseen : seen.assocs.size ≠ 0) (o : QueryOrder) :
    (∃ f, CanDie (oneQuery n (es ++ [.establish a r]) (seen.listSessionsOps o)) f) ∧
    ∃ f, CanDie (oneQuery n (es ++ [.establish a r]) seen.walkAssocsOps) f := by
  have hw := opsRun_append_mem hr hnc (C86_establishment_writes h hc).1
  exact ⟨(C86_killed_iff (oneQuery_served (reads_listSessions seen o))).2
      ⟨.assocs, hw, 1, by decide, listSessions_reads o hseen⟩,
    (C86_killed_iff (oneQuery_served (reads_walkAssocs seen))).2 ⟨.assocs, hw, 1, by decide, walkAssocs_reads hseen⟩⟩

/-! ### non-vacuity -/

/-- the hypotheses of `C86_query_kills` are met: a peer associates and establishes its first session; the query sees the association -/
def Demo.nOne : Node := (Demo.n0.run [.assocSetup 1 1 (some (some ())) (some (some ()))]).1

example : ∃ f, CanDie (oneQuery Demo.n0 [.assocSetup 1 1 (some (some ())) (some (some ())), .establish 1 (Demo.est 100)]
    Demo.nOne.walkAssocsOps) f := by
  have h2 : (Demo.nOne.step (.establish 1 (Demo.est 100))).2 = .reply
      { type := .establishment, seid := 100, seq := 5, cause := 1, fseid := some 2,
        created := [.fteid 1 1 0x0a000001, .ueIp 2 0x0a2d0001] } := by decide +kernel
  have h1 : Demo.n0.run [.assocSetup 1 1 (some (some ())) (some (some ()))] =
      (Demo.nOne, (Demo.n0.run [.assocSetup 1 1 (some (some ())) (some (some ()))]).2) :=
    Prod.ext (by simp only [Demo.nOne]) (by simp only)
  have h3 : Demo.nOne.step (.establish 1 (Demo.est 100)) = ((Demo.nOne.step (.establish 1 (Demo.est 100))).1, .reply
      { type := .establishment, seid := 100, seq := 5, cause := 1, fseid := some 2,
        created := [.fteid 1 1 0x0a000001, .ueIp 2 0x0a2d0001] }) := Prod.ext (by simp only) h2
  exact (C86_query_kills h1 (by decide +kernel) h3 (by decide) Demo.nOne (by decide +kernel) default).2

/-- `C86_alone_safe_partial`, `C86_pools_safe_partial`, `C86_no_deadlock`: the main loop with the whole demo history, two heartbeat schedulers and a query -/
example : Served Demo.n0 Demo.evs (fun i => match i with
    | 0 => Demo.n0.opsRun Demo.evs
    | 1 => (List.replicate 3 (heartbeatOps 1)).flatten
    | 2 => (List.replicate 5 (heartbeatOps 2)).flatten
    | _ => Demo.nEnd.listSessionsOps default) where
  main := rfl
  rest := by
    intro i hi
    match i with
    | 0 => exact absurd rfl hi
    | 1 => exact .heartbeats 1 3
    | 2 => exact .heartbeats 2 5
    | _ + 3 => exact .query (reads_listSessions _ _)

example : (Demo.n0.opsRun Demo.evs).length > 0 := by decide +kernel

end Eupf
