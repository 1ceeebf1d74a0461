import Verif.Heartbeat
/-
Specification of heartbeat supervision (TS 29.244 6.2.2) in terms of what can be observed: requests sent, timers
expiring, responses arriving, peers given up. Nothing here looks into the schedulers.
Traces are newest first.
-/
namespace Eupf

/-- the sequence number of the last heartbeat request sent to `a` -/
def lastSent (a : Addr) : List Lab → Option U32
  | [] => none
  | .sent b q :: t => if b = a then some q else lastSent a t
  | _ :: t => lastSent a t

/-- a heartbeat of `a` went unanswered -/
def Lab.isExpiry (a : Addr) : Lab → Bool
  | .expired b => b = a
  | .gaveUp b => b = a
  | _ => false

/-- Within `recent` (which follows `older`) no response to the outstanding heartbeat of `a` arrived. -/
def NoAnswer (a : Addr) (recent older : List Lab) : Prop :=
  ∀ x q y, recent = x ++ .answered a q :: y → lastSent a (y ++ older) ≠ some q

/-- The last `n` heartbeats of `a` went unanswered: up to now there were `n` expiries with no answer to the outstanding
heartbeat in between, all within the present association. -/
def Unanswered (a : Addr) (n : Nat) (tr : List Lab) : Prop :=
  ∃ recent older, tr = recent ++ older ∧ n ≤ recent.countP (Lab.isExpiry a) ∧ NoAnswer a recent older ∧
    .dropped a ∉ recent

/-- the number of retries configured after a trace -/
def retriesNow (c : HbCfg) : List Lab → Nat
  | [] => c.retries.toNat
  | .config c' :: _ => c'.retries.toNat
  | _ :: t => retriesNow c t

/-- The main loop waits, and the peer's scheduler it waits for will never take the message: there is none, or it
waits for the main loop itself. -/
def Sys.Wedged (s : Sys) : Prop :=
  ∃ a q, s.main = some (a, q) ∧ (s.sched.get? a = none ∨ s.sched.get? a = some .failed)

/-- the main loop takes part in the step as receiver of something from the network or from a scheduler -/
def Lab.served : Lab → Bool
  | .msg _ | .hbResp .. | .dropped _ => true
  | _ => false

end Eupf
