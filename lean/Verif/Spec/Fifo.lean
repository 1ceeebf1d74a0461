import Verif.Spec.Chosen
import Verif.Spec.Ledger
/-
Specification vocabulary for C104: how many TEIDs and addresses the peers have asked for.
-/
namespace Eupf

/-- How many of the PDRs ask for a TEID, for an address. -/
def askTeids (l : List PdrIE) : Nat := (l.filter (·.asksTeid.isSome)).length
def askIps (l : List PdrIE) : Nat := (l.filter (·.asksIp)).length

/-- The TEIDs a request asks for. -/
def Ev.teidsAsked : Ev → Nat
  | .establish _ r => askTeids r.createPdr
  | .modify _ r _ => askTeids r.createPdr + askTeids r.updatePdr
  | _ => 0
/-- The addresses a request asks for. -/
def Ev.ipsAsked : Ev → Nat
  | .establish _ r => askIps r.createPdr
  | .modify _ r _ => askIps r.createPdr + askIps r.updatePdr
  | _ => 0

/-- All TEIDs, all addresses asked for in a history. -/
def teidsAsked (h : List (Ev × Outcome)) : Nat := (h.map (·.1.teidsAsked)).sum
def ipsAsked (h : List (Ev × Outcome)) : Nat := (h.map (·.1.ipsAsked)).sum

end Eupf
