import Verif.Spec.Route
/-
Specification: what the counters of route lookups and of forwarded packets stand for (cmd/ebpf/stats.go, upf_route_stat and
upf_n3_n6_counter).
-/
namespace Eupf

/-- The route counters after one more lookup with this answer. -/
def RouteStat.count (r : RouteStat) (v6 : Bool) (ans : FibAns) : RouteStat :=
  match v6, ans with
  | false, .ok _ _ _ => { r with ip4Ok := r.ip4Ok + 1 }
  | false, .fail rc => if rc = 1 ∨ rc = 2 ∨ rc = 3 then { r with ip4Drop := r.ip4Drop + 1 } else { r with ip4Pass := r.ip4Pass + 1 }
  | true, .ok _ _ _ => { r with ip6Ok := r.ip6Ok + 1 }
  | true, .fail rc => if rc = 1 ∨ rc = 2 ∨ rc = 3 then { r with ip6Drop := r.ip6Drop + 1 } else { r with ip6Pass := r.ip6Pass + 1 }

/-- all lookups counted -/
def RouteStat.total (r : RouteStat) : U64 := r.ip4Ok + r.ip4Drop + r.ip4Pass + r.ip6Ok + r.ip6Drop + r.ip6Pass
/-- the successful ones -/
def RouteStat.found (r : RouteStat) : U64 := r.ip4Ok + r.ip6Ok

/-- The counters of one frame before (`r`, `n3`, `n6`) and after: one lookup that led to `a`, counted with its answer, and as
forwarded either to N3 (always IPv4) or to N6. -/
inductive OneLookup (e : Env) (a : XAction) (r r' : RouteStat) (n3 n6 n3' n6' : U64) : Prop
  | n3 (q : FibReq) : a = routeAct e (e.fib q) → r' = r.count false (e.fib q) → n3' = n3 + 1 → n6' = n6 → OneLookup e a r r' n3 n6 n3' n6'
  | n6 (v6 : Bool) (q : FibReq) : a = routeAct e (e.fib q) → r' = r.count v6 (e.fib q) → n3' = n3 → n6' = n6 + 1 → OneLookup e a r r' n3 n6 n3' n6'

end Eupf
