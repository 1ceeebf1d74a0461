import Verif.Spec.Frames
/-
Specification vocabulary: what routing does to a frame. The kernel's forwarding table is an arbitrary function of the
request.
-/
namespace Eupf

/-- The request for an IPv4 frame. -/
def fibReq4 (e : Env) (f : List U8) : FibReq :=
  { family := 2, tos := oct f 15, proto := oct f 23, totLen := be16 f 16, src := slice f 26 4, dst := slice f 30 4, ifindex := e.ifindex }
/-- The request for an IPv6 frame. (routing.h 164 uses AF_INET = 2, not AF_INET6.) -/
def fibReq6 (e : Env) (f : List U8) : FibReq :=
  { family := 2, tos := 0, proto := oct f 20, totLen := be16 f 18, src := slice f 22 16, dst := slice f 38 16, ifindex := e.ifindex }

/-- The frame with the MAC addresses of the next hop, if there is one. -/
def macRewrite (f : List U8) (ans : FibAns) : List U8 :=
  match ans with
  | .ok _ smac dmac => dmac.toList ++ smac.toList ++ f.drop 12
  | .fail _ => f

/-- What becomes of a routed frame: sent out of the next hop's interface; black hole, unreachable or prohibited (return codes 1,
2, 3): dropped; otherwise left to the kernel. -/
def routeAct (e : Env) (ans : FibAns) : XAction :=
  match ans with
  | .ok ifindex _ _ => if ifindex = e.ifindex then .tx else .redirect ifindex
  | .fail rc => if rc = 1 ∨ rc = 2 ∨ rc = 3 then .drop else .pass

/-- Is the frame sent out? -/
def XAction.sent : XAction → Bool
  | .tx => true
  | .redirect _ => true
  | _ => false

end Eupf
