import Verif.Spec.Footprint
import Verif.Spec.Frames
/-
Specification vocabulary for C97: frames of a match key, and TEIDs that stand alone in a session.
-/
namespace Eupf

/-- The frame is user traffic for the match key: a G-PDU with the TEID, or an IPv4 or IPv6 packet to the UE address that is not GTP-U. -/
def FrameFor (e : Env) (f : List U8) : PdrKey → Prop
  | .ul t => IsGtpMsg e f 255 ∧ gtpTeid f = t
  | .dl4 ip => IsDown4 e f ∧ be32 f 30 = ip
  | .dl6 ip => IsDown6 f ∧ be128 (slice f 38 16) = ip

/-- If the key is a TEID, no other TEID of a PDR of the session has the same low octet. -/
def Session.alone (x : Session) (k : PdrKey) : Prop :=
  ∀ t, k = .ul t → ∀ i p t', x.pdrs.get? i = some p → p.key = .ul t' → t'.truncate 8 = t.truncate 8 → t' = t

end Eupf
