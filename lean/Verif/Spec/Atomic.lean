import Verif.Spec.Moments
import Verif.Spec.Gone
import Verif.Xdp.Uplink
/-
Specification vocabulary for C110 to C112: requests that take effect at once, as far as a packet can tell.
-/
namespace Eupf

/-- The tables `d` with the timers of the rate limiters as they are in `b`. -/
def BpfObjects.timedAs (d b : BpfObjects) : BpfObjects :=
  { d with qer := { d.qer with val := fun i => { d.qer.val i with startUL := (b.qer.val i).startUL, startDL := (b.qer.val i).startDL } } }

/-- The frame meets the same fate with tables `b` and `c`: the same action, and unless it is aborted (and thus dropped) the same contents. -/
def SameFate (e : Env) (f : List U8) (b c : BpfObjects) : Prop :=
  ∀ st rt, (runPacket e ⟨f, b, st, rt⟩).2 = (runPacket e ⟨f, c, st, rt⟩).2 ∧
    ((runPacket e ⟨f, b, st, rt⟩).2 ≠ .ok .aborted → (runPacket e ⟨f, b, st, rt⟩).1.frame = (runPacket e ⟨f, c, st, rt⟩).1.frame)

/-- The packet in the tunnel is an ICMP echo request to the UPF itself. (It is answered through the downlink PDR of the UE, so two PDRs are looked
up for it.) -/
def PingsUpf (e : Env) (f : List U8) : Prop := IsGtpMsg e f 255 ∧ innerType f = some 0x0800 ∧ ToSelf e (cutFrame f 0x0800) ∧ IsPing (cutFrame f 0x0800)

/-- The modification removes no FAR, QER or PDR. -/
def ModReq.onlyAdds (r : ModReq) : Prop := r.removeFar = [] ∧ r.removeQer = [] ∧ r.removePdr = []

/-- The modification updates no rule twice. -/
structure ModReq.updatesOnce (r : ModReq) : Prop where
  far : (r.updateFar.map (·.farId)).Nodup
  qer : (r.updateQer.map (·.qerId)).Nodup
  pdr : (r.updatePdr.map (·.pdrId)).Nodup

/-- Of PDR `i` of the session, the FAR it uses and the QER it uses, at most one is different in `y`. -/
def Session.changesOne (x y : Session) (i : U32) : Prop := ∀ p j f k q, x.pdrs.get? i = some p → x.fars.get? j = some f → f.gid = p.info.farId →
  x.qers.get? k = some q → q.gid = p.info.qerId →
  (y.pdrs.get? i = some p ∧ y.fars.get? j = some f) ∨ (y.pdrs.get? i = some p ∧ y.qers.get? k = some q) ∨ (y.fars.get? j = some f ∧ y.qers.get? k = some q)

end Eupf
