import Verif.Session
/-
Specification: what a Create/Update QER or FAR means for the parameters of the rule, field by field.
-/
namespace Eupf

/-- `new` results from `old` by the QER information element `ie`: fields present in it take the given value (bit
rates are given in kbit/s and kept in bit/s in 32 bits), the other fields keep theirs. -/
structure QerMerged (old : QerInfo) (ie : QerIE) (new : QerInfo) : Prop where
  gateUL : (∀ g, ie.gateUL = some g → new.gateUL = g) ∧ (ie.gateUL = none → new.gateUL = old.gateUL)
  gateDL : (∀ g, ie.gateDL = some g → new.gateDL = g) ∧ (ie.gateDL = none → new.gateDL = old.gateDL)
  qfi : (∀ g, ie.qfi = some g → new.qfi = g) ∧ (ie.qfi = none → new.qfi = old.qfi)
  mbrUL : (∀ k, ie.mbrUL = some k → new.mbrUL.toNat = (k.toNat * 1000) % 2 ^ 32) ∧ (ie.mbrUL = none → new.mbrUL = old.mbrUL)
  mbrDL : (∀ k, ie.mbrDL = some k → new.mbrDL.toNat = (k.toNat * 1000) % 2 ^ 32) ∧ (ie.mbrDL = none → new.mbrDL = old.mbrDL)

/-- `new` results from `old` by the FAR information element `ie`: the first octet of Apply Action, description (high
octet), TEID and address of Outer Header Creation, and the transport level marking, each if present. The address is
kept so that its memory image on a little-endian host is the address in network byte order. -/
structure FarMerged (old : FarInfo) (ie : FarIE) (new : FarInfo) : Prop where
  action : (∀ a as, ie.applyAction = some (a :: as) → new.action = a) ∧ ((ie.applyAction.bind List.head?) = none → new.action = old.action)
  tunnel : ∀ o, ie.forward = some (some (some o)) → new.teid = o.teid ∧ new.ohc.toNat = o.desc.toNat / 256
  addr : ∀ o ip, ie.forward = some (some (some o)) → o.ipv4 = some ip →
    ∀ k, k < 4 → (new.remoteIP.toNat / 256 ^ k) % 256 = (ip.toNat / 256 ^ (3 - k)) % 256
  noAddr : ∀ o, ie.forward = some (some (some o)) → o.ipv4 = none → new.remoteIP = old.remoteIP
  noTunnel : (∀ o, ie.forward ≠ some (some (some o))) → new.teid = old.teid ∧ new.ohc = old.ohc ∧ new.remoteIP = old.remoteIP
  tlm : (∀ t, ie.tlm = some t → new.tlm = t) ∧ (ie.tlm = none → new.tlm = old.tlm)

end Eupf
