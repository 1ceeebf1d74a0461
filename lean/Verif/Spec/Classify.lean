import Verif.Spec.Keys
/-
Specification vocabulary: which rule of a PDR table entry applies to a packet. Read off
cmd/ebpf/xdp/n3n6_entrypoint.c 76-90, 139-153, 213-278; that the packet program indeed decides so is proved in
C25/C26 (`Verif/Props/Packets.lean`).
-/
namespace Eupf

/-- The parts of a PDR that act on a packet: outer header removal, FAR slot, QER slot. -/
structure Rule where
  ohr : U8
  far : U32
  qer : U32
deriving DecidableEq, Repr

/-- The rule applied to a packet of which `m` tells whether a filter matches it; `none`: not classified. -/
def classify (e : Option PdrEntry) (m : KFilter → Bool) : Option Rule :=
  match e with
  | none => none
  | some e =>
    if e.sdfMode = 0 then some ⟨e.ohr, e.farId, e.qerId⟩
    else if m e.filter then some ⟨e.sdfOhr, e.sdfFar, e.sdfQer⟩
    else if e.sdfMode &&& 1 = 0 then some ⟨e.ohr, e.farId, e.qerId⟩
    else none

/-- The rule of a PDR record. -/
def PdrInfo.rule (p : PdrInfo) : Rule := ⟨p.ohr, p.farId, p.qerId⟩

end Eupf
