import Verif.Moments
/-
Specification vocabulary for packets that are processed while requests are (C106 and following).
-/
namespace Eupf

/-- The report without its volumes. -/
def UsageReport.plain (u : UsageReport) : UsageReport := { u with total := 0, ul := 0, dl := 0 }

/-- The answer without the volumes in it. -/
def Outcome.plain : Outcome → Outcome
  | .reply r => .reply { r with reports := r.reports.map UsageReport.plain }
  | .silent => .silent
  | .crash => .crash

/-- What was said and answered, but for volumes. -/
def plainly (h : List (Ev × Outcome)) : List (Ev × Outcome) := h.map (fun x => (x.1, x.2.plain))

/-- What one run of the packet program sees when its look-ups happen at three moments: it looks up the PDR once, then the FAR once, then the QER
once (n3n6_entrypoint.c 70, 91, 107; 133, 154, 170; 204, 287, 302). -/
def lookups (b1 b2 b3 : BpfObjects) : BpfObjects := { b1 with far := b2.far, qer := b3.qer, urr := b3.urr }

end Eupf
