import Verif.Spec.Ledger
/-
Concrete configurations and histories used to show that hypotheses of theorems are met and to witness
negations. Models no code.
-/
namespace Eupf

namespace Demo
/-- A small configuration for the examples: 4 slots of every kind, TEIDs 1..8, UE pool of four addresses. -/
def cfg : NodeCfg := ⟨true, true, 0x0a000001⟩
def dp : BpfObjects := BpfObjects.load 8 4 4 4
def rm : ResourceManager := newResourceManager [0x0a2d0001, 0x0a2d0002, 0x0a2d0003, 0x0a2d0004] 8
def n0 : Node := Node.init cfg (some rm) dp
def fwd : FarIE := { kind := .create, farId := some 1, applyAction := some [2],
                     forward := some (some (some ⟨0x0100, 77, some 0xc0a80001, false⟩)) }
def est (cp : U64) : EstReq :=
  { seq := 5, nodeId := some (some ()), cpFseid := some (some cp), createFar := [fwd],
    createQer := [{ qerId := some 1, qfi := some 9 }], createUrr := [some 1],
    createPdr := [{ pdrId := some 1, farId := some 1, qerId := some 1,
                    pdi := some { fteid := some (some ⟨0, true, none⟩) } },
                  { pdrId := some 2, farId := some 1, qerId := some 1,
                    pdi := some { ueip := some (some { chv4 := true }) } }] }
/-- peer 1 and peer 2 associate, peer 1 gets two sessions, one is deleted, peer 2 gets one session -/
def evs : List Ev :=
  [.assocSetup 1 1 (some (some ())) (some (some ())), .assocSetup 2 1 (some (some ())) (some (some ())),
   .establish 1 (est 100), .establish 1 (est 101), .delete 1 ⟨2, 9⟩ default, .establish 2 (est 100)]
end Demo

/-- Histories of `Node.run` (no packets) are histories. -/
theorem hist_run {n0 : Node} : ∀ (es : List Ev) {h : List (Ev × Outcome)} {n : Node}, Hist n0 h n →
    (.crash ∉ (n.run es).2) → Hist n0 ((es.zip (n.run es).2).reverse ++ h) (n.run es).1
  | [], h, n, H, _ => by simpa [Node.run] using H
  | e :: es, h, n, H, hc => by
    unfold Node.run at hc ⊢
    rcases hs : n.step e with ⟨n', o⟩
    rw [hs] at hc
    have ho : o ≠ .crash := by
      rintro rfl; exact hc (by simp)
    have hstep : Hist n0 ((e, o) :: h) n' := by
      have := Hist.step e H (by rw [hs]; exact ho)
      rwa [hs] at this
    cases o with
    | crash => exact absurd rfl ho
    | reply r =>
      simp only [List.mem_cons, not_or] at hc
      have := hist_run es hstep hc.2
      simpa using this
    | silent =>
      simp only [List.mem_cons, not_or] at hc
      have := hist_run es hstep hc.2
      simpa using this

/-- What was observed when running `es` from `n` (newest first). -/
def Node.observed (n : Node) (es : List Ev) : List (Ev × Outcome) := (es.zip (n.run es).2).reverse

theorem hist_run_init {n : Node} (es : List Ev) (h : .crash ∉ (n.run es).2) : Hist n (n.observed es) (n.run es).1 := by
  have := hist_run es (n := n) .init h
  simpa [Node.observed] using this

/-- two peers, one session each -/
def Demo.evs2 : List Ev :=
  [.assocSetup 1 1 (some (some ())) (some (some ())), .assocSetup 2 1 (some (some ())) (some (some ())),
   .establish 1 (Demo.est 100), .establish 2 (Demo.est 200)]

/-- the node after `Demo.evs` -/
def Demo.nEnd : Node := (Demo.n0.run Demo.evs).1

end Eupf
