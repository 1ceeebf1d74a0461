import Verif.Props.Restart
import Verif.Props.Acceptance
import Verif.Props.RestartGap
/-
C88, C96: the table sizes of a start, in every execution over restarts.
-/
namespace Eupf

theorem new_free (n : U32) : slotsFree (IdTracker.new n) = n.toNat := by
  unfold slotsFree IdTracker.new; simp
  have hn := n.isLt
  rw [List.filter_eq_self.mpr, List.length_range]
  intro i hi
  have hi' := List.mem_range.mp hi
  have : n.toNat < 2 ^ 32 := n.isLt
  simp only [decide_eq_true_eq]
  rw [Nat.mod_eq_of_lt (by omega)]; exact hi'

/-- **C88, the room of a start.** A start has room for as many FARs, QERs and URRs as its configuration says, whatever was there before; and as long as
this process runs, over all requests and packets, each PDR table holds at most the configured number of entries. -/
theorem C88_room {h : List WEv} {x : World} (hr : World.Run h x) (ha : x.w.alive = true) :
    (x.boot.endpoint.node.freeFars = x.boot.sizes.2.1.toNat ∧ x.boot.endpoint.node.freeQers = x.boot.sizes.2.2.1.toNat ∧
      x.boot.endpoint.node.freeUrrs = x.boot.sizes.2.2.2.toNat) ∧
    x.w.node.dp.pdrUl.m.size ≤ x.boot.sizes.1.toNat ∧ x.w.node.dp.pdrDl4.m.size ≤ x.boot.sizes.1.toNat ∧
    x.w.node.dp.pdrDl6.m.size ≤ x.boot.sizes.1.toNat ∧
    x.w.node.dp.pdrUl.cap = x.boot.sizes.1.toNat ∧ x.w.node.dp.pdrDl4.cap = x.boot.sizes.1.toNat ∧ x.w.node.dp.pdrDl6.cap = x.boot.sizes.1.toNat := by
  have H := (since_boot hr).2.hist ha
  obtain ⟨⟨a1, a2⟩, ⟨b1, b2⟩, c1, c2⟩ := C96_pdr_tables H
  exact ⟨⟨new_free _, new_free _, new_free _⟩, a2, b2, c2, a1, b1, c1⟩

/-- Non-vacuity: a second start that has served another peer; its tables hold 8 PDRs at most and a session's PDRs are in them. -/
example : World.Run Demo.hu2 Demo.u2 ∧ Demo.u2.w.alive = true ∧ 0 < Demo.u2.w.node.dp.pdrUl.m.size ∧ Demo.u2.boot.sizes.1.toNat = 8 := by
  exact ⟨Demo.run_u2, by decide +kernel, by decide +kernel, by decide +kernel⟩

end Eupf
