import Verif.MomentLemmas
import Verif.Props.AbstractPackets
/-
C106: packets that are processed while a request is do not change what the request does, nor what is true afterwards.
-/
namespace Eupf

/-- **C106.** A history with packets at any moment, also in the middle of requests, leads to a state to which a history leads in which the same
requests are processed as a whole, one by one, with the same answers but for the volumes in usage reports. So what holds of all histories of
the second kind holds with packets at any moment. -/
theorem C106_interleaved {P : Node → Ev → Prop} {n0 n : Node} {h : List (Ev × Outcome)} (H : HistI P n0 h n) :
    ∃ h', HistP P n0 h' n ∧ plainly h' = plainly h := by
  induction H with
  | init => exact ⟨[], .init, rfl⟩
  | traffic _ ht ih =>
    obtain ⟨h', i1, i2⟩ := ih
    exact ⟨h', .traffic i1 ht, i2⟩
  | @step h n n' o e _ hp hr hc ih =>
    obtain ⟨h', i1, i2⟩ := ih
    obtain ⟨b, rfl, t, ho⟩ := hr.step
    have hc' : (n.step e).2 ≠ .crash := by
      intro hx
      rw [hx] at ho
      cases o with
      | crash => exact hc rfl
      | reply _ => cases ho
      | silent => cases ho
    refine ⟨(e, (n.step e).2) :: h', .traffic (.step e i1 hp hc') t, ?_⟩
    show (e, (n.step e).2.plain) :: plainly h' = (e, o.plain) :: plainly h
    rw [ho, i2]

/-- Requests processed as a whole are a case of it. -/
theorem C106_as_a_whole {P : Node → Ev → Prop} {n0 n : Node} {h : List (Ev × Outcome)} (H : HistP P n0 h n) : HistI P n0 h n := by
  induction H with
  | init => exact .init
  | traffic _ ht ih => exact .traffic ih ht
  | @step h n e _ hp hc ih => exact .step e ih hp (n.runs_step e) hc

/-- A request with packets in between: the records are those of the request as a whole, the tables too, but for timers and volumes, and the
answer, but for the volumes in it. -/
theorem C106_request {n n' : Node} {e : Ev} {o : Outcome} (h : n.Runs e n' o) :
    n'.assocs = (n.step e).1.assocs ∧ n'.rm = (n.step e).1.rm ∧ n'.cfg = (n.step e).1.cfg ∧ n'.ueip = (n.step e).1.ueip ∧
    TrafficEffect (n.step e).1.dp n'.dp ∧ o.plain = (n.step e).2.plain := by
  obtain ⟨b, rfl, t, ho⟩ := h.step
  exact ⟨rfl, rfl, rfl, rfl, t, ho⟩

theorem said_plainly : ∀ (h : List (Ev × Outcome)) (a : Addr) (s : U64), said (plainly h) a s = said h a s
  | [], _, _ => rfl
  | (e, o) :: h, a, s => by
    have ih := said_plainly h
    show said ((e, o.plain) :: plainly h) a s = said ((e, o) :: h) a s
    cases e <;> cases o <;> simp only [Outcome.plain, said, ih]

theorem attempts_plainly (h : List (Ev × Outcome)) : attempts (plainly h) = attempts h := by
  induction h with
  | nil => rfl
  | cons x h ih =>
    obtain ⟨e, o⟩ := x
    show attempts ((e, o.plain) :: plainly h) = _
    simp only [attempts, List.filter_cons] at ih ⊢
    cases e <;> simp [ih]

/-- **C106, for what was said.** With packets at any moment, after a clean history the records of the sessions are what was said (C100). -/
theorem C106_said_partial {cfg : NodeCfg} {rm : Option ResourceManager} {pz fz qz uz : U32} (hfz : 0 < fz.toNat) (hqz : 0 < qz.toNat)
    (huz : 0 < uz.toNat) {h : List (Ev × Outcome)} {n : Node} (H : HistI Clean (Node.init cfg rm (BpfObjects.load pz fz qz uz)) h n) (a : Addr) (s : U64) :
    Both ASession.Is (said h a s) (n.session? a s) := by
  obtain ⟨h', H', e⟩ := C106_interleaved H
  rw [← said_plainly h, ← e, said_plainly]
  exact C100_said_partial hfz hqz huz H' a s

/-- **C106, for the tables.** With packets at any moment, after an orderly history the PDR tables say what the sessions say (C98). -/
theorem C106_exact_partial {cfg : NodeCfg} {rm : Option ResourceManager} {pz fz qz uz : U32} (hfz : 0 < fz.toNat) (hqz : 0 < qz.toNat)
    (huz : 0 < uz.toNat) {h : List (Ev × Outcome)} {n : Node} (H : HistI Orderly (Node.init cfg rm (BpfObjects.load pz fz qz uz)) h n)
    (hb : attempts h < 2 ^ 64 - 2) : Exact n := by
  obtain ⟨h', H', e⟩ := C106_interleaved H
  refine C98_exact_partial hfz hqz huz H' ?_
  rw [← attempts_plainly h', e, attempts_plainly]
  exact hb

end Eupf
