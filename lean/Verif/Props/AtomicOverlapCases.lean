import Verif.Props.AtomicOverlap
import Verif.Props.AtomicCases
import Verif.Props.AtomicModifyCases
/-
C114: concrete cases.
-/
namespace Eupf

/-- what happens to the frame if its look-ups happen after `k1`, `k2`, `k3` pieces of the event -/
def Node.fateOver (n : Node) (e : Ev) (k1 k2 k3 : Nat) (f : List U8) : Option (Res XAction) :=
  match n.after e k1, n.after e k2, n.after e k3 with
  | some b1, some b2, some b3 => some (runPacket DemoDp.env ⟨f, lookups b1 b2 b3, {}, {}⟩).2
  | _, _, _ => none

theorem all_take {l : List Piece} {s t t' : HS} {k k' : Nat} (hk : k ≤ k') (h : Act.all (l.take k) s = (t, .ok ())) (h' : Act.all (l.take k') s = (t', .ok ())) :
    Act.all ((l.drop k).take (k' - k)) t = (t', .ok ()) := by
  have e : l.take k' = l.take k ++ (l.drop k).take (k' - k) := by
    rw [← List.take_add, Nat.add_sub_cancel' hk]
  rw [e, all_after h] at h'
  exact h'

theorem Node.after_moments {n : Node} {e : Ev} {k1 k2 k3 : Nat} {b1 b2 b3 : BpfObjects} (h1 : n.after e k1 = some b1) (h2 : n.after e k2 = some b2)
    (h3 : n.after e k3 = some b3) (h12 : k1 ≤ k2) (h23 : k2 ≤ k3) : n.moments e b1 b2 b3 := by
  unfold Node.after at h1 h2 h3
  unfold Node.moments
  cases hj : n.job e with
  | none => rw [hj] at h1; cases h1
  | some y =>
    obtain ⟨s, l⟩ := y
    rw [hj] at h1 h2 h3
    simp only at h1 h2 h3
    have key : ∀ {k : Nat} {b : BpfObjects}, (match (Act.all (l.take k) s).2 with | .ok () => some (Act.all (l.take k) s).1.dp | _ => none) = some b →
        ∃ t, Act.all (l.take k) s = (t, .ok ()) ∧ t.dp = b := by
      intro k b h
      rcases ht : Act.all (l.take k) s with ⟨t, r⟩
      rw [ht] at h
      simp only at h
      cases r with
      | err => cases h
      | panic => cases h
      | ok u => simp only [Option.some.injEq] at h; exact ⟨t, rfl, h⟩
    obtain ⟨t1, a1, rfl⟩ := key h1
    obtain ⟨t2, a2, rfl⟩ := key h2
    obtain ⟨t3, a3, rfl⟩ := key h3
    have step : ∀ {k k' : Nat} {t t' : HS}, k ≤ k' → Act.all (l.take k) s = (t, .ok ()) → Act.all (l.take k') s = (t', .ok ()) → Prog (l.drop k) t (l.drop k') t' (.ok ()) := by
      intro k k' t t' hk a a'
      have := Prog.upto (l := l.drop k) (s := t) (l2 := l.drop k') ((l.drop k).take (k' - k)) (by
        have : (l.drop k).take (k' - k) ++ l.drop k' = l.drop k := by
          have : l.drop k' = (l.drop k).drop (k' - k) := by rw [List.drop_drop]; congr 1; omega
          rw [this, List.take_append_drop]
        rw [this]; exact .start) (all_take hk a a')
      exact this
    exact ⟨l.drop k1, t1, .ok (), l.drop k2, t2, .ok (), l.drop k3, t3, .ok (),
      Prog.upto (l.take k1) (by rw [List.take_append_drop]; exact .start) a1, step h12 a1 a2, step h23 a2 a3, rfl, rfl, rfl⟩

theorem Node.fateOver_moments {n : Node} {e : Ev} {k1 k2 k3 : Nat} {f : List U8} {x : Res XAction} (h12 : k1 ≤ k2) (h23 : k2 ≤ k3)
    (h : n.fateOver e k1 k2 k3 f = some x) : ∃ b1 b2 b3, n.moments e b1 b2 b3 ∧ (runPacket DemoDp.env ⟨f, lookups b1 b2 b3, {}, {}⟩).2 = x := by
  unfold Node.fateOver at h
  split at h
  · rename_i b1 b2 b3 e1 e2 e3
    exact ⟨b1, b2, b3, Node.after_moments e1 e2 e3 h12 h23, Option.some.inj h⟩
  · cases h

namespace Demo
/-- as `Demo.svc`, but the downlink gate of QER 1 is closed -/
def svc114 : EstReq := { svc with createQer := [{ qerId := some 1, qfi := some 9, gateDL := some 1 }] }
def n114 : Node := (nSvc0.step (.establish 1 svc114)).1
theorem svc114_own : ∀ ie ∈ svc114.createPdr, (∃ i, ie.farId = some i ∧ ∃ c ∈ svc114.createFar, c.farId.getD 0 = i) ∧
    ∃ i, ie.qerId = some i ∧ ∃ c ∈ svc114.createQer, c.qerId = some i := by
  intro ie hie
  simp only [svc114, svc, List.mem_cons, List.not_mem_nil, or_false] at hie
  rcases hie with rfl | rfl
  · exact ⟨⟨1, rfl, svc114.createFar[0], by simp [svc114, svc], rfl⟩, 1, rfl, svc114.createQer[0], by simp [svc114], rfl⟩
  · exact ⟨⟨2, rfl, svc114.createFar[1], by simp [svc114, svc], rfl⟩, 1, rfl, svc114.createQer[0], by simp [svc114], rfl⟩
theorem svc114_step : nSvc0.step (.establish 1 svc114) = (n114, .reply svcResp) := by
  have : (nSvc0.step (.establish 1 svc114)).2 = .reply svcResp := by decide +kernel
  exact Prod.ext (by simp only [n114]) this
theorem hist114 : ∃ h, HistP Clean n0 h n114 ∧ attempts h = 1 := by
  obtain ⟨h, s2, hb⟩ := two99
  have s3 := HistP.snoc s2 (clean_establish (orderly_establish (a := 1) (r := svc114) (by decide) (by decide +kernel) (by decide +kernel) (by decide +kernel))
    (by decide) (by decide) (by decide) svc114_own) svc114_step
  exact ⟨_, s3, by show attempts h + 1 = 1; rw [hb]⟩
theorem del114_out : (n114.step (.delete 1 ⟨2, 9⟩ default)).2 = .reply { type := .deletion, seid := 100, seq := 9, cause := 1 } := by decide +kernel
theorem del114_clean : Clean n114 (.delete 1 ⟨2, 9⟩ default) := by
  refine clean_other (by simp) (by simp) (orderly_delete del114_out (by decide) (by decide +kernel) (by decide +kernel))
end Demo

theorem Demo.closed114 : Demo.n114.fateOver (.delete 1 ⟨2, 9⟩ default) 0 0 5 DemoDp.down = some (.ok (.redirect 7)) ∧
    (runPacket DemoDp.env ⟨DemoDp.down, Demo.n114.dp, {}, {}⟩).2 = .ok .drop ∧
    (runPacket DemoDp.env ⟨DemoDp.down, (Demo.n114.step (.delete 1 ⟨2, 9⟩ default)).1.dp, {}, {}⟩).2 = .ok .pass := by decide +kernel
theorem Demo.dropped114 : Demo.nSvc2.fateOver (.delete 1 ⟨2, 9⟩ default) 0 4 4 DemoDp.down = some (.ok .drop) ∧
    (runPacket DemoDp.env ⟨DemoDp.down, (Demo.nSvc2.step (.delete 1 ⟨2, 9⟩ default)).1.dp, {}, {}⟩).2 = .ok .pass := by decide +kernel

/-- **C114: a deletion opens a closed gate.** After a clean history a session is deleted, cleanly. The gate of its QER is closed: before the deletion a packet for its
PDR is dropped, and after it the packet is passed on to the host. But a packet whose look-up of the QER happens after the QER is emptied (pfcp_session_handlers.go
180-185) and whose look-ups of PDR and FAR happen before theirs are is forwarded through the closed gate. -/
theorem C114_closed_gate : ∃ h n b1 b2 b3, HistP Clean Demo.n0 h n ∧ Clean n (.delete 1 ⟨2, 9⟩ default) ∧ n.moments (.delete 1 ⟨2, 9⟩ default) b1 b2 b3 ∧
    (runPacket DemoDp.env ⟨DemoDp.down, n.dp, {}, {}⟩).2 = .ok .drop ∧
    (runPacket DemoDp.env ⟨DemoDp.down, lookups b1 b2 b3, {}, {}⟩).2 = .ok (.redirect 7) ∧
    (runPacket DemoDp.env ⟨DemoDp.down, (n.step (.delete 1 ⟨2, 9⟩ default)).1.dp, {}, {}⟩).2 = .ok .pass := by
  obtain ⟨h, H, -⟩ := Demo.hist114
  have hc := Demo.del114_clean
  obtain ⟨h1, h2, h3⟩ := Demo.closed114
  generalize Demo.n114 = n at H hc h1 h2 h3
  obtain ⟨b1, b2, b3, hm, hd⟩ := Node.fateOver_moments (by decide) (by decide) h1
  generalize DemoDp.down = f at hd h2 h3 ⊢
  generalize DemoDp.env = e at hd h2 h3 ⊢
  exact ⟨h, n, b1, b2, b3, H, hc, hm, h2, hd, h3⟩

/-- **C114: a deletion drops a packet.** It is forwarded before the deletion and passed on to the host after it, but dropped if its PDR is looked up before the
deletion and its FAR afterwards. -/
theorem C114_dropped : ∃ h n b1 b2 b3, HistP Clean Demo.n0 h n ∧ Clean n (.delete 1 ⟨2, 9⟩ default) ∧ n.moments (.delete 1 ⟨2, 9⟩ default) b1 b2 b3 ∧
    (runPacket DemoDp.env ⟨DemoDp.down, n.dp, {}, {}⟩).2 = .ok (.redirect 7) ∧
    (runPacket DemoDp.env ⟨DemoDp.down, lookups b1 b2 b3, {}, {}⟩).2 = .ok .drop ∧
    (runPacket DemoDp.env ⟨DemoDp.down, (n.step (.delete 1 ⟨2, 9⟩ default)).1.dp, {}, {}⟩).2 = .ok .pass := by
  obtain ⟨h, H, -⟩ := Demo.svc2_hist
  have hc := Demo.del110_clean
  have h2 := Demo.gap_before
  obtain ⟨h1, h3⟩ := Demo.dropped114
  generalize Demo.nSvc2 = n at H hc h1 h2 h3
  obtain ⟨b1, b2, b3, hm, hd⟩ := Node.fateOver_moments (by decide) (by decide) h1
  generalize DemoDp.down = f at hd h2 h3 ⊢
  generalize DemoDp.env = e at hd h2 h3 ⊢
  exact ⟨h, n, b1, b2, b3, H, hc, hm, h2, hd, h3⟩

/-- C114_establish_partial, during the establishment of a session with an uplink and a downlink PDR. -/
example (n : Node) (hn : n = Demo.nSvc0) (f : List U8) (hf : f = DemoDp.up ∨ f = DemoDp.down) (b1 b2 b3 : BpfObjects) (hm : n.moments (.establish 1 Demo.svc) b1 b2 b3) :
    SameFate DemoDp.env f (lookups b1 b2 b3) (n.dp.timedAs (lookups b1 b2 b3)) ∨
    SameFate DemoDp.env f (lookups b1 b2 b3) ((n.step (.establish 1 Demo.svc)).1.dp.timedAs (lookups b1 b2 b3)) := by
  obtain ⟨h, H, hb⟩ := Demo.two99
  have h1 := Demo.svc_clean
  have h2 := Demo.svc_calm
  have hp : ¬ PingsUpf DemoDp.env f := by
    rcases hf with rfl | rfl
    · exact Demo.up_noping
    · exact Demo.down_noping
  clear hf
  rw [← hn] at H h1 h2
  clear hn
  generalize DemoDp.env = e at hp ⊢
  exact C114_establish_partial (fz := 4) (qz := 4) (uz := 4) (by decide) (by decide) (by decide) (C106_as_a_whole H) h1 h2 (by rw [hb]; decide) hm hp
/-- C114_delete_partial, during the deletion of this session. -/
example (n : Node) (hn : n = Demo.nSvc2) (f : List U8) (hf : f = DemoDp.up ∨ f = DemoDp.down) (b1 b2 b3 : BpfObjects) (hm : n.moments (.delete 1 ⟨2, 9⟩ default) b1 b2 b3) :
    SameFate DemoDp.env f (lookups b1 b2 b3) (n.dp.timedAs (lookups b1 b2 b3)) ∨
    SameFate DemoDp.env f (lookups b1 b2 b3) ((n.step (.delete 1 ⟨2, 9⟩ default)).1.dp.timedAs (lookups b1 b2 b3)) ∨
    (∀ st rt, ∃ s', runPacket DemoDp.env ⟨f, lookups b1 b2 b3, st, rt⟩ = (s', .ok .drop) ∧ s'.frame = f) ∨
    SameFate DemoDp.env f (lookups b1 b2 b3) (n.dp.noQers.timedAs (lookups b1 b2 b3)) := by
  obtain ⟨h, H, hb⟩ := Demo.svc2_hist
  have h1 := Demo.del110_clean
  have hp : ¬ PingsUpf DemoDp.env f := by
    rcases hf with rfl | rfl
    · exact Demo.up_noping
    · exact Demo.down_noping
  clear hf
  rw [← hn] at H h1
  clear hn
  generalize DemoDp.env = e at hp ⊢
  exact C114_delete_partial (fz := 4) (qz := 4) (uz := 4) (by decide) (by decide) (by decide) (C106_as_a_whole H) h1 (by rw [hb]; decide) hm hp
/-- C114_modify_partial, during the modification `Demo.mod112`. -/
example (n : Node) (hn : n = Demo.nSvc2) (f : List U8) (hf : f = DemoDp.up ∨ f = DemoDp.down) (b1 b2 b3 : BpfObjects) (hm : n.moments (.modify 1 Demo.mod112 default) b1 b2 b3) :
    SameFate DemoDp.env f (lookups b1 b2 b3) (n.dp.timedAs (lookups b1 b2 b3)) ∨
    SameFate DemoDp.env f (lookups b1 b2 b3) ((n.step (.modify 1 Demo.mod112 default)).1.dp.timedAs (lookups b1 b2 b3)) := by
  obtain ⟨h, H, hb⟩ := Demo.svc2_hist
  have h1 := Demo.mod112_clean
  have h2 := Demo.mod112_calm
  have h3 := Demo.mod112_changes n hn
  have hp : ¬ PingsUpf DemoDp.env f := by
    rcases hf with rfl | rfl
    · exact Demo.up_noping
    · exact Demo.down_noping
  clear hf
  rw [← hn] at H h1 h2
  clear hn
  generalize DemoDp.env = e at hp ⊢
  exact C114_modify_partial (fz := 4) (qz := 4) (uz := 4) (by decide) (by decide) (by decide) (C106_as_a_whole H) h1 h2 (by rw [hb]; decide) ⟨rfl, rfl, rfl⟩
    ⟨by decide, by decide, by decide⟩ hm hp fun x y i p hx hy _ _ => h3 x y i hx hy
/-- C114_one_kind_partial, during the modification `Demo.off112`. -/
example (n : Node) (hn : n = Demo.nSvc2) (f : List U8) (hf : f = DemoDp.up ∨ f = DemoDp.down) (b1 b2 b3 : BpfObjects) (hm : n.moments (.modify 1 Demo.off112 default) b1 b2 b3) :
    SameFate DemoDp.env f (lookups b1 b2 b3) (n.dp.timedAs (lookups b1 b2 b3)) ∨
    SameFate DemoDp.env f (lookups b1 b2 b3) ((n.step (.modify 1 Demo.off112 default)).1.dp.timedAs (lookups b1 b2 b3)) := by
  obtain ⟨h, H, hb⟩ := Demo.svc2_hist
  have h1 := Demo.off112_clean
  have h2 := Demo.off112_calm
  have hp : ¬ PingsUpf DemoDp.env f := by
    rcases hf with rfl | rfl
    · exact Demo.up_noping
    · exact Demo.down_noping
  clear hf
  rw [← hn] at H h1 h2
  clear hn
  generalize DemoDp.env = e at hp ⊢
  exact C114_one_kind_partial (fz := 4) (qz := 4) (uz := 4) (by decide) (by decide) (by decide) (C106_as_a_whole H) h1 h2 (by rw [hb]; decide) ⟨rfl, rfl, rfl⟩
    ⟨by decide, by decide, by decide⟩ (.inl ⟨rfl, rfl⟩) hm hp

end Eupf
