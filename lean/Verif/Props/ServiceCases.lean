import Verif.Props.Service
import Verif.Props.Ipv6Service
/-
C93: concrete cases of the uplink and IPv6 theorems.
-/
namespace Eupf

/-- directly after the establishment of `Demo.svc`, the handover -/
def Demo.nUp : Node := (Demo.nSvc.step (.modify 1 Demo.handover default)).1
/-- the uplink gate of QER 1 is closed -/
def Demo.block : ModReq := { seid := 2, seq := 9, updateQer := [{ qerId := some 1, gateUL := some 1 }] }
def Demo.nBlocked : Node := (Demo.nUp.step (.modify 1 Demo.block default)).1

theorem Demo.up_step : (Demo.nSvc.step (.modify 1 Demo.handover default)).2 = .reply { type := .modification, seid := 100, seq := 8, cause := 1 } := by decide +kernel
theorem Demo.block_step : (Demo.nUp.step (.modify 1 Demo.block default)).2 = .reply { type := .modification, seid := 100, seq := 9, cause := 1 } := by decide +kernel
theorem Demo.svc_has : (Demo.nSvc.session? 1 2).map (fun s => ((s.fars.get? 2).isSome, (s.qers.get? 1).isSome)) = some (true, true) := by decide +kernel
theorem Demo.up_has : (Demo.nUp.session? 1 2).map (fun s => ((s.fars.get? 2).isSome, (s.qers.get? 1).isSome)) = some (true, true) := by decide +kernel

theorem Demo.up_steered : Steered 1 2 (.ul 0x100) 1 1 1 Demo.nSvc (.modify 1 Demo.handover default) := by
  refine ⟨?_, ?_, .inr ⟨_, _, _, rfl, rfl, ⟨by simp [Demo.handover], by simp [Demo.handover], by simp [Demo.handover], by simp [Demo.handover],
    by simp [Demo.handover], by simp [Demo.handover]⟩, Demo.up_step, rfl⟩⟩
  · intro sess hs
    have hs' : Demo.nSvc.session? 1 2 = some sess := hs
    have := Demo.svc_has
    rw [hs'] at this
    simp only [Option.map_some, Option.some.injEq, Prod.mk.injEq] at this
    exact ⟨by simpa [Demo.handover] using this.1, by simp [Demo.handover], by simp [Demo.handover], by simpa [Demo.handover] using this.2, by simp [Demo.handover],
      by simp [Demo.handover], by simp [Demo.handover], by simp [Demo.handover], by simp [Demo.handover]⟩
  · show ¬ (0x100 : U32) ∈ freeTeids Demo.nSvc.rm; decide +kernel
theorem Demo.block_steered : Steered 1 2 (.ul 0x100) 1 1 1 Demo.nUp (.modify 1 Demo.block default) := by
  refine ⟨?_, ?_, .inr ⟨_, _, _, rfl, rfl, ⟨by simp [Demo.block], by simp [Demo.block], by simp [Demo.block], by simp [Demo.block],
    by simp [Demo.block], by simp [Demo.block]⟩, Demo.block_step, rfl⟩⟩
  · intro sess hs
    have hs' : Demo.nUp.session? 1 2 = some sess := hs
    have := Demo.up_has
    rw [hs'] at this
    simp only [Option.map_some, Option.some.injEq, Prod.mk.injEq] at this
    exact ⟨by simp [Demo.block], by simp [Demo.block], by simp [Demo.block], by simpa [Demo.block] using this.2, by simp [Demo.block],
      by simp [Demo.block], by simp [Demo.block], by simp [Demo.block], by simp [Demo.block]⟩
  · show ¬ (0x100 : U32) ∈ freeTeids Demo.nUp.rm; decide +kernel

theorem Demo.up_hist : ∃ h, HistP (Steered 1 2 (.ul 0x100) 1 1 1) Demo.nSvc h Demo.nUp ∧ attempts h = 0 ∧
    farUpdates 1 2 1 h = [] ∧ qerUpdates 1 2 1 h = Demo.handover.updateQer := by
  have s1 := HistP.step (P := Steered 1 2 (.ul 0x100) 1 1 1) (.modify 1 Demo.handover default) .init Demo.up_steered
    (fun h => by have h' := Demo.up_step.symm.trans h; cases h')
  refine ⟨_, s1, by simp [attempts], ?_, ?_⟩
  · rw [Demo.up_step, farUpdates]; rfl
  · rw [Demo.up_step, qerUpdates]; rfl
theorem Demo.block_hist : ∃ h, HistP (Steered 1 2 (.ul 0x100) 1 1 1) Demo.nSvc h Demo.nBlocked ∧ attempts h = 0 ∧
    farUpdates 1 2 1 h = [] ∧ qerUpdates 1 2 1 h = Demo.handover.updateQer ++ Demo.block.updateQer := by
  obtain ⟨h, H, b1, b2, b3⟩ := Demo.up_hist
  have s1 := HistP.step (.modify 1 Demo.block default) H Demo.block_steered (fun h => by have h' := Demo.block_step.symm.trans h; cases h')
  refine ⟨_, s1, by simpa [attempts] using b1, ?_, ?_⟩
  · rw [Demo.block_step, farUpdates, b2]; rfl
  · rw [Demo.block_step, qerUpdates, b3]; rfl

theorem Demo.svc_onlyUl : ∀ x ∈ Demo.svc.createPdr, x.names (.ul 0x100) → x = Demo.svc.createPdr[0] := by
  intro x hx hn
  simp only [Demo.svc, List.mem_cons, List.not_mem_nil, or_false] at hx
  rcases hx with rfl | rfl
  · rfl
  · obtain ⟨pdi, u, a1, a2, -⟩ := hn
    cases a1; cases a2
theorem Demo.svc_asksUl : AsksRule Demo.svc Demo.svc.createPdr[0] Demo.svc.createFar[0] { qerId := some 1, qfi := some 9 } (.ul 0x100) := by
  refine ⟨by decide, ⟨_, _, rfl, rfl, rfl, rfl⟩, ⟨[], _, rfl, ?_⟩, ⟨1, [], _, rfl, rfl, rfl, by decide⟩, ⟨1, [], [], rfl, rfl, rfl, by simp⟩⟩
  intro x hx
  simp only [List.mem_singleton] at hx
  subst hx
  rintro ⟨pdi, f, a1, a2, -⟩
  cases a1; cases a2

/-- `C93_uplink_partial` applied: after the handover the uplink G-PDUs are still decapsulated. -/
example (e : Env) (s : PS) (hdp : s.dp = Demo.nUp.dp) (hm : IsGtpMsg e s.frame 255) (hteid : gtpTeid s.frame = 0x100)
    {fl : Flow} (hfl : innerFlow s.frame = some fl)
    (h34 : l4Off s.frame = 34) {o : Nat} (hpay : PayloadAt s.frame o) (ho : o = gtpOff s.frame + 8 ∨ o = gtpOff s.frame + 16)
    (hin : ((oct s.frame o).toNat / 16 = 4 ∧ o + 20 ≤ s.frame.length) ∨ ((oct s.frame o).toNat / 16 = 6 ∧ o + 40 ≤ s.frame.length))
    (hself : ¬ ((oct s.frame o).toNat / 16 = 4 ∧ oct s.frame (o + 9) = 1 ∧ (be32 s.frame (o + 16) = e.n3Ip ∨ be32 s.frame (o + 16) = e.n9Ip))) :
    ∃ s' fib m ty, runPacket e s = (s', .ok (routeAct e (e.fib fib))) ∧ m.length = 12 ∧ etherTypeOf (s.frame.drop o) = some ty ∧
      s'.frame = m ++ ty ++ s.frame.drop o ∧
      fib.dst = if (oct s.frame o).toNat / 16 = 4 then slice s.frame (o + 16) 4 else slice s.frame (o + 24) 16 := by
  obtain ⟨h1, H1, b1⟩ := Demo.two_hist
  obtain ⟨h2, H2, b2, b3, b4⟩ := Demo.up_hist
  exact C93_uplink_partial H1 Demo.svc_step rfl (fie := Demo.svc.createFar[0]) (qie := { qerId := some 1, qfi := some 9 })
    (pie := Demo.svc.createPdr[0]) rfl rfl rfl rfl (h2 := h2) (by omega) (by decide) Demo.svc_asksUl Demo.svc_onlyUl rfl (by decide +kernel) (Demo.two_unused _) H2
    (by rw [b3]; exact ⟨⟨2, rfl, rfl⟩, rfl⟩) (by rw [b4]; rfl) (by rw [b4]; rfl) e s hdp hm hteid hfl (fun c cs f h => by cases h) h34 hpay ho hin hself

/-- `C93_stopped_uplink` applied: once the gate is closed every G-PDU with the TEID is dropped. -/
example (e : Env) (s : PS) (hdp : s.dp = Demo.nBlocked.dp) (hm : IsGtpMsg e s.frame 255) (hteid : gtpTeid s.frame = 0x100)
    {fl : Flow} (hfl : innerFlow s.frame = some fl) : ∃ s', runPacket e s = (s', .ok .drop) ∧ s'.frame = s.frame ∧ s'.dp = s.dp := by
  obtain ⟨h1, H1, b1⟩ := Demo.two_hist
  obtain ⟨h2, H2, b2, b3, b4⟩ := Demo.block_hist
  exact C93_stopped_uplink H1 Demo.svc_step rfl (fie := Demo.svc.createFar[0]) (qie := { qerId := some 1, qfi := some 9 })
    (pie := Demo.svc.createPdr[0]) rfl rfl rfl rfl (h2 := h2) (by omega) (by decide) Demo.svc_asksUl Demo.svc_onlyUl (by decide +kernel) (Demo.two_unused _) H2
    (by rw [b4]; exact .inr (by decide)) e s hdp hm hteid hfl (fun c cs f h => by cases h)
/-- The demonstration frame. -/
example : (runPacket DemoDp.env ⟨DemoDp.up, Demo.nUp.dp, {}, {}⟩).2 = .ok (.redirect 7) ∧
    (runPacket DemoDp.env ⟨DemoDp.up, Demo.nBlocked.dp, {}, {}⟩).2 = .ok .drop := ⟨by decide +kernel, by decide +kernel⟩

/-- handover of the IPv6 session of `Demo.req6` -/
def Demo.handover6 : ModReq :=
  { seid := 2, seq := 8, updateFar := [{ kind := .update, farId := some 1, forward := some (some (some ⟨0x0100, 0x301, some 0x0A000316, false⟩)) }] }
def Demo.n6Moved : Node := (Demo.n6.step (.modify 1 Demo.handover6 default)).1
theorem Demo.moved6_step : (Demo.n6.step (.modify 1 Demo.handover6 default)).2 = .reply { type := .modification, seid := 100, seq := 8, cause := 1 } := by decide +kernel
theorem Demo.n6_has : (Demo.n6.session? 1 2).map (fun s => (s.fars.get? 1).isSome) = some true := by decide +kernel
theorem Demo.moved6_steered : Steered 1 2 (.dl6 Demo.ue6) 1 1 1 Demo.n6 (.modify 1 Demo.handover6 default) := by
  refine ⟨?_, id, .inr ⟨_, _, _, rfl, rfl, ⟨by simp [Demo.handover6], by simp [Demo.handover6], by simp [Demo.handover6], by simp [Demo.handover6],
    by simp [Demo.handover6], by simp [Demo.handover6]⟩, Demo.moved6_step, rfl⟩⟩
  intro sess hs
  have hs' : Demo.n6.session? 1 2 = some sess := hs
  have := Demo.n6_has
  rw [hs'] at this
  simp only [Option.map_some, Option.some.injEq] at this
  exact ⟨by simpa [Demo.handover6] using this, by simp [Demo.handover6], by simp [Demo.handover6], by simp [Demo.handover6], by simp [Demo.handover6],
      by simp [Demo.handover6], by simp [Demo.handover6], by simp [Demo.handover6], by simp [Demo.handover6]⟩
theorem Demo.moved6_hist : ∃ h, HistP (Steered 1 2 (.dl6 Demo.ue6) 1 1 1) Demo.n6 h Demo.n6Moved ∧ attempts h = 0 ∧
    farUpdates 1 2 1 h = Demo.handover6.updateFar ∧ qerUpdates 1 2 1 h = [] := by
  have s1 := HistP.step (P := Steered 1 2 (.dl6 Demo.ue6) 1 1 1) (.modify 1 Demo.handover6 default) .init Demo.moved6_steered
    (fun h => by have h' := Demo.moved6_step.symm.trans h; cases h')
  refine ⟨_, s1, by simp [attempts], ?_, ?_⟩
  · rw [Demo.moved6_step, farUpdates]; rfl
  · rw [Demo.moved6_step, qerUpdates]; rfl

/-- `C93_downlink6` applied: every TCP or UDP frame to 2001:db8:1:1::1 now leaves in tunnel 0x301 to 10.0.3.22. -/
example (e : Env) (s : PS) (hdp : s.dp = Demo.n6Moved.dp) (hd : IsDown6 s.frame) (hip : be128 (slice s.frame 38 16) = Demo.ue6) (hroom : e.headroom ≠ none) :
    ∃ s' fib, runPacket e s = (s', .ok (routeAct e (e.fib fib))) ∧ fib.dst = slice s'.frame 30 4 ∧
      IsTunnelled ⟨e.n3Ip, 0x0A000316, 0, 9, 0x301⟩ (be16 s.frame 18 + 40) (s.frame.drop 14) s'.frame := by
  obtain ⟨h1, H1, b1⟩ := Demo.two_hist
  obtain ⟨h2, H2, b2, b3, b4⟩ := Demo.moved6_hist
  have := C93_downlink6 (peer := 0x0A000316) (teid := 0x301) (tos := 0) H1 Demo.n6_step rfl (fie := Demo.into 1 0x200) (qie := { qerId := some 1, qfi := some 9 })
    (pie := Demo.toUe6 1 1 none Demo.ue6) rfl rfl rfl rfl (h2 := h2) (by omega)
    ⟨by decide, ⟨_, _, rfl, rfl, rfl, rfl, rfl, rfl⟩, ⟨[], [], rfl, by simp⟩, ⟨1, [], _, rfl, rfl, rfl, by decide⟩, ⟨1, [], [], rfl, rfl, rfl, by simp⟩⟩
    (by
      intro x hx _
      have hx : x ∈ [Demo.toUe6 1 1 none Demo.ue6] := hx
      rwa [List.mem_singleton] at hx) (Demo.two_unused _) H2
    (by rw [b3]; exact ⟨⟨2, rfl, rfl⟩, ⟨_, rfl, by decide, rfl⟩, rfl, by decide⟩) (by rw [b4]; rfl) (by rw [b4]; rfl) e s hdp hd hip
    (fun c cs f (h : none = some (c :: cs)) => (by cases h)) hroom
  rw [b4] at this
  exact this
example : (runPacket DemoDp.env ⟨DemoDp.to6 17 1, Demo.n6Moved.dp, {}, {}⟩).2 = .ok (.redirect 7) ∧
    be32 (runPacket DemoDp.env ⟨DemoDp.to6 17 1, Demo.n6Moved.dp, {}, {}⟩).1.frame 46 = 0x301 := ⟨by decide +kernel, by decide +kernel⟩

end Eupf
