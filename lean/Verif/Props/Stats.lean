import Verif.Spec.Reported
import Verif.Props.Counters
import Mathlib.Data.List.OfFn
import Mathlib.Algebra.BigOperators.Fin
/-
C41, C42: what user space reports.
-/
namespace Eupf

theorem toNat_foldl_add {α : Type} (g : α → U64) (l : List α) (z : U64) :
    (l.foldl (fun t s => t + g s) z) = z + BitVec.ofNat 64 ((l.map fun s => (g s).toNat).sum) := by
  induction l generalizing z with
  | nil => simp
  | cons a l ih =>
    rw [List.foldl_cons, ih, List.map_cons, List.sum_cons, BitVec.ofNat_add, BitVec.ofNat_toNat, BitVec.add_assoc]
    simp

theorem val_foldl (cpus : List UpfStat) (k : RxKind) (hk : k ∈ RxKind.reported) (hu : k ≠ .gtpUnexp) (z : UpfCounters) :
    (cpus.foldl (fun c s => c.add s.upfCounters) z).val k = cpus.foldl (fun t s => t + s.rx k) (z.val k) := by
  induction cpus generalizing z with
  | nil => rfl
  | cons a l ih =>
    rw [List.foldl_cons, ih, List.foldl_cons]
    congr 1
    cases k <;> first | rfl | exact absurd rfl hu | exact absurd hk (by decide)

theorem unexp_foldl (cpus : List UpfStat) (z : UpfCounters) :
    (cpus.foldl (fun c s => c.add s.upfCounters) z).rxGtpUnexp = z.rxGtpUnexp := by
  induction cpus generalizing z with
  | nil => rfl
  | cons a l ih => rw [List.foldl_cons, ih]; rfl

theorem rt_foldl (cpus : List RouteStat) (k : RtKind) (z : RouteCounters) :
    (cpus.foldl (fun c s => c.add s.counters) z).val k = cpus.foldl (fun t s => t + s.get k) (z.val k) := by
  induction cpus generalizing z with
  | nil => rfl
  | cons a l ih =>
    rw [List.foldl_cons, ih, List.foldl_cons]
    congr 1
    cases k <;> rfl

/-- **C41, packet counters.** For every content of the per-CPU counters, every number reported is the sum over all CPUs (modulo
2^64) — except the unexpected GTP messages, see below. -/
theorem C41_totals_partial (cpus : List UpfStat) (k : RxKind) (hk : k ∈ RxKind.reported) (hu : k ≠ .gtpUnexp) :
    (getUpfExtStat cpus).val k = BitVec.ofNat 64 (totalRx cpus k) := by
  unfold getUpfExtStat totalRx
  rw [val_foldl cpus k hk hu, toNat_foldl_add]
  cases k <;> simp [UpfCounters.val]

/-- **C41, negation.** Unexpected GTP messages are always reported as 0, whatever was counted. -/
theorem C41_unexpected_never_reported (cpus : List UpfStat) : (getUpfExtStat cpus).rxGtpUnexp = 0 := unexp_foldl cpus {}

/-- **C41, actions.** The five action totals are the sums over all CPUs (modulo 2^64). -/
theorem C41_action_totals (cpus : List UpfStat) (i : Fin 8) :
    getUpfXdpStatisticField cpus i = BitVec.ofNat 64 (totalAction cpus i) := by
  unfold getUpfXdpStatisticField totalAction
  rw [toNat_foldl_add]
  simp

/-- **C41, routes.** -/
theorem C41_route_totals (cpus : List RouteStat) (k : RtKind) :
    (getUpfRouteStat cpus).val k = BitVec.ofNat 64 (totalRt cpus k) := by
  unfold getUpfRouteStat totalRt
  rw [rt_foldl, toNat_foldl_add]
  cases k <;> simp [RouteCounters.val]

/-! ### end to end -/

open Classical in
theorem multi_packet {n : Nat} (d : Multi n) (i : Fin n) (e : Env) (f : List U8) (k : RxKind) (j : Fin n) :
    ((d.packet i e f).st j).rx k = (d.st j).rx k + if j = i ∧ Counted e f k then 1 else 0 := by
  unfold Multi.packet
  by_cases h : j = i
  · subst h
    simp only [if_true, true_and]
    exact rx_packet e _ k
  · simp [h]

theorem ofNat_sum_add {ι : Type} [DecidableEq ι] (s : Finset ι) (a b : ι → U64) :
    BitVec.ofNat 64 (∑ j ∈ s, (a j + b j).toNat) = BitVec.ofNat 64 (∑ j ∈ s, (a j).toNat) + BitVec.ofNat 64 (∑ j ∈ s, (b j).toNat) := by
  induction s using Finset.induction_on with
  | empty => simp
  | insert x s hx ih =>
    simp only [Finset.sum_insert hx, BitVec.ofNat_add, ih, BitVec.ofNat_toNat, BitVec.setWidth_eq]
    ac_rfl

theorem totalRx_multi {n : Nat} (d : Multi n) (k : RxKind) : totalRx d.upfExtStat k = ∑ j, ((d.st j).rx k).toNat := by
  unfold totalRx Multi.upfExtStat
  rw [List.map_ofFn, List.sum_ofFn]
  rfl

open Classical in
theorem multi_total {n : Nat} (d : Multi n) (l : List (Fin n × Env × List U8)) (k : RxKind) :
    BitVec.ofNat 64 (totalRx (d.run l).upfExtStat k) =
      BitVec.ofNat 64 (totalRx d.upfExtStat k + (l.filter (fun x => decide (Counted x.2.1 x.2.2 k))).length) := by
  induction l generalizing d with
  | nil => rfl
  | cons x l ih =>
    obtain ⟨i, e, f⟩ := x
    show BitVec.ofNat 64 (totalRx ((d.packet i e f).run l).upfExtStat k) = _
    rw [ih, BitVec.ofNat_add, totalRx_multi, totalRx_multi]
    simp only [multi_packet]
    rw [ofNat_sum_add, List.filter_cons]
    have h1 : (∑ j : Fin n, (if j = i ∧ Counted e f k then (1 : U64) else 0).toNat) = if Counted e f k then 1 else 0 := by
      by_cases hc : Counted e f k
      · simp only [hc, and_true, if_true]
        rw [Finset.sum_eq_single i]
        · simp
        · intro b _ hb; simp [hb]
        · simp
      · simp [hc]
    rw [h1]
    by_cases hc : Counted e f k
    · simp only [hc, if_true, decide_true, List.length_cons, BitVec.ofNat_add]
      ac_rfl
    · simp only [hc, if_false, decide_false, BitVec.ofNat_add]
      simp

open Classical in
/-- **C41, end to end.** A freshly started UPF on any number of CPUs: after any frames, on whatever CPU each was processed, the REST
report of a kind is the number of frames of that kind (modulo 2^64). -/
theorem C41_report_counts_frames_partial {n : Nat} (dp : BpfObjects) (l : List (Fin n × Env × List U8)) (k : RxKind)
    (hk : k ∈ RxKind.reported) (hu : k ≠ .gtpUnexp) :
    (getUpfExtStat ((⟨dp, fun _ => {}, fun _ => {}⟩ : Multi n).run l).upfExtStat).val k =
      BitVec.ofNat 64 (l.filter (fun x => decide (Counted x.2.1 x.2.2 k))).length := by
  rw [C41_totals_partial _ k hk hu, multi_total, totalRx_multi]
  have : ((({} : UpfStat)).rx k).toNat = 0 := by cases k <;> rfl
  rw [show (∑ j : Fin n, ((({} : UpfStat)).rx k).toNat) = 0 by rw [this]; simp, Nat.zero_add]

/-- **C41, negation, witness.** One unexpected GTP message (type 77): it was counted and is reported as none. -/
theorem C41_unexpected_lost : ∃ (l : List (Fin 1 × Env × List U8)),
    (∀ x ∈ l, Counted x.2.1 x.2.2 .gtpUnexp) ∧ l.length = 1 ∧
    totalRx ((⟨DemoDp.dp, fun _ => {}, fun _ => {}⟩ : Multi 1).run l).upfExtStat .gtpUnexp = 1 ∧
    (getUpfExtStat ((⟨DemoDp.dp, fun _ => {}, fun _ => {}⟩ : Multi 1).run l).upfExtStat).rxGtpUnexp = 0 := by
  refine ⟨[(0, DemoDp.env, put DemoDp.up 43 [77])], ?_, rfl, by decide +kernel, by decide +kernel⟩
  intro x hx
  rw [List.mem_singleton] at hx
  subst hx
  refine ⟨⟨⟨by decide +kernel, by decide +kernel⟩, by decide +kernel, by decide +kernel, by decide +kernel, by decide +kernel⟩, ?_⟩
  intro t ht
  have h := ht.type
  have h2 : oct (put DemoDp.up 43 [77]) (gtpOff (put DemoDp.up 43 [77]) + 1) = 77 := by decide +kernel
  rw [h2] at h
  rw [← h]
  decide

/-- Non-vacuity: two CPUs, three frames. -/
example : (getUpfExtStat ((⟨DemoDp.dp, fun _ => {}, fun _ => {}⟩ : Multi 2).run
    [(0, DemoDp.env, DemoDp.up), (1, DemoDp.env, DemoDp.upUnknown), (1, DemoDp.env, DemoDp.echo)]).upfExtStat).rxGtpPdu = 2 := by
  decide +kernel

/-! ### C42 -/

theorem addRx_label (m : String → Nat) (c : UpfCounters) (k : RxKind) (hk : k ∈ RxKind.reported) :
    addRx m c k.label = m k.label + (c.val k).toNat := by
  cases k <;> first | exact absurd hk (by decide) | simp [addRx, addLabel, RxKind.label, UpfCounters.val]

theorem addRoute_label (m : String → Nat) (c : RouteCounters) (k : RtKind) :
    addRoute m c k.label = m k.label + (c.val k).toNat := by
  cases k <;> simp [addRoute, addLabel, RtKind.label, RouteCounters.val]

theorem scrape_obj (m : MetricsState) (a : List UpfStat) (b : List RouteStat) : (m.scrape a b).obj = m.obj := rfl

theorem scrape_rx (x : Exported) (a : List UpfStat) (b : List RouteStat) (k : RxKind) (hk : k ∈ RxKind.reported) (hu : k ≠ .gtpUnexp) :
    ((⟨{}, x⟩ : MetricsState).scrape a b).exported.rx k.label = x.rx k.label + totalRx a k % 2 ^ 64 := by
  unfold MetricsState.scrape gatherMetrics StatObj.extDelta StatObj.routeDelta
  simp only
  rw [addRx_label _ _ _ hk]
  congr 1
  have h := C41_totals_partial a k hk hu
  unfold getUpfExtStat at h
  have h2 : ∀ c, (UpfCounters.delta {} c).val k = c.val k := by
    intro c
    cases k <;> first | exact absurd rfl hu | simp [UpfCounters.delta, UpfCounters.val]
  rw [h2, h, BitVec.toNat_ofNat]

theorem scrape_route (x : Exported) (a : List UpfStat) (b : List RouteStat) (k : RtKind) :
    ((⟨{}, x⟩ : MetricsState).scrape a b).exported.route k.label = x.route k.label + totalRt b k % 2 ^ 64 := by
  unfold MetricsState.scrape gatherMetrics StatObj.extDelta StatObj.routeDelta
  simp only
  rw [addRoute_label]
  congr 1
  have h := C41_route_totals b k
  unfold getUpfRouteStat at h
  have h2 : ∀ c, (RouteCounters.delta {} c).val k = c.val k := by
    intro c
    cases k <;> simp [RouteCounters.delta, RouteCounters.val]
  rw [h2, h, BitVec.toNat_ofNat]

/-- **C42, what is exported.** After any sequence of scrapes, the exported counter of a kind is the sum of the totals at all scrapes
(instead of the total at the last one), and the same for the route counters. -/
theorem C42_exported (l : List (List UpfStat × List RouteStat)) (k : RxKind) (hk : k ∈ RxKind.reported) (hu : k ≠ .gtpUnexp) (r : RtKind) :
    ((({} : MetricsState).scrapes l).exported.rx k.label = (l.map fun x => totalRx x.1 k % 2 ^ 64).sum) ∧
    ((({} : MetricsState).scrapes l).exported.route r.label = (l.map fun x => totalRt x.2 r % 2 ^ 64).sum) := by
  suffices ∀ (x : Exported), ((⟨{}, x⟩ : MetricsState).scrapes l).exported.rx k.label = x.rx k.label + (l.map fun x => totalRx x.1 k % 2 ^ 64).sum ∧
      ((⟨{}, x⟩ : MetricsState).scrapes l).exported.route r.label = x.route r.label + (l.map fun x => totalRt x.2 r % 2 ^ 64).sum by
    have := this {}
    simpa using this
  induction l with
  | nil => intro x; exact ⟨rfl, rfl⟩
  | cons y l ih =>
    intro x
    have h := ih ((⟨{}, x⟩ : MetricsState).scrape y.1 y.2).exported
    rw [scrape_rx _ _ _ _ hk hu, scrape_route] at h
    simp only [List.map_cons, List.sum_cons, ← Nat.add_assoc]
    exact h

/-- **C42, negation.** Scraping `n` times without any traffic in between exports `n` times the total: wrong for every `n ≥ 2` as soon
as one packet was received. -/
theorem C42_double_counting (a : List UpfStat) (b : List RouteStat) (n : Nat) (k : RxKind) (hk : k ∈ RxKind.reported) (hu : k ≠ .gtpUnexp) :
    (({} : MetricsState).scrapes (List.replicate n (a, b))).exported.rx k.label = n * (totalRx a k % 2 ^ 64) ∧
    (2 ≤ n → 0 < totalRx a k → totalRx a k < 2 ^ 64 →
      (({} : MetricsState).scrapes (List.replicate n (a, b))).exported.rx k.label ≠ totalRx a k) := by
  have h := (C42_exported (List.replicate n (a, b)) k hk hu .ok4).1
  have h2 : ((List.replicate n (a, b)).map fun x => totalRx x.1 k % 2 ^ 64).sum = n * (totalRx a k % 2 ^ 64) := by
    rw [List.map_replicate, List.sum_replicate, smul_eq_mul]
  rw [h2] at h
  refine ⟨h, fun hn h0 hlt => ?_⟩
  rw [h, Nat.mod_eq_of_lt hlt]
  have := Nat.mul_le_mul_right (totalRx a k) hn
  omega

/-- **C42, positive part.** With a single scrape the exported counter is the total; and had the object been kept between
scrapes, the sum of the increments would be the last total whenever totals only grow. -/
theorem C42_single_partial (a : List UpfStat) (b : List RouteStat) (k : RxKind) (hk : k ∈ RxKind.reported) (hu : k ≠ .gtpUnexp)
    (hlt : totalRx a k < 2 ^ 64) : (({} : MetricsState).scrape a b).exported.rx k.label = totalRx a k := by
  have := scrape_rx {} a b k hk hu
  rw [Nat.mod_eq_of_lt hlt] at this
  simpa using this

/-- the intended use: the same object at every scrape -/
def keptDeltas (o : StatObj) : List (List UpfStat) → List UpfCounters
  | [] => []
  | a :: l => (o.extDelta a).2 :: keptDeltas (o.extDelta a).1 l

/-- **C42, the delta getter.** `GetUpfExtStatDelta` called again and again on one object: the deltas add up to the last total,
as long as the totals do not decrease. -/
theorem C42_kept (l : List (List UpfStat)) (a : List UpfStat) (k : RxKind) (hk : k ∈ RxKind.reported) (hu : k ≠ .gtpUnexp)
    (hmono : (l ++ [a]).Pairwise (fun x y => totalRx x k ≤ totalRx y k)) (hlt : totalRx a k < 2 ^ 64) :
    ((keptDeltas {} (l ++ [a])).map fun c => (c.val k).toNat).sum = totalRx a k := by
  have val : ∀ b : List UpfStat, (getUpfExtStat b).val k = BitVec.ofNat 64 (totalRx b k) :=
    fun b => C41_totals_partial b k hk hu
  have dl : ∀ c n : UpfCounters, (c.delta n).val k = n.val k - c.val k := by
    intro c n
    cases k <;> first | exact absurd rfl hu | exact absurd hk (by decide) | rfl
  suffices ∀ (o : StatObj) (t : Nat), o.prev.val k = BitVec.ofNat 64 t → (∀ x ∈ l ++ [a], t ≤ totalRx x k) →
      t + ((keptDeltas o (l ++ [a])).map fun c => (c.val k).toNat).sum = totalRx a k by
    have := this {} 0 (by cases k <;> rfl) (by simp)
    omega
  induction l with
  | nil =>
    intro o t ho ht
    have hle := ht a (by simp)
    simp only [List.nil_append, keptDeltas, List.map_cons, List.map_nil, List.sum_cons, List.sum_nil]
    rw [show (o.extDelta a).2.val k = (o.prev.delta (getUpfExtStat a)).val k from rfl, dl, val, ho]
    rw [BitVec.toNat_sub, BitVec.toNat_ofNat, BitVec.toNat_ofNat]
    omega
  | cons b l ih =>
    intro o t ho ht
    have hle := ht b (by simp)
    rw [List.cons_append, List.pairwise_cons] at hmono
    have hba : totalRx b k ≤ totalRx a k := hmono.1 a (by simp)
    have h := ih hmono.2 ((o.extDelta b).1) (totalRx b k) (val b) (fun x hx => hmono.1 x hx)
    simp only [List.cons_append, keptDeltas, List.map_cons, List.sum_cons]
    have h3 : ((o.extDelta b).2.val k).toNat = totalRx b k - t := by
      rw [show (o.extDelta b).2.val k = (o.prev.delta (getUpfExtStat b)).val k from rfl, dl, val, ho]
      rw [BitVec.toNat_sub, BitVec.toNat_ofNat, BitVec.toNat_ofNat]
      omega
    omega

/-- Non-vacuity: two scrapes around one uplink packet. -/
example : (({} : MetricsState).scrapes [([{ rxGtpPdu := 1 }], []), ([{ rxGtpPdu := 1 }], [])]).exported.rx "gtp-pdu" = 2 := by decide +kernel
example : [[({ rxGtpPdu := 1 } : UpfStat)], [{ rxGtpPdu := 3 }]].Pairwise (fun x y => totalRx x .gtpPdu ≤ totalRx y .gtpPdu) ∧
    ((keptDeltas {} [[{ rxGtpPdu := 1 }], [{ rxGtpPdu := 3 }]]).map fun c => (c.val .gtpPdu).toNat) = [1, 2] := by decide +kernel

end Eupf
