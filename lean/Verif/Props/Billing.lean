import Verif.Props.Timers
import Verif.BillingLemmas
import Verif.Props.AtomicModifyCases
/-
C117: what usage reports say.
-/
namespace Eupf

/-- the requests of the histories only refer to known rules -/
abbrev Knows (n : Node) (e : Ev) : Prop := e.refsKnown n

/-! ### octets -/

theorem octets_cons (P : Passed → Prop) (p : Passed) (l : List Passed) :
    (P p → octets P (p :: l) = p.frame.length + octets P l) ∧ (¬ P p → octets P (p :: l) = octets P l) := by
  classical
  refine ⟨fun h => ?_, fun h => ?_⟩
  · rw [octets, if_pos h]
  · rw [octets, if_neg h, Nat.zero_add]

theorem octets_all (p : Passed) (l : List Passed) : octets (fun _ => True) (p :: l) = p.frame.length + octets (fun _ => True) l := (octets_cons _ p l).1 trivial

/-- one more packet -/
theorem count_step {v w k : Nat} {x : U64} {t t' L : Nat} (h1 : v + 2 * t ≤ x.toNat) (h2 : x.toNat ≤ v + 2 * w) (hk : k ≤ L) (ht : t' ≤ t + k)
    (hof : v + 2 * (L + w) < 2 ^ 64) : v + 2 * t' ≤ (x + 2 * BitVec.ofNat 64 k).toNat ∧ (x + 2 * BitVec.ofNat 64 k).toNat ≤ v + 2 * (L + w) := by
  have e : (x + 2 * BitVec.ofNat 64 k).toNat = x.toNat + 2 * k := by
    rw [BitVec.toNat_add, BitVec.toNat_mul, BitVec.toNat_ofNat, Nat.mod_eq_of_lt (a := k) (by omega)]
    show (x.toNat + 2 * k % 2 ^ 64) % 2 ^ 64 = _
    rw [Nat.mod_eq_of_lt (a := 2 * k) (by omega), Nat.mod_eq_of_lt (by omega)]
  rw [e]; omega

section
variable {cfg : NodeCfg} {rm : Option ResourceManager} {pz fz qz uz : U32}

/-- **C117 (a), one report.** Whatever requests and packets came before: of the usage reports in one response, at most one says something. -/
theorem C117_one_report {P : Node → Ev → Prop} {h : List (Ev × Outcome)} {l : List Passed} {n : Node}
    (T : Timeline P [] (Node.init cfg rm (BpfObjects.load pz fz qz uz)) h l n) {e : Ev} {resp : Resp} (hr : (n.step e).2 = .reply resp) :
    (resp.reports.filter UsageReport.nonzero).length ≤ 1 :=
  (BillNode.line T (.init ..)).reports hr

variable (hfz : 0 < fz.toNat) (hqz : 0 < qz.toNat) (huz : 0 < uz.toNat)
include hfz hqz huz

omit hfz hqz huz in
theorem urrOf_cases {n : Node} {a : Addr} {s : U64} {i : U32} {v : UrrInfo} (h : n.urrOf a s i = some v) :
    ∃ x u, n.session? a s = some x ∧ x.urrs.get? i = some u ∧ u.gid.toNat < n.dp.urr.size.toNat ∧ v = n.dp.urr.val u.gid := by
  unfold Node.urrOf at h
  obtain ⟨u, h1, h2⟩ := Option.bind_eq_some_iff.1 h
  obtain ⟨x, h3, h4⟩ := Option.bind_eq_some_iff.1 h1
  unfold ArrMap.lookup at h2
  split at h2
  · exact ⟨x, u, h3, h4, by assumption, (Option.some.inj h2).symm⟩
  · cases h2
omit hfz hqz huz in
theorem urrOf_some {n : Node} {a : Addr} {s : U64} {i : U32} {x : Session} {u : SUrr} (hx : n.session? a s = some x) (hu : x.urrs.get? i = some u)
    (hz : u.gid.toNat < n.dp.urr.size.toNat) : n.urrOf a s i = some (n.dp.urr.val u.gid) := by
  unfold Node.urrOf
  rw [hx, Option.bind_some, hu, Option.bind_some, ArrMap.lookup, if_pos hz]

/-- **C117 (b), the report.** An accepted deletion of a session reports, for each URR of it, the volumes counted. -/
theorem C117_deletion {h : List (Ev × Outcome)} {l : List Passed} {n : Node} (T : Timeline Knows [] (Node.init cfg rm (BpfObjects.load pz fz qz uz)) h l n)
    {a : Addr} {r : DelReq} {ord : Orders} {i : U32} {v : UrrInfo} (hv : n.urrOf a r.seid i = some v) {n' : Node} {resp : Resp}
    (hstep : n.step (.delete a r ord) = (n', .reply resp)) (hacc : resp.cause = 1) : usageReport i v ∈ resp.reports := by
  obtain ⟨x, u, hx, hu, -, rfl⟩ := urrOf_cases hv
  have G : GoodReach (Node.init cfg rm (BpfObjects.load pz fz qz uz)) n := (T.hist (ni := Node.init cfg rm (BpfObjects.load pz fz qz uz)) .init).good fun _ _ h => h
  refine (C39_deletion_partial hfz hqz huz G hx hstep hacc).mem_iff.2 ?_
  exact List.mem_map.2 ⟨(i, u), (GoMap.mem_entries_iff _ _ _).2 hu, rfl⟩

omit hfz hqz huz in
/-- **C117 (c), one of two.** Of two URRs, of whatever sessions, that exist at the same time, one has counted nothing. -/
theorem C117_one_of_two_partial {h : List (Ev × Outcome)} {l : List Passed} {n : Node} (T : Timeline Knows [] (Node.init cfg rm (BpfObjects.load pz fz qz uz)) h l n)
    {a b : Addr} {s t : U64} {i j : U32} {v w : UrrInfo} (hv : n.urrOf a s i = some v) (hw : n.urrOf b t j = some w) (hne : (a, s, i) ≠ (b, t, j)) :
    v = {} ∨ w = {} := by
  obtain ⟨x, u, hx, hu, -, rfl⟩ := urrOf_cases hv
  obtain ⟨x', u', hx', hu', -, rfl⟩ := urrOf_cases hw
  have G : GoodReach (Node.init cfg rm (BpfObjects.load pz fz qz uz)) n := (T.hist (ni := Node.init cfg rm (BpfObjects.load pz fz qz uz)) .init).good fun _ _ h => h
  have B := BillNode.line T (.init ..)
  have ex := (C08_exclusive_partial G hx hx' i j).2.2.1 u u' hu hu'
  by_cases h1 : u.gid = 0
  · refine .inr (B.bill.2 _ fun h2 => hne ?_)
    obtain ⟨rfl, rfl, rfl⟩ := ex (h1.trans h2.symm)
    rfl
  · exact .inl (B.bill.2 _ h1)

/-- **C117 (d), nothing or everything.** Packets and requests in any order, after any other packets and requests. The requests may be about
anything but this URR (and the end of its session). Then the URR exists all the time, and either it has counted nothing, whatever traffic its
session had, or it has counted every octet that the UPF has sent on, for whatever session, twice. -/
theorem C117_nothing_or_everything_partial {h0 h : List (Ev × Outcome)} {l0 l : List Passed} {n0 n : Node}
    (T0 : Timeline Knows [] (Node.init cfg rm (BpfObjects.load pz fz qz uz)) h0 l0 n0) (T : Timeline Knows h0 n0 h l n)
    {a : Addr} {s : U64} {i : U32} (hb : attempts (h ++ h0) < 2 ^ 64 - 2) (hno : ∀ x ∈ h, ¬ x.1.touchesUrr a s i) {v : UrrInfo} (hv : n0.urrOf a s i = some v)
    (hul : v.ul.toNat + 2 * octets (fun _ => True) l < 2 ^ 64) (hdl : v.dl.toNat + 2 * octets (fun _ => True) l < 2 ^ 64) :
    ∃ w, n.urrOf a s i = some w ∧
      ((v = {} ∧ w = {}) ∨
       (v.ul.toNat + 2 * octets Passed.up l ≤ w.ul.toNat ∧ w.ul.toNat ≤ v.ul.toNat + 2 * octets (fun _ => True) l ∧
        v.dl.toNat + 2 * octets Passed.down l ≤ w.dl.toNat ∧ w.dl.toNat ≤ v.dl.toNat + 2 * octets (fun _ => True) l)) := by
  have H0 : HistP Knows (Node.init cfg rm (BpfObjects.load pz fz qz uz)) h0 n0 := by
    have := T0.hist (ni := Node.init cfg rm (BpfObjects.load pz fz qz uz)) .init
    rwa [List.append_nil] at this
  have B0 := BillNode.line T0 (.init ..)
  obtain ⟨x0, u, hx0, hu0, hz0, rfl⟩ := urrOf_cases hv
  -- the URR keeps its slot
  suffices key : ∃ x, n.session? a s = some x ∧ x.urrs.get? i = some u ∧ u.gid.toNat < n.dp.urr.size.toNat ∧
      (u.gid = 0 → (n0.dp.urr.val 0).ul.toNat + 2 * octets Passed.up l ≤ (n.dp.urr.val 0).ul.toNat ∧
        (n.dp.urr.val 0).ul.toNat ≤ (n0.dp.urr.val 0).ul.toNat + 2 * octets (fun _ => True) l ∧
        (n0.dp.urr.val 0).dl.toNat + 2 * octets Passed.down l ≤ (n.dp.urr.val 0).dl.toNat ∧
        (n.dp.urr.val 0).dl.toNat ≤ (n0.dp.urr.val 0).dl.toNat + 2 * octets (fun _ => True) l) by
    obtain ⟨x, hx, hu, hz, hk⟩ := key
    refine ⟨_, urrOf_some hx hu hz, ?_⟩
    by_cases hg : u.gid = 0
    · right; rw [hg]; exact hk hg
    · left; exact ⟨B0.bill.2 _ hg, (B0.line T).bill.2 _ hg⟩
  induction T with
  | start => exact ⟨x0, hx0, hu0, hz0, fun _ => ⟨Nat.le_refl _, Nat.le_refl _, Nat.le_refl _, Nat.le_refl _⟩⟩
  | @packet h l n e f st rt s' act T hrun ih =>
    rw [octets_all] at hul hdl
    obtain ⟨x, hx, hu, hz, hk⟩ := ih hb hno (by omega) (by omega)
    have res : PacketRes e n.dp f s'.frame s'.dp act := entry_det hrun
    obtain ⟨ku, kd, b1, b2, bi, b3, b4⟩ := packet_billed res (B0.line T).none
    refine ⟨x, hx, hu, by show _ < s'.dp.urr.size.toNat; rw [bi.size]; exact hz, fun hg => ?_⟩
    rw [hg] at hz hul hdl
    obtain ⟨h1, h2, h3, h4⟩ := hk hg
    show _ ≤ (s'.dp.urr.val 0).ul.toNat ∧ (s'.dp.urr.val 0).ul.toNat ≤ _ ∧ _ ≤ (s'.dp.urr.val 0).dl.toNat ∧ (s'.dp.urr.val 0).dl.toNat ≤ _
    rw [bi.zero (Nat.lt_of_le_of_lt (Nat.zero_le _) hz), octets_all]
    have cu := octets_cons Passed.up ⟨h ++ h0, e, f, act⟩ l
    have cd := octets_cons Passed.down ⟨h ++ h0, e, f, act⟩ l
    have tu : octets Passed.up (⟨h ++ h0, e, f, act⟩ :: l) ≤ octets Passed.up l + ku := by
      by_cases hp : Passed.up ⟨h ++ h0, e, f, act⟩
      · rw [cu.1 hp, b3 hp]; simp only; omega
      · rw [cu.2 hp]; omega
    have td : octets Passed.down (⟨h ++ h0, e, f, act⟩ :: l) ≤ octets Passed.down l + kd := by
      by_cases hp : Passed.down ⟨h ++ h0, e, f, act⟩
      · rw [cd.1 hp, b4 hp]; simp only; omega
      · rw [cd.2 hp]; omega
    obtain ⟨p1, p2⟩ := count_step h1 h2 b1 tu hul
    obtain ⟨p3, p4⟩ := count_step h3 h4 b2 td hdl
    exact ⟨p1, p2, p3, p4⟩
  | @request h l n e T hp hcr ih =>
    have hb' : attempts (h ++ h0) < 2 ^ 64 - 2 := by
      have := attempts_cons (e, (n.step e).2) (h ++ h0)
      rw [List.cons_append] at hb; omega
    obtain ⟨x, hx, hu, hz, hk⟩ := ih hb' (fun y hy => hno y (.tail _ hy)) hul hdl
    have H := T.hist H0
    have G := H.good fun _ _ h => h
    obtain ⟨⟨x', hx', hu'⟩, hval⟩ := urr_still (slots_reach G) hp (hno _ (.head _)) ((linv_hist H.hist hb').fresh hb' (by rw [hx]; simp)) hx hu
    obtain ⟨hr', hz'⟩ := ranges_hist hfz hqz huz (HistP.step e H hp hcr).hist
    refine ⟨x', hx', hu', ?_, fun hg => ?_⟩
    · have := ((hr' _ _ _ hx').urr i u hu').1
      have sz : (n.step e).1.dp.urr.size = uz := hz'.urr
      rw [sz]; exact this
    · rw [hg] at hval; rw [hval]; exact hk hg
end

end Eupf
