import Verif.LeakLemmas
/-
C87: TEIDs and addresses come back to the pools.
-/
namespace Eupf
open Act

/-! ### TEIDs come back -/

/-- **C87, partial.** In histories in which peers are careful (`Careful`), every TEID 1, …, `range` is free or is on loan to a PDR of a session that is
still there; no other TEID is free. Missing: peers that are not careful; there TEIDs are lost for good (`C87_exhausted`, `C87_update_leaks`,
`C87_new_cp_seid_leaks`). -/
theorem C87_no_leak_partial {cfg : NodeCfg} {ips : List Ip4} {range : U32} {dp : BpfObjects} {h : List (Ev × Outcome)} {n : Node}
    (H : HistP Careful (Node.init cfg (some (newResourceManager ips range)) dp) h n) (hb : attempts h < 2 ^ 64 - 2) (t : U32) :
    (1 ≤ t.toNat ∧ t.toNat ≤ range.toNat → t ∈ freeTeids n.rm ∨
      ∃ a s x i p, n.session? a s = some x ∧ x.pdrs.get? i = some p ∧ p.teid ≠ 0 ∧ Lent n.rm x.remoteSEID i t) ∧
    (t ∈ freeTeids n.rm → 1 ≤ t.toNat ∧ t.toNat ≤ range.toNat) := by
  have D := nl_hist H hb
  rw [← mem_teidPool]
  refine ⟨fun ht => ?_, D.pool.inPool t⟩
  rcases D.pool.cover t ht with h | ⟨k, i, h⟩
  · exact .inl h
  · obtain ⟨a, s, x, p, hx, rfl, hp, hz⟩ := D.pool.own k i t h
    exact .inr ⟨a, s, x, i, p, hx, hp, hz, h⟩

/-- When no session is left, the pool is what it was at the start, up to order. -/
theorem C87_all_back_partial {cfg : NodeCfg} {ips : List Ip4} {range : U32} {dp : BpfObjects} {h : List (Ev × Outcome)} {n : Node}
    (H : HistP Careful (Node.init cfg (some (newResourceManager ips range)) dp) h n) (hb : attempts h < 2 ^ 64 - 2)
    (hno : ∀ a s, n.session? a s = none) : (freeTeids n.rm).Perm ((List.range range.toNat).map fun i => BitVec.ofNat 32 (i + 1)) := by
  refine (List.perm_ext_iff_of_nodup (pool_facts H.hist).nodup (teidPool_nodup range)).2 fun t => ?_
  obtain ⟨h1, h2⟩ := C87_no_leak_partial H hb t
  refine ⟨fun h => (mem_teidPool range t).2 (h2 h), fun h => ?_⟩
  rcases h1 ((mem_teidPool range t).1 h) with h | ⟨a, s, x, _, _, hx, _⟩
  · exact h
  · rw [hno] at hx; cases hx

/-! ### an accepted deletion -/

/-- what was free or lent under `R` still is -/
structure KeepR (rm0 : Option ResourceManager) (R : U64) (s : HS) : Prop where
  rem : s.sess.remoteSEID = R
  keep : ∀ t, (t ∈ freeTeids rm0 ∨ ∃ i, Lent rm0 R i t) → t ∈ freeTeids s.rm ∨ ∃ i, Lent s.rm R i t

theorem keepR_del {rm0 : Option ResourceManager} {R : U64} {ord : Orders} {p : SPdr} {s s' : HS} (h : deletePdr ord p s = (s', .ok ())) (hs : KeepR rm0 R s) :
    KeepR rm0 R s' ∧ (p.teid ≠ 0 ∨ (∀ i t, ¬ Lent s.rm R i t) → ∀ i t, ¬ Lent s'.rm R i t) := by
  obtain ⟨hsess, hr⟩ := deletePdr_ok_rm h
  have hrem : s'.sess.remoteSEID = R := by rw [hsess]; exact hs.rem
  rcases hr with ⟨hz, hr⟩ | ⟨_, r, hr, hr'⟩
  · refine ⟨⟨hrem, by rw [hr]; exact hs.keep⟩, ?_⟩
    rintro (h | h)
    · exact absurd hz h
    · rw [hr]; exact h
  · obtain ⟨f1, f2⟩ := release_lent ord.teids R r r.ipam
    rw [hs.rem] at hr'
    rw [← hr, ← hr'] at f1
    rw [← hr, ← hr'] at f2
    refine ⟨⟨hrem, fun t ht => ?_⟩, fun _ i t h => ((f2 R i t).1 h).1 rfl⟩
    exact .inl ((f1 t).2 (hs.keep t ht))

theorem keepR_dels {rm0 : Option ResourceManager} {R : U64} {ord : Orders} : ∀ (l : List (U32 × SPdr)) (s s' : HS), KeepR rm0 R s →
    Act.each (fun e => deletePdr ord e.2) l s = (s', .ok ()) →
    KeepR rm0 R s' ∧ ((∃ e ∈ l, e.2.teid ≠ 0) ∨ (∀ i t, ¬ Lent s.rm R i t) → ∀ i t, ¬ Lent s'.rm R i t)
  | [], s, s', hs, h => by
    cases h
    exact ⟨hs, fun h => h.resolve_left (by rintro ⟨e, he, _⟩; cases he)⟩
  | e :: l, s, s', hs, h => by
    obtain ⟨s1, e1, e2⟩ := each_cons_ok h
    obtain ⟨k1, k2⟩ := keepR_del e1 hs
    obtain ⟨i1, i2⟩ := keepR_dels l s1 s' k1 e2
    refine ⟨i1, ?_⟩
    rintro (⟨x, hx, hx0⟩ | hx)
    · rcases List.mem_cons.1 hx with rfl | hx
      · exact i2 (.inr (k2 (.inl hx0)))
      · exact i2 (.inl ⟨x, hx, hx0⟩)
    · exact i2 (.inr (k2 (.inr hx)))

/-- **C87.** In every state: once the deletion of a session is accepted, every TEID on loan under the session's CP SEID is free again (if one of its
PDRs has a TEID at all), nothing is on loan under it any more, and TEIDs that were free stay free. -/
theorem C87_deleted {n n' : Node} {addr : Addr} {r : DelReq} {ord : Orders} {x : Session} {resp : Resp} (hx : n.session? addr r.seid = some x)
    (hstep : n.step (.delete addr r ord) = (n', .reply resp)) (hacc : resp.cause = 1) (hp : ∃ i p, x.pdrs.get? i = some p ∧ p.teid ≠ 0) :
    (∀ i t, Lent n.rm x.remoteSEID i t → t ∈ freeTeids n'.rm) ∧ (∀ i t, ¬ Lent n'.rm x.remoteSEID i t) ∧ ∀ t ∈ freeTeids n.rm, t ∈ freeTeids n'.rm := by
  have hstep' : n.delete addr r ord = (n', .reply resp) := hstep
  cases delete_cases n addr r ord with
  | refused c hcc hs he => rw [hx] at hs; cases hs
  | ran a sess hs res ha hsess hbody he =>
    have : sess = x := by simp only [Node.session?, ha, Option.bind_some, hsess] at hx; exact Option.some.inj hx
    subst this
    rw [he] at hstep'
    cases res with
    | panic => cases hstep'
    | err => cases hstep'
    | ok _ =>
      cases hstep'
      unfold deleteBody at hbody
      obtain ⟨_, s1, e1, hbody⟩ := bind_ok hbody
      obtain ⟨_, s2, e2, hbody⟩ := bind_ok hbody
      obtain ⟨_, s3, e3, e4⟩ := bind_ok hbody
      obtain ⟨b1, b2⟩ := keepR_dels (rm0 := n.rm) (R := sess.remoteSEID) _ _ _ ⟨rfl, fun t ht => ht⟩ e1
      have hrm : hs.rm = s1.rm := by
        have f : ∀ {α : Type} {f : α → Act HS Unit} (hf : ∀ x s, RuleFrame s (f x s).1) {l : List α} {s s' : HS} (h : Act.each f l s = (s', .ok ())), s'.rm = s.rm :=
          fun hf _ s _ h => pres_each_ok (I := fun t => t.rm = s.rm) (fun x _ => pres_of fun t h => (hf x t).rm.trans h) h rfl
        rw [f dropUrr_rf e4, f dropQer_rf e3, f dropFar_rf e2]
      have hno : ∀ i t, ¬ Lent s1.rm sess.remoteSEID i t := by
        obtain ⟨i, p, hp, hz⟩ := hp
        exact b2 (.inl ⟨(i, p), (ord.pdrs.perm _).mem_iff.2 ((sess.pdrs.mem_entries_iff i p).2 hp), hz⟩)
      have rel : (∀ t ∈ freeTeids s1.rm, t ∈ freeTeids (releaseResources ord r.seid s1.rm)) ∧
          ∀ k i t, Lent (releaseResources ord r.seid s1.rm) k i t → Lent s1.rm k i t := by
        cases hr : s1.rm with
        | none => exact ⟨fun t h => h, fun _ _ _ h => h⟩
        | some rr =>
          obtain ⟨f1, f2⟩ := release_lent ord.teids r.seid rr (rr.ipam.release r.seid)
          exact ⟨fun t h => (f1 t).2 (.inl h), fun k i t h => ((f2 k i t).1 h).2⟩
      have all : ∀ t, (t ∈ freeTeids n.rm ∨ ∃ i, Lent n.rm sess.remoteSEID i t) → t ∈ freeTeids (releaseResources ord r.seid hs.rm) := by
        intro t ht
        rw [hrm]
        rcases b1.keep t ht with h | ⟨i, h⟩
        · exact rel.1 t h
        · exact absurd h (hno i t)
      refine ⟨fun i t h => all t (.inr ⟨i, h⟩), ?_, fun t h => all t (.inl h)⟩
      intro i t h
      refine hno i t (rel.2 _ i t ?_)
      rw [← hrm]; exact h

/-! ### peers that are not careful -/

/-- a Create PDR that asks for a TEID, and an establishment request that is rejected after a TEID was taken: its second Create PDR has no PDR ID -/
def leakPdr : PdrIE := { pdrId := some 1, pdi := some { fteid := some (some { teid := 0, ch := true }) } }
def leakReq (cp : U64) (seq : U32) : EstReq :=
  { seq := seq, nodeId := some (some ()), cpFseid := some (some cp), createPdr := [leakPdr, { pdrId := none }] }

theorem leak_create {ue : Bool} {s s' : HS} {res : Res Unit} (h : createPdr ue leakPdr s = (s', res)) :
    res ≠ .panic ∧ freeTeids s'.rm = (freeTeids s.rm).tail := by
  have hx : extractPdr ue leakPdr { pdrId := (1 : U16).zeroExtend 32 } s =
      match allocTeid s.sess.remoteSEID 1 s.rm with
      | (rm, none) => ({ s with rm := rm }, .err)
      | (rm, some t) => ({ s with rm := rm }, .ok { pdrId := 1, info := pdrRefs s.sess leakPdr {}, teid := t, allocated := true }) := by
    rfl
  simp only [createPdr, leakPdr] at h hx
  simp only [Act.bind_def, Act.bind, hx] at h
  rcases ha : allocTeid s.sess.remoteSEID 1 s.rm with ⟨rm, _ | t⟩
  · obtain ⟨hrm, hf⟩ := allocTeid_none ha
    rw [ha] at h
    cases h
    refine ⟨by simp, ?_⟩
    show freeTeids rm = _
    rw [hrm, hf]; rfl
  · have hf := (allocTeid_takes ha).1
    have ht : freeTeids rm = (freeTeids s.rm).tail := by rw [hf]; rfl
    rw [ha] at h
    simp only [Act.modify] at h
    generalize ({ pdrId := 1, info := _, teid := t, allocated := true } : SPdr) = p at h
    generalize hs2 : ({ sess := s.sess.putPdr 1 p, cache := s.cache, rm := rm, dp := s.dp, created := s.created, reports := s.reports } : HS) = s2 at h
    have h2 : s2.rm = rm := by rw [← hs2]
    rw [← ht, ← h2]
    rcases applyPdr_entries p s2 with ⟨dp, e, _⟩ | e
    · rw [e] at h; cases h; exact ⟨by simp, rfl⟩
    · rw [e] at h; cases h; exact ⟨by simp, rfl⟩

theorem leak_body {ue : Bool} {cp : U64} {seq : U32} {s s' : HS} {res : Res Unit} (h : establishBody ue (leakReq cp seq) s = (s', res)) :
    res = .err ∧ freeTeids s'.rm = (freeTeids s.rm).tail := by
  have e : establishBody ue (leakReq cp seq) s = Act.bind (createPdr ue leakPdr) (fun _ => Act.each (createPdr ue) [{ pdrId := none }]) s := rfl
  rw [e] at h
  unfold Act.bind at h
  rcases hc : createPdr ue leakPdr s with ⟨s1, r1⟩
  obtain ⟨h1, h2⟩ := leak_create hc
  rw [hc] at h
  cases r1 with
  | ok _ => cases h; exact ⟨rfl, h2⟩
  | err => cases h; exact ⟨rfl, h2⟩
  | panic => exact absurd rfl h1

/-- **A rejected request costs a TEID.** In every state with an association: the request is rejected with cause 73, the sessions are the same, and one
TEID less is free. -/
theorem C87_rejected_leaks (n : Node) (addr : Addr) (cp : U64) (seq : U32) (ha : (n.assocs.get? addr).isSome) :
    (n.step (.establish addr (leakReq cp seq))).2 = .reply { type := .establishment, seid := cp, seq := seq, cause := 73 } ∧
    freeTeids (n.step (.establish addr (leakReq cp seq))).1.rm = (freeTeids n.rm).tail ∧
    (∀ a s, (n.step (.establish addr (leakReq cp seq))).1.session? a s = n.session? a s) ∧
    ((n.step (.establish addr (leakReq cp seq))).1.assocs.get? addr).isSome := by
  show (n.establish addr (leakReq cp seq)).2 = _ ∧ freeTeids (n.establish addr (leakReq cp seq)).1.rm = _ ∧ (∀ a s, (n.establish addr (leakReq cp seq)).1.session? a s = _) ∧
    ((n.establish addr (leakReq cp seq)).1.assocs.get? addr).isSome
  cases establish_cases n addr (leakReq cp seq) with
  | refused c hcc he =>
    exfalso
    obtain ⟨a, ha⟩ := Option.isSome_iff_exists.1 ha
    rcases hcc with rfl | rfl
    · have : (n.establish addr (leakReq cp seq)).2 = .reply { type := .establishment, seq := seq, cause := 66 } := by rw [he]; rfl
      simp only [Node.establish, leakReq, validateRequest, ha] at this
      split at this <;> simp [causeAccepted, causeRuleFailure] at this
    · have : (n.establish addr (leakReq cp seq)).2 = .reply { type := .establishment, seq := seq, cause := 72 } := by rw [he]; rfl
      simp only [Node.establish, leakReq, validateRequest, ha] at this
      split at this <;> simp [causeAccepted, causeRuleFailure] at this
  | ran remote a hs res hid hcp ha hbody hl hrem he =>
    cases hcp
    obtain ⟨rfl, h2⟩ := leak_body hbody
    rw [he]
    refine ⟨rfl, h2, ?_, ?_⟩
    · intro b s
      simp only [Node.estResult, Node.session?, GoMap.get?_set]
      split
      · subst b; simp only [Assoc.bumped, ha]; rfl
      · rfl
    · simp [Node.estResult]

/-- **As many rejected requests as there are free TEIDs empty the pool**, whatever the state, without a single session being established. -/
theorem C87_exhausted (addr : Addr) (cp : U64) (seq : U32) : ∀ (k : Nat) (n : Node), (n.assocs.get? addr).isSome →
    (n.run (List.replicate k (.establish addr (leakReq cp seq)))).2 = List.replicate k (.reply { type := .establishment, seid := cp, seq := seq, cause := 73 }) ∧
    freeTeids (n.run (List.replicate k (.establish addr (leakReq cp seq)))).1.rm = (freeTeids n.rm).drop k ∧
    ∀ a s, (n.run (List.replicate k (.establish addr (leakReq cp seq)))).1.session? a s = n.session? a s
  | 0, n, _ => ⟨rfl, rfl, fun _ _ => rfl⟩
  | k + 1, n, ha => by
    obtain ⟨h1, h2, h3, h4⟩ := C87_rejected_leaks n addr cp seq ha
    obtain ⟨i1, i2, i3⟩ := C87_exhausted addr cp seq k _ h4
    rw [List.replicate_succ]
    have e : n.run (.establish addr (leakReq cp seq) :: List.replicate k (.establish addr (leakReq cp seq))) =
        (((n.step (.establish addr (leakReq cp seq))).1.run (List.replicate k (.establish addr (leakReq cp seq)))).1,
          (n.step (.establish addr (leakReq cp seq))).2 :: ((n.step (.establish addr (leakReq cp seq))).1.run (List.replicate k (.establish addr (leakReq cp seq)))).2) := by
      rcases hx : n.step (.establish addr (leakReq cp seq)) with ⟨n1, o⟩
      rw [hx] at h1
      simp only at h1
      subst h1
      simp only [Node.run, hx]
    rw [e]
    refine ⟨?_, ?_, fun a s => (i3 a s).trans (h3 a s)⟩
    · rw [i1, h1]; rfl
    · rw [i2, h2, List.drop_tail]

theorem extract_empty {ue : Bool} {ie : PdrIE} {p q : SPdr} {s s1 : HS} (hf : freeTeids s.rm = []) (hc : s.cache = GoMap.empty)
    (h : extractPdr ue ie p s = (s1, .ok q)) : ie.asksTeid = none ∧ s1.cache = GoMap.empty ∧ freeTeids s1.rm = [] := by
  have hno : ∀ rm t, allocTeid s.sess.remoteSEID p.pdrId s.rm ≠ (rm, some t) := by
    intro rm t ha
    have := (allocTeid_takes ha).1
    rw [hf] at this; cases this
  have h3 : freeTeids s1.rm = [] := by
    rcases (extract_teids h).2 q rfl with ⟨e, _⟩ | e
    · rw [e.free]; exact hf
    · exact absurd e (hno _ _)
  refine ⟨?_, ?_, h3⟩
  · unfold extractPdr at h
    simp only [] at h
    unfold PdrIE.asksTeid
    split
    · rename_i f u src hp
      rw [hp] at h
      simp only at h
      split at h
      · cases h
      · split
        · rename_i hch
          exfalso
          unfold pdrFteid at h
          rw [if_pos hch] at h
          split at h
          · rename_i t ht
            cases hcid : f.chooseId with
            | none => rw [hcid] at ht; cases ht
            | some c => rw [hcid, hc] at ht; simp at ht
          · simp only at h
            rcases ha : allocTeid s.sess.remoteSEID p.pdrId s.rm with ⟨rm, _ | t⟩
            · rw [ha] at h; cases h
            · exact hno _ _ ha
        · rfl
    · rfl
  · unfold extractPdr at h
    simp only [] at h
    split at h
    · cases h
    · split at h
      · cases h
      · split at h
        · cases h
        · unfold pdrFteid at h
          split at h
          · split at h
            · cases h; exact hc
            · simp only at h
              rcases ha : allocTeid s.sess.remoteSEID p.pdrId s.rm with ⟨rm, _ | t⟩
              · rw [ha] at h; cases h
              · exact absurd ha (hno _ _)
          · cases h; exact hc
        · split at h
          · cases h
          · unfold pdrUeIp at h
            simp only [] at h
            split at h <;> cases h <;> exact hc
          · cases h; exact hc

/-- With an empty pool no establishment that asks for a TEID is accepted. -/
theorem C87_empty_pool {n : Node} {addr : Addr} {r : EstReq} (hf : freeTeids n.rm = []) (hask : ∃ ie ∈ r.createPdr, ie.asksTeid.isSome = true) :
    ¬ (n.step (.establish addr r)).2.ok := by
  rintro ⟨resp, hr, hcause⟩
  obtain ⟨seid, remote, hs, _, _, hbody, -⟩ := establish_accepted (n' := (n.step (.establish addr r)).1) (resp := resp) (Prod.ext rfl hr) hcause
  obtain ⟨s1, s2, s3, e1, e2, e3, e4⟩ := establish_pdrs hbody
  let I : HS → Prop := fun s => freeTeids s.rm = [] ∧ s.cache = GoMap.empty
  have fr : ∀ {α : Type} {f : α → Act HS Unit} (hf : ∀ x s, RuleFrame s (f x s).1) {l : List α} {s s' : HS} (h : Act.each f l s = (s', .ok ())), I s → I s' :=
    fun hf _ s _ h hs => pres_each_ok (I := I) (fun x _ => pres_of fun t h => ⟨by rw [(hf x t).rm]; exact h.1, (hf x t).cache.trans h.2⟩) h hs
  have i3 : I s3 := fr createUrr_rf e3 (fr createQer_rf e2 (fr createFar_rf e1 ⟨hf, rfl⟩))
  obtain ⟨ie, hie, hask⟩ := hask
  have step : ∀ (l : List PdrIE) (s s' : HS), I s → Act.each (createPdr n.ueip) l s = (s', .ok ()) → ie ∉ l := by
    intro l
    induction l with
    | nil => intro s s' _ _ h; cases h
    | cons x xs ih =>
      intro s s' hs h hm
      obtain ⟨t, h1, h2⟩ := each_cons_ok h
      obtain ⟨id, p, t1, hid, hx, hsess, -, hrm, hcache, -⟩ := createPdr_ok h1
      obtain ⟨x1, x2, x3⟩ := extract_empty hs.1 hs.2 hx
      have hrm' : I t := ⟨by rw [hrm]; exact x3, by rw [hcache]; exact x2⟩
      rcases List.mem_cons.1 hm with rfl | hm
      · rw [x1] at hask; cases hask
      · exact ih t s' hrm' h2 hm
  exact step _ _ _ i3 e4 hie

namespace Demo
/-- an Update PDR asks for a TEID -/
def evsUpd : List Ev := [assoc 1, .establish 1 (estPdrs 100 [ch 1 none]), .modify 1 { seid := 2, seq := 2, updatePdr := [ch 1 none] } default, .delete 1 ⟨2, 3⟩ default]
/-- the peer changes its SEID -/
def evsCp : List Ev := [assoc 1, .establish 1 (estPdrs 100 [ch 1 none]), .modify 1 { seid := 2, seq := 2, cpFseid := some (some 200) } default, .delete 1 ⟨2, 3⟩ default]
end Demo

/-- **Update PDR that asks for a TEID**: all requests are accepted and the only session is deleted, but of the TEIDs 1 and 2 only one is free. -/
theorem C87_update_leaks : freeTeids Demo.nTwo.rm = [1, 2] ∧ (Demo.nTwo.run Demo.evsUpd).2.map Outcome.accepted = [true, true, true, true] ∧
    (Demo.nTwo.run Demo.evsUpd).1.sessionCount = 0 ∧ freeTeids (Demo.nTwo.run Demo.evsUpd).1.rm = [2] := by
  refine ⟨by decide +kernel, by decide +kernel, by decide +kernel, by decide +kernel⟩

/-- **Change of the CP SEID**: likewise. -/
theorem C87_new_cp_seid_leaks : (Demo.nTwo.run Demo.evsCp).2.map Outcome.accepted = [true, true, true, true] ∧
    (Demo.nTwo.run Demo.evsCp).1.sessionCount = 0 ∧ freeTeids (Demo.nTwo.run Demo.evsCp).1.rm = [2] := by
  refine ⟨by decide +kernel, by decide +kernel, by decide +kernel⟩

/-! ### addresses do not come back -/

/-- addresses are on loan under the SEIDs `C` only; none came back -/
structure IB (C : U64 → Prop) (ips : List Ip4) (rm : Option ResourceManager) : Prop where
  keys : ∀ r k ip, rm = some r → r.ipam.busyIPs.get? k = some ip → C k
  suf : ∃ pre, ips = pre ++ freeIps rm

section
variable {C : U64 → Prop} {ips : List Ip4}

theorem IB.teid {R : U64} {i : U32} {rm : Option ResourceManager} (h : IB C ips rm) : IB C ips (allocTeid R i rm).1 := by
  unfold allocTeid
  cases rm with
  | none => exact h
  | some r => exact ⟨fun r' k ip e hk => (by cases e; exact h.keys r k ip rfl hk), h.suf⟩

theorem IB.ip {R : U64} {rm : Option ResourceManager} (hR : C R) (h : IB C ips rm) : IB C ips (allocIp R rm).1 := by
  unfold allocIp
  cases rm with
  | none => exact h
  | some r =>
    obtain ⟨pre, hp⟩ := h.suf
    simp only [IPAM.allocate]
    split
    · exact ⟨fun r' k ip e hk => (by cases e; exact h.keys r k ip rfl hk), pre, hp⟩
    · rename_i ip rest hf
      refine ⟨fun r' k ip' e hk => ?_, pre ++ [ip], ?_⟩
      · cases e
        simp only [GoMap.get?_set] at hk
        split at hk
        · rename_i e; rw [e]; exact hR
        · exact h.keys r k ip' rfl hk
      · rw [hp]
        show pre ++ r.ipam.freeIPs = _
        rw [hf]
        simp [freeIps]

theorem IB.release {o : Shuffle (U32 × U32)} {R : U64} {r : ResourceManager} (h : IB C ips (some r)) : IB C ips (some { r with fteidm := r.fteidm.release o R }) :=
  ⟨fun r' k ip e hk => (by cases e; exact h.keys r k ip rfl hk), h.suf⟩

theorem IB.resources {o : Orders} {k : U64} {rm : Option ResourceManager} (hk : ¬ C k) (h : IB C ips rm) : IB C ips (releaseResources o k rm) := by
  cases rm with
  | none => exact h
  | some r =>
    have hn : r.ipam.busyIPs.get? k = none := by
      rcases hx : r.ipam.busyIPs.get? k with _ | ip
      · rfl
      · exact absurd (h.keys r k ip rfl hx) hk
    have e : r.ipam.release k = r.ipam := by unfold IPAM.release; rw [hn]
    refine ⟨fun r' k' ip e' hk' => ?_, ?_⟩
    · cases e'; simp only [e] at hk'; exact h.keys r k' ip rfl hk'
    · obtain ⟨pre, hp⟩ := h.suf
      exact ⟨pre, by rw [hp]; simp only [releaseResources, freeIps, Option.elim_some, e]⟩

def IS (C : U64 → Prop) (ips : List Ip4) (s : HS) : Prop := C s.sess.remoteSEID ∧ IB C ips s.rm

theorem is_frame {s s' : HS} (h : RuleFrame s s') (hs : IS C ips s) : IS C ips s' := ⟨by rw [h.remote]; exact hs.1, by rw [h.rm]; exact hs.2⟩

theorem is_extract (ue ie p) : Pres (IS C ips) (extractPdr ue ie p) := by
  apply pres_of; intro s h
  refine ⟨((extractPdr_seids (l := s.sess.localSEID) (r := s.sess.remoteSEID) ue ie p).apply (s := s) ⟨rfl, rfl⟩).2.symm ▸ h.1, ?_⟩
  obtain ⟨hR, h⟩ := h
  unfold extractPdr
  simp only []
  split
  · exact h
  · split
    · exact h
    · split
      · exact h
      · unfold pdrFteid
        split
        · split
          · exact h
          · have := h.teid (R := s.sess.remoteSEID) (i := p.pdrId)
            rcases hx : allocTeid s.sess.remoteSEID p.pdrId s.rm with ⟨rm, r⟩
            rw [hx] at this
            cases r with
            | none => exact this
            | some t => simp only []; split <;> exact this
        · exact h
      · split
        · exact h
        · unfold pdrUeIp
          have := h.ip hR
          rcases hx : allocIp s.sess.remoteSEID s.rm with ⟨rm, r⟩
          rw [hx] at this
          simp only []
          cases r <;> (simp only []; split <;> (simp only []; split <;> first | exact this | exact h))
        · exact h

theorem is_apply (p) : Pres (IS C ips) (applyPdr p) := pres_of fun s h => by obtain ⟨dp, e⟩ := applyPdr_frame p s; rw [e]; exact h

theorem is_create (ue ie) : Pres (IS C ips) (createPdr ue ie) := by
  unfold createPdr
  cases ie.pdrId with
  | none => exact Pres.fail
  | some id => exact Pres.bind (is_extract _ _ _) fun _ => Pres.bind (Pres.modify fun _ h => h) fun _ => Pres.bind (is_apply _) fun _ => Pres.modify fun _ h => h
theorem is_update (ue ie) : Pres (IS C ips) (updatePdr ue ie) := by
  unfold updatePdr
  cases ie.pdrId with
  | none => exact Pres.fail
  | some id => exact Pres.bind Pres.get fun _ => Pres.bind (is_extract _ _ _) fun _ => Pres.bind (Pres.modify fun _ h => h) fun _ => is_apply _
theorem is_delete (ord p) : Pres (IS C ips) (deletePdr ord p) := by
  refine deletePdr_pres (pres_of fun s h => ?_) (pres_of fun s h => ?_)
  · obtain ⟨_, _, e⟩ := deletePdrEntry_frame p s; rw [e]; exact h
  · unfold releaseTeids
    split
    · exact h
    · rename_i r hr
      exact ⟨h.1, IB.release (by rw [← hr]; exact h.2)⟩
theorem is_remove (ord id) : Pres (IS C ips) (removePdr ord id) := by
  refine Pres.bind Pres.get fun s => ?_
  simp only []
  split
  · exact Pres.pure
  · exact Pres.bind (Pres.modify fun _ h => h) fun _ => is_delete _ _

theorem is_dels (ord : Orders) : ∀ (l : List (U64 × Session)) (rm dp rm' dp' b), (∀ e ∈ l, C e.2.remoteSEID) → IB C ips rm →
    dropSessions ord l rm dp = (rm', dp', b) → IB C ips rm'
  | [], rm, dp, rm', dp', b, _, h, hd => by cases hd; exact h
  | (seid, sess) :: l, rm, dp, rm', dp', b, hl, h, hd => by
    unfold dropSessions at hd
    have h1 := (deleteSessionBody_rf (I := IS C ips) (ord := ord) (sess := sess) is_frame (fun _ _ => is_delete _ _)).apply
      (s := ⟨sess, GoMap.empty, rm, dp, [], []⟩) ⟨hl _ List.mem_cons_self, h⟩
    simp only [] at hd
    split at hd
    · cases hd; exact h1.2
    · exact is_dels ord l _ _ _ _ _ (fun e he => hl e (List.mem_cons_of_mem _ he)) h1.2 hd
end

theorem setRemote_cases (s : Session) (o : Option (Option U64)) : (s.setRemote o).remoteSEID = s.remoteSEID ∨ o = some (some (s.setRemote o).remoteSEID) := by
  unfold Session.setRemote
  split
  · exact .inr rfl
  · exact .inl rfl

/-- One event: no address comes back if a deletion does not name a SEID of `C`. -/
theorem ib_step {C : U64 → Prop} {ips : List Ip4} {n : Node} (e : Ev) (hC' : ∀ c, e.givesCpSeid c → C c) (hd : ∀ a r o, e = .delete a r o → ¬ C r.seid)
    (hc : (n.step e).2 ≠ .crash) (i1 : IB C ips n.rm) (i2 : ∀ a s x, n.session? a s = some x → C x.remoteSEID) :
    IB C ips (n.step e).1.rm ∧ ∀ a s x, (n.step e).1.session? a s = some x → C x.remoteSEID := by
  have other : e.isNodeMsg = true → IB C ips (n.step e).1.rm ∧ ∀ a s x, (n.step e).1.session? a s = some x → C x.remoteSEID := by
    intro he
    rcases other_step n e he with h1 | ⟨b, hbn, h1⟩
    · rw [h1]; exact ⟨i1, i2⟩
    · rw [h1]
      refine ⟨i1, ?_⟩
      intro a s x hx
      simp only [Node.session?, GoMap.get?_set] at hx
      split at hx
      · simp [Assoc.new] at hx
      · exact i2 a s x hx
  cases e with
  | assocSetup => exact other rfl
  | assocSetupResp => exact other rfl
  | assocUpdate => exact other rfl
  | heartbeatReq => exact other rfl
  | heartbeatResp => exact other rfl
  | setConfig => exact ⟨i1, i2⟩
  | establish addr r =>
    simp only [Node.step] at hc ⊢
    cases establish_cases n addr r with
    | refused c hcc he => rw [he]; exact ⟨i1, i2⟩
    | ran remote a hs res hid hcp ha hbody hl hrem he =>
      have hC : C remote := hC' _ hcp
      have b := (establishBody_rf (I := IS C ips) (ue := n.ueip) (r := r) is_frame (fun _ _ => is_create _ _)).apply
        (s := n.hs (Session.new (a.nextSessionID + 1) remote)) ⟨hC, i1⟩
      rw [hbody] at b
      rw [he] at hc ⊢
      cases res with
      | panic => exact absurd rfl hc
      | ok _ =>
        refine ⟨b.2, ?_⟩
        intro b' s x hx
        have hset := session_set n addr a ha (a.nextSessionID + 1) a.nextSequenceID (a.nextSessionID + 1) hs.sess hs.rm hs.dp b' s
        have hx : _ = some x := hset.symm.trans hx
        split at hx
        · cases hx; exact b.1
        · exact i2 _ _ _ hx
      | err =>
        refine ⟨b.2, ?_⟩
        intro b' s x hx
        simp only [Node.estResult, Node.session?, GoMap.get?_set] at hx
        split at hx
        · subst b'; exact i2 addr s x (by simp only [Node.session?, ha]; exact hx)
        · exact i2 _ _ _ hx
  | modify addr r ord =>
    simp only [Node.step] at hc ⊢
    cases modify_cases n addr r ord with
    | refused c x hcc hs he => rw [he]; exact ⟨i1, i2⟩
    | ran a sess hs res ha hsess hbody hl hrem he =>
      have hx : n.session? addr r.seid = some sess := by simp [Node.session?, ha, hsess]
      have hC : C (sess.setRemote r.cpFseid).remoteSEID := by
        rcases setRemote_cases sess r.cpFseid with e | e
        · rw [e]; exact i2 _ _ _ hx
        · exact hC' _ e
      have b := (modifyBody_rf (I := IS C ips) (ue := n.ueip) (ord := ord) (r := r) is_frame (fun _ _ => is_create _ _) (fun _ _ => is_update _ _)
        (fun _ _ => is_remove _ _)).apply (s := n.hs (sess.setRemote r.cpFseid)) ⟨hC, i1⟩
      rw [hbody] at b
      rw [he]
      refine ⟨b.2, ?_⟩
      intro b' s x hx
      have hset := session_set n addr a ha a.nextSessionID a.nextSequenceID r.seid hs.sess hs.rm hs.dp b' s
      have hx : _ = some x := hset.symm.trans hx
      split at hx
      · cases hx; exact b.1
      · exact i2 _ _ _ hx
  | delete addr r ord =>
    simp only [Node.step] at hc ⊢
    cases delete_cases n addr r ord with
    | refused c hcc hs he => rw [he]; exact ⟨i1, i2⟩
    | ran a sess hs res ha hsess hbody he =>
      have hx : n.session? addr r.seid = some sess := by simp [Node.session?, ha, hsess]
      have b := (deleteBody_rf (I := IS C ips) (ord := ord) (sess := sess) is_frame (fun _ _ => is_delete _ _)).apply (s := n.hs sess) ⟨i2 _ _ _ hx, i1⟩
      rw [hbody] at b
      rw [he] at hc ⊢
      cases res with
      | panic => exact absurd rfl hc
      | err => exact ⟨b.2, i2⟩
      | ok _ =>
        refine ⟨b.2.resources ?_, ?_⟩
        · exact hd _ _ _ rfl
        · intro b' s x hx'
          simp only [Node.delResult, Node.session?, GoMap.get?_set] at hx'
          split at hx'
          · subst b'
            simp only [Option.bind_some, GoMap.get?_erase] at hx'
            split at hx'
            · cases hx'
            · exact i2 addr s x (by simp only [Node.session?, ha]; exact hx')
          · exact i2 _ _ _ hx'
  | peerLost addr ord =>
    simp only [Node.step, Node.deleteAssociation] at hc ⊢
    cases ha : n.assocs.get? addr with
    | none => rw [ha] at hc; exact absurd rfl hc
    | some a =>
      simp only [ha] at hc ⊢
      rcases hdr : dropSessions ord (ord.sessions.run a.sessions.entries) n.rm n.dp with ⟨rm, dp', b⟩
      have hmem : ∀ e ∈ ord.sessions.run a.sessions.entries, C e.2.remoteSEID := by
        intro e he
        have := (a.sessions.mem_entries_iff e.1 e.2).1 ((ord.sessions.perm _).mem_iff.1 he)
        exact i2 addr e.1 e.2 (by simp [Node.session?, ha, this])
      have ib := is_dels ord _ _ _ _ _ _ hmem i1 hdr
      rw [hdr] at hc
      cases b with
      | false => exact absurd rfl hc
      | true =>
        refine ⟨ib, ?_⟩
        intro b' s x hx
        simp only [Node.session?, GoMap.get?_erase] at hx
        split at hx
        · cases hx
        · exact i2 _ _ _ hx

/-- **Addresses do not come back.** In every history in which no deletion names a SEID (of this node) that some request gave as CP SEID, the free
addresses are what is left of the configured ones after taking some from the front: no address given to a session is ever free again, however many
sessions are deleted. -/
theorem C87_addresses_never_return {cfg : NodeCfg} {ips : List Ip4} {range : U32} {dp : BpfObjects} {h : List (Ev × Outcome)} {n : Node}
    (H : Hist (Node.init cfg (some (newResourceManager ips range)) dp) h n)
    (hd : ∀ a r o out e out', (Ev.delete a r o, out) ∈ h → (e, out') ∈ h → ¬ e.givesCpSeid r.seid) : ∃ given, ips = given ++ freeIps n.rm := by
  let C : U64 → Prop := fun c => ∃ e out, (e, out) ∈ h ∧ e.givesCpSeid c
  have key : ∀ h' n', Hist (Node.init cfg (some (newResourceManager ips range)) dp) h' n' → (∀ x ∈ h', x ∈ h) →
      IB C ips n'.rm ∧ ∀ a s x, n'.session? a s = some x → C x.remoteSEID := by
    intro h' n' H'
    induction H' with
    | init =>
      intro _
      refine ⟨⟨?_, [], rfl⟩, ?_⟩
      · intro r k ip e hk; cases e; simp [newResourceManager] at hk
      · intro a s x hx; simp [Node.session?, Node.init] at hx
    | traffic _ _ ih => intro hs; exact ih hs
    | @step h' n e H' hc ih =>
      intro hsub
      obtain ⟨i1, i2⟩ := ih (fun x hx => hsub x (List.mem_cons_of_mem _ hx))
      have hin := hsub _ List.mem_cons_self
      exact ib_step e (fun c h => ⟨_, _, hin, h⟩) (by rintro a r o rfl ⟨e', out, h1, h2⟩; exact hd _ _ _ _ _ _ hin h1 h2) hc i1 i2
  exact (key h n H fun _ hx => hx).1.suf

/-! ### non-vacuity -/

namespace Demo
/-- an association; a session with two TEIDs; it is deleted -/
def nL1 : Node := (nTwo.step (assoc 1)).1
def nL2 : Node := (nL1.step (.establish 1 (estPdrs 100 [ch 1 none, ch 2 none]))).1
def nL3 : Node := (nL2.step (.delete 1 ⟨2, 3⟩ default)).1

theorem ok_of_accepted {o : Outcome} (h : o.accepted = true) : o.ok := by
  cases o with
  | reply r => exact ⟨r, rfl, by simpa [Outcome.accepted, causeAccepted] using h⟩
  | silent => cases h
  | crash => cases h

theorem nL1_none (a : Addr) (s : U64) : nL1.session? a s = none := by
  have h : nL1.assocs = GoMap.empty.set 1 Assoc.new := rfl
  simp only [Node.session?, h, GoMap.get?_set]
  split
  · simp [Assoc.new]
  · simp

theorem none_of_keys {n : Node} (h : n.assocs.values.all (fun a => a.sessions.keys.isEmpty) = true) (a : Addr) (s : U64) : n.session? a s = none := by
  cases hx : n.session? a s with
  | none => rfl
  | some x =>
    exfalso
    simp only [Node.session?] at hx
    cases ha : n.assocs.get? a with
    | none => rw [ha] at hx; cases hx
    | some as =>
      rw [ha] at hx
      have hm : as ∈ n.assocs.values := by rw [GoMap.values]; exact List.mem_map.2 ⟨(a, as), (n.assocs.mem_entries_iff a as).2 ha, rfl⟩
      have he := List.all_eq_true.1 h as hm
      have : s ∈ as.sessions.keys := (as.sessions.mem_keys_iff s).2 (by simp only [Option.bind_some] at hx; rw [hx]; rfl)
      rw [List.isEmpty_iff.1 he] at this
      cases this

theorem nL_hist : ∃ h2 h3, HistP Careful nTwo h2 nL2 ∧ HistP Careful nTwo h3 nL3 ∧ attempts h2 = 1 ∧ attempts h3 = 1 := by
  have s1 : HistP Careful nTwo _ nL1 := HistP.step (assoc 1) .init (by trivial) (by decide +kernel)
  have s2 : HistP Careful nTwo _ nL2 := HistP.step (.establish 1 (estPdrs 100 [ch 1 none, ch 2 none])) s1
    ⟨by decide +kernel, fun c b s x _ hx => (by rw [nL1_none] at hx; cases hx), fun _ => ok_of_accepted (by decide +kernel)⟩ (by decide +kernel)
  have s3 : HistP Careful nTwo _ nL3 := HistP.step (.delete 1 ⟨2, 3⟩ default) s2 (by trivial) (by decide +kernel)
  exact ⟨_, _, s2, s3, by decide +kernel, by decide +kernel⟩
end Demo

/-- The hypotheses of `C87_no_leak_partial` and `C87_all_back_partial` are met by an association, a session with two TEIDs and its deletion; in
between both TEIDs are on loan. -/
example : (∃ h, HistP Careful Demo.nTwo h Demo.nL2 ∧ attempts h < 2 ^ 64 - 2) ∧ freeTeids Demo.nL2.rm = [] ∧
    (∃ h, HistP Careful Demo.nTwo h Demo.nL3 ∧ attempts h < 2 ^ 64 - 2) ∧ (∀ a s, Demo.nL3.session? a s = none) ∧ (freeTeids Demo.nL3.rm).length = 2 := by
  obtain ⟨h2, h3, H2, H3, a2, a3⟩ := Demo.nL_hist
  exact ⟨⟨h2, H2, by rw [a2]; decide⟩, by decide +kernel, ⟨h3, H3, by rw [a3]; decide⟩, Demo.none_of_keys (by decide +kernel), by decide +kernel⟩

/-- `C87_deleted`: the session of `nL2` has PDRs with TEIDs and its deletion is accepted. -/
example : (Demo.nL2.step (.delete 1 ⟨2, 3⟩ default)).2 = .reply { type := .deletion, seid := 100, seq := 3, cause := 1 } ∧
    ((Demo.nL2.session? 1 2).map fun x => (x.remoteSEID, (x.getPdr 1).teid, (x.getPdr 2).teid)) = some (100, 1, 2) ∧
    freeTeids Demo.nL3.rm = [2, 1] := by
  refine ⟨by decide +kernel, by decide +kernel, by decide +kernel⟩

/-- `C87_rejected_leaks`, `C87_exhausted`: a node with an association and two TEIDs. -/
example : (Demo.nL1.assocs.get? 1).isSome = true ∧ freeTeids Demo.nL1.rm = [1, 2] ∧
    freeTeids (Demo.nL1.run (List.replicate 2 (.establish 1 (leakReq 7 8)))).1.rm = [] := by
  refine ⟨by decide +kernel, by decide +kernel, by decide +kernel⟩

/-- `C87_empty_pool` after that. -/
example : freeTeids (Demo.nL1.run (List.replicate 2 (.establish 1 (leakReq 7 8)))).1.rm = [] ∧ (∃ ie ∈ (Demo.estPdrs 9 [Demo.ch 1 none]).createPdr, ie.asksTeid.isSome = true) ∧
    ((Demo.nL1.run (List.replicate 2 (.establish 1 (leakReq 7 8)))).1.step (.establish 1 (Demo.estPdrs 9 [Demo.ch 1 none]))).2 =
      .reply { type := .establishment, seid := 9, seq := 1, cause := 73 } := by
  refine ⟨by decide +kernel, ⟨Demo.ch 1 none, List.mem_cons_self, by decide +kernel⟩, by decide +kernel⟩

/-- `C87_addresses_never_return`: the history of `C15_address_lost`, an address given and the session deleted. -/
example : ∃ h n, Hist Demo.nTwo h n ∧ (∀ a r o out e out', (Ev.delete a r o, out) ∈ h → (e, out') ∈ h → ¬ e.givesCpSeid r.seid) ∧
    (∃ a r o out, (Ev.delete a r o, out) ∈ h) ∧ freeIps Demo.nTwo.rm = [0x0a2d0001] ∧ freeIps n.rm = [] := by
  have s1 : Hist Demo.nTwo _ Demo.nL1 := Hist.step (Demo.assoc 1) .init (by decide +kernel)
  have s2 := Hist.step (.establish 1 (Demo.estIp 100)) s1 (by decide +kernel)
  have s3 := Hist.step (.delete 1 ⟨2, 3⟩ default) s2 (by decide +kernel)
  refine ⟨_, _, s3, ?_, ⟨1, ⟨2, 3⟩, default, _, List.mem_cons_self⟩, by decide +kernel, by decide +kernel⟩
  intro a r o out e out' h1 h2
  simp only [List.mem_cons, Prod.mk.injEq, List.not_mem_nil, or_false, Demo.assoc, reduceCtorEq, false_and] at h1 h2
  obtain ⟨⟨rfl, rfl, rfl⟩, -⟩ := by simpa using h1
  rcases h2 with ⟨rfl, -⟩ | ⟨rfl, -⟩ | ⟨rfl, -⟩
  · exact fun h => h
  · intro h; simp [Ev.givesCpSeid, Demo.estIp, Demo.estPdrs] at h
  · exact fun h => h

end Eupf
