import Verif.Spec.Gone
import Verif.Props.FilterText
import Verif.Props.DeletionExact
import Verif.Props.PeerLoss
import Verif.Props.Chosen
/-
C97: the traffic of a deleted session is not carried any more.
-/
namespace Eupf
open Act

/-- A key without entry that no session uses stays so, as long as no event can give it to anybody. -/
theorem stays_gone {K : PdrKey} (hK : K ≠ .ul 0) {n0 : Node} (h0 : n0.dp.entry? K = none) (hu : ¬ n0.used K)
    {h : List (Ev × Outcome)} {n : Node} (H : HistP (Untouched K) n0 h n) : n.dp.entry? K = none ∧ ¬ n.used K := by
  induction H with
  | init => exact ⟨h0, hu⟩
  | traffic _ t ih => exact ⟨by rw [← ih.1]; exact entry_pdr t.pdrUl t.pdrDl4 t.pdrDl6 K, ih.2⟩
  | @step h n e _ hp _ ih =>
    obtain ⟨a, ha, hab⟩ := exists_other n e
    have hno : n.session? a 0 = none := by simp [Node.session?, ha]
    obtain ⟨g1, g2, g3⟩ := guard_step' hK e (a := a) (s := 0) (fun as h => by rw [ha] at h; cases h) hab hp.unnamed hp.notChosen
      (fun ⟨a', s', x, i, p, _, hx, h⟩ => ih.2 ⟨a', s', x, i, p, hx, h⟩)
    refine ⟨by rw [g1]; exact ih.1, ?_⟩
    rintro ⟨a', s', x, i, p, hx, h⟩
    by_cases he : (a', s') = (a, 0)
    · cases he
      rw [g2, hno] at hx; cases hx
    · exact g3 ⟨a', s', x, i, p, he, hx, h⟩

/-- Traffic for a key without entry is passed on untouched. -/
theorem no_entry_passed {K : PdrKey} (e : Env) (s : PS) (hn : s.dp.entry? K = none) (hf : FrameFor e s.frame K) :
    ∃ s', runPacket e s = (s', .ok .pass) ∧ s'.frame = s.frame ∧ s'.dp = s.dp := by
  cases K with
  | ul t => obtain ⟨h1, h2⟩ := hf; exact C25_unknown_teid e s h1 (by rw [h2]; exact hn)
  | dl4 ip => obtain ⟨h1, h2⟩ := hf; exact C25_unknown_ue4 e s h1 (by rw [h2]; exact hn)
  | dl6 ip => obtain ⟨h1, h2⟩ := hf; exact C25_unknown_ue6 e s h1 (by rw [h2]; exact hn)

theorem findSome_teid : ∀ (l : List SPdr) {p : SPdr} {t : U32}, p ∈ l → p.key = .ul t →
    (∀ q ∈ l, ∀ t', q.key = .ul t' → t'.truncate 8 = t.truncate 8 → t' = t) → firstTeid l (t.truncate 8) = some t
  | [], _, _, hp, _, _ => by cases hp
  | q :: l, p, t, hp, hk, hall => by
    by_cases hq : ∃ t', q.key = .ul t'
    · obtain ⟨t', hq⟩ := hq
      have hqt : t' = q.teid := key_ul q hq
      rw [hqt] at hq
      rw [firstTeid_cons_ul hq]
      by_cases hb : q.teid.truncate 8 = t.truncate 8
      · rw [if_pos hb, hall q (by simp) _ hq hb]
      · rw [if_neg hb]
        rcases List.mem_cons.1 hp with rfl | hp
        · rw [hk] at hq; cases hq; exact absurd rfl hb
        · exact findSome_teid l hp hk fun q' h' => hall q' (List.mem_cons_of_mem _ h')
    · rw [firstTeid_cons_dl fun t' h => hq ⟨t', h⟩]
      rcases List.mem_cons.1 hp with rfl | hp
      · exact absurd ⟨t, hk⟩ hq
      · exact findSome_teid l hp hk fun q' h' => hall q' (List.mem_cons_of_mem _ h')

/-- An accepted deletion takes the entry of every key of the session that stands alone. -/
theorem delete_takes {n : Node} {a : Addr} {r : DelReq} {ord : Orders} {x : Session} (hs : n.session? a r.seid = some x)
    {i : U32} {p : SPdr} (hp : x.pdrs.get? i = some p) (hal : x.alone p.key) (hoth : ¬ n.usedElsewhere a r.seid p.key)
    {n' : Node} {resp : Resp} (hstep : n.step (.delete a r ord) = (n', .reply resp)) (hacc : resp.cause = 1) :
    n'.dp.entry? p.key = none ∧ ¬ n'.used p.key := by
  refine ⟨(C10_exact_partial hs hstep hacc p.key).1 ⟨⟨p, mem_visits.2 ⟨i, hp⟩, rfl⟩, fun t ht => ?_⟩, ?_⟩
  · refine findSome_teid _ (mem_visits.2 ⟨i, hp⟩) ht ?_
    intro q hq t' hk hb
    obtain ⟨j, hj⟩ := mem_visits.1 hq
    exact hal t ht j q t' hj hk hb
  · have hstep' : n.delete a r ord = (n', .reply resp) := hstep
    obtain ⟨as, sess', hs', ha, hsess, hb, he⟩ := delete_accepted (by rw [hstep']) hacc
    rw [hstep'] at he
    have hn : n' = _ := congrArg Prod.fst he
    rintro ⟨a', s', y, j, q, hy, hq, hk⟩
    refine hoth ⟨a', s', y, j, q, ?_, ?_, hq, hk⟩
    · rintro h; cases h
      rw [hn] at hy
      simp [Node.delResult, Node.session?] at hy
    · rw [hn] at hy
      simp only [Node.delResult, Node.session?, GoMap.get?_set] at hy
      split at hy
      · simp only [Option.bind_some, GoMap.get?_erase] at hy
        split at hy
        · cases hy
        · subst a'; simp [Node.session?, ha, hy]
      · exact hy

/-- **C97, deletion.** The session `r.seid` of `a` has a PDR; no other session has one with the same key; if the key is a TEID, no other
TEID of the session has its low octet. Once the deletion is accepted, traffic for the key is passed on untouched, after any further events
and packets, until a message names the key or the UPF may choose it again. Any node, any iteration order, any frame. -/
theorem C97_deleted_partial {n : Node} {a : Addr} {r : DelReq} {ord : Orders} {x : Session} (hs : n.session? a r.seid = some x)
    {i : U32} {p : SPdr} (hp : x.pdrs.get? i = some p) (hK : p.key ≠ .ul 0) (hal : x.alone p.key) (hoth : ¬ n.usedElsewhere a r.seid p.key)
    {n1 : Node} {resp : Resp} (hstep : n.step (.delete a r ord) = (n1, .reply resp)) (hacc : resp.cause = 1)
    {h : List (Ev × Outcome)} {n2 : Node} (H : HistP (Untouched p.key) n1 h n2)
    (e : Env) (s : PS) (hdp : s.dp = n2.dp) (hf : FrameFor e s.frame p.key) :
    ∃ s', runPacket e s = (s', .ok .pass) ∧ s'.frame = s.frame ∧ s'.dp = s.dp := by
  obtain ⟨h1, h2⟩ := delete_takes hs hp hal hoth hstep hacc
  exact no_entry_passed e s (by rw [hdp]; exact (stays_gone hK h1 h2 H).1) hf

/-- **C97, loss of the peer.** The same for every PDR of every session of a peer that is given up, if no session of another peer uses the
key. -/
theorem C97_peer_lost_partial {cfg : NodeCfg} {rm : Option ResourceManager} {pz fz qz uz : U32} (hfz : 0 < fz.toNat) (hqz : 0 < qz.toNat)
    (huz : 0 < uz.toNat) {h0 : List (Ev × Outcome)} {n : Node} (H0 : Hist (Node.init cfg rm (BpfObjects.load pz fz qz uz)) h0 n)
    {a : Addr} {ord : Orders} {seid : U64} {x : Session} (hs : n.session? a seid = some x)
    {i : U32} {p : SPdr} (hp : x.pdrs.get? i = some p) (hK : p.key ≠ .ul 0)
    (hal : ∀ i p, x.pdrs.get? i = some p → x.alone p.key)
    (hoth : ∀ a' s' y j q, a' ≠ a → n.session? a' s' = some y → y.pdrs.get? j = some q → q.key ≠ p.key)
    (hstep : (n.step (.peerLost a ord)).2 ≠ .crash)
    {h : List (Ev × Outcome)} {n2 : Node} (H : HistP (Untouched p.key) (n.step (.peerLost a ord)).1 h n2)
    (e : Env) (s : PS) (hdp : s.dp = n2.dp) (hf : FrameFor e s.frame p.key) :
    ∃ s', runPacket e s = (s', .ok .pass) ∧ s'.frame = s.frame ∧ s'.dp = s.dp := by
  have hassoc : (n.assocs.get? a).isSome := by
    cases h : n.assocs.get? a with
    | none => simp [Node.session?, h] at hs
    | some _ => rfl
  obtain ⟨-, -, g1, g2, g3⟩ := C45_peer_lost hfz hqz huz H0 hassoc (n' := (n.step (.peerLost a ord)).1) (o := (n.step (.peerLost a ord)).2) rfl hstep
  have h1 := (g3 seid x hs).2.2 (fun i p hp j p' hp' k1 k2 hb => (hal i p hp _ k1 j p' _ hp' k2 hb.symm).symm) i p hp
  have h2 : ¬ (n.step (.peerLost a ord)).1.used p.key := by
    rintro ⟨a', s', y, j, q, hy, hq, hk⟩
    by_cases ha : a' = a
    · subst ha; rw [g1] at hy; cases hy
    · rw [g2 _ _ ha] at hy
      exact hoth a' s' y j q ha hy hq hk
  exact no_entry_passed e s (by rw [hdp]; exact (stays_gone hK h1 h2 H).1) hf

/-! ### removal of a single PDR -/

/-- while PDRs other than `id` are removed -/
structure Waits (K : PdrKey) (x : Session) (id : U32) (p : SPdr) (s : HS) : Prop where
  here : s.sess.pdrs.get? id = some p
  sub : ∀ j q, s.sess.pdrs.get? j = some q → x.pdrs.get? j = some q
  cache : ∀ t, K = .ul t → s.cache.get? (t.truncate 8) = none

theorem removePdr_known {ord : Orders} {d : Option U16} {s : HS} {q : SPdr} (hq : s.sess.pdrs.get? (BitVec.zeroExtend 32 (d.getD 0)) = some q) :
    removePdr ord d s = deletePdr ord q { s with sess := s.sess.removePdr (BitVec.zeroExtend 32 (d.getD 0)) } := by
  unfold removePdr
  simp only [Act.bind_def, Act.bind, Act.get, hq]
  rfl

theorem removePdr_unknown {ord : Orders} {d : Option U16} {s : HS} (hq : s.sess.pdrs.get? (BitVec.zeroExtend 32 (d.getD 0)) = none) :
    removePdr ord d s = (s, .ok ()) := by
  unfold removePdr
  simp only [Act.bind_def, Act.bind, Act.get, hq]
  rfl

theorem waits_remove {K : PdrKey} {x : Session} {id : U32} {p : SPdr} (ord : Orders) (hal : x.alone K)
    (hone : ∀ j q, j ≠ id → x.pdrs.get? j = some q → q.key ≠ K) {d : Option U16} (hd : BitVec.zeroExtend 32 (d.getD 0) ≠ id) :
    Pres (Waits K x id p) (removePdr ord d) := by
  apply pres_of; intro s h
  cases hq : s.sess.pdrs.get? (BitVec.zeroExtend 32 (d.getD 0)) with
  | none => rw [removePdr_unknown hq]; exact h
  | some q =>
    rw [removePdr_known hq]
    generalize hs1 : ({ s with sess := s.sess.removePdr (BitVec.zeroExtend 32 (d.getD 0)) } : HS) = s1
    have w1 : Waits K x id p s1 := by
      subst hs1
      refine ⟨?_, ?_, h.cache⟩
      · simp only [Session.removePdr, GoMap.get?_erase]
        rw [if_neg (fun e => hd e.symm)]; exact h.here
      · intro j y hy
        simp only [Session.removePdr, GoMap.get?_erase] at hy
        split at hy
        · cases hy
        · exact h.sub j y hy
    obtain ⟨rm, e⟩ := deletePdr_dp ord q s1
    rw [e]
    cases deletePdrEntry_cases q s1 with
    | gone dp c hdl _ hdp hc =>
      rw [hdl]
      refine ⟨w1.here, w1.sub, ?_⟩
      intro t ht
      show c.get? (t.truncate 8) = none
      rcases hc with ⟨rfl, _⟩ | ⟨hk, rfl, _⟩
      · exact w1.cache t ht
      · rw [GoMap.get?_set, if_neg, w1.cache t ht]
        intro hb
        have := hal t ht _ q _ (h.sub _ _ hq) hk hb.symm
        rw [this, ← ht] at hk
        exact hone _ q hd (h.sub _ _ hq) hk
    | absent hdl _ => rw [hdl]; exact ⟨w1.here, w1.sub, w1.cache⟩
    | skipped hdl _ _ => rw [hdl]; exact ⟨w1.here, w1.sub, w1.cache⟩

/-- An accepted modification that creates and updates no PDRs takes the entry of a PDR it removes, if its key stands alone. -/
theorem modify_takes {n : Node} {a : Addr} {r : ModReq} {ord : Orders} {x : Session} (hs : n.session? a r.seid = some x)
    (hc : r.createPdr = []) (hu : r.updatePdr = []) {id : U16} (hid : some id ∈ r.removePdr) {p : SPdr} (hp : x.pdrs.get? (id.zeroExtend 32) = some p)
    (hal : x.alone p.key) (hone : ∀ j q, j ≠ id.zeroExtend 32 → x.pdrs.get? j = some q → q.key ≠ p.key)
    (hoth : ¬ n.usedElsewhere a r.seid p.key)
    {n' : Node} {resp : Resp} (hstep : n.step (.modify a r ord) = (n', .reply resp)) (hacc : resp.cause = 1) :
    n'.dp.entry? p.key = none ∧ ¬ n'.used p.key := by
  obtain ⟨hs', hb, hn1, hn2, hn3, hn4, hn5⟩ := modify_accepted hs hstep hacc
  rw [modifyBody_split] at hb
  obtain ⟨_, s1, e1, e2⟩ := bind_ok hb
  have hrem : (x.setRemote r.cpFseid).pdrs = x.pdrs := by unfold Session.setRemote; split <;> rfl
  -- up to the removals nothing changes about PDRs
  have w0 : Waits p.key x (id.zeroExtend 32) p s1 := by
    have : Pres (Waits p.key x (id.zeroExtend 32) p) (modifyBody n.ueip ord { r with removePdr := [] }) :=
      modifyBody_rf (I := Waits p.key x (id.zeroExtend 32) p)
        (fun {s s'} hf h => ⟨by rw [hf.pdrs]; exact h.here, fun j q hq => h.sub j q (by rw [← hf.pdrs]; exact hq), fun t ht => by rw [hf.cache]; exact h.cache t ht⟩)
        (fun ie hie => by rw [show ({ r with removePdr := [] } : ModReq).createPdr = [] from hc] at hie; cases hie)
        (fun ie hie => by rw [show ({ r with removePdr := [] } : ModReq).updatePdr = [] from hu] at hie; cases hie)
        (fun _ hh => by cases hh)
    have h := this.apply (s := n.hs (x.setRemote r.cpFseid))
      ⟨by simpa [Node.hs, hrem] using hp, fun j q hq => by simpa [Node.hs, hrem] using hq, fun t _ => by simp [Node.hs]⟩
    rw [e1] at h; exact h
  -- split at the first removal of `id`
  have hsplit : ∃ l1 d l2, r.removePdr = l1 ++ d :: l2 ∧ BitVec.zeroExtend 32 (d.getD 0) = id.zeroExtend 32 ∧
      ∀ y ∈ l1, BitVec.zeroExtend 32 (y.getD 0) ≠ id.zeroExtend 32 := by
    have aux : ∀ l : List (Option U16), some id ∈ l → ∃ l1 d l2, l = l1 ++ d :: l2 ∧ BitVec.zeroExtend 32 (d.getD 0) = id.zeroExtend 32 ∧
        ∀ y ∈ l1, BitVec.zeroExtend 32 (y.getD 0) ≠ id.zeroExtend 32 := by
      intro l
      induction l with
      | nil => intro h; cases h
      | cons y l ih =>
        intro h
        by_cases hy : BitVec.zeroExtend 32 (y.getD 0) = id.zeroExtend 32
        · exact ⟨[], y, l, rfl, hy, by simp⟩
        · rcases List.mem_cons.1 h with rfl | h
          · exact absurd rfl hy
          · obtain ⟨l1, d, l2, e, f, g⟩ := ih h
            refine ⟨y :: l1, d, l2, by rw [e]; rfl, f, ?_⟩
            intro z hz
            rcases List.mem_cons.1 hz with rfl | hz
            · exact hy
            · exact g z hz
    exact aux _ hid
  obtain ⟨l1, d, l2, hl, hd, hl1⟩ := hsplit
  rw [hl] at e2
  obtain ⟨s2, f1, f2⟩ := each_append_ok l1 e2
  obtain ⟨s3, f3, f4⟩ := each_cons_ok f2
  have w2 := pres_each_ok (I := Waits p.key x (id.zeroExtend 32) p) (fun y hy => waits_remove ord hal hone (hl1 y hy)) f1 w0
  -- the removal itself
  have k3 : KB p.key (fun _ => True) none s3 := by
    rw [removePdr_known (q := p) (by rw [hd]; exact w2.here), hd] at f3
    generalize hs4 : ({ s2 with sess := s2.sess.removePdr (id.zeroExtend 32) } : HS) = s4 at f3
    have hrecs : ∀ j q, s4.sess.pdrs.get? j = some q → q.key ≠ p.key := by
      intro j q hq
      subst hs4
      simp only [Session.removePdr, GoMap.get?_erase] at hq
      split at hq
      · cases hq
      · rename_i hj
        exact hone j q hj (w2.sub j q hq)
    have hcache : ∀ t, p.key = .ul t → s4.cache.get? (t.truncate 8) = none := by subst hs4; exact w2.cache
    obtain ⟨rm, e⟩ := deletePdr_dp ord p s4
    rw [f3] at e
    simp only at e
    cases deletePdrEntry_cases p s4 with
    | gone dp c hdl _ hdp _ =>
      rw [hdl] at e
      rw [e]
      exact ⟨by show dp.entry? p.key = none; rw [hdp, if_pos rfl], fun j q _ => hrecs j q⟩
    | absent hdl hnone =>
      exfalso
      unfold deletePdr at f3
      simp only [Act.bind_def, Act.bind, hdl] at f3
      cases f3
    | skipped hdl hk hcs =>
      rw [hcache _ hk] at hcs; cases hcs
  have k4 : KB p.key (fun _ => True) none hs' := pres_each_ok (fun _ _ => kb_remove ord trivial) f4 k3
  refine ⟨by rw [hn2]; exact k4.ent, ?_⟩
  rintro ⟨a', s', y, j, q, hy, hq, hk⟩
  by_cases hsame : (a', s') = (a, r.seid)
  · cases hsame
    rw [hn1] at hy; cases hy
    exact k4.recs j q trivial hq hk
  · refine hoth ⟨a', s', y, j, q, hsame, ?_, hq, hk⟩
    have := (C05_isolation n a a' s').2.1 r ord hsame
    rw [← this, hstep]; exact hy


/-- **C97, removal of a PDR.** The session has a PDR with a key that no other PDR of this or another session has; if the key is a TEID, no
other TEID of the session has its low octet. Once a modification that removes the PDR and creates and updates none is accepted, traffic for
the key is passed on untouched, as after a deletion. -/
theorem C97_removed_partial {n : Node} {a : Addr} {r : ModReq} {ord : Orders} {x : Session} (hs : n.session? a r.seid = some x)
    (hc : r.createPdr = []) (hu : r.updatePdr = []) {id : U16} (hid : some id ∈ r.removePdr) {p : SPdr} (hp : x.pdrs.get? (id.zeroExtend 32) = some p)
    (hK : p.key ≠ .ul 0) (hal : x.alone p.key) (hone : ∀ j q, j ≠ id.zeroExtend 32 → x.pdrs.get? j = some q → q.key ≠ p.key)
    (hoth : ¬ n.usedElsewhere a r.seid p.key)
    {n1 : Node} {resp : Resp} (hstep : n.step (.modify a r ord) = (n1, .reply resp)) (hacc : resp.cause = 1)
    {h : List (Ev × Outcome)} {n2 : Node} (H : HistP (Untouched p.key) n1 h n2)
    (e : Env) (s : PS) (hdp : s.dp = n2.dp) (hf : FrameFor e s.frame p.key) :
    ∃ s', runPacket e s = (s', .ok .pass) ∧ s'.frame = s.frame ∧ s'.dp = s.dp := by
  obtain ⟨h1, h2⟩ := modify_takes hs hc hu hid hp hal hone hoth hstep hacc
  exact no_entry_passed e s (by rw [hdp]; exact (stays_gone hK h1 h2 H).1) hf

/-! ### why the restrictions: the cache of removed TEIDs is the cache of CHOOSE IDs -/

/-- The cache only grows while a PDR is extracted. -/
theorem extract_cache {ue : Bool} {ie : PdrIE} {p : SPdr} {s : HS} {c : U8} (h : (s.cache.get? c).isSome) :
    ((extractPdr ue ie p s).1.cache.get? c).isSome := by
  have hset : ∀ c' t, ((s.cache.set c' t).get? c).isSome := by
    intro c' t
    rw [GoMap.get?_set]; split
    · rfl
    · exact h
  unfold extractPdr
  simp only []
  split
  · exact h
  · split
    · exact h
    · split
      · exact h
      · rename_i f _
        unfold pdrFteid
        split
        · split
          · exact h
          · split
            · exact h
            · simp only []
              cases f.chooseId with
              | none => exact h
              | some c' => exact hset c' _
        · exact h
      · split
        · exact h
        · unfold pdrUeIp
          simp only []
          split <;> exact h
        · exact h

/-- The entry is there, and (once `b`) the cache knows the octet. -/
structure Kept (t : U32) (b : Bool) (s : HS) : Prop where
  ent : (s.dp.entry? (.ul t)).isSome
  cache : b = true → (s.cache.get? (t.truncate 8)).isSome

theorem kept_apply (t : U32) (b : Bool) (p : SPdr) : Pres (Kept t b) (applyPdr p) := by
  apply pres_of; intro s h
  rcases applyPdr_entries p s with ⟨dp, e, hk⟩ | e
  · rw [e]
    refine ⟨?_, h.cache⟩
    show (dp.entry? (.ul t)).isSome
    rw [hk]; split
    · rfl
    · exact h.ent
  · rw [e]; exact h

theorem kept_extract (t : U32) (b : Bool) (ue : Bool) (ie : PdrIE) (p : SPdr) : Pres (Kept t b) (extractPdr ue ie p) := by
  apply pres_of; intro s h
  refine ⟨?_, fun hb => extract_cache (h.cache hb)⟩
  obtain ⟨c, rm, e⟩ := extractPdr_frame ue ie p s
  rw [e]; exact h.ent

theorem kept_modify (t : U32) (b : Bool) (f : HS → HS) (hf : ∀ s, (f s).dp = s.dp ∧ (f s).cache = s.cache) : Pres (Kept t b) (Act.modify f) := by
  apply pres_of; intro s h
  obtain ⟨h1, h2⟩ := hf s
  exact ⟨by show ((f s).dp.entry? _).isSome; rw [h1]; exact h.ent, fun hb => by show ((f s).cache.get? _).isSome; rw [h2]; exact h.cache hb⟩

theorem kept_create (t : U32) (b : Bool) (ue : Bool) (ie : PdrIE) : Pres (Kept t b) (createPdr ue ie) := by
  unfold createPdr
  cases ie.pdrId with
  | none => exact Pres.fail
  | some id =>
    exact Pres.bind (kept_extract t b ue ie _) fun p => Pres.bind (kept_modify _ _ _ fun _ => ⟨rfl, rfl⟩) fun _ => Pres.bind (kept_apply t b p) fun _ =>
      kept_modify _ _ _ fun _ => ⟨rfl, rfl⟩

theorem kept_update (t : U32) (b : Bool) (ue : Bool) (ie : PdrIE) : Pres (Kept t b) (updatePdr ue ie) := by
  unfold updatePdr
  cases ie.pdrId with
  | none => exact Pres.fail
  | some id =>
    apply pres_of; intro s h
    exact (Pres.bind (kept_extract t b ue ie (s.sess.getPdr (id.zeroExtend 32))) fun p =>
      Pres.bind (kept_modify _ _ (fun s => { s with sess := s.sess.putPdr (id.zeroExtend 32) p }) fun _ => ⟨rfl, rfl⟩) fun _ => kept_apply t b p).apply h

theorem kept_remove (t : U32) (ord : Orders) (d : Option U16) : Pres (Kept t true) (removePdr ord d) := by
  apply pres_of; intro s h
  cases hq : s.sess.pdrs.get? (BitVec.zeroExtend 32 (d.getD 0)) with
  | none => rw [removePdr_unknown hq]; exact h
  | some q =>
    rw [removePdr_known hq]
    generalize hs1 : ({ s with sess := s.sess.removePdr (BitVec.zeroExtend 32 (d.getD 0)) } : HS) = s1
    have w1 : Kept t true s1 := by subst hs1; exact ⟨h.ent, h.cache⟩
    obtain ⟨rm, e⟩ := deletePdr_dp ord q s1
    rw [e]
    cases deletePdrEntry_cases q s1 with
    | gone dp c hdl _ hdp hc =>
      rw [hdl]
      have hcache : (c.get? (t.truncate 8)).isSome := by
        rcases hc with ⟨rfl, _⟩ | ⟨hk, rfl, _⟩
        · exact w1.cache rfl
        · rw [GoMap.get?_set]; split
          · rfl
          · exact w1.cache rfl
      refine ⟨?_, fun _ => hcache⟩
      show (dp.entry? (.ul t)).isSome
      rw [hdp, if_neg]; exact w1.ent
      intro hk
      rcases hc with ⟨_, hno⟩ | ⟨_, _, hno⟩
      · exact hno t hk.symm
      · have : q.teid = t := by
          have := key_ul q hk.symm; exact this.symm
        rw [this] at hno
        have := w1.cache rfl
        rw [hno] at this; cases this
    | absent hdl _ => rw [hdl]; exact ⟨w1.ent, w1.cache⟩
    | skipped hdl _ _ => rw [hdl]; exact ⟨w1.ent, w1.cache⟩

theorem create_cached {ue : Bool} {ie : PdrIE} {t : U32} (ha : ie.asksTeid = some (some (t.truncate 8))) {s s' : HS}
    (h : createPdr ue ie s = (s', .ok ())) : (s'.cache.get? (t.truncate 8)).isSome := by
  obtain ⟨id, p, s1, -, he, -, -, -, hc, -⟩ := createPdr_ok h
  rw [hc]
  cases got he with
  | shared c ha' hcc e _ _ _ => rw [ha] at ha'; cases ha'; rw [e, hcc]; rfl
  | fresh c ha' _ _ _ hcache _ _ _ => rw [ha] at ha'; cases ha'; rw [hcache]; simp
  | address _ hn _ _ _ _ _ _ _ => rw [ha] at hn; cases hn
  | given hn _ _ _ => rw [ha] at hn; cases hn

/-- **C97, negation without the restriction on modifications.** The entry of an uplink TEID survives every accepted modification in which a
Create PDR asks for a TEID with a CHOOSE ID equal to the low octet of that TEID, whatever PDRs the modification removes: the removal is
skipped. Any node, any session. -/
theorem C97_removal_skipped {n : Node} {a : Addr} {r : ModReq} {ord : Orders} {x : Session} (hs : n.session? a r.seid = some x)
    {t : U32} (hent : (n.dp.entry? (.ul t)).isSome) {ie : PdrIE} (hie : ie ∈ r.createPdr) (ha : ie.asksTeid = some (some (t.truncate 8)))
    {n' : Node} {resp : Resp} (hstep : n.step (.modify a r ord) = (n', .reply resp)) (hacc : resp.cause = 1) :
    (n'.dp.entry? (.ul t)).isSome := by
  obtain ⟨hs', hb, -, hn2, -⟩ := modify_accepted hs hstep hacc
  rw [hn2]
  rw [modifyBody_split] at hb
  obtain ⟨_, s1, e1, e2⟩ := bind_ok hb
  have hfr : ∀ b {s s' : HS}, RuleFrame s s' → Kept t b s → Kept t b s' := fun b s s' hf h =>
    ⟨by rw [entry_pdr hf.ul hf.dl4 hf.dl6]; exact h.ent, fun hb => by rw [hf.cache]; exact h.cache hb⟩
  have k1 : Kept t true s1 := by
    unfold modifyBody at e1
    have k0 : Kept t false (n.hs (x.setRemote r.cpFseid)) := ⟨hent, fun h => by cases h⟩
    obtain ⟨_, u0, a0, b0⟩ := bind_ok e1
    have q0 := (display_pres (I := Kept t false) r.createPdr).apply k0
    rw [a0] at q0
    obtain ⟨_, u1, a1, b1⟩ := bind_ok b0
    have q1 := (display_pres (I := Kept t false) r.updatePdr).apply q0
    rw [a1] at q1
    obtain ⟨_, u2, a2, b2⟩ := bind_ok b1
    have q2 := pres_each_ok (I := Kept t false) (fun _ _ => pres_of fun _ h => hfr false (createFar_rf ..) h) a2 q1
    obtain ⟨_, u3, a3, b3⟩ := bind_ok b2
    have q3 := pres_each_ok (I := Kept t false) (fun _ _ => pres_of fun _ h => hfr false (updateFar_rf ..) h) a3 q2
    obtain ⟨_, u4, a4, b4⟩ := bind_ok b3
    have q4 := pres_each_ok (I := Kept t false) (fun _ _ => pres_of fun _ h => hfr false (removeFar_rf ..) h) a4 q3
    obtain ⟨_, u5, a5, b5⟩ := bind_ok b4
    have q5 := pres_each_ok (I := Kept t false) (fun _ _ => pres_of fun _ h => hfr false (createQer_rf ..) h) a5 q4
    obtain ⟨_, u6, a6, b6⟩ := bind_ok b5
    have q6 := pres_each_ok (I := Kept t false) (fun _ _ => pres_of fun _ h => hfr false (updateQer_rf ..) h) a6 q5
    obtain ⟨_, u7, a7, b7⟩ := bind_ok b6
    have q7 := pres_each_ok (I := Kept t false) (fun _ _ => pres_of fun _ h => hfr false (removeQer_rf ..) h) a7 q6
    obtain ⟨_, u8, a8, b8⟩ := bind_ok b7
    have q8 := pres_each_ok (I := Kept t false) (fun _ _ => pres_of fun _ h => hfr false (createUrr_rf ..) h) a8 q7
    obtain ⟨_, u9, a9, b9⟩ := bind_ok b8
    have q9 := pres_each_ok (I := Kept t false) (fun _ _ => pres_of fun _ h => hfr false (updateUrr_rf ..) h) a9 q8
    obtain ⟨_, u10, a10, b10⟩ := bind_ok b9
    have q10 := pres_each_ok (I := Kept t false) (fun _ _ => pres_of fun _ h => hfr false (removeUrr_rf ..) h) a10 q9
    obtain ⟨_, s3, f3, b11⟩ := bind_ok b10
    obtain ⟨_, s6, f4, b12⟩ := bind_ok b11
    cases b12
    have k2 := q10
    obtain ⟨l1, l2, hl⟩ := List.append_of_mem hie
    rw [hl] at f3
    obtain ⟨s4, g1, g2⟩ := each_append_ok l1 f3
    obtain ⟨s5, g3, g4⟩ := each_cons_ok g2
    have k4 := pres_each_ok (I := Kept t false) (fun _ _ => kept_create t false _ _) g1 k2
    have k5 := (kept_create t false n.ueip ie).apply k4
    rw [g3] at k5
    have k5 : Kept t true s5 := ⟨k5.ent, fun _ => create_cached ha g3⟩
    have k3 := pres_each_ok (I := Kept t true) (fun _ _ => kept_create t true _ _) g4 k5
    exact pres_each_ok (I := Kept t true) (fun _ _ => kept_update t true _ _) f4 k3
  exact (pres_each_ok (I := Kept t true) (fun d _ => kept_remove t ord d) e2 k1).ent

end Eupf
