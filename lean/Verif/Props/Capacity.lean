import Verif.CapacityNode
import Verif.Props.Slots
import Verif.Props.Leaks
/-
C94: slots for FARs, QERs and URRs come back.
-/
namespace Eupf
open Act

theorem Tidy.far {n : Node} {e : Ev} (h : Tidy n e) : TidyFor .far n e := ⟨h.est, h.modif, fun hk => by
  have := congrFun (congrFun hk { (Session.new 0 0) with fars := GoMap.empty.set 0 ⟨{}, 0⟩ }) 0
  simp [RuleKind.far, RuleKind.urr, Session.new] at this⟩
theorem Tidy.qer {n : Node} {e : Ev} (h : Tidy n e) : TidyFor .qer n e := ⟨h.est, h.modif, fun hk => by
  have := congrFun (congrFun hk { (Session.new 0 0) with qers := GoMap.empty.set 0 ⟨{}, 0⟩ }) 0
  simp [RuleKind.qer, RuleKind.urr, Session.new] at this⟩
theorem Tidy.urr {n : Node} {e : Ev} (h : Tidy n e) (h' : LosesNoUrr n e) : TidyFor .urr n e := ⟨h.est, h.modif, fun _ => h'⟩

section
variable {cfg : NodeCfg} {rm : Option ResourceManager} {p f q u : U32} {h : List (Ev × Outcome)} {n : Node}

/-- **C94.** In every tidy history: a slot of the FAR table (QER table) that is not free is the slot of a FAR (QER) of a live session. -/
theorem C94_no_leak_partial (H : HistP Tidy (Node.init cfg rm (BpfObjects.load p f q u)) h n) (hb : attempts h < 2 ^ 64 - 2) (g : U32) :
    (g.toNat < f.toNat → n.dp.farIds.free g = false → ∃ a s x i r, n.session? a s = some x ∧ x.fars.get? i = some r ∧ r.gid = g) ∧
    (g.toNat < q.toNat → n.dp.qerIds.free g = false → ∃ a s x i r, n.session? a s = some x ∧ x.qers.get? i = some r ∧ r.gid = g) := by
  have hf := slotsHeld_hist .far (fun n e h => Tidy.far h) H hb
  have hq := slotsHeld_hist .qer (fun n e h => Tidy.qer h) H hb
  constructor
  · intro h1 h2
    have hs : n.dp.farIds.maxSize = f := hf.sized.trans hf.keeps
    obtain ⟨a, s, x, hx, i, hi⟩ := hf.held g ⟨by show g.toNat < n.dp.farIds.maxSize.toNat; rw [hs]; exact h1, h2⟩
    obtain ⟨r, hr, hg⟩ := Option.map_eq_some_iff.1 hi
    exact ⟨a, s, x, i, r, hx, hr, hg⟩
  · intro h1 h2
    have hs : n.dp.qerIds.maxSize = q := hq.sized.trans hq.keeps
    obtain ⟨a, s, x, hx, i, hi⟩ := hq.held g ⟨by show g.toNat < n.dp.qerIds.maxSize.toNat; rw [hs]; exact h1, h2⟩
    obtain ⟨r, hr, hg⟩ := Option.map_eq_some_iff.1 hi
    exact ⟨a, s, x, i, r, hx, hr, hg⟩

/-- **C94, URRs.** If moreover no peer is lost that has a session with URRs: a slot of the URR table that is not free is the slot of a URR of a live session. -/
theorem C94_no_leak_urr_partial (H : HistP (fun n e => Tidy n e ∧ LosesNoUrr n e) (Node.init cfg rm (BpfObjects.load p f q u)) h n) (hb : attempts h < 2 ^ 64 - 2) (g : U32) :
    g.toNat < u.toNat → n.dp.urrIds.free g = false → ∃ a s x i r, n.session? a s = some x ∧ x.urrs.get? i = some r ∧ r.gid = g := by
  have hf := slotsHeld_hist .urr (fun n e h => Tidy.urr h.1 h.2) H hb
  intro h1 h2
  have hs : n.dp.urrIds.maxSize = u := hf.sized.trans hf.keeps
  obtain ⟨a, s, x, hx, i, hi⟩ := hf.held g ⟨by show g.toNat < n.dp.urrIds.maxSize.toNat; rw [hs]; exact h1, h2⟩
  obtain ⟨r, hr, hg⟩ := Option.map_eq_some_iff.1 hi
  exact ⟨a, s, x, i, r, hx, hr, hg⟩

/-- **C94, all back.** In every tidy history, whenever no session is live, every slot of the FAR table and of the QER table is free. -/
theorem C94_all_back (H : HistP Tidy (Node.init cfg rm (BpfObjects.load p f q u)) h n) (hb : attempts h < 2 ^ 64 - 2) (hn : ∀ a s, n.session? a s = none) (g : U32) :
    (g.toNat < f.toNat → n.dp.farIds.free g = true) ∧ (g.toNat < q.toNat → n.dp.qerIds.free g = true) := by
  obtain ⟨h1, h2⟩ := C94_no_leak_partial H hb g
  constructor
  · intro hg
    cases hx : n.dp.farIds.free g with
    | true => rfl
    | false => obtain ⟨a, s, x, _, _, h3, _⟩ := h1 hg hx; rw [hn] at h3; cases h3
  · intro hg
    cases hx : n.dp.qerIds.free g with
    | true => rfl
    | false => obtain ⟨a, s, x, _, _, h3, _⟩ := h2 hg hx; rw [hn] at h3; cases h3
end

/-! ### counting -/

/-- the slots a session has, rule by rule -/
def Session.farSlots (x : Session) : List U32 := x.fars.entries.map fun e => e.2.gid
def Session.qerSlots (x : Session) : List U32 := x.qers.entries.map fun e => e.2.gid
def Session.urrSlots (x : Session) : List U32 := x.urrs.entries.map fun e => e.2.gid

def Node.entriesOf (n : Node) : List (Addr × U64 × Session) := n.assocs.entries.flatMap fun a => a.2.sessions.entries.map fun s => (a.1, s.1, s.2)

theorem mem_entriesOf {n : Node} {a : Addr} {s : U64} {x : Session} : (a, s, x) ∈ n.entriesOf ↔ n.session? a s = some x := by
  simp only [Node.entriesOf, List.mem_flatMap, List.mem_map, Prod.mk.injEq, Node.session?]
  constructor
  · rintro ⟨⟨b, as⟩, h1, ⟨t, y⟩, h2, rfl, rfl, rfl⟩
    rw [(n.assocs.mem_entries_iff _ _).1 h1]
    exact (as.sessions.mem_entries_iff _ _).1 h2
  · intro h
    cases ha : n.assocs.get? a with
    | none => rw [ha] at h; cases h
    | some as =>
      rw [ha] at h
      exact ⟨(a, as), (n.assocs.mem_entries_iff _ _).2 ha, (s, x), (as.sessions.mem_entries_iff _ _).2 h, rfl, rfl, rfl⟩

theorem entriesOf_pairwise (n : Node) : n.entriesOf.Pairwise fun e e' => (e.1, e.2.1) ≠ (e'.1, e'.2.1) := by
  unfold Node.entriesOf
  rw [List.pairwise_flatMap]
  constructor
  · intro a _
    rw [List.pairwise_map]
    have := a.2.sessions.nodup
    unfold List.Nodup at this
    rw [List.pairwise_map] at this
    exact this.imp fun h e => h (Prod.mk.inj e).2
  · have := n.assocs.nodup
    unfold List.Nodup at this
    rw [List.pairwise_map] at this
    refine this.imp fun h x hx y hy => ?_
    obtain ⟨_, _, rfl⟩ := List.mem_map.1 hx
    obtain ⟨_, _, rfl⟩ := List.mem_map.1 hy
    exact fun e => h (Prod.mk.inj e).1

theorem live_entries (n : Node) : n.live = n.entriesOf.map fun e => e.2.2 := by
  unfold Node.live Node.entriesOf GoMap.values
  rw [List.flatMap_map, List.map_flatMap]
  congr 1
  funext a
  simp

theorem sum_lengths {α β : Type} (l : List α) (f : α → List β) : (l.map fun x => (f x).length).sum = (l.flatMap f).length := by
  rw [List.length_flatMap]

theorem length_split {α : Type} (l : List α) (p : α → Bool) : l.length = (l.filter p).length + (l.filter fun x => !p x).length := by
  induction l with
  | nil => rfl
  | cons x l ih => cases h : p x <;> simp [h] <;> omega

/-- slots in use are counted by the rules that have them -/
theorem count_slots {n : Node} {t : IdTracker} (sl : Session → List U32)
    (hd : ∀ a s x, n.session? a s = some x → (sl x).Nodup)
    (hex : ∀ a s x b t y g, n.session? a s = some x → n.session? b t = some y → g ∈ sl x → g ∈ sl y → (a, s) = (b, t))
    (hrange : ∀ a s x g, n.session? a s = some x → g ∈ sl x → g.toNat < t.maxSize.toNat ∧ t.free g = false)
    (hheld : ∀ g : U32, g.toNat < t.maxSize.toNat → t.free g = false → ∃ a s x, n.session? a s = some x ∧ g ∈ sl x) :
    (n.live.map fun x => (sl x).length).sum + slotsFree t = t.maxSize.toNat := by
  have hlen : ((n.entriesOf.flatMap fun e => sl e.2.2)).length = ((List.range t.maxSize.toNat).filter fun i => !t.free (BitVec.ofNat 32 i)).length := by
    have hn1 : (n.entriesOf.flatMap fun e => sl e.2.2).Nodup := by
      unfold List.Nodup
      rw [List.pairwise_flatMap]
      refine ⟨fun e he => hd e.1 e.2.1 e.2.2 (mem_entriesOf.1 he), ?_⟩
      refine (List.pairwise_iff_forall_sublist.2 fun {e e'} hsub g hg g' hg' e0 => ?_)
      subst e0
      have hm := hsub.subset (a := e) (by simp)
      have hm' := hsub.subset (a := e') (by simp)
      exact (List.pairwise_iff_forall_sublist.1 (entriesOf_pairwise n)) hsub (hex e.1 e.2.1 e.2.2 e'.1 e'.2.1 e'.2.2 g (mem_entriesOf.1 hm) (mem_entriesOf.1 hm') hg hg')
    have hn2 : (((List.range t.maxSize.toNat).filter fun i => !t.free (BitVec.ofNat 32 i)).map (BitVec.ofNat 32)).Nodup := by
      unfold List.Nodup
      rw [List.pairwise_map]
      refine List.pairwise_iff_forall_sublist.2 fun {i j} hsub e => ?_
      have hi := List.mem_filter.1 (hsub.subset (a := i) (by simp))
      have hj := List.mem_filter.1 (hsub.subset (a := j) (by simp))
      have hlt := t.maxSize.isLt
      have h1 := List.mem_range.1 hi.1
      have h2 := List.mem_range.1 hj.1
      have h3 := congrArg BitVec.toNat e
      rw [BitVec.toNat_ofNat, BitVec.toNat_ofNat] at h3
      have : i = j := by omega
      subst this
      have hnd : [i, i].Nodup := (List.Pairwise.filter _ List.nodup_range).sublist hsub
      simp at hnd
    have hp := (List.perm_ext_iff_of_nodup hn1 hn2).2 fun g => by
      rw [List.mem_flatMap, List.mem_map]
      constructor
      · rintro ⟨e, he, hg⟩
        obtain ⟨h1, h2⟩ := hrange e.1 e.2.1 e.2.2 g (mem_entriesOf.1 he) hg
        exact ⟨g.toNat, List.mem_filter.2 ⟨List.mem_range.2 h1, by simp [h2]⟩, by simp⟩
      · rintro ⟨i, hi, rfl⟩
        obtain ⟨h1, h2⟩ := List.mem_filter.1 hi
        have hlt := t.maxSize.isLt
        have h1 := List.mem_range.1 h1
        have h3 : (BitVec.ofNat 32 i).toNat = i := by rw [BitVec.toNat_ofNat]; omega
        obtain ⟨a, s, x, hx, hg⟩ := hheld (BitVec.ofNat 32 i) (by omega) (by simpa using h2)
        exact ⟨(a, s, x), mem_entriesOf.2 hx, hg⟩
    have := hp.length_eq
    rwa [List.length_map] at this
  rw [live_entries, List.map_map]
  have e : (fun x => (sl x).length) ∘ (fun e : Addr × U64 × Session => e.2.2) = fun e => (sl e.2.2).length := rfl
  rw [e, sum_lengths n.entriesOf (fun e => sl e.2.2), hlen]
  unfold slotsFree
  have := length_split (List.range t.maxSize.toNat) (fun i => t.free (BitVec.ofNat 32 i))
  rw [List.length_range] at this
  omega

section
variable {cfg : NodeCfg} {rm : Option ResourceManager} {p f q u : U32} {h : List (Ev × Outcome)} {n : Node}

theorem nodup_gids {V : Type} {m : GoMap U32 V} {gid : V → U32} (hinj : ∀ i j v w, m.get? i = some v → m.get? j = some w → gid v = gid w → i = j) :
    (m.entries.map fun e => gid e.2).Nodup := by
  unfold List.Nodup
  rw [List.pairwise_map]
  have := m.nodup
  unfold List.Nodup at this
  rw [List.pairwise_map] at this
  refine List.pairwise_iff_forall_sublist.2 fun {e e'} hsub he => ?_
  refine (List.pairwise_iff_forall_sublist.1 this) hsub ?_
  exact hinj _ _ _ _ ((m.mem_entries_iff _ _).1 (hsub.subset (by simp))) ((m.mem_entries_iff _ _).1 (hsub.subset (by simp))) he

theorem tidy_good (H : HistP Tidy (Node.init cfg rm (BpfObjects.load p f q u)) h n) : GoodReach (Node.init cfg rm (BpfObjects.load p f q u)) n :=
  H.good fun _ _ h => h.known

/-- **C94, counted.** In every tidy history the number of FARs of live sessions and the number of free FAR slots add up to the configured size of
the FAR table, and likewise for QERs. -/
theorem C94_counted (H : HistP Tidy (Node.init cfg rm (BpfObjects.load p f q u)) h n) (hb : attempts h < 2 ^ 64 - 2) :
    n.fars + n.freeFars = f.toNat ∧ n.qers + n.freeQers = q.toNat := by
  have hf := slotsHeld_hist .far (fun n e h => Tidy.far h) H hb
  have hq := slotsHeld_hist .qer (fun n e h => Tidy.qer h) H hb
  have hsf : n.dp.farIds.maxSize = f := hf.sized.trans hf.keeps
  have hsq : n.dp.qerIds.maxSize = q := hq.sized.trans hq.keeps
  have G := tidy_good H
  have S := slots_reach G
  have memF : ∀ (x : Session) g, g ∈ x.farSlots ↔ ∃ i r, x.fars.get? i = some r ∧ r.gid = g := fun x g => by
    unfold Session.farSlots
    rw [List.mem_map]
    exact ⟨fun ⟨e, he, hg⟩ => ⟨e.1, e.2, (x.fars.mem_entries_iff _ _).1 he, hg⟩, fun ⟨i, r, hr, hg⟩ => ⟨(i, r), (x.fars.mem_entries_iff _ _).2 hr, hg⟩⟩
  have memQ : ∀ (x : Session) g, g ∈ x.qerSlots ↔ ∃ i r, x.qers.get? i = some r ∧ r.gid = g := fun x g => by
    unfold Session.qerSlots
    rw [List.mem_map]
    exact ⟨fun ⟨e, he, hg⟩ => ⟨e.1, e.2, (x.qers.mem_entries_iff _ _).1 he, hg⟩, fun ⟨i, r, hr, hg⟩ => ⟨(i, r), (x.qers.mem_entries_iff _ _).2 hr, hg⟩⟩
  constructor
  · have := count_slots (n := n) (t := n.dp.farIds) Session.farSlots
      (fun a s x hx => nodup_gids (m := x.fars) (gid := fun (v : SFar) => v.gid) fun i j v w hv hw hg => ((C08_exclusive_partial G hx hx i j).1 v w hv hw hg).2.2)
      (fun a s x b t y g hx hy h1 h2 => by
        obtain ⟨i, r, hr, hg⟩ := (memF x g).1 h1
        obtain ⟨j, r', hr', hg'⟩ := (memF y g).1 h2
        obtain ⟨e1, e2, _⟩ := (C08_exclusive_partial G hx hy i j).1 r r' hr hr' (hg.trans hg'.symm)
        rw [e1, e2])
      (fun a s x g hx h1 => by
        obtain ⟨i, r, hr, hg⟩ := (memF x g).1 h1
        obtain ⟨o1, o2, _⟩ := S.far.ok (some (a, s), i) r.gid r.info (by
          have : n.view (some (a, s)) = some x := hx
          simp [ownFar, this, hr])
        rw [hg] at o1 o2
        exact ⟨by rw [S.far.size]; exact o1, o2⟩)
      (fun g h1 h2 => by
        obtain ⟨a, s, x, i, r, hx, hr, hg⟩ := (C94_no_leak_partial H hb g).1 (by rw [← hsf]; exact h1) h2
        exact ⟨a, s, x, hx, (memF x g).2 ⟨i, r, hr, hg⟩⟩)
    simp only [Session.farSlots, List.length_map, hsf] at this
    exact this
  · have := count_slots (n := n) (t := n.dp.qerIds) Session.qerSlots
      (fun a s x hx => nodup_gids (m := x.qers) (gid := fun (v : SQer) => v.gid) fun i j v w hv hw hg => ((C08_exclusive_partial G hx hx i j).2.1 v w hv hw hg).2.2)
      (fun a s x b t y g hx hy h1 h2 => by
        obtain ⟨i, r, hr, hg⟩ := (memQ x g).1 h1
        obtain ⟨j, r', hr', hg'⟩ := (memQ y g).1 h2
        obtain ⟨e1, e2, _⟩ := (C08_exclusive_partial G hx hy i j).2.1 r r' hr hr' (hg.trans hg'.symm)
        rw [e1, e2])
      (fun a s x g hx h1 => by
        obtain ⟨i, r, hr, hg⟩ := (memQ x g).1 h1
        obtain ⟨o1, o2, _⟩ := S.qer.ok (some (a, s), i) r.gid r.info (by
          have : n.view (some (a, s)) = some x := hx
          simp [ownQer, this, hr])
        rw [hg] at o1 o2
        exact ⟨by rw [S.qer.size]; exact o1, o2⟩)
      (fun g h1 h2 => by
        obtain ⟨a, s, x, i, r, hx, hr, hg⟩ := (C94_no_leak_partial H hb g).2 (by rw [← hsq]; exact h1) h2
        exact ⟨a, s, x, hx, (memQ x g).2 ⟨i, r, hr, hg⟩⟩)
    simp only [Session.qerSlots, List.length_map, hsq] at this
    exact this

/-- **C94, counted, URRs**, if no peer is lost that has a session with URRs. -/
theorem C94_counted_urr (H : HistP (fun n e => Tidy n e ∧ LosesNoUrr n e) (Node.init cfg rm (BpfObjects.load p f q u)) h n) (hb : attempts h < 2 ^ 64 - 2) :
    n.urrs + n.freeUrrs = u.toNat := by
  have hq := slotsHeld_hist .urr (fun n e h => Tidy.urr h.1 h.2) H hb
  have hsq : n.dp.urrIds.maxSize = u := hq.sized.trans hq.keeps
  have G := H.good fun _ _ h => h.1.known
  have S := slots_reach G
  have memQ : ∀ (x : Session) g, g ∈ x.urrSlots ↔ ∃ i r, x.urrs.get? i = some r ∧ r.gid = g := fun x g => by
    unfold Session.urrSlots
    rw [List.mem_map]
    exact ⟨fun ⟨e, he, hg⟩ => ⟨e.1, e.2, (x.urrs.mem_entries_iff _ _).1 he, hg⟩, fun ⟨i, r, hr, hg⟩ => ⟨(i, r), (x.urrs.mem_entries_iff _ _).2 hr, hg⟩⟩
  have := count_slots (n := n) (t := n.dp.urrIds) Session.urrSlots
    (fun a s x hx => nodup_gids (m := x.urrs) (gid := fun (v : SUrr) => v.gid) fun i j v w hv hw hg => ((C08_exclusive_partial G hx hx i j).2.2.1 v w hv hw hg).2.2)
    (fun a s x b t y g hx hy h1 h2 => by
      obtain ⟨i, r, hr, hg⟩ := (memQ x g).1 h1
      obtain ⟨j, r', hr', hg'⟩ := (memQ y g).1 h2
      obtain ⟨e1, e2, _⟩ := (C08_exclusive_partial G hx hy i j).2.2.1 r r' hr hr' (hg.trans hg'.symm)
      rw [e1, e2])
    (fun a s x g hx h1 => by
      obtain ⟨i, r, hr, hg⟩ := (memQ x g).1 h1
      obtain ⟨o1, o2, _⟩ := S.urr.ok (some (a, s), i) r.gid r.info (by
        have : n.view (some (a, s)) = some x := hx
        simp [ownUrr, this, hr])
      rw [hg] at o1 o2
      exact ⟨by rw [S.urr.size]; exact o1, o2⟩)
    (fun g h1 h2 => by
      obtain ⟨a, s, x, i, r, hx, hr, hg⟩ := C94_no_leak_urr_partial H hb g (by rw [← hsq]; exact h1) h2
      exact ⟨a, s, x, hx, (memQ x g).2 ⟨i, r, hr, hg⟩⟩)
  simp only [Session.urrSlots, List.length_map, hsq] at this
  exact this

end

/-! ### the allocator, counted -/

theorem slotsFree_none {t : IdTracker} : t.getNext.2 = none ↔ slotsFree t = 0 := by
  unfold slotsFree
  rw [List.length_eq_zero_iff, List.filter_eq_nil_iff]
  constructor
  · intro h i hi
    have := (IdTracker.getNext_none h).2 (BitVec.ofNat 32 i) (by
      have := List.mem_range.1 hi
      have := t.maxSize.isLt
      rw [BitVec.toNat_ofNat]; omega)
    simp [this]
  · intro h
    cases hg : t.getNext.2 with
    | none => rfl
    | some g =>
      obtain ⟨h1, h2, _⟩ := IdTracker.getNext_some hg
      have := h g.toNat (List.mem_range.2 h2)
      simp [h1] at this

theorem slotsFree_getNext (t : IdTracker) : slotsFree t.getNext.1 = slotsFree t - 1 := by
  cases hg : t.getNext.2 with
  | none => rw [(IdTracker.getNext_none hg).1, slotsFree_none.1 hg]
  | some g =>
    obtain ⟨h1, h2, h3⟩ := IdTracker.getNext_some hg
    have hm : g.toNat ∈ (List.range t.maxSize.toNat).filter (fun i => t.free (BitVec.ofNat 32 i)) := List.mem_filter.2 ⟨List.mem_range.2 h2, by simp [h1]⟩
    have hnd : ((List.range t.maxSize.toNat).filter (fun i => t.free (BitVec.ofNat 32 i))).Nodup := List.Pairwise.filter _ List.nodup_range
    have e : (List.range t.maxSize.toNat).filter (fun i => t.getNext.1.free (BitVec.ofNat 32 i)) = ((List.range t.maxSize.toNat).filter (fun i => t.free (BitVec.ofNat 32 i))).erase g.toNat := by
      rw [hnd.erase_eq_filter, List.filter_filter]
      apply List.filter_congr
      intro i hi
      have hi := List.mem_range.1 hi
      have hlt := t.maxSize.isLt
      rw [h3, Bool.and_comm]
      congr 1
      have : (BitVec.ofNat 32 i ≠ g) ↔ i ≠ g.toNat := by
        constructor
        · intro h e; exact h (by rw [e]; simp)
        · rintro h rfl; apply h; rw [BitVec.toNat_ofNat]; omega
      rw [bne, beq_eq_decide, ← decide_not]
      exact decide_eq_decide.2 this
    unfold slotsFree
    rw [IdTracker.getNext_maxSize, e, List.length_erase_of_mem hm]

theorem newFar_ids (b : BpfObjects) (f : FarInfo) : (b.newFar f).1.farIds = b.farIds.getNext.1 := by
  unfold BpfObjects.newFar
  simp only []
  split
  · rfl
  · split <;> rfl

/-! ### peers that are not tidy -/

/-- an establishment request that is rejected after a FAR slot was taken: its second FAR has an IPv6 address in the outer header -/
def slotFar : FarIE := { kind := .create, farId := some 1, applyAction := some [2] }
def slotBad : FarIE :=
  { kind := .create, farId := some 2, applyAction := some [2], forward := some (some (some { desc := 0x200, teid := 1, ipv4 := none, hasIPv6 := true })) }
def slotReq (cp : U64) (seq : U32) : EstReq :=
  { seq := seq, nodeId := some (some ()), cpFseid := some (some cp), createFar := [slotFar, slotBad] }

theorem slotBad_err (s : HS) : createFar slotBad s = (s, .err) := rfl

theorem slot_body {ue : Bool} {cp : U64} {seq : U32} {s s' : HS} {res : Res Unit} (h : establishBody ue (slotReq cp seq) s = (s', res)) :
    res = .err ∧ s'.dp.farIds = s.dp.farIds.getNext.1 := by
  have e : establishBody ue (slotReq cp seq) s = Act.bind (Act.bind (createFar slotFar) (fun _ => Act.bind (createFar slotBad) (fun _ => Act.each createFar [])))
      (fun _ => Act.each createQer [] >>= fun _ => Act.each createUrr [] >>= fun _ => Act.each (createPdr ue) []) s := rfl
  rw [e] at h
  have hc : ∃ s1 r1, createFar slotFar s = (s1, r1) ∧ s1.dp.farIds = s.dp.farIds.getNext.1 ∧ r1 ≠ .panic := by
    have hids := newFar_ids s.dp { action := 2 }
    have hd : createFar slotFar s = (match s.dp.newFar { action := 2 } with
      | (dp, some gid) => ({ s with dp := dp, sess := s.sess.newFar 1 gid { action := 2 } }, .ok ())
      | (dp, none) => ({ s with dp := dp }, .err)) := rfl
    rcases hn : s.dp.newFar { action := 2 } with ⟨dp, _ | g⟩
    · rw [hn] at hd hids
      exact ⟨_, _, hd, hids, by simp⟩
    · rw [hn] at hd hids
      exact ⟨_, _, hd, hids, by simp⟩
  obtain ⟨s1, r1, hc, hi, hp⟩ := hc
  unfold Act.bind at h
  simp only [hc, slotBad_err] at h
  cases r1 with
  | panic => exact absurd rfl hp
  | err => cases h; exact ⟨rfl, hi⟩
  | ok _ => cases h; exact ⟨rfl, hi⟩

/-- **A rejected request costs a slot for good.** In every state with an association: the request is rejected with cause 73, the sessions are the same,
and one slot of the FAR table less is free. -/
theorem C94_rejected_leaks (n : Node) (addr : Addr) (cp : U64) (seq : U32) (ha : (n.assocs.get? addr).isSome) :
    (n.step (.establish addr (slotReq cp seq))).2 = .reply { type := .establishment, seid := cp, seq := seq, cause := 73 } ∧
    (n.step (.establish addr (slotReq cp seq))).1.freeFars = n.freeFars - 1 ∧
    (∀ a s, (n.step (.establish addr (slotReq cp seq))).1.session? a s = n.session? a s) ∧
    ((n.step (.establish addr (slotReq cp seq))).1.assocs.get? addr).isSome := by
  show (n.establish addr (slotReq cp seq)).2 = _ ∧ slotsFree (n.establish addr (slotReq cp seq)).1.dp.farIds = _ ∧ (∀ a s, (n.establish addr (slotReq cp seq)).1.session? a s = _) ∧
    ((n.establish addr (slotReq cp seq)).1.assocs.get? addr).isSome
  cases establish_cases n addr (slotReq cp seq) with
  | refused c hcc he =>
    exfalso
    obtain ⟨a, ha⟩ := Option.isSome_iff_exists.1 ha
    rcases hcc with rfl | rfl
    · have : (n.establish addr (slotReq cp seq)).2 = .reply { type := .establishment, seq := seq, cause := 66 } := by rw [he]; rfl
      simp only [Node.establish, slotReq, validateRequest, ha] at this
      split at this <;> simp [causeAccepted, causeRuleFailure] at this
    · have : (n.establish addr (slotReq cp seq)).2 = .reply { type := .establishment, seq := seq, cause := 72 } := by rw [he]; rfl
      simp only [Node.establish, slotReq, validateRequest, ha] at this
      split at this <;> simp [causeAccepted, causeRuleFailure] at this
  | ran remote a hs res hid hcp ha hbody hl hrem he =>
    cases hcp
    obtain ⟨rfl, h2⟩ := slot_body hbody
    rw [he]
    refine ⟨rfl, ?_, ?_, ?_⟩
    · show slotsFree hs.dp.farIds = _
      rw [h2]; exact slotsFree_getNext _
    · intro b s
      simp only [Node.estResult, Node.session?, GoMap.get?_set]
      split
      · subst b; simp only [Assoc.bumped, ha]; rfl
      · rfl
    · simp [Node.estResult]

/-- **As many rejected requests as there are free slots fill the FAR table**, whatever the state, without a single session being established. -/
theorem C94_exhausted (addr : Addr) (cp : U64) (seq : U32) : ∀ (k : Nat) (n : Node), (n.assocs.get? addr).isSome →
    (n.run (List.replicate k (.establish addr (slotReq cp seq)))).2 = List.replicate k (.reply { type := .establishment, seid := cp, seq := seq, cause := 73 }) ∧
    (n.run (List.replicate k (.establish addr (slotReq cp seq)))).1.freeFars = n.freeFars - k ∧
    ∀ a s, (n.run (List.replicate k (.establish addr (slotReq cp seq)))).1.session? a s = n.session? a s
  | 0, n, _ => ⟨rfl, rfl, fun _ _ => rfl⟩
  | k + 1, n, ha => by
    obtain ⟨h1, h2, h3, h4⟩ := C94_rejected_leaks n addr cp seq ha
    obtain ⟨i1, i2, i3⟩ := C94_exhausted addr cp seq k _ h4
    rw [List.replicate_succ]
    have e : n.run (.establish addr (slotReq cp seq) :: List.replicate k (.establish addr (slotReq cp seq))) =
        (((n.step (.establish addr (slotReq cp seq))).1.run (List.replicate k (.establish addr (slotReq cp seq)))).1,
          (n.step (.establish addr (slotReq cp seq))).2 :: ((n.step (.establish addr (slotReq cp seq))).1.run (List.replicate k (.establish addr (slotReq cp seq)))).2) := by
      rcases hx : n.step (.establish addr (slotReq cp seq)) with ⟨n1, o⟩
      rw [hx] at h1
      simp only at h1
      subst h1
      simp only [Node.run, hx]
    rw [e]
    refine ⟨?_, ?_, fun a s => (i3 a s).trans (h3 a s)⟩
    · rw [i1, h1]; rfl
    · rw [i2, h2]; omega

/-- With no free FAR slot no establishment that creates a FAR is accepted. -/
theorem C94_full {n : Node} {addr : Addr} {r : EstReq} (hf : n.freeFars = 0) (hne : r.createFar ≠ []) : ¬ (n.step (.establish addr r)).2.ok := by
  rintro ⟨resp, hr, hcause⟩
  obtain ⟨seid, remote, hs, _, _, hbody, -⟩ := establish_accepted (n' := (n.step (.establish addr r)).1) (resp := resp) (Prod.ext rfl hr) hcause
  obtain ⟨s1, s2, s3, e1, -⟩ := establish_pdrs hbody
  cases hl : r.createFar with
  | nil => exact hne hl
  | cons c l =>
    rw [hl] at e1
    obtain ⟨s0, h1, _⟩ := each_cons_ok e1
    have hm := createFar_made c (n.hs (Session.new seid remote))
    rw [h1] at hm
    cases hm with
    | made i g hk hr ht hs =>
      cases ht with
      | got _ hi hz hg =>
        have := slotsFree_none.2 hf
        rw [show (RuleKind.far.ids (n.hs (Session.new seid remote)).dp) = n.dp.farIds from rfl] at hg
        rw [this] at hg; cases hg
    | failed _ _ hr => cases hr
    | same hr => exact absurd rfl hr

/-- **The slots of URRs are not given back when a peer is lost**: in every state, losing a peer leaves the set of free URR slots as it is, although all
sessions of the peer are gone. -/
theorem C94_peer_lost_keeps_urr_slots {n n' : Node} {addr : Addr} {ord : Orders} (hstep : n.step (.peerLost addr ord) = (n', .silent)) :
    n'.dp.urrIds = n.dp.urrIds ∧ ∀ s, n'.session? addr s = none := by
  have key : ∀ (l : List (U64 × Session)) (rm : Option ResourceManager) (dp : BpfObjects), (dropSessions ord l rm dp).2.1.urrIds = dp.urrIds := by
    intro l
    induction l with
    | nil => intro rm dp; rfl
    | cons e l ih =>
      intro rm dp
      have h : Pres (Aside .urr ⟨e.2, GoMap.empty, rm, dp, [], []⟩) (deleteSessionBody ord e.2) :=
        Pres.bind (Pres.each fun e _ => Act.Pres.ignore (pres_aside (fun s => (dropFar_only e s).aside.2) _)) fun _ =>
        Pres.bind (Pres.each fun e _ => Act.Pres.ignore (pres_aside (fun s => (dropQer_only e s).aside.2) _)) fun _ =>
        Pres.each fun e _ => Act.Pres.ignore (apart_pres_aside (fun s0 => apart_delete ord e.2 s0) .urr _)
      have h1 : (deleteSessionBody ord e.2 ⟨e.2, GoMap.empty, rm, dp, [], []⟩).1.dp.urrIds = dp.urrIds := (h.apply (.refl _ _)).ids
      obtain ⟨seid, x⟩ := e
      unfold dropSessions
      simp only
      split
      · exact h1
      · rw [ih]; exact h1
  simp only [Node.step, Node.deleteAssociation] at hstep
  cases ha : n.assocs.get? addr with
  | none => simp only [ha] at hstep; cases hstep
  | some a =>
    simp only [ha] at hstep
    have hk := key (ord.sessions.run a.sessions.entries) n.rm n.dp
    rcases hd : dropSessions ord (ord.sessions.run a.sessions.entries) n.rm n.dp with ⟨rm, dp, ok⟩
    rw [hd] at hstep hk
    cases ok with
    | false => cases hstep
    | true =>
      cases hstep
      refine ⟨hk, fun s => ?_⟩
      simp [Node.session?]

/-! ### concrete cases -/

namespace Demo
/-- peer 1 gets a session with a FAR, a QER and a URR, replaces the FAR by another one, and deletes the session -/
def swapFar : ModReq := { seid := 2, seq := 6, createFar := [{ kind := .create, farId := some 2, applyAction := some [2] }], removeFar := [some 1] }
def nT1 : Node := (n0.step (.assocSetup 1 1 (some (some ())) (some (some ())))).1
def nT2 : Node := (nT1.step (.establish 1 (est 100))).1
def nT3 : Node := (nT2.step (.modify 1 swapFar default)).1
def nT4 : Node := (nT3.step (.delete 1 ⟨2, 9⟩ default)).1
/-- the peer is lost instead -/
def nT5 : Node := (nT2.step (.peerLost 1 default)).1

theorem tidy_assoc (n : Node) (a : Addr) : Tidy n (.assocSetup a 1 (some (some ())) (some (some ()))) :=
  ⟨trivial, (by intro a r h; cases h), (by intro a r o x h; cases h)⟩
theorem tidy_est : Tidy nT1 (.establish 1 (est 100)) := by
  refine ⟨trivial, fun a r h => ?_, (by intro a r o x h; cases h)⟩
  cases h
  refine ⟨⟨by decide, fun c _ => rfl, by decide, fun c _ j _ => rfl, by decide, fun j _ => rfl⟩, fun resp hr => ?_⟩
  have : (nT1.step (.establish 1 (est 100))).2.noFailureB = true := by decide +kernel
  rw [hr] at this
  simpa [Outcome.noFailureB] using this
theorem tidy_swap : Tidy nT2 (.modify 1 swapFar default) := by
  have hx : (nT2.session? 1 2).map (fun x => ((x.fars.get? 1).isSome, x.fars.get? 2)) = some (true, none) := by decide +kernel
  refine ⟨fun x h => ?_, (by intro a r h; cases h), fun a r o x h hs => ?_⟩
  · have h : nT2.session? 1 2 = some x := h
    rw [h] at hx
    simp only [Option.map_some, Option.some.injEq, Prod.mk.injEq] at hx
    refine ⟨by simp [swapFar], fun id hid => .inl ?_, by decide, by simp [swapFar], by simp [swapFar], by decide, by simp [swapFar], by simp [swapFar], by decide⟩
    simp only [swapFar, List.mem_singleton] at hid
    subst hid
    exact hx.1
  · cases h
    have hs : nT2.session? 1 2 = some x := hs
    rw [hs] at hx
    simp only [Option.map_some, Option.some.injEq, Prod.mk.injEq] at hx
    refine ⟨by decide, fun c hc => ?_, by decide, by simp [swapFar], by decide, by simp [swapFar]⟩
    simp only [swapFar, List.mem_singleton] at hc
    subst hc
    exact hx.2
theorem tidy_del (n : Node) : Tidy n (.delete 1 ⟨2, 9⟩ default) := ⟨trivial, (by intro a r h; cases h), (by intro a r o x h; cases h)⟩

theorem tidy3 : ∃ h, HistP Tidy n0 h nT3 ∧ attempts h = 1 := by
  have h1 : HistP Tidy n0 _ nT1 := HistP.step _ .init (tidy_assoc n0 1) (by decide +kernel)
  have h2 : HistP Tidy n0 _ nT2 := HistP.step _ h1 tidy_est (by decide +kernel)
  have h3 : HistP Tidy n0 _ nT3 := HistP.step _ h2 tidy_swap (by decide +kernel)
  exact ⟨_, h3, by decide⟩
end Demo

/-- Non-vacuity of C94: in the middle of the history one of the four FAR slots is in use; after the deletion no session is live. -/
example : ∃ h h', HistP Tidy Demo.n0 h Demo.nT3 ∧ attempts h < 2 ^ 64 - 2 ∧ HistP Tidy Demo.n0 h' Demo.nT4 ∧ attempts h' < 2 ^ 64 - 2 ∧
    Demo.nT3.fars = 1 ∧ Demo.nT3.freeFars = 3 ∧ Demo.nT4.sessionCount = 0 ∧ Demo.nT4.freeFars = 4 ∧ Demo.nT4.freeUrrs = 4 := by
  obtain ⟨h, H, hb⟩ := Demo.tidy3
  have H4 : HistP Tidy Demo.n0 _ Demo.nT4 := HistP.step _ H (Demo.tidy_del _) (by decide +kernel)
  refine ⟨h, _, H, by rw [hb]; decide, H4, ?_, by decide +kernel, by decide +kernel, by decide +kernel, by decide +kernel, by decide +kernel⟩
  have : attempts ((Ev.delete 1 ⟨2, 9⟩ default, (Demo.nT3.step (.delete 1 ⟨2, 9⟩ default)).2) :: h) = attempts h := by simp [attempts]
  rw [this, hb]; decide

/-- Non-vacuity of the URR theorem: none of the events loses a peer. -/
example : ∃ h, HistP (fun n e => Tidy n e ∧ LosesNoUrr n e) Demo.n0 h Demo.nT2 ∧ attempts h < 2 ^ 64 - 2 ∧ Demo.nT2.urrs = 1 ∧ Demo.nT2.freeUrrs = 3 := by
  have h1 : HistP (fun n e => Tidy n e ∧ LosesNoUrr n e) Demo.n0 _ Demo.nT1 :=
    HistP.step _ .init ⟨Demo.tidy_assoc Demo.n0 1, (by intro a o s x h; cases h)⟩ (by decide +kernel)
  have h2 : HistP (fun n e => Tidy n e ∧ LosesNoUrr n e) Demo.n0 _ Demo.nT2 :=
    HistP.step _ h1 ⟨Demo.tidy_est, (by intro a o s x h; cases h)⟩ (by decide +kernel)
  exact ⟨_, h2, by decide, by decide +kernel, by decide +kernel⟩

/-- **C94, negation for URRs.** A tidy history after which no session is live and a slot of the URR table is not free. -/
theorem C94_urr_lost : ∃ h, HistP Tidy Demo.n0 h Demo.nT5 ∧ Demo.nT5.sessionCount = 0 ∧ Demo.nT5.freeFars = 4 ∧ Demo.nT5.freeUrrs = 3 := by
  have h1 : HistP Tidy Demo.n0 _ Demo.nT1 := HistP.step _ .init (Demo.tidy_assoc Demo.n0 1) (by decide +kernel)
  have h2 : HistP Tidy Demo.n0 _ Demo.nT2 := HistP.step _ h1 Demo.tidy_est (by decide +kernel)
  have h3 : HistP Tidy Demo.n0 _ Demo.nT5 := HistP.step _ h2 ⟨trivial, (by intro a r h; cases h), (by intro a r o x h; cases h)⟩ (by decide +kernel)
  exact ⟨_, h3, by decide +kernel, by decide +kernel, by decide +kernel⟩

/-- **C94, negation without new ids.** A session creates FAR 1 twice, and is deleted: all requests are accepted, no session is live, and one slot of the
FAR table is not free. -/
theorem C94_same_id_leaks :
    (Demo.n0.run [.assocSetup 1 1 (some (some ())) (some (some ())), .establish 1 { Demo.est 100 with createFar := [Demo.fwd, Demo.fwd] }, .delete 1 ⟨2, 9⟩ default]).2.map Outcome.accepted = [true, true, true] ∧
    (Demo.n0.run [.assocSetup 1 1 (some (some ())) (some (some ())), .establish 1 { Demo.est 100 with createFar := [Demo.fwd, Demo.fwd] }, .delete 1 ⟨2, 9⟩ default]).1.sessionCount = 0 ∧
    (Demo.n0.run [.assocSetup 1 1 (some (some ())) (some (some ())), .establish 1 { Demo.est 100 with createFar := [Demo.fwd, Demo.fwd] }, .delete 1 ⟨2, 9⟩ default]).1.freeFars = 3 := by
  refine ⟨by decide +kernel, by decide +kernel, by decide +kernel⟩

/-- Non-vacuity of `C94_rejected_leaks`, `C94_exhausted`, `C94_full`: peer 1 is associated, and four rejected requests later no slot is free. -/
example : (Demo.nT1.assocs.get? 1).isSome ∧ (Demo.nT1.run (List.replicate 4 (.establish 1 (slotReq 100 1)))).1.freeFars = 0 ∧ (Demo.est 100).createFar ≠ [] := by
  refine ⟨by decide +kernel, by decide +kernel, by decide⟩
/-- Non-vacuity of `C94_peer_lost_keeps_urr_slots`. -/
example : Demo.nT2.step (.peerLost 1 default) = (Demo.nT5, .silent) := Prod.ext (by simp only [Demo.nT5]) (by decide +kernel)

end Eupf
