import Verif.Props.Exact
/-
C98 in packets: what the forwarding plane carries, it carries for a PDR of a live session.
-/
namespace Eupf

/-- what a rule found under a key says about the PDR with this key -/
theorem says_rule {p : PdrInfo} {m : KFilter → Bool} {r : Rule} (h : p.says m = some r) :
    r = p.rule ∧ ∀ sdf, p.sdf = some sdf → m (toKFilter sdf) = true := by
  unfold PdrInfo.says at h
  cases hs : p.sdf with
  | none => simp only [hs, Option.some.injEq] at h; exact ⟨h.symm, by simp⟩
  | some f =>
    simp only [hs] at h
    split at h
    · simp only [Option.some.injEq] at h
      refine ⟨h.symm, ?_⟩
      rintro sdf ⟨⟩; assumption
    · cases h

/-- a frame with a key that is classified belongs to a live PDR with this key, whose filter it matches -/
theorem Exact.owner {n : Node} (ex : Exact n) {k : PdrKey} {m : KFilter → Bool} {r : Rule} (h : classify (n.dp.entry? k) m = some r) :
    ∃ a s i p, n.hasPdr a s i p ∧ p.key = k ∧ r = p.info.rule ∧ ∀ sdf, p.info.sdf = some sdf → m (toKFilter sdf) = true := by
  by_cases hk : ∃ a s i p, n.hasPdr a s i p ∧ p.key = k
  · obtain ⟨a, s, i, p, hp, rfl⟩ := hk
    rw [ex.live a s i p hp m] at h
    exact ⟨a, s, i, p, hp, rfl, says_rule h⟩
  · rw [ex.only k (fun a s i p hp he => hk ⟨a, s, i, p, hp, he⟩)] at h
    cases h

theorem Exact.owner_ul {n : Node} (ex : Exact n) {f : List U8} {r : Rule} (h : ulRule n.dp f = some r) :
    ∃ a s i p, n.hasPdr a s i p ∧ p.key = .ul (gtpTeid f) ∧ r = p.info.rule ∧ p.info.fitsFrame p.key f := by
  unfold ulRule at h
  cases he : n.dp.pdrUl.lookup (gtpTeid f) with
  | none => simp [he] at h
  | some en =>
    have hen : n.dp.entry? (.ul (gtpTeid f)) = some en := he
    simp only [he] at h
    split at h
    · rename_i h0
      have : classify (n.dp.entry? (.ul (gtpTeid f))) (fun _ => false) = some r := by
        rw [hen]; simp only [classify, h0, if_true]; exact h
      obtain ⟨a, s, i, p, h1, h2, h3, h4⟩ := ex.owner this
      exact ⟨a, s, i, p, h1, h2, h3, fun sdf hs => by simp at h4; exact absurd hs (h4 sdf)⟩
    · cases hf : innerFlow f with
      | none => simp [hf] at h
      | some fl =>
        rw [hf] at h
        rw [Option.bind_some, ← hen] at h
        obtain ⟨a, s, i, p, h1, h2, h3, h4⟩ := ex.owner h
        exact ⟨a, s, i, p, h1, h2, h3, fun sdf hs => ⟨fl, by rw [h2]; exact hf, h4 sdf hs⟩⟩

/-- **C98 in packets, other keys.** Traffic for a key that no PDR of a live session has is passed on untouched. -/
theorem C98_foreign_passed_partial {cfg : NodeCfg} {rm : Option ResourceManager} {pz fz qz uz : U32} (hfz : 0 < fz.toNat) (hqz : 0 < qz.toNat)
    (huz : 0 < uz.toNat) {h : List (Ev × Outcome)} {n : Node} (H : HistP Orderly (Node.init cfg rm (BpfObjects.load pz fz qz uz)) h n)
    (hb : attempts h < 2 ^ 64 - 2) {K : PdrKey} (hK : ∀ a s i p, n.hasPdr a s i p → p.key ≠ K)
    (e : Env) (s : PS) (hdp : s.dp = n.dp) (hf : FrameFor e s.frame K) :
    ∃ s', runPacket e s = (s', .ok .pass) ∧ s'.frame = s.frame ∧ s'.dp = s.dp :=
  no_entry_passed e s (by rw [hdp]; exact (C98_exact_partial hfz hqz huz H hb).only K hK) hf

/-- **C98 in packets.** User traffic is only sent if a PDR of a live session matches it: the frame has the PDR's key and matches its filter;
and the FAR and QER slots the PDR points to say "forward" and have the gate open. -/
theorem C98_sent_partial {cfg : NodeCfg} {rm : Option ResourceManager} {pz fz qz uz : U32} (hfz : 0 < fz.toNat) (hqz : 0 < qz.toNat)
    (huz : 0 < uz.toNat) {h : List (Ev × Outcome)} {n : Node} (H : HistP Orderly (Node.init cfg rm (BpfObjects.load pz fz qz uz)) h n)
    (hb : attempts h < 2 ^ 64 - 2) (e : Env) (s : PS) (hdp : s.dp = n.dp) {s' : PS} {act : XAction} (hrun : runPacket e s = (s', .ok act))
    (hs : act.sent = true) (hecho : ¬ IsGtpMsg e s.frame 1) :
    ∃ a sd i p far qer, n.hasPdr a sd i p ∧ FrameFor e s.frame p.key ∧ p.info.fitsFrame p.key s.frame ∧
      n.dp.far.lookup p.info.farId = some far ∧ far.action.getLsbD 1 = true ∧ n.dp.qer.lookup p.info.qerId = some qer ∧ qer.openFor p.key := by
  have ex := C98_exact_partial hfz hqz huz H hb
  rcases C26_sent_needs_permission e s s' act hrun hs with hm | hm
  · rw [hdp] at hm
    cases hm with
    | up h1 h2 h3 =>
      obtain ⟨a, sd, i, p, p1, p2, rfl, p4⟩ := ex.owner_ul h2
      exact ⟨a, sd, i, p, _, _, p1, by rw [p2]; exact ⟨h1, rfl⟩, p4, h3.hasFar, h3.forw, h3.hasQer, by rw [p2]; exact h3.gate⟩
    | down4 h1 h2 h3 =>
      obtain ⟨a, sd, i, p, p1, p2, rfl, p4⟩ := ex.owner (k := .dl4 (be32 s.frame 30)) h2
      exact ⟨a, sd, i, p, _, _, p1, by rw [p2]; exact ⟨h1, rfl⟩, fun sdf hsd => ⟨_, by rw [p2]; rfl, p4 sdf hsd⟩, h3.hasFar, h3.forw, h3.hasQer,
        by rw [p2]; exact h3.gate⟩
    | down6 h1 h2 h3 =>
      obtain ⟨a, sd, i, p, p1, p2, rfl, p4⟩ := ex.owner (k := .dl6 (be128 (slice s.frame 38 16))) h2
      exact ⟨a, sd, i, p, _, _, p1, by rw [p2]; exact ⟨h1, rfl⟩, fun sdf hsd => ⟨_, by rw [p2]; rfl, p4 sdf hsd⟩, h3.hasFar, h3.forw, h3.hasQer,
        by rw [p2]; exact h3.gate⟩
  · exact absurd hm hecho

/-! ### a way to check `Orderly` on concrete nodes -/

/-- all PDRs of a node: peer, SEID, PDR id, key -/
def Node.keyList (n : Node) : List ((Addr × U64 × U32) × PdrKey) :=
  n.assocs.entries.flatMap fun as => as.2.sessions.entries.flatMap fun x => x.2.pdrs.entries.map fun p => ((as.1, x.1, p.1), p.2.key)

theorem mem_keyList {n : Node} {a : Addr} {s : U64} {i : U32} {k : PdrKey} :
    ((a, s, i), k) ∈ n.keyList ↔ ∃ p, n.hasPdr a s i p ∧ p.key = k := by
  simp only [Node.keyList, List.mem_flatMap, List.mem_map, Prod.exists, Prod.mk.injEq, GoMap.mem_entries_iff, Node.hasPdr, Node.session?]
  constructor
  · rintro ⟨a', as, h1, s', x, h2, i', p, h3, ⟨rfl, rfl, rfl⟩, h4⟩
    exact ⟨p, ⟨x, by simp [h1, h2], h3⟩, h4⟩
  · rintro ⟨p, ⟨x, hx, hp⟩, hk⟩
    cases ha : n.assocs.get? a with
    | none => simp [ha] at hx
    | some as =>
      simp [ha] at hx
      exact ⟨a, as, ha, s, x, hx, i, p, hp, ⟨rfl, rfl, rfl⟩, hk⟩

/-- two TEIDs with the same low octet -/
def PdrKey.clash : PdrKey → PdrKey → Bool
  | .ul t, .ul t' => t.truncate 8 == (t'.truncate 8 : U8) && t != t'
  | _, _ => false

theorem apart1_of {n : Node} (h : (n.keyList.all fun x => n.keyList.all fun y =>
    (x.1 == y.1 || x.2 != y.2) && !(x.1.1 == y.1.1 && x.1.2.1 == y.1.2.1 && x.2.clash y.2)) = true) : Apart1 n := by
  simp only [List.all_eq_true] at h
  constructor
  · intro a s i p b t j q hp hq hk
    have := h _ (mem_keyList.2 ⟨p, hp, rfl⟩) _ (mem_keyList.2 ⟨q, hq, rfl⟩)
    simp [hk] at this
    exact this.1
  · intro a s i p x hx hp t ht j q t' hq hk hl
    have := h _ (mem_keyList.2 ⟨p, ⟨x, hx, hp⟩, rfl⟩) _ (mem_keyList.2 ⟨q, ⟨x, hx, hq⟩, rfl⟩)
    rw [ht, hk] at this
    simp [PdrKey.clash] at this
    exact (this.2.resolve_left (fun h => h hl.symm)).symm

theorem fresh_of {n n' : Node} (h : (n'.keyList.all fun x => (n.keyList.any fun y => y.1 == x.1) || n.keyList.all fun y => y.2 != x.2) = true) :
    ∀ a s i p, n'.hasPdr a s i p → (∀ q, ¬ n.hasPdr a s i q) → ∀ b t j q, n.hasPdr b t j q → q.key ≠ p.key := by
  intro a s i p hp hno b t j q hq
  simp only [List.all_eq_true] at h
  have := h _ (mem_keyList.2 ⟨p, hp, rfl⟩)
  rw [Bool.or_eq_true] at this
  rcases this with h1 | h1
  · simp only [List.any_eq_true] at h1
    obtain ⟨⟨⟨a', s', i'⟩, k⟩, y1, y2⟩ := h1
    simp only [beq_iff_eq, Prod.mk.injEq] at y2
    obtain ⟨rfl, rfl, rfl⟩ := y2
    obtain ⟨q', hq', -⟩ := mem_keyList.1 y1
    exact absurd hq' (hno q')
  · simp only [List.all_eq_true] at h1
    have := h1 _ (mem_keyList.2 ⟨q, hq, rfl⟩)
    simpa using this

end Eupf
