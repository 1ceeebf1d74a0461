import Verif.ResourceManager
/-
C13 (TEID pool), C15 first half (UE IP pool), C55 (pool construction).
-/
namespace Eupf

/-! ### Specification, in terms of what the callers see -/

/-- Calls on the TEID pool; a release carries the (arbitrary) map iteration order. -/
inductive TeidOp
  | alloc (seid : U64) (pdr : U32)
  | release (seid : U64) (ord : Shuffle (U32 × U32))

/-- An allocation the callers have not released: owner SEID, PDR id, TEID. -/
structure Grant where
  seid : U64
  pdr : U32
  teid : U32
deriving DecidableEq

/-- One call: new pool, result of an allocation. -/
def teidStep (m : FTEIDM) : TeidOp → FTEIDM × Option U32
  | .alloc s p => m.allocate s p
  | .release s o => (m.release o s, none)

/-- Grants outstanding after the call, computed only from the call and its result. -/
def grantsAfter (out : List Grant) : TeidOp → Option U32 → List Grant
  | .alloc s p, some t => ⟨s, p, t⟩ :: out
  | .alloc _ _, none => out
  | .release s _, _ => out.filter (fun g => g.seid ≠ s)

/-- Run calls on a pool keeping the callers' view. -/
def teidRun : FTEIDM → List Grant → List TeidOp → FTEIDM × List Grant
  | m, out, [] => (m, out)
  | m, out, o :: os => teidRun (teidStep m o).1 (grantsAfter out o (teidStep m o).2) os

/-! ### Invariant -/

structure TeidInv (range : U32) (m : FTEIDM) (out : List Grant) : Prop where
  freeNodup : m.freeTEIDs.Nodup
  outNodup : (out.map Grant.teid).Nodup
  disj : ∀ t ∈ m.freeTEIDs, t ∉ out.map Grant.teid
  freeRange : ∀ t ∈ m.freeTEIDs, t ∈ teidPool range
  outRange : ∀ g ∈ out, g.teid ∈ teidPool range
  busy : ∀ s pm, m.busyTEIDs.get? s = some pm →
    (pm.entries.map Prod.snd).Nodup ∧ ∀ p t, pm.get? p = some t → ⟨s, p, t⟩ ∈ out

theorem mem_snd_of_get {K V : Type} [DecidableEq K] (m : GoMap K V) (v : V) :
    v ∈ m.entries.map Prod.snd ↔ ∃ k, m.get? k = some v := by
  constructor
  · intro h
    obtain ⟨⟨k, w⟩, h1, rfl⟩ := List.mem_map.1 h
    exact ⟨k, (m.mem_entries_iff k w).1 h1⟩
  · rintro ⟨k, h⟩
    exact List.mem_map.2 ⟨(k, v), (m.mem_entries_iff k v).2 h, rfl⟩

theorem set_values_nodup {K V : Type} [DecidableEq K] (m : GoMap K V) (k : K) (v : V)
    (h : (m.entries.map Prod.snd).Nodup) (hv : v ∉ m.entries.map Prod.snd) :
    ((m.set k v).entries.map Prod.snd).Nodup := by
  simp only [GoMap.set, GoMap.erase, List.map_cons, List.nodup_cons]
  refine ⟨fun hc => hv ?_, (List.filter_sublist.map Prod.snd).nodup h⟩
  exact (List.filter_sublist.map Prod.snd).subset hc

theorem TeidInv.step {range : U32} {m : FTEIDM} {out : List Grant} (h : TeidInv range m out)
    (o : TeidOp) : TeidInv range (teidStep m o).1 (grantsAfter out o (teidStep m o).2) := by
  cases o with
  | alloc s p =>
    simp only [teidStep, FTEIDM.allocate]
    cases hf : m.freeTEIDs with
    | nil => simpa [grantsAfter] using h
    | cons t rest =>
      simp only [grantsAfter]
      have hfn := h.freeNodup
      rw [hf] at hfn
      have htout : t ∉ out.map Grant.teid := h.disj t (by simp [hf])
      obtain ⟨hn1, hn2⟩ := List.nodup_cons.1 hfn
      have hbusyval : ∀ pm, m.busyTEIDs.get? s = some pm → t ∉ pm.entries.map Prod.snd := by
        intro pm hpm hc
        obtain ⟨p', hp'⟩ := (mem_snd_of_get pm t).1 hc
        exact htout (List.mem_map.2 ⟨_, (h.busy s pm hpm).2 p' t hp', rfl⟩)
      refine ⟨hn2, ?_, ?_, ?_, ?_, ?_⟩
      · simpa using ⟨by simpa using htout, h.outNodup⟩
      · intro t' ht'
        simp only [List.map_cons, List.mem_cons, not_or]
        refine ⟨?_, h.disj t' (by simp [hf, ht'])⟩
        rintro rfl
        exact hn1 ht'
      · intro t' ht'; exact h.freeRange t' (by simp [hf, ht'])
      · intro g hg
        rcases List.mem_cons.1 hg with rfl | hg
        · exact h.freeRange t (by simp [hf])
        · exact h.outRange g hg
      · intro s' pm' hpm'
        simp only [GoMap.get?_set] at hpm'
        split at hpm'
        · rename_i heq
          subst heq
          simp only [Option.some.injEq] at hpm'
          subst hpm'
          cases hb : m.busyTEIDs.get? s' with
          | none =>
            refine ⟨by simp [GoMap.set, GoMap.erase, GoMap.empty], ?_⟩
            intro p' t' hpt
            simp at hpt
            simp [hpt]
          | some pm =>
            refine ⟨set_values_nodup pm p t (h.busy s' pm hb).1 (hbusyval pm hb), ?_⟩
            intro p' t' hpt
            simp only [GoMap.get?_set] at hpt
            split at hpt
            · simp_all
            · exact List.mem_cons_of_mem _ ((h.busy s' pm hb).2 p' t' hpt)
        · have := h.busy s' pm' hpm'
          exact ⟨this.1, fun p' t' hpt => List.mem_cons_of_mem _ (this.2 p' t' hpt)⟩
  | release s ord =>
    simp only [teidStep, FTEIDM.release, grantsAfter]
    cases hb : m.busyTEIDs.get? s with
    | none =>
      refine ⟨h.freeNodup, (List.filter_sublist.map Grant.teid).nodup h.outNodup, ?_, h.freeRange, ?_, ?_⟩
      · intro t ht hc
        exact h.disj t ht ((List.filter_sublist.map Grant.teid).subset hc)
      · intro g hg; exact h.outRange g (List.mem_filter.1 hg).1
      · intro s' pm' hpm'
        have := h.busy s' pm' hpm'
        refine ⟨this.1, fun p' t' hpt => List.mem_filter.2 ⟨this.2 p' t' hpt, ?_⟩⟩
        simp only [decide_eq_true_eq]
        rintro rfl
        simp [hb] at hpm'
    | some pm =>
      have hbz := h.busy s pm hb
      have hmem : ∀ t, t ∈ (ord.run pm.entries).map Prod.snd ↔ ∃ p, pm.get? p = some t := by
        intro t
        rw [← mem_snd_of_get]
        exact ((ord.perm pm.entries).map Prod.snd).mem_iff
      have hown : ∀ t, (∃ p, pm.get? p = some t) → ∀ g ∈ out, g.teid = t → g.seid = s := by
        rintro t ⟨p, hp⟩ g hg rfl
        have h1 := hbz.2 p _ hp
        have := inj_of_nodup_map h.outNodup hg h1 rfl
        rw [this]
      refine ⟨?_, (List.filter_sublist.map Grant.teid).nodup h.outNodup, ?_, ?_, ?_, ?_⟩
      · refine List.nodup_append.2 ⟨h.freeNodup, ?_, ?_⟩
        · exact ((ord.perm pm.entries).map Prod.snd).nodup_iff.2 hbz.1
        · intro a ha b hb2 hab
          subst hab
          obtain ⟨p, hp⟩ := (hmem a).1 hb2
          exact h.disj a ha (List.mem_map.2 ⟨_, hbz.2 p a hp, rfl⟩)
      · intro t ht hc
        obtain ⟨g, hg, hgt⟩ := List.mem_map.1 hc
        obtain ⟨hg1, hg2⟩ := List.mem_filter.1 hg
        rcases List.mem_append.1 ht with ht | ht
        · exact h.disj t ht (List.mem_map.2 ⟨g, hg1, hgt⟩)
        · have := hown t ((hmem t).1 ht) g hg1 hgt
          simp [this] at hg2
      · intro t ht
        rcases List.mem_append.1 ht with ht | ht
        · exact h.freeRange t ht
        · obtain ⟨p, hp⟩ := (hmem t).1 ht
          exact h.outRange _ (hbz.2 p t hp)
      · intro g hg; exact h.outRange g (List.mem_filter.1 hg).1
      · intro s' pm' hpm'
        simp only [GoMap.get?_erase] at hpm'
        split at hpm'
        · simp at hpm'
        · rename_i hne
          have := h.busy s' pm' hpm'
          refine ⟨this.1, fun p' t' hpt => List.mem_filter.2 ⟨this.2 p' t' hpt, by simpa using hne⟩⟩

theorem TeidInv.init (ips : List Ip4) (range : U32) :
    TeidInv range (newResourceManager ips range).fteidm [] := by
  refine ⟨teidPool_nodup range, by simp, by simp, fun t ht => ht, by simp, ?_⟩
  intro s pm h
  simp [newResourceManager] at h

theorem TeidInv.run {range : U32} {m : FTEIDM} {out : List Grant} (h : TeidInv range m out)
    (ops : List TeidOp) : TeidInv range (teidRun m out ops).1 (teidRun m out ops).2 := by
  induction ops generalizing m out with
  | nil => exact h
  | cons o os ih => exact ih (h.step o)

/-- **C13.** Whatever calls were made on a fresh pool, in whatever iteration orders: outstanding
TEIDs are pairwise different and in 1..range, and the next allocation returns a TEID of 1..range that is
not outstanding (or an error). -/
theorem C13_no_double_handout (ips : List Ip4) (range : U32) (ops : List TeidOp) (s : U64) (p : U32) :
    let r := teidRun (newResourceManager ips range).fteidm [] ops
    (r.2.map Grant.teid).Nodup ∧
    (∀ g ∈ r.2, 1 ≤ g.teid.toNat ∧ g.teid.toNat ≤ range.toNat) ∧
    (∀ t, (r.1.allocate s p).2 = some t →
      1 ≤ t.toNat ∧ t.toNat ≤ range.toNat ∧ ∀ g ∈ r.2, g.teid ≠ t) := by
  intro r
  have h := (TeidInv.init ips range).run ops
  refine ⟨h.outNodup, fun g hg => (mem_teidPool _ _).1 (h.outRange g hg), ?_⟩
  intro t ht
  unfold FTEIDM.allocate at ht
  cases hf : r.1.freeTEIDs with
  | nil => rw [hf] at ht; simp at ht
  | cons a rest =>
    rw [hf] at ht
    simp only [Option.some.injEq] at ht
    subst ht
    have hmem : a ∈ r.1.freeTEIDs := by simp [hf]
    refine ⟨((mem_teidPool _ _).1 (h.freeRange a hmem)).1, ((mem_teidPool _ _).1 (h.freeRange a hmem)).2, ?_⟩
    intro g hg heq
    exact h.disj a hmem (List.mem_map.2 ⟨g, hg, heq⟩)

/-- A call sequence that never asks for a TEID for a (SEID, PDR) pair that already holds one. -/
def NoReuse : FTEIDM → List Grant → List TeidOp → Prop
  | _, _, [] => True
  | m, out, o :: os =>
    (match o with
     | .alloc s p => ∀ g ∈ out, ¬(g.seid = s ∧ g.pdr = p)
     | .release _ _ => True) ∧
    NoReuse (teidStep m o).1 (grantsAfter out o (teidStep m o).2) os

structure TeidCons (range : U32) (m : FTEIDM) (out : List Grant) : Prop where
  /-- nothing lost: pool and outstanding grants together are 1..range -/
  all : ∀ t, t ∈ teidPool range ↔ t ∈ m.freeTEIDs ∨ ∃ g ∈ out, g.teid = t
  /-- the pool's bookkeeping is the callers' view -/
  book : ∀ g ∈ out, ∃ pm, m.busyTEIDs.get? g.seid = some pm ∧ pm.get? g.pdr = some g.teid

theorem TeidCons.step {range : U32} {m : FTEIDM} {out : List Grant} (h : TeidInv range m out)
    (hc : TeidCons range m out) (o : TeidOp)
    (hr : match o with | .alloc s p => ∀ g ∈ out, ¬(g.seid = s ∧ g.pdr = p) | .release _ _ => True) :
    TeidCons range (teidStep m o).1 (grantsAfter out o (teidStep m o).2) := by
  cases o with
  | alloc s p =>
    simp only [teidStep, FTEIDM.allocate]
    cases hf : m.freeTEIDs with
    | nil => simpa [grantsAfter] using hc
    | cons t rest =>
      simp only [grantsAfter]
      constructor
      · intro t'
        rw [hc.all t', hf]
        simp only [List.mem_cons, exists_eq_or_imp]
        constructor
        · rintro ((rfl | h1) | h2)
          · exact Or.inr (Or.inl rfl)
          · exact Or.inl h1
          · exact Or.inr (Or.inr h2)
        · rintro (h1 | (rfl | h2))
          · exact Or.inl (Or.inr h1)
          · exact Or.inl (Or.inl rfl)
          · exact Or.inr h2
      · intro g hg
        rcases List.mem_cons.1 hg with rfl | hg
        · refine ⟨_, by simp; rfl, ?_⟩
          cases m.busyTEIDs.get? s <;> simp
        · obtain ⟨pm, h1, h2⟩ := hc.book g hg
          by_cases hs : g.seid = s
          · have hp : g.pdr ≠ p := fun hp => hr g hg ⟨hs, hp⟩
            refine ⟨pm.set p t, ?_, by simp [hp, h2]⟩
            rw [← hs] at *
            simp [h1]
          · exact ⟨pm, by simp [hs, h1], h2⟩
  | release s ord =>
    simp only [teidStep, FTEIDM.release, grantsAfter]
    cases hb : m.busyTEIDs.get? s with
    | none =>
      have hno : ∀ g ∈ out, g.seid ≠ s := by
        intro g hg hgs
        obtain ⟨pm, h1, _⟩ := hc.book g hg
        rw [hgs, hb] at h1
        simp at h1
      have : out.filter (fun g => g.seid ≠ s) = out := by
        apply List.filter_eq_self.2
        intro g hg; simpa using hno g hg
      rw [this]
      exact hc
    | some pm =>
      have hmem : ∀ t, t ∈ (ord.run pm.entries).map Prod.snd ↔ ∃ p, pm.get? p = some t := by
        intro t
        rw [← mem_snd_of_get]
        exact ((ord.perm pm.entries).map Prod.snd).mem_iff
      constructor
      · intro t
        rw [hc.all t]
        simp only [List.mem_append, hmem]
        constructor
        · rintro (h1 | ⟨g, hg, hgt⟩)
          · exact Or.inl (Or.inl h1)
          · by_cases hs : g.seid = s
            · obtain ⟨pm', h1, h2⟩ := hc.book g hg
              rw [hs, hb] at h1
              simp only [Option.some.injEq] at h1
              subst h1
              exact Or.inl (Or.inr ⟨g.pdr, by rw [h2, hgt]⟩)
            · exact Or.inr ⟨g, List.mem_filter.2 ⟨hg, by simpa using hs⟩, hgt⟩
        · rintro ((h1 | ⟨p, hp⟩) | ⟨g, hg, hgt⟩)
          · exact Or.inl h1
          · exact Or.inr ⟨_, (h.busy s pm hb).2 p t hp, rfl⟩
          · exact Or.inr ⟨g, (List.mem_filter.1 hg).1, hgt⟩
      · intro g hg
        obtain ⟨hg1, hg2⟩ := List.mem_filter.1 hg
        obtain ⟨pm', h1, h2⟩ := hc.book g hg1
        have : g.seid ≠ s := by simpa using hg2
        exact ⟨pm', by simp [this, h1], h2⟩

/-- **C13, nothing is lost (partial).** If no caller asks for a TEID for a (SEID, PDR) that already
holds one, then at any time every TEID of 1..range is either available or outstanding, never both.
Missing: without the hypothesis TEIDs are lost for ever, see `C13_leak`. -/
theorem C13_conservation_partial (ips : List Ip4) (range : U32) (ops : List TeidOp)
    (hr : NoReuse (newResourceManager ips range).fteidm [] ops) (t : U32) :
    let r := teidRun (newResourceManager ips range).fteidm [] ops
    (1 ≤ t.toNat ∧ t.toNat ≤ range.toNat) ↔
      ((t ∈ r.1.freeTEIDs ∧ ∀ g ∈ r.2, g.teid ≠ t) ∨ (t ∉ r.1.freeTEIDs ∧ ∃ g ∈ r.2, g.teid = t)) := by
  intro r
  suffices ∀ (ops : List TeidOp) (m : FTEIDM) (out : List Grant), TeidInv range m out →
      TeidCons range m out → NoReuse m out ops →
      TeidInv range (teidRun m out ops).1 (teidRun m out ops).2 ∧
      TeidCons range (teidRun m out ops).1 (teidRun m out ops).2 by
    obtain ⟨h1, h2⟩ := this ops _ _ (TeidInv.init ips range)
      ⟨by intro t; simp [newResourceManager], by simp⟩ hr
    rw [← mem_teidPool, h2.all t]
    have hd := h1.disj t
    simp only [List.mem_map, not_exists, not_and] at hd
    constructor
    · rintro (h | ⟨g, hg, hgt⟩)
      · exact Or.inl ⟨h, fun g hg he => hd h g hg he⟩
      · exact Or.inr ⟨fun h => hd h g hg hgt, g, hg, hgt⟩
    · rintro (⟨h, _⟩ | ⟨_, h⟩)
      · exact Or.inl h
      · exact Or.inr h
  intro ops
  induction ops with
  | nil => intro m out h1 h2 _; exact ⟨h1, h2⟩
  | cons o os ih =>
    intro m out h1 h2 h3
    exact ih _ _ (h1.step o) (h2.step h1 o (by cases o <;> exact h3.1)) h3.2

/-- **C13, negation.** Asking twice for the same (SEID, PDR) loses a TEID: after releasing the session
nothing is outstanding, yet the pool of two TEIDs only has one left. -/
theorem C13_leak :
    let r := teidRun (newResourceManager [] 2).fteidm []
      [.alloc 7 1, .alloc 7 1, .release 7 Shuffle.id]
    r.2 = [] ∧ r.1.freeTEIDs = [2] := by decide

/-- Non-vacuity of `C13_conservation_partial`: two sessions, interleaved. -/
example : NoReuse (newResourceManager [] 3).fteidm []
    [.alloc 7 1, .alloc 8 1, .alloc 7 2, .alloc 9 1, .release 7 Shuffle.rev, .alloc 9 1] := by
  simp [NoReuse, teidStep, FTEIDM.allocate, grantsAfter, newResourceManager, teidPool, List.range,
    List.range.loop]
example : (teidRun (newResourceManager [] 3).fteidm []
    [.alloc 7 1, .alloc 8 1, .alloc 7 2, .release 7 Shuffle.rev, .alloc 9 1]).2.map Grant.teid = [1, 2] := by
  decide

/-! ### UE IP pool -/

inductive IpOp
  | alloc (key : U64)
  | release (key : U64)

def ipStep (m : IPAM) : IpOp → IPAM × Option Ip4
  | .alloc k => m.allocate k
  | .release k => (m.release k, none)

/-- Addresses callers hold, from calls and results only. -/
def leasesAfter (out : List (U64 × Ip4)) : IpOp → Option Ip4 → List (U64 × Ip4)
  | .alloc k, some ip => (k, ip) :: out
  | .alloc _, none => out
  | .release k, _ => out.filter (fun g => g.1 ≠ k)

def ipRun : IPAM → List (U64 × Ip4) → List IpOp → IPAM × List (U64 × Ip4)
  | m, out, [] => (m, out)
  | m, out, o :: os => ipRun (ipStep m o).1 (leasesAfter out o (ipStep m o).2) os

structure IpInv (pool : List Ip4) (m : IPAM) (out : List (U64 × Ip4)) : Prop where
  freeNodup : m.freeIPs.Nodup
  outNodup : (out.map Prod.snd).Nodup
  disj : ∀ t ∈ m.freeIPs, t ∉ out.map Prod.snd
  freeIn : ∀ t ∈ m.freeIPs, t ∈ pool
  outIn : ∀ g ∈ out, g.2 ∈ pool
  busy : ∀ k ip, m.busyIPs.get? k = some ip → (k, ip) ∈ out

theorem IpInv.step {pool : List Ip4} {m : IPAM} {out : List (U64 × Ip4)} (h : IpInv pool m out)
    (o : IpOp) : IpInv pool (ipStep m o).1 (leasesAfter out o (ipStep m o).2) := by
  cases o with
  | alloc k =>
    simp only [ipStep, IPAM.allocate]
    cases hf : m.freeIPs with
    | nil => simpa [leasesAfter] using h
    | cons t rest =>
      simp only [leasesAfter]
      have hfn := h.freeNodup
      rw [hf] at hfn
      have htout : t ∉ out.map Prod.snd := h.disj t (by simp [hf])
      obtain ⟨hn1, hn2⟩ := List.nodup_cons.1 hfn
      refine ⟨hn2, ?_, ?_, ?_, ?_, ?_⟩
      · simpa using ⟨by simpa using htout, h.outNodup⟩
      · intro t' ht'
        simp only [List.map_cons, List.mem_cons, not_or]
        refine ⟨?_, h.disj t' (by simp [hf, ht'])⟩
        rintro rfl
        exact hn1 ht'
      · intro t' ht'; exact h.freeIn t' (by simp [hf, ht'])
      · intro g hg
        rcases List.mem_cons.1 hg with rfl | hg
        · exact h.freeIn t (by simp [hf])
        · exact h.outIn g hg
      · intro k' ip hk
        simp only [GoMap.get?_set] at hk
        split at hk
        · simp_all
        · exact List.mem_cons_of_mem _ (h.busy k' ip hk)
  | release k =>
    simp only [ipStep, IPAM.release, leasesAfter]
    have hsub : ∀ x, x ∈ (out.filter (fun g => g.1 ≠ k)).map Prod.snd → x ∈ out.map Prod.snd :=
      fun x hx => (List.filter_sublist.map Prod.snd).subset hx
    cases hb : m.busyIPs.get? k with
    | none =>
      refine ⟨h.freeNodup, (List.filter_sublist.map Prod.snd).nodup h.outNodup,
        fun t ht hc => h.disj t ht (hsub t hc), h.freeIn, fun g hg => h.outIn g (List.mem_filter.1 hg).1, ?_⟩
      intro k' ip hk
      refine List.mem_filter.2 ⟨h.busy k' ip hk, ?_⟩
      simp only [decide_eq_true_eq]
      rintro rfl
      simp [hb] at hk
    | some ip =>
      have hown := h.busy k ip hb
      refine ⟨?_, (List.filter_sublist.map Prod.snd).nodup h.outNodup, ?_, ?_,
        fun g hg => h.outIn g (List.mem_filter.1 hg).1, ?_⟩
      · refine List.nodup_append.2 ⟨h.freeNodup, by simp, ?_⟩
        intro a ha b hb2 hab
        simp only [List.mem_singleton] at hb2
        subst hb2 hab
        exact h.disj a ha (List.mem_map.2 ⟨_, hown, rfl⟩)
      · intro t ht hc
        rcases List.mem_append.1 ht with ht | ht
        · exact h.disj t ht (hsub t hc)
        · simp only [List.mem_singleton] at ht
          subst ht
          obtain ⟨g, hg, hgt⟩ := List.mem_map.1 hc
          obtain ⟨hg1, hg2⟩ := List.mem_filter.1 hg
          have := inj_of_nodup_map h.outNodup hg1 hown hgt
          simp [this] at hg2
      · intro t ht
        rcases List.mem_append.1 ht with ht | ht
        · exact h.freeIn t ht
        · simp only [List.mem_singleton] at ht
          subst ht
          exact h.outIn _ hown
      · intro k' ip' hk
        simp only [GoMap.get?_erase] at hk
        split at hk
        · simp at hk
        · rename_i hne
          exact List.mem_filter.2 ⟨h.busy k' ip' hk, by simpa using hne⟩

/-- **C15 (pool level).** From any pool without duplicates and for any calls: leased addresses are
pairwise different members of the pool; a new lease is a member that is not leased; an allocation fails
only when the available list is empty. -/
theorem C15_pool (pool : List Ip4) (hp : pool.Nodup) (range : U32) (ops : List IpOp) (k : U64) :
    let r := ipRun (newResourceManager pool range).ipam [] ops
    (r.2.map Prod.snd).Nodup ∧ (∀ g ∈ r.2, g.2 ∈ pool) ∧
    (∀ ip, (r.1.allocate k).2 = some ip → ip ∈ pool ∧ ∀ g ∈ r.2, g.2 ≠ ip) := by
  intro r
  have h : IpInv pool r.1 r.2 := by
    suffices ∀ (ops : List IpOp) m out, IpInv pool m out → IpInv pool (ipRun m out ops).1 (ipRun m out ops).2 from
      this ops _ _ ⟨hp, by simp, by simp, fun t ht => ht, by simp, by
        intro k ip hk; simp [newResourceManager] at hk⟩
    intro ops
    induction ops with
    | nil => intro m out h; exact h
    | cons o os ih => intro m out h; exact ih _ _ (h.step o)
  refine ⟨h.outNodup, h.outIn, ?_⟩
  intro ip hip
  unfold IPAM.allocate at hip
  cases hf : r.1.freeIPs with
  | nil => rw [hf] at hip; simp at hip
  | cons a rest =>
    rw [hf] at hip
    simp only [Option.some.injEq] at hip
    subst hip
    have hmem : a ∈ r.1.freeIPs := by simp [hf]
    exact ⟨h.freeIn a hmem, fun g hg heq => h.disj a hmem (List.mem_map.2 ⟨g, hg, heq⟩)⟩

/-- The addresses of a prefix are pairwise different (so `C15_pool` applies to every configured pool). -/
theorem ipPool_nodup (base : Ip4) (len : Nat) : (ipPool base len).Nodup := by
  unfold ipPool List.Nodup
  rw [List.pairwise_map]
  have h : (List.range (2 ^ (32 - len))).Pairwise (fun a b => a < b) := List.pairwise_lt_range
  have hs : (List.range (2 ^ (32 - len))).tail.Sublist (List.range (2 ^ (32 - len))) := List.tail_sublist _
  refine List.Pairwise.imp_of_mem ?_ (h.sublist hs)
  intro a b ha hb hab heq
  have hle : 2 ^ (32 - len) ≤ 2 ^ 32 := Nat.pow_le_pow_right (by decide) (by omega)
  have ha' := List.mem_range.1 (hs.subset ha)
  have hb' := List.mem_range.1 (hs.subset hb)
  have h2 : BitVec.ofNat 32 a = BitVec.ofNat 32 b := by
    have := congrArg (fun x => x - (base &&& (BitVec.allOnes 32 <<< (32 - len)))) heq
    simpa [BitVec.add_comm] using this
  have := congrArg BitVec.toNat h2
  simp only [BitVec.toNat_ofNat] at this
  omega

theorem mask_toNat (base : Ip4) (k : Nat) : (base &&& (BitVec.allOnes 32 <<< k)).toNat = base.toNat / 2 ^ k * 2 ^ k := by
  have h : base &&& (BitVec.allOnes 32 <<< k) = (base >>> k) <<< k := by
    apply BitVec.eq_of_getLsbD_eq
    intro i hi
    simp only [BitVec.getLsbD_and, BitVec.getLsbD_shiftLeft, BitVec.getLsbD_allOnes, BitVec.getLsbD_ushiftRight]
    by_cases hik : i < k
    · simp [hik]
    · have : i - k < 32 := by omega
      have e : k + (i - k) = i := by omega
      simp [hi, hik, this, e]
  have hlt := base.isLt
  have := Nat.div_mul_le_self base.toNat (2 ^ k)
  rw [h, BitVec.toNat_shiftLeft, BitVec.toNat_ushiftRight, Nat.shiftLeft_eq, Nat.shiftRight_eq_div_pow, Nat.mod_eq_of_lt (by omega)]

/-- **C15, the pool of a prefix.** The pool configured as `base/len` has each address once, and exactly the addresses whose first `len` bits are
those of `base` and whose other bits are not all 0. (So a pool `/32` is empty, and the last address of the prefix - the broadcast address of the
subnet - is given to UEs.) -/
theorem C15_prefix (base : Ip4) {len : Nat} (hlen : len ≤ 32) :
    (ipPool base len).Nodup ∧ ∀ ip : Ip4, ip ∈ ipPool base len ↔
      ip.toNat / 2 ^ (32 - len) = base.toNat / 2 ^ (32 - len) ∧ ip.toNat % 2 ^ (32 - len) ≠ 0 := by
  refine ⟨ipPool_nodup base len, ?_⟩
  intro ip
  have hpos : 0 < 2 ^ (32 - len) := Nat.pow_pos (by decide)
  have hle : 2 ^ (32 - len) ≤ 2 ^ 32 := Nat.pow_le_pow_right (by decide) (by omega)
  have hm := mask_toNat base (32 - len)
  have hsplit : 2 ^ (32 - len) * 2 ^ len = 2 ^ 32 := by rw [← Nat.pow_add]; congr 1; omega
  generalize hk : 2 ^ (32 - len) = K at *
  have htail : ∀ i, i ∈ (List.range K).tail ↔ 0 < i ∧ i < K := by
    intro i
    obtain ⟨m, rfl⟩ : ∃ m, K = m + 1 := ⟨K - 1, by omega⟩
    rw [List.range_succ_eq_map]
    simp only [List.tail_cons, List.mem_map, List.mem_range]
    constructor
    · rintro ⟨a, ha, rfl⟩; omega
    · intro h; exact ⟨i - 1, by omega, by omega⟩
  have hbound : base.toNat / K * K + K ≤ 2 ^ 32 := by
    have h1 : base.toNat / K < 2 ^ len := Nat.div_lt_of_lt_mul (by rw [hsplit]; exact base.isLt)
    have h2 : (base.toNat / K + 1) * K ≤ 2 ^ len * K := Nat.mul_le_mul_right _ h1
    rw [Nat.add_mul, Nat.one_mul] at h2
    have : 2 ^ len * K = 2 ^ 32 := by rw [Nat.mul_comm]; exact hsplit
    omega
  have hval : ∀ i, i < K → ((base &&& (BitVec.allOnes 32 <<< (32 - len))) + BitVec.ofNat 32 i).toNat = base.toNat / K * K + i := by
    intro i hi
    rw [BitVec.toNat_add, hm, BitVec.toNat_ofNat, Nat.mod_eq_of_lt (a := i) (by omega), Nat.mod_eq_of_lt (by omega)]
  unfold ipPool
  rw [hk]
  simp only [List.mem_map, htail]
  constructor
  · rintro ⟨i, ⟨h0, hi⟩, rfl⟩
    rw [hval i hi]
    refine ⟨?_, ?_⟩
    · rw [Nat.mul_comm, Nat.mul_add_div hpos, Nat.div_eq_of_lt hi, Nat.add_zero]
    · rw [Nat.mul_comm, Nat.mul_add_mod, Nat.mod_eq_of_lt hi]; omega
  · rintro ⟨h1, h2⟩
    have hi : ip.toNat % K < K := Nat.mod_lt _ hpos
    refine ⟨ip.toNat % K, ⟨by omega, hi⟩, ?_⟩
    apply BitVec.eq_of_toNat_eq
    rw [hval _ hi, ← h1]
    have := Nat.div_add_mod ip.toNat K
    rw [Nat.mul_comm] at this
    exact this

example : ipPool 0x0a3c0000#32 30 = [0x0a3c0001#32, 0x0a3c0002#32, 0x0a3c0003#32] := by decide
example : (ipRun (newResourceManager (ipPool 0x0a3c0000#32 30) 0).ipam []
    [.alloc 1, .alloc 2, .release 1, .alloc 3]).2 = [(3, 0x0a3c0003#32), (2, 0x0a3c0002#32)] := by decide

/-! ### C55 pool construction -/

theorem teidLoop_le (range : U32) (n : Nat) (hn : n ≤ range.toNat) (hr : range.toNat < 2 ^ 32 - 1) :
    teidLoopIter range n =
      some (BitVec.ofNat 32 (n + 1), (List.range n).map (fun i => BitVec.ofNat 32 (i + 1))) := by
  induction n with
  | zero => rfl
  | succ n ih =>
    rw [teidLoopIter, ih (by omega)]
    have : BitVec.ofNat 32 (n + 1) ≤ range := by
      rw [BitVec.le_def, BitVec.toNat_ofNat]; omega
    simp only [Option.bind_some, teidLoopStep, this, if_true]
    rw [List.range_succ]
    simp [BitVec.ofNat_add]

/-- **C55 (partial).** For every range below 2^32-1 the construction loop stops after exactly `range`
iterations, with the TEIDs 1..range in order in the pool. -/
theorem C55_terminates_partial (range : U32) (hr : range.toNat < 2 ^ 32 - 1) :
    ∃ v, teidLoopIter range range.toNat = some (v, teidPool range) ∧
      teidLoopIter range (range.toNat + 1) = none := by
  refine ⟨_, teidLoop_le range range.toNat (Nat.le_refl _) hr, ?_⟩
  rw [teidLoopIter, teidLoop_le range range.toNat (Nat.le_refl _) hr]
  have : ¬ BitVec.ofNat 32 (range.toNat + 1) ≤ range := by
    rw [BitVec.le_def, BitVec.toNat_ofNat]; omega
  simp [teidLoopStep, this]

/-- **C55, negation.** For range 2^32-1 the loop never stops. -/
theorem C55_diverges (n : Nat) : (teidLoopIter (BitVec.allOnes 32) n).isSome := by
  induction n with
  | zero => rfl
  | succ n ih =>
    obtain ⟨x, hx⟩ := Option.isSome_iff_exists.1 ih
    rw [teidLoopIter, hx]
    have : x.1 ≤ BitVec.allOnes 32 := by
      rw [BitVec.le_def, BitVec.toNat_allOnes]; have := x.1.isLt; omega
    simp only [Option.bind_some, teidLoopStep, this, if_true, Option.isSome_some]

example : (65535 : U32).toNat < 2 ^ 32 - 1 := by decide

end Eupf
