import Verif.AddressPool
import Verif.Props.Pools
/-
C123: a UE address pool of either IP version.
-/
namespace Eupf

/-- The pool with addresses as slices holds exactly the addresses of the pool of `Verif.ResourceManager`. -/
structure SamePool (m : IPAM) (b : IpamB) : Prop where
  free : b.freeIPs = m.freeIPs.map .v4
  busy : ∀ k, b.busyIPs.get? k = (m.busyIPs.get? k).map .v4

theorem SamePool.new (base : Ip4) (len : Nat) (n : U32) :
    SamePool (newResourceManager (ipPool base len) n).ipam (IpamB.new (.v4 base len)) :=
  ⟨rfl, fun k => by simp [newResourceManager, IpamB.new]⟩

theorem SamePool.allocate {m : IPAM} {b : IpamB} (h : SamePool m b) (k : U64) :
    SamePool (m.allocate k).1 (b.allocate k).1 ∧ (b.allocate k).2 = (m.allocate k).2.map .v4 := by
  unfold IPAM.allocate IpamB.allocate
  rw [h.free]
  cases hf : m.freeIPs with
  | nil => exact ⟨h, rfl⟩
  | cons a l =>
    refine ⟨⟨rfl, fun j => ?_⟩, rfl⟩
    simp only [List.map_cons, GoMap.get?_set]
    split
    · rfl
    · exact h.busy j

theorem SamePool.release {m : IPAM} {b : IpamB} (h : SamePool m b) (k : U64) : SamePool (m.release k) (b.release k) := by
  unfold IPAM.release IpamB.release
  rw [h.busy k]
  cases hb : m.busyIPs.get? k with
  | none => exact h
  | some a =>
    refine ⟨by simp [h.free], fun j => ?_⟩
    show (b.busyIPs.erase k).get? j = ((m.busyIPs.erase k).get? j).map .v4
    simp only [GoMap.get?_erase]
    by_cases hj : j = k
    · simp [hj]
    · simp [hj, h.busy j]

/-- Calls on the pool: `AllocateIP` and `ReleaseIP`. -/
def IpamB.run (m : IpamB) : List IpOp → IpamB
  | [] => m
  | .alloc k :: l => IpamB.run (m.allocate k).1 l
  | .release k :: l => IpamB.run (m.release k) l

/-- The same calls on the pool of `Verif.ResourceManager`. -/
def IPAM.run (m : IPAM) : List IpOp → IPAM
  | [] => m
  | .alloc k :: l => IPAM.run (m.allocate k).1 l
  | .release k :: l => IPAM.run (m.release k) l

theorem SamePool.run {m : IPAM} {b : IpamB} (h : SamePool m b) (ops : List IpOp) : SamePool (m.run ops) (b.run ops) := by
  induction ops generalizing m b with
  | nil => exact h
  | cons o l ih => cases o with
    | alloc k => exact ih (h.allocate k).1
    | release k => exact ih (h.release k)

theorem extract_ue {ue : Bool} {ie : PdrIE} {pdi : Pdi} {u : UeIp} (hp : ie.pdi = some pdi) (hf : pdi.fteid = none)
    (hu : pdi.ueip = some (some u)) (p : SPdr) (s : HS) :
    extractPdr ue ie p s = match pdrSdf ie (pdrRefs s.sess ie p.info) with
      | none => (s, .err)
      | some info => pdrUeIp ue u { p with info := info } s := by
  simp only [extractPdr, hp, hf, hu]
  split <;> rename_i h <;> rw [h]

/-- `createPdr` from the record it starts with. -/
def createFrom (ue : Bool) (ie : PdrIE) (p0 : SPdr) : Act HS Unit :=
  Act.bind (extractPdr ue ie p0) fun p =>
    Act.bind (Act.modify (fun s => { s with sess := s.sess.putPdr p.pdrId p })) fun _ =>
    Act.bind (applyPdr p) fun _ =>
    Act.modify (fun s => { s with created := s.created ++ [p] })

theorem create_from {ue : Bool} {ie : PdrIE} {id : U16} (hid : ie.pdrId = some id) :
    createPdr ue ie = createFrom ue ie { pdrId := id.zeroExtend 32 } := by
  unfold createPdr; rw [hid]; rfl

theorem from_ue {ue : Bool} {ie : PdrIE} {pdi : Pdi} {u : UeIp} (hp : ie.pdi = some pdi)
    (hf : pdi.fteid = none) (hu : pdi.ueip = some (some u)) (p0 : SPdr) (s : HS) :
    createFrom ue ie p0 s = match pdrSdf ie (pdrRefs s.sess ie p0.info) with
      | none => (s, .err)
      | some info => match pdrUeIp ue u { p0 with info := info } s with
        | (s1, .ok p) => match applyPdr p { s1 with sess := s1.sess.putPdr p.pdrId p } with
          | (s2, .ok _) => ({ s2 with created := s2.created ++ [p] }, .ok ())
          | (s2, .err) => (s2, .err)
          | (s2, .panic) => (s2, .panic)
        | (s1, .err) => (s1, .err)
        | (s1, .panic) => (s1, .panic) := by
  unfold createFrom
  show Act.bind _ _ s = _
  unfold Act.bind
  dsimp only
  rw [extract_ue hp hf hu]
  cases pdrSdf ie (pdrRefs s.sess ie p0.info) with
  | none => rfl
  | some info =>
    dsimp only
    obtain ⟨s1, x⟩ := pdrUeIp ue u { p0 with info := info } s
    cases x with
    | err => rfl
    | panic => rfl
    | ok p =>
      dsimp only [Act.modify]
      obtain ⟨s2, y⟩ := applyPdr p { s1 with sess := s1.sess.putPdr p.pdrId p }
      cases y <;> rfl

/-- **C123, the two models agree on IPv4 pools.** A Create PDR with a UE address does, with the pool of slices, exactly what it does in the node model:
the same verdict, the same tables, the same pool afterwards. -/
theorem C123_ipv4_same (ue : Bool) (ie : PdrIE) (id : U16) (pdi : Pdi) (u : UeIp) (hid : ie.pdrId = some id) (hp : ie.pdi = some pdi)
    (hf : pdi.fteid = none) (hu : pdi.ueip = some (some u)) (s : HS) (r : ResourceManager) (hr : s.rm = some r)
    (b : IpamB) (hb : SamePool r.ipam b) :
    ∃ r' b', (createPdr ue ie s).1.rm = some r' ∧ (createUe ue ie u ⟨s.sess, some b, s.dp⟩).1.pool = some b' ∧ SamePool r'.ipam b' ∧
      (createUe ue ie u ⟨s.sess, some b, s.dp⟩).1.dp = (createPdr ue ie s).1.dp ∧
      ((createUe ue ie u ⟨s.sess, some b, s.dp⟩).2 = true ↔ (createPdr ue ie s).2 = .ok ()) := by
  have hx := hb.allocate s.sess.remoteSEID
  rw [create_from hid]
  generalize hp0 : ({ pdrId := id.zeroExtend 32 } : SPdr) = p0
  have h0 : p0.info = ({} : PdrInfo) ∧ p0.ipv4 = none ∧ p0.ipv6 = none := by rw [← hp0]; exact ⟨rfl, rfl, rfl⟩
  rw [from_ue hp hf hu, h0.1]
  unfold createUe
  dsimp only
  generalize pdrSdf ie (pdrRefs s.sess ie {}) = q
  cases q with
  | none => exact ⟨r, b, hr, rfl, hb, rfl, by simp⟩
  | some info =>
    dsimp only
    unfold ueAddress pdrUeIp
    cases hue : (ue && u.chv4) with
    | false =>
      cases h4 : u.ipv4 with
      | some a =>
        cases hput : s.dp.putPdrDownlink a info <;> refine ⟨r, b, ?_, ?_, hb, ?_, ?_⟩ <;>
          simp [applyPdr, hput, putPdrDownlinkB, NetIP.key4, hr]
      | none =>
        cases h6 : u.ipv6 with
        | none => refine ⟨r, b, ?_, ?_, hb, ?_, ?_⟩ <;> simp [hr]
        | some a =>
          cases hput : s.dp.putDownlinkPdrIp6 a info <;> refine ⟨r, b, ?_, ?_, hb, ?_, ?_⟩ <;>
            simp [applyPdr, hput, hr, h0]
    | true =>
      refine ⟨{ r with ipam := (r.ipam.allocate s.sess.remoteSEID).1 }, (b.allocate s.sess.remoteSEID).1, ?_, ?_, hx.1, ?_, ?_⟩
      all_goals
        cases ha : (r.ipam.allocate s.sess.remoteSEID).2 with
        | some a =>
          have hba : (b.allocate s.sess.remoteSEID).2 = some (.v4 a) := by rw [hx.2, ha]; rfl
          cases hput : s.dp.putPdrDownlink a info <;>
            simp [allocIp, allocIpB, ha, hba, applyPdr, hput, putPdrDownlinkB, NetIP.key4, hr]
        | none =>
          have hba : (b.allocate s.sess.remoteSEID).2 = none := by rw [hx.2, ha]; rfl
          cases h4 : u.ipv4 with
          | some a =>
            cases hput : s.dp.putPdrDownlink a info <;>
              simp [allocIp, allocIpB, ha, hba, applyPdr, hput, putPdrDownlinkB, NetIP.key4, hr]
          | none =>
            cases h6 : u.ipv6 with
            | none => simp [allocIp, allocIpB, ha, hba, hr]
            | some a =>
              cases hput : s.dp.putDownlinkPdrIp6 a info <;>
                simp [allocIp, allocIpB, ha, hba, applyPdr, hput, hr, h0]

/-! ### IPv6 pools -/

/-- Every address of the pool, free or in use, is an IPv6 address. -/
structure AllV6 (b : IpamB) : Prop where
  free : ∀ ip ∈ b.freeIPs, ∃ a, ip = .v6 a
  busy : ∀ k ip, b.busyIPs.get? k = some ip → ∃ a, ip = .v6 a

theorem AllV6.new (base : Ip6) (len : Nat) : AllV6 (IpamB.new (.v6 base len)) := by
  refine ⟨fun ip h => ?_, fun k ip h => ?_⟩
  · obtain ⟨i, _, rfl⟩ := List.mem_map.1 h
    exact ⟨_, rfl⟩
  · simp [IpamB.new] at h

theorem AllV6.allocate {b : IpamB} (h : AllV6 b) (k : U64) : AllV6 (b.allocate k).1 := by
  unfold IpamB.allocate
  cases hf : b.freeIPs with
  | nil => exact h
  | cons a l =>
    have hm : ∀ ip ∈ a :: l, ∃ a, ip = .v6 a := fun ip hi => h.free ip (by rw [hf]; exact hi)
    refine ⟨fun ip hi => hm ip (List.mem_cons_of_mem _ hi), fun j ip hj => ?_⟩
    simp only [GoMap.get?_set] at hj
    split at hj
    · cases hj; exact hm a List.mem_cons_self
    · exact h.busy j ip hj

theorem AllV6.release {b : IpamB} (h : AllV6 b) (k : U64) : AllV6 (b.release k) := by
  unfold IpamB.release
  cases hb : b.busyIPs.get? k with
  | none => exact h
  | some a =>
    refine ⟨fun ip hi => ?_, fun j ip hj => ?_⟩
    · rcases List.mem_append.1 hi with hi | hi
      · exact h.free ip hi
      · cases List.mem_singleton.1 hi; exact h.busy k a hb
    · have hj : (b.busyIPs.erase k).get? j = some ip := hj
      simp only [GoMap.get?_erase] at hj
      split at hj
      · cases hj
      · exact h.busy j ip hj

theorem AllV6.run {b : IpamB} (h : AllV6 b) (ops : List IpOp) : AllV6 (b.run ops) := by
  induction ops generalizing b with
  | nil => exact h
  | cons o l ih => cases o with
    | alloc k => exact ih (h.allocate k)
    | release k => exact ih (h.release k)

theorem mem_run {pool : List Ip4} : ∀ (ops : List IpOp) (m : IPAM), (hf : ∀ x ∈ m.freeIPs, x ∈ pool) →
    (∀ k x, m.busyIPs.get? k = some x → x ∈ pool) → ∀ x ∈ (m.run ops).freeIPs, x ∈ pool := by
  intro ops
  induction ops with
  | nil => intro m hf _; exact hf
  | cons o l ih =>
    intro m hf hb
    cases o with
    | alloc k =>
      refine ih (m.allocate k).1 (fun x hx => ?_) (fun j x hj => ?_)
      · unfold IPAM.allocate at hx
        cases e : m.freeIPs with
        | nil => rw [e] at hx; simp [e] at hx
        | cons a l => rw [e] at hx; exact hf x (by rw [e]; exact List.mem_cons_of_mem _ hx)
      · unfold IPAM.allocate at hj
        cases e : m.freeIPs with
        | nil => rw [e] at hj; exact hb j x hj
        | cons a l =>
          rw [e] at hj
          simp only [GoMap.get?_set] at hj
          split at hj
          · cases hj; exact hf _ (by rw [e]; exact List.mem_cons_self)
          · exact hb j x hj
    | release k =>
      refine ih (m.release k) (fun x hx => ?_) (fun j x hj => ?_)
      · unfold IPAM.release at hx
        cases e : m.busyIPs.get? k with
        | none => rw [e] at hx; exact hf x hx
        | some a =>
          rw [e] at hx
          rcases List.mem_append.1 hx with hx | hx
          · exact hf x hx
          · cases List.mem_singleton.1 hx; exact hb k _ e
      · unfold IPAM.release at hj
        cases e : m.busyIPs.get? k with
        | none => rw [e] at hj; exact hb j x hj
        | some a =>
          rw [e] at hj
          have hj : (m.busyIPs.erase k).get? j = some x := hj
          simp only [GoMap.get?_erase] at hj
          split at hj
          · cases hj
          · exact hb j x hj

theorem refused_step' {b : IpamB} (hv : AllV6 b) {s : AddrState} (hs : s.pool = some b) {ip : NetIP} {rest : List NetIP}
    (hfree : b.freeIPs = ip :: rest) {ie : PdrIE} {u : UeIp} (hu : u.chv4 = true) (hi : (pdrSdf ie (pdrRefs s.sess ie {})).isSome) :
    (createUe true ie u s).2 = false ∧ (createUe true ie u s).1.dp = s.dp ∧
    ∃ m, (createUe true ie u s).1.pool = some m ∧ m.freeIPs = rest ∧ AllV6 m := by
  obtain ⟨a, rfl⟩ := hv.free ip (by rw [hfree]; exact List.mem_cons_self)
  obtain ⟨info, hinfo⟩ := Option.isSome_iff_exists.1 hi
  have hv' := hv.allocate s.sess.remoteSEID
  have hal : b.allocate s.sess.remoteSEID = (⟨rest, b.busyIPs.set s.sess.remoteSEID (.v6 a)⟩, some (.v6 a)) := by
    unfold IpamB.allocate; rw [hfree]
  rw [hal] at hv'
  have hue : ueAddress true u s.sess.remoteSEID s.pool =
      (some ⟨rest, b.busyIPs.set s.sess.remoteSEID (.v6 a)⟩, some (.inl (.v6 a))) := by
    unfold ueAddress allocIpB; rw [hu, hs]; dsimp only; rw [hal]; rfl
  have e : createUe true ie u s = ({ s with pool := some ⟨rest, b.busyIPs.set s.sess.remoteSEID (.v6 a)⟩ }, false) := by
    unfold createUe
    rw [hinfo]; dsimp only
    rw [hue]; rfl
  rw [e]
  exact ⟨rfl, rfl, _, rfl, rfl, hv'⟩

theorem refused_step {b : IpamB} (hv : AllV6 b) {s : AddrState} (hs : s.pool = some b) {ip : NetIP} {rest : List NetIP}
    (hfree : b.freeIPs = ip :: rest) {ie : PdrIE} {u : UeIp} (hu : u.chv4 = true) (hi : (pdrSdf ie (pdrRefs s.sess ie {})).isSome) :
    (createUe true ie u s).2 = false ∧ (createUe true ie u s).1.dp = s.dp ∧
    ∃ m, (createUe true ie u s).1.pool = some m ∧ m.freeIPs = rest := by
  obtain ⟨h1, h2, m, h3, h4, _⟩ := refused_step' hv hs hfree hu hi
  exact ⟨h1, h2, m, h3, h4⟩

/-- **C123, served from an IPv4 pool.** Whatever has been allocated and released before: while an address is free, a rule that asks the UPF to choose is
installed under the next free one, which belongs to the configured prefix, in every state in which the tables accept a rule for that address and the
rule's filter text (if any) is readable. -/
theorem C123_ipv4_served_partial (base : Ip4) (len : Nat) (hlen : len ≤ 32) (ops : List IpOp) (s : AddrState)
    (hs : s.pool = some ((IpamB.new (.v4 base len)).run ops)) (ip : NetIP) (rest : List NetIP)
    (hfree : ((IpamB.new (.v4 base len)).run ops).freeIPs = ip :: rest) (ie : PdrIE) (u : UeIp) (hu : u.chv4 = true) (info : PdrInfo)
    (hi : pdrSdf ie (pdrRefs s.sess ie {}) = some info) :
    ∃ a : Ip4, ip = .v4 a ∧ a.toNat / 2 ^ (32 - len) = base.toNat / 2 ^ (32 - len) ∧ a.toNat % 2 ^ (32 - len) ≠ 0 ∧
      ∀ dp, s.dp.putPdrDownlink a info = some dp →
        (createUe true ie u s).2 = true ∧ (createUe true ie u s).1.dp = dp ∧
        ∃ m, (createUe true ie u s).1.pool = some m ∧ m.freeIPs = rest ∧ m.busyIPs.get? s.sess.remoteSEID = some ip := by
  have hsame := (SamePool.new base len 1).run ops
  obtain ⟨a, ha, hfm⟩ : ∃ a, ip = .v4 a ∧ a ∈ (IPAM.run (newResourceManager (ipPool base len) 1).ipam ops).freeIPs := by
    have hm : ip ∈ ((newResourceManager (ipPool base len) 1).ipam.run ops).freeIPs.map NetIP.v4 := by
      rw [← hsame.free, hfree]; exact List.mem_cons_self
    obtain ⟨a, ha, e⟩ := List.mem_map.1 hm
    exact ⟨a, e.symm, ha⟩
  have hin : a ∈ ipPool base len := mem_run ops _ (fun x hx => hx) (fun k x hk => by simp [newResourceManager] at hk) a hfm
  have hpre := ((C15_prefix base hlen).2 a).1 hin
  refine ⟨a, ha, hpre.1, hpre.2, fun dp hdp => ?_⟩
  have hal : allocIpB s.sess.remoteSEID s.pool = (some ⟨rest, ((IpamB.new (.v4 base len)).run ops).busyIPs.set s.sess.remoteSEID ip⟩, some ip) := by
    have h1 : ((IpamB.new (.v4 base len)).run ops).allocate s.sess.remoteSEID =
        (⟨rest, ((IpamB.new (.v4 base len)).run ops).busyIPs.set s.sess.remoteSEID ip⟩, some ip) := by
      unfold IpamB.allocate; rw [hfree]
    rw [hs]; unfold allocIpB; dsimp only; rw [h1]
  subst ha
  have hue : ueAddress true u s.sess.remoteSEID s.pool =
      (some ⟨rest, ((IpamB.new (.v4 base len)).run ops).busyIPs.set s.sess.remoteSEID (.v4 a)⟩, some (.inl (.v4 a))) := by
    unfold ueAddress; rw [hu, hal]; rfl
  have e : createUe true ie u s = ({ s with pool := some ⟨rest, ((IpamB.new (.v4 base len)).run ops).busyIPs.set s.sess.remoteSEID (.v4 a)⟩, dp := dp }, true) := by
    unfold createUe
    rw [hi]; dsimp only
    rw [hue]; dsimp only
    rw [show putPdrDownlinkB s.dp (.v4 a) info = some dp from hdp]
  rw [e]
  exact ⟨rfl, rfl, _, rfl, rfl, by simp⟩

/-- **C123 is false for IPv6 pools: refused, and an address lost.** The UPF starts with an IPv6 pool. In every state of the pool, every rule that asks
for a chosen address while one is free is refused, no table changes, and the address that was picked is no longer free. -/
theorem C123_ipv6_refused (base : Ip6) (len : Nat) (ops : List IpOp) (s : AddrState)
    (hs : s.pool = some ((IpamB.new (.v6 base len)).run ops)) (ip : NetIP) (rest : List NetIP)
    (hfree : ((IpamB.new (.v6 base len)).run ops).freeIPs = ip :: rest) (ie : PdrIE) (u : UeIp) (hu : u.chv4 = true)
    (hi : (pdrSdf ie (pdrRefs s.sess ie {})).isSome) :
    (createUe true ie u s).2 = false ∧ (createUe true ie u s).1.dp = s.dp ∧
    ∃ m, (createUe true ie u s).1.pool = some m ∧ m.freeIPs = rest := by
  have hv := (AllV6.new base len).run ops
  exact refused_step hv hs hfree hu hi

/-- `createUe` for one rule after another, each of a session request of its own (a refused establishment leaves no session, so nothing is given
back): peer SEID, rule and UE address IE of each. -/
def createUes (s : AddrState) : List (Session × PdrIE × UeIp) → AddrState × List Bool
  | [] => (s, [])
  | x :: l =>
    let r := createUe true x.2.1 x.2.2 { s with sess := x.1 }
    let q := createUes r.1 l
    (q.1, r.2 :: q.2)

/-- **C123 is false for IPv6 pools: the pool runs empty without one UE served.** With a pool of `n` addresses, `n` requests to choose an address are all
refused, leave the tables as they were, and leave no free address. -/
theorem C123_ipv6_drained (base : Ip6) (len : Nat) (hlen : len ≤ 128) (s : AddrState) (hs : s.pool = some (IpamB.new (.v6 base len)))
    (l : List (Session × PdrIE × UeIp)) (hl : l.length = 2 ^ (128 - len) - 1)
    (hc : ∀ x ∈ l, x.2.2.chv4 = true ∧ (pdrSdf x.2.1 (pdrRefs x.1 x.2.1 {})).isSome) :
    (∀ v ∈ (createUes s l).2, v = false) ∧ (createUes s l).1.dp = s.dp ∧ ∃ m, (createUes s l).1.pool = some m ∧ m.freeIPs = [] := by
  have hlen' : (IpamB.new (.v6 base len)).freeIPs.length = 2 ^ (128 - len) - 1 := by
    simp [IpamB.new, Cidr.addresses]
  generalize hb : IpamB.new (.v6 base len) = b at hs hlen'
  have hv : AllV6 b := hb ▸ AllV6.new base len
  clear hb
  rw [← hl] at hlen'
  clear hl
  induction l generalizing s b with
  | nil => exact ⟨fun v hv => (by cases hv), rfl, b, hs, List.eq_nil_of_length_eq_zero hlen'⟩
  | cons x l ih =>
    cases hf : b.freeIPs with
    | nil => rw [hf] at hlen'; simp at hlen'
    | cons ip rest =>
      have hx := hc x List.mem_cons_self
      obtain ⟨h1, h2, m, hm, hrest, hmv⟩ := refused_step' (s := { s with sess := x.1 }) hv hs hf hx.1 hx.2
      obtain ⟨k1, k2, k3⟩ := ih (createUe true x.2.1 x.2.2 { s with sess := x.1 }).1 (fun y hy => hc y (List.mem_cons_of_mem _ hy)) m hm
        (by rw [hrest]; rw [hf] at hlen'; simpa using hlen') hmv
      refine ⟨fun v hv => ?_, k2.trans h2, k3⟩
      rcases List.mem_cons.1 hv with rfl | hv
      · exact h1
      · exact k1 v hv

/-- **C123, choosing an IPv6 address.** A rule that asks for a chosen IPv6 address only (flag CHV6: no address in the IE and no CHV4) is always
refused, whatever pool is configured, and nothing is taken from the pool. -/
theorem C123_choose_ipv6_refused (ue : Bool) (ie : PdrIE) (u : UeIp) (h4 : u.chv4 = false) (hn : u.ipv4 = none ∧ u.ipv6 = none) (s : AddrState) :
    (createUe ue ie u s).2 = false ∧ (createUe ue ie u s).1.dp = s.dp ∧ (createUe ue ie u s).1.pool = s.pool := by
  unfold createUe ueAddress
  rw [h4, hn.1, hn.2]
  cases pdrSdf ie (pdrRefs s.sess ie {}) with
  | none => exact ⟨rfl, rfl, rfl⟩
  | some info => cases ue <;> exact ⟨rfl, rfl, rfl⟩

namespace Demo
/-- A rule that asks for a chosen address: no filter. -/
def chooseIe : PdrIE := { pdrId := some 1, pdi := some { ueip := some (some { chv4 := true }) } }
/-- A UPF with empty tables and this pool; the peer's SEID is 5. -/
def addrState (c : Cidr) : AddrState :=
  { sess := Session.new 1 5, pool := some (IpamB.new c), dp := BpfObjects.load 8 4 4 4 }
end Demo

/-- Non-vacuity of `C123_ipv4_served_partial`: 10.60.0.0/30, after an allocation and its release; the rule is installed under 10.60.0.2. -/
example : ((IpamB.new (.v4 0x0A3C0000#32 30)).run [.alloc 9, .release 9]).freeIPs = [.v4 0x0A3C0002#32, .v4 0x0A3C0003#32, .v4 0x0A3C0001#32] ∧
    ((Demo.addrState (.v4 0x0A3C0000#32 30)).dp.putPdrDownlink 0x0A3C0002#32 {}).isSome = true ∧
    (createUe true Demo.chooseIe { chv4 := true } (Demo.addrState (.v4 0x0A3C0000#32 30))).2 = true := by decide

/-- Non-vacuity of `C123_ipv6_refused` and `C123_ipv6_drained`: 2001:db8::/126 has three addresses to give; the third request is refused as the first
was, and the fourth finds no address. -/
example : (createUe true Demo.chooseIe { chv4 := true } (Demo.addrState (.v6 0x20010db8000000000000000000000000#128 126))).2 = false ∧
    (createUes (Demo.addrState (.v6 0x20010db8000000000000000000000000#128 126))
      (List.replicate 3 (Session.new 1 5, Demo.chooseIe, { chv4 := true }))).2 = [false, false, false] ∧
    (2 ^ (128 - 126) - 1 = 3) ∧
    (pdrSdf Demo.chooseIe (pdrRefs (Session.new 1 5) Demo.chooseIe {})).isSome = true := by decide

end Eupf
