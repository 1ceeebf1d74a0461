import Verif.Config
import Verif.Demo
import Verif.Props.IdTracker
import Verif.Props.Heartbeat
import Mathlib.Data.List.Nodup
import Mathlib.Data.List.Perm.Subperm
/-
C47: validation of the configuration; C54: replacing it through the REST interface.
-/
namespace Eupf

/-- Specification: a table size: what was configured, or a default. -/
def sizeOr (given dflt : U32) : U32 := if given = 0 then dflt else given

/-- **C47.** Validation accepts exactly what the validator accepts, and then the configuration is the given one except that
pools of features that are off are empty and table sizes that were not given come from the number of sessions. -/
theorem C47_validate (tags : UpfConfig → Bool) (c : UpfConfig) :
    (c.validate tags = none ↔ tags c = false) ∧
    ∀ v, c.validate tags = some v →
      v = { c with
            fteidPool := if c.featureFTUP then c.fteidPool else 0
            ueipPool := if c.featureUEIP then c.ueipPool else ""
            pdrMapSize := sizeOr c.pdrMapSize (c.maxSessions * 2)
            farMapSize := sizeOr c.farMapSize (c.maxSessions * 2)
            qerMapSize := sizeOr c.qerMapSize c.maxSessions
            urrMapSize := sizeOr c.urrMapSize (c.maxSessions * 2) } := by
  unfold UpfConfig.validate
  constructor
  · cases h : tags c <;> simp
  · intro v hv
    split at hv
    · simp only [Option.some.injEq] at hv
      subst hv
      simp only [sizeOr]
      by_cases h1 : c.featureFTUP <;> by_cases h2 : c.featureUEIP <;> by_cases h3 : c.pdrMapSize = 0 <;>
        by_cases h4 : c.farMapSize = 0 <;> by_cases h5 : c.qerMapSize = 0 <;> by_cases h6 : c.urrMapSize = 0 <;>
        simp only [h1, h2, h3, h4, h5, h6, if_true, if_false, Bool.false_eq_true]
      all_goals (cases c; simp_all)
    · cases hv

/-- **C47, sizes (part).** For 1 to 2^31 - 1 sessions every table of an accepted configuration has a size, the default ones being twice
(QER: once) the number of sessions. Missing: more sessions (false, below). -/
theorem C47_sizes_partial (tags : UpfConfig → Bool) (c v : UpfConfig) (h : c.validate tags = some v)
    (hm : 0 < c.maxSessions.toNat) (hm2 : c.maxSessions.toNat < 2 ^ 31) :
    (0 < v.pdrMapSize.toNat ∧ 0 < v.farMapSize.toNat ∧ 0 < v.qerMapSize.toNat ∧ 0 < v.urrMapSize.toNat) ∧
    (c.pdrMapSize = 0 → v.pdrMapSize.toNat = 2 * c.maxSessions.toNat) ∧
    (c.farMapSize = 0 → v.farMapSize.toNat = 2 * c.maxSessions.toNat) ∧
    (c.qerMapSize = 0 → v.qerMapSize.toNat = c.maxSessions.toNat) ∧
    (c.urrMapSize = 0 → v.urrMapSize.toNat = 2 * c.maxSessions.toNat) := by
  have hv := (C47_validate tags c).2 v h
  have h2 : (c.maxSessions * 2).toNat = 2 * c.maxSessions.toNat := by
    rw [BitVec.toNat_mul]
    rw [show (2 : U32).toNat = 2 from rfl, Nat.mod_eq_of_lt (by omega), Nat.mul_comm]
  have nz : ∀ x d : U32, 0 < d.toNat → 0 < (sizeOr x d).toNat := by
    intro x d hd
    unfold sizeOr
    split
    · exact hd
    · rename_i hx
      rcases Nat.eq_zero_or_pos x.toNat with h0 | h0
      · exact absurd (BitVec.eq_of_toNat_eq (by simpa using h0)) hx
      · exact h0
  rw [hv]
  refine ⟨⟨nz _ _ (by omega), nz _ _ (by omega), nz _ _ hm, nz _ _ (by omega)⟩, ?_, ?_, ?_, ?_⟩ <;>
    intro h0 <;> simp only [sizeOr, h0, h2, if_true]

/-- **C47, negation.** Half of the 32-bit range and more: with 2^31 sessions (and for 0 sessions) the default sizes are 0 and the UPF
cannot start although the configuration was accepted. -/
theorem C47_overflow (tags : UpfConfig → Bool) (c : UpfConfig) (ht : tags c = true) (h0 : c.pdrMapSize = 0)
    (hm : c.maxSessions = 0x80000000#32 ∨ c.maxSessions = 0) : c.start tags = .noTables := by
  unfold UpfConfig.start
  cases h : c.validate tags with
  | none => rw [(C47_validate tags c).1] at h; rw [ht] at h; cases h
  | some v =>
    have hv := (C47_validate tags c).2 v h
    have : v.pdrMapSize = 0 := by
      rw [hv]
      simp only [sizeOr, h0, if_true]
      rcases hm with h | h <;> rw [h] <;> decide
    simp [this]

/-- **C47, negation.** An accepted configuration with an association setup timeout of 0 kills the process at the start. -/
theorem C47_timeout_zero (tags : UpfConfig → Bool) (c v : UpfConfig) (h : c.validate tags = some v)
    (hm : 0 < c.maxSessions.toNat) (hm2 : c.maxSessions.toNat < 2 ^ 31) (h0 : c.associationSetupTimeout = 0) :
    c.start tags = .crash := by
  obtain ⟨⟨h1, h2, h3, h4⟩, _⟩ := C47_sizes_partial tags c v h hm hm2
  have hv := (C47_validate tags c).2 v h
  have ha : v.associationSetupTimeout = 0 := by rw [hv]; exact h0
  have z : ∀ x : U32, 0 < x.toNat → x ≠ 0 := by rintro x hx rfl; simp at hx
  have e1 : (v.associationSetupTimeout != 0) = false := by rw [ha]; rfl
  unfold UpfConfig.start
  rw [h]
  simp only [z _ h1, z _ h2, z _ h3, z _ h4, tickerOk, e1, or_self, if_false]
  simp

/-- When an accepted configuration starts. -/
theorem C47_starts (tags : UpfConfig → Bool) (c v : UpfConfig) (h : c.validate tags = some v)
    (hm : 0 < c.maxSessions.toNat) (hm2 : c.maxSessions.toNat < 2 ^ 31) (ha : c.associationSetupTimeout ≠ 0) (hg : c.gtpEchoInterval ≠ 0) :
    c.start tags = .running v := by
  obtain ⟨⟨h1, h2, h3, h4⟩, _⟩ := C47_sizes_partial tags c v h hm hm2
  have hv := (C47_validate tags c).2 v h
  have ha' : v.associationSetupTimeout ≠ 0 := by rw [hv]; exact ha
  have hg' : v.gtpEchoInterval ≠ 0 := by rw [hv]; exact hg
  have z : ∀ x : U32, 0 < x.toNat → x ≠ 0 := by rintro x hx rfl; simp at hx
  unfold UpfConfig.start
  rw [h]
  have e1 : (v.associationSetupTimeout != 0) = true := bne_iff_ne.2 ha'
  have e2 : (v.gtpEchoInterval != 0) = true := bne_iff_ne.2 hg'
  simp only [z _ h1, z _ h2, z _ h3, z _ h4, tickerOk, e1, e2, or_self, if_false, not_true]

theorem alloc_room (size : U32) (ops : List IdTracker.Op) (h : (IdTracker.held ((IdTracker.new size).run ops).2 []).length < size.toNat) :
    ((IdTracker.new size).run ops).1.getNext.2 ≠ none := by
  intro hn
  have g := IdTracker.C07_alloc size ops
  simp only [hn] at g
  have g' : ∀ j : U32, j.toNat < size.toNat → j ∈ IdTracker.held ((IdTracker.new size).run ops).2 [] := g
  let l : List U32 := (List.range size.toNat).map (BitVec.ofNat 32)
  have hl : l.Nodup := by
    refine List.Nodup.map_on ?_ List.nodup_range
    intro x hx y hy hxy
    have hr := size.isLt
    have hx := List.mem_range.1 hx
    have hy := List.mem_range.1 hy
    have := congrArg BitVec.toNat hxy
    simp only [BitVec.toNat_ofNat] at this
    omega
  have hs : l ⊆ IdTracker.held ((IdTracker.new size).run ops).2 [] := by
    intro j hj
    obtain ⟨i, hi, rfl⟩ := List.mem_map.1 hj
    apply g'
    have hr := size.isLt
    have hi := List.mem_range.1 hi
    simp only [BitVec.toNat_ofNat]; omega
  have := (hl.subperm hs).length_le
  simp only [l, List.length_map, List.length_range] at this
  omega

/-- **C47, capacity.** With default table sizes the FAR and URR allocators have room for two rules per session and the QER allocator
for one, whatever was allocated and released before: as long as fewer are held, the next is available. -/
theorem C47_capacity (tags : UpfConfig → Bool) (c v : UpfConfig) (h : c.validate tags = some v)
    (hm : 0 < c.maxSessions.toNat) (hm2 : c.maxSessions.toNat < 2 ^ 31) (hf : c.farMapSize = 0) (hq : c.qerMapSize = 0) (hu : c.urrMapSize = 0)
    (ops : List IdTracker.Op) :
    ((IdTracker.held (v.tables.farIds.run ops).2 []).length < 2 * c.maxSessions.toNat → (v.tables.farIds.run ops).1.getNext.2 ≠ none) ∧
    ((IdTracker.held (v.tables.qerIds.run ops).2 []).length < c.maxSessions.toNat → (v.tables.qerIds.run ops).1.getNext.2 ≠ none) ∧
    ((IdTracker.held (v.tables.urrIds.run ops).2 []).length < 2 * c.maxSessions.toNat → (v.tables.urrIds.run ops).1.getNext.2 ≠ none) := by
  obtain ⟨_, _, h2, h3, h4⟩ := C47_sizes_partial tags c v h hm hm2
  refine ⟨fun hl => alloc_room _ ops ?_, fun hl => alloc_room _ ops ?_, fun hl => alloc_room _ ops ?_⟩
  · rw [h2 hf]; exact hl
  · rw [h3 hq]; exact hl
  · rw [h4 hu]; exact hl

namespace Demo
/-- the configuration of the demos -/
def conf : UpfConfig :=
  { interfaceName := ["eth0"], xdpAttachMode := "generic", apiAddress := ":8080", pfcpAddress := ":8805", pfcpNodeId := "127.0.0.1",
    associationSetupTimeout := 5, metricsAddress := ":9090", n3Address := "10.0.0.1", n9Address := "10.0.0.1", gtpEchoInterval := 10,
    maxSessions := 65535, heartbeatRetries := 3, heartbeatInterval := 5, heartbeatTimeout := 5, loggingLevel := "info",
    ueipPool := "10.60.0.0/24", fteidPool := 65535, featureFTUP := true }
/-- level names as zerolog has them (a part of them) -/
def levels : LevelNames := fun s => if s = "INFO" ∨ s = "info" then some "info" else if s = "debug" then some "debug" else none
end Demo

/-- Non-vacuity: a configuration with 65535 sessions and UEIP off. -/
example : (Demo.conf.validate fun _ => true) = some { Demo.conf with ueipPool := "", pdrMapSize := 131070, farMapSize := 131070, qerMapSize := 65535, urrMapSize := 131070 } ∧
    Demo.conf.maxSessions.toNat < 2 ^ 31 ∧
    { Demo.conf with maxSessions := 0x80000000 }.start (fun _ => true) = .noTables ∧
    { Demo.conf with associationSetupTimeout := 0 }.start (fun _ => true) = .crash := by decide +kernel

/-! ### C54 -/

/-- **C54, part.** A body that is not a configuration is refused with 400 and changes nothing. Missing: bodies with an unusable level
(false, below). -/
theorem C54_bad_body_partial (names : LevelNames) (s : ConfState) : s.editConfig names none = (s, 400) := rfl

/-- A level the logger takes. -/
def LevelNames.Takes (names : LevelNames) (l : String) : Prop := l ≠ "" ∧ (names l).isSome

/-- **C54, exact effect.** A configuration is accepted iff the logger takes its level, but accepted or not, afterwards every field the
body does not have is zero, whatever it was before; only the level of the logger depends on acceptance. -/
theorem C54_effect (names : LevelNames) (s : ConfState) (b : ConfBody) :
    ((s.editConfig names (some b)).2 = 200 ↔ names.Takes (b.loggingLevel.getD "")) ∧
    ((s.editConfig names (some b)).2 = 200 ∨ (s.editConfig names (some b)).2 = 400) ∧
    { (s.editConfig names (some b)).1.displayConfig with loggingLevel := b.loggingLevel.getD "" } = b.into {} ∧
    ((s.editConfig names (some b)).2 = 200 → names (b.loggingLevel.getD "") = some (s.editConfig names (some b)).1.level ∧
      (s.editConfig names (some b)).1.displayConfig.loggingLevel = (s.editConfig names (some b)).1.level) ∧
    ((s.editConfig names (some b)).2 = 400 → (s.editConfig names (some b)).1 = { conf := b.into {}, level := s.level }) := by
  have hl : (b.into {}).loggingLevel = b.loggingLevel.getD "" := rfl
  simp only [ConfState.editConfig, ConfState.setConfig, ConfState.setLoggerLevel, hl, LevelNames.Takes, ConfState.displayConfig]
  by_cases h0 : b.loggingLevel.getD "" = ""
  · simp only [h0, if_true]
    refine ⟨by simp, by simp, ?_, by simp, by simp⟩
    have : (b.into {}) = { b.into {} with loggingLevel := (b.into {}).loggingLevel } := rfl
    conv_rhs => rw [this, hl, h0]
  · cases hn : names (b.loggingLevel.getD "") with
    | none =>
      simp only [h0, if_false]
      exact ⟨by simp, by simp, rfl, by simp, by simp⟩
    | some m =>
      simp only [h0, if_false]
      exact ⟨by simp [h0], by simp, rfl, by simp, by simp⟩

/-- Specification: the configuration `d` shows, field by field, the values of the body `b`, and zero for what the body leaves out (all but
the logging level, whose name the logger may change). -/
structure Shows (d : UpfConfig) (b : ConfBody) : Prop where
  interfaceName : d.interfaceName = b.interfaceName.getD []
  xdpAttachMode : d.xdpAttachMode = b.xdpAttachMode.getD ""
  apiAddress : d.apiAddress = b.apiAddress.getD ""
  pfcpAddress : d.pfcpAddress = b.pfcpAddress.getD ""
  pfcpNodeId : d.pfcpNodeId = b.pfcpNodeId.getD ""
  pfcpRemoteNode : d.pfcpRemoteNode = b.pfcpRemoteNode.getD []
  associationSetupTimeout : d.associationSetupTimeout = b.associationSetupTimeout.getD 0
  metricsAddress : d.metricsAddress = b.metricsAddress.getD ""
  n3Address : d.n3Address = b.n3Address.getD ""
  n9Address : d.n9Address = b.n9Address.getD ""
  gtpPeer : d.gtpPeer = b.gtpPeer.getD []
  gtpEchoInterval : d.gtpEchoInterval = b.gtpEchoInterval.getD 0
  qerMapSize : d.qerMapSize = b.qerMapSize.getD 0
  farMapSize : d.farMapSize = b.farMapSize.getD 0
  urrMapSize : d.urrMapSize = b.urrMapSize.getD 0
  pdrMapSize : d.pdrMapSize = b.pdrMapSize.getD 0
  maxSessions : d.maxSessions = b.maxSessions.getD 0
  heartbeatRetries : d.heartbeatRetries = b.heartbeatRetries.getD 0
  heartbeatInterval : d.heartbeatInterval = b.heartbeatInterval.getD 0
  heartbeatTimeout : d.heartbeatTimeout = b.heartbeatTimeout.getD 0
  ueipPool : d.ueipPool = b.ueipPool.getD ""
  fteidPool : d.fteidPool = b.fteidPool.getD 0
  featureUEIP : d.featureUEIP = b.featureUEIP.getD false
  featureFTUP : d.featureFTUP = b.featureFTUP.getD false

/-- **C54, field by field.** Whatever the state, after a POST with a readable body the configuration shows exactly the values of the body
and zeros elsewhere, and heartbeats go by the posted numbers. -/
theorem C54_shows (names : LevelNames) (s : ConfState) (b : ConfBody) :
    Shows (s.editConfig names (some b)).1.displayConfig b ∧
    (s.editConfig names (some b)).1.conf.hb.retries = b.heartbeatRetries.getD 0 ∧
    (s.editConfig names (some b)).1.conf.hb.timeout = b.heartbeatTimeout.getD 0 := by
  have h := (C54_effect names s b).2.2.1
  generalize (s.editConfig names (some b)).1 = t at h ⊢
  obtain ⟨c, l⟩ := t
  simp only [ConfState.displayConfig] at h ⊢
  have hs : Shows c b := by
    constructor <;> first
      | exact (congrArg UpfConfig.interfaceName h)
      | exact (congrArg UpfConfig.xdpAttachMode h)
      | exact (congrArg UpfConfig.apiAddress h)
      | exact (congrArg UpfConfig.pfcpAddress h)
      | exact (congrArg UpfConfig.pfcpNodeId h)
      | exact (congrArg UpfConfig.pfcpRemoteNode h)
      | exact (congrArg UpfConfig.associationSetupTimeout h)
      | exact (congrArg UpfConfig.metricsAddress h)
      | exact (congrArg UpfConfig.n3Address h)
      | exact (congrArg UpfConfig.n9Address h)
      | exact (congrArg UpfConfig.gtpPeer h)
      | exact (congrArg UpfConfig.gtpEchoInterval h)
      | exact (congrArg UpfConfig.qerMapSize h)
      | exact (congrArg UpfConfig.farMapSize h)
      | exact (congrArg UpfConfig.urrMapSize h)
      | exact (congrArg UpfConfig.pdrMapSize h)
      | exact (congrArg UpfConfig.maxSessions h)
      | exact (congrArg UpfConfig.heartbeatRetries h)
      | exact (congrArg UpfConfig.heartbeatInterval h)
      | exact (congrArg UpfConfig.heartbeatTimeout h)
      | exact (congrArg UpfConfig.ueipPool h)
      | exact (congrArg UpfConfig.fteidPool h)
      | exact (congrArg UpfConfig.featureUEIP h)
      | exact (congrArg UpfConfig.featureFTUP h)
  exact ⟨hs, hs.heartbeatRetries, hs.heartbeatTimeout⟩

/-- Specification: the body that has every field of a configuration (what GET shows, sent back). -/
def UpfConfig.body (c : UpfConfig) : ConfBody where
  interfaceName := some c.interfaceName
  xdpAttachMode := some c.xdpAttachMode
  apiAddress := some c.apiAddress
  pfcpAddress := some c.pfcpAddress
  pfcpNodeId := some c.pfcpNodeId
  pfcpRemoteNode := some c.pfcpRemoteNode
  associationSetupTimeout := some c.associationSetupTimeout
  metricsAddress := some c.metricsAddress
  n3Address := some c.n3Address
  n9Address := some c.n9Address
  gtpPeer := some c.gtpPeer
  gtpEchoInterval := some c.gtpEchoInterval
  qerMapSize := some c.qerMapSize
  farMapSize := some c.farMapSize
  urrMapSize := some c.urrMapSize
  pdrMapSize := some c.pdrMapSize
  maxSessions := some c.maxSessions
  heartbeatRetries := some c.heartbeatRetries
  heartbeatInterval := some c.heartbeatInterval
  heartbeatTimeout := some c.heartbeatTimeout
  loggingLevel := some c.loggingLevel
  ueipPool := some c.ueipPool
  fteidPool := some c.fteidPool
  featureUEIP := some c.featureUEIP
  featureFTUP := some c.featureFTUP

/-- **C54, sending back what was read.** Whatever was configured, posting a complete configuration whose level is a level's canonical name
is accepted and gives exactly this configuration: reading it back gives what was posted. -/
theorem C54_read_back (names : LevelNames) (s : ConfState) (c : UpfConfig) (h0 : c.loggingLevel ≠ "") (hn : names c.loggingLevel = some c.loggingLevel) :
    s.editConfig names (some c.body) = (⟨c, c.loggingLevel⟩, 200) := by
  have hi : c.body.into {} = c := rfl
  have hl : (c.body.into {}).loggingLevel = c.loggingLevel := rfl
  simp only [ConfState.editConfig, ConfState.setConfig, ConfState.setLoggerLevel, hl, h0, if_false, hn]
  rfl

/-- Non-vacuity. -/
example : Demo.conf.loggingLevel ≠ "" ∧ Demo.levels Demo.conf.loggingLevel = some Demo.conf.loggingLevel := by decide +kernel

/-- **C54, negation.** Every configuration but the posted one is lost by a refused post: a post that is refused leaves the
configuration unchanged only if it was already exactly the decoded body. -/
theorem C54_not_atomic (names : LevelNames) (s : ConfState) (b : ConfBody) (h : (s.editConfig names (some b)).2 = 400) :
    (s.editConfig names (some b)).1 = s ↔ s.conf = b.into {} := by
  rw [(C54_effect names s b).2.2.2.2 h]
  constructor
  · intro e; rw [← e]
  · intro e; rw [← e]

/-- Witness: an empty body is refused and clears the configuration, among others the heartbeat retries and UE IP allocation. -/
example : (ConfState.editConfig Demo.levels ⟨{ Demo.conf with featureUEIP := true }, "info"⟩ (some {})).2 = 400 ∧
    (ConfState.editConfig Demo.levels ⟨{ Demo.conf with featureUEIP := true }, "info"⟩ (some {})).1 = ⟨{}, "info"⟩ := by decide +kernel
/-- Witness: changing only the level is accepted and clears everything else too. -/
example : (ConfState.editConfig Demo.levels ⟨Demo.conf, "info"⟩ (some { loggingLevel := some "debug" })) =
    (⟨{ loggingLevel := "debug" }, "debug"⟩, 200) := by decide +kernel
/-- Non-vacuity of the accepted case: a full body. -/
example : (ConfState.editConfig Demo.levels ⟨{}, "debug"⟩ (some { n3Address := some "10.0.0.1", loggingLevel := some "INFO" })).1.displayConfig.loggingLevel = "info" := by
  decide +kernel

/-- **C54, consequence for sessions.** After any post without `feature_ueip` the UPF no longer serves requests to choose a UE address
although it still advertises that it does: an establishment that was accepted before is refused afterwards. -/
theorem C54_ueip_lost :
    (((Demo.n0.run [.assocSetup 1 1 (some (some ())) (some (some ()))]).1.step (.establish 1 (Demo.est 100))).2 =
      .reply { type := .establishment, seid := 100, seq := 5, cause := 1, fseid := some 2,
               created := [.fteid 1 1 0x0a000001, .ueIp 2 0x0a2d0001] }) ∧
    (((Demo.n0.run [.assocSetup 1 1 (some (some ())) (some (some ())), .setConfig (ConfBody.into {} {}).featureUEIP]).1.step (.establish 1 (Demo.est 100))).2 =
      .reply { type := .establishment, seid := 100, seq := 5, cause := 73 }) ∧
    (((Demo.n0.run [.setConfig (ConfBody.into {} {}).featureUEIP]).1.step (.assocSetup 1 1 (some (some ())) (some (some ())))).2 =
      .reply { type := .assocSetup, seq := 1, cause := 1, features := some [0x10, 0x01, 0x04] }) := by
  decide +kernel

/-- **C54, consequence for associations.** After a post without `heartbeat_retries`, one expired heartbeat is enough to lose an
association with all its sessions: whatever the state, the next expiry for a waiting scheduler gives the peer up. -/
theorem C54_one_miss {s s' : Sys} {b : ConfBody} {a : Addr} (hb : b.heartbeatRetries = none) (hc : s.cfg = (b.into {}).hb) :
    ¬ Sys.Step s (.expired a) s' := by
  intro h
  cases h with
  | @expired _ next fails _ hf =>
    apply hf
    rw [hc]
    have : (b.into {}).hb.retries = 0 := by simp [UpfConfig.hb, ConfBody.into, hb]
    rw [this]
    show (0#32).toNat ≤ _
    simp

end Eupf
