import Verif.Heartbeat
/-
The configuration: cmd/config/config.go, cmd/config/startup.go, cmd/api/rest/config.go, cmd/core/config_edit.go,
cmd/core/logger.go.
Trusted: viper, go-playground/validator (the `validate` tags are a parameter), zerolog's level names (a parameter), gin's JSON
decoding (the fields present in the body are a parameter; it ignores `validate` tags).
-/
namespace Eupf

/-- config.go 12-38 `UpfConfig` -/
structure UpfConfig where
  interfaceName : List String := []
  xdpAttachMode : String := ""
  apiAddress : String := ""
  pfcpAddress : String := ""
  pfcpNodeId : String := ""
  pfcpRemoteNode : List String := []
  associationSetupTimeout : U32 := 0
  metricsAddress : String := ""
  n3Address : String := ""
  n9Address : String := ""
  gtpPeer : List String := []
  gtpEchoInterval : U32 := 0
  qerMapSize : U32 := 0
  farMapSize : U32 := 0
  urrMapSize : U32 := 0
  pdrMapSize : U32 := 0
  maxSessions : U32 := 0
  heartbeatRetries : U32 := 0
  heartbeatInterval : U32 := 0
  heartbeatTimeout : U32 := 0
  loggingLevel : String := ""
  ueipPool : String := ""
  fteidPool : U32 := 0
  featureUEIP : Bool := false
  featureFTUP : Bool := false
deriving DecidableEq, Repr

/-- config.go 118-145 `Validate`; `tags` is the outcome of the validator (line 119) -/
def UpfConfig.validate (tags : UpfConfig → Bool) (c : UpfConfig) : Option UpfConfig :=
  if tags c then
    let c := if c.featureFTUP then c else { c with fteidPool := 0 }
    let c := if c.featureUEIP then c else { c with ueipPool := "" }
    let c := if c.pdrMapSize = 0 then { c with pdrMapSize := c.maxSessions * 2 } else c
    let c := if c.farMapSize = 0 then { c with farMapSize := c.maxSessions * 2 } else c
    let c := if c.qerMapSize = 0 then { c with qerMapSize := c.maxSessions } else c
    let c := if c.urrMapSize = 0 then { c with urrMapSize := c.maxSessions * 2 } else c
    some c
  else none

/-- `time.NewTicker` panics unless the interval is positive -/
def tickerOk (seconds : U32) : Bool := seconds != 0

/-- How far a start gets: startup.go 10-20, main.go 31-50, 104, 132-136, pfcp_connection.go 115, gtp_path_manager.go 40.
`invalid`: the configuration is refused with a message; `noTables`: a table of size 0 cannot be created (the kernel refuses it,
main.go 50); `crash`: a panic. Other causes of failure (interfaces, sockets) are left out. -/
inductive Start
  | invalid
  | noTables
  | crash
  | running (c : UpfConfig)
deriving DecidableEq

/-- see `Start` -/
def UpfConfig.start (tags : UpfConfig → Bool) (c : UpfConfig) : Start :=
  match c.validate tags with
  | none => .invalid
  | some c =>
    if c.pdrMapSize = 0 ∨ c.farMapSize = 0 ∨ c.qerMapSize = 0 ∨ c.urrMapSize = 0 then .noTables
    else if ¬ tickerOk c.associationSetupTimeout ∨ ¬ tickerOk c.gtpEchoInterval then .crash
    else .running c

/-- The tables created from the configuration: main.go 44-50, objects.go 43-153 -/
def UpfConfig.tables (c : UpfConfig) : BpfObjects := BpfObjects.load c.pdrMapSize c.farMapSize c.qerMapSize c.urrMapSize

/-- A JSON body: the fields it has. -/
structure ConfBody where
  interfaceName : Option (List String) := none
  xdpAttachMode : Option String := none
  apiAddress : Option String := none
  pfcpAddress : Option String := none
  pfcpNodeId : Option String := none
  pfcpRemoteNode : Option (List String) := none
  associationSetupTimeout : Option U32 := none
  metricsAddress : Option String := none
  n3Address : Option String := none
  n9Address : Option String := none
  gtpPeer : Option (List String) := none
  gtpEchoInterval : Option U32 := none
  qerMapSize : Option U32 := none
  farMapSize : Option U32 := none
  urrMapSize : Option U32 := none
  pdrMapSize : Option U32 := none
  maxSessions : Option U32 := none
  heartbeatRetries : Option U32 := none
  heartbeatInterval : Option U32 := none
  heartbeatTimeout : Option U32 := none
  loggingLevel : Option String := none
  ueipPool : Option String := none
  fteidPool : Option U32 := none
  featureUEIP : Option Bool := none
  featureFTUP : Option Bool := none

/-- Decoding into a value: fields of the body replace those of the value (encoding/json `Unmarshal`). -/
def ConfBody.into (b : ConfBody) (c : UpfConfig) : UpfConfig where
  interfaceName := b.interfaceName.getD c.interfaceName
  xdpAttachMode := b.xdpAttachMode.getD c.xdpAttachMode
  apiAddress := b.apiAddress.getD c.apiAddress
  pfcpAddress := b.pfcpAddress.getD c.pfcpAddress
  pfcpNodeId := b.pfcpNodeId.getD c.pfcpNodeId
  pfcpRemoteNode := b.pfcpRemoteNode.getD c.pfcpRemoteNode
  associationSetupTimeout := b.associationSetupTimeout.getD c.associationSetupTimeout
  metricsAddress := b.metricsAddress.getD c.metricsAddress
  n3Address := b.n3Address.getD c.n3Address
  n9Address := b.n9Address.getD c.n9Address
  gtpPeer := b.gtpPeer.getD c.gtpPeer
  gtpEchoInterval := b.gtpEchoInterval.getD c.gtpEchoInterval
  qerMapSize := b.qerMapSize.getD c.qerMapSize
  farMapSize := b.farMapSize.getD c.farMapSize
  urrMapSize := b.urrMapSize.getD c.urrMapSize
  pdrMapSize := b.pdrMapSize.getD c.pdrMapSize
  maxSessions := b.maxSessions.getD c.maxSessions
  heartbeatRetries := b.heartbeatRetries.getD c.heartbeatRetries
  heartbeatInterval := b.heartbeatInterval.getD c.heartbeatInterval
  heartbeatTimeout := b.heartbeatTimeout.getD c.heartbeatTimeout
  loggingLevel := b.loggingLevel.getD c.loggingLevel
  ueipPool := b.ueipPool.getD c.ueipPool
  fteidPool := b.fteidPool.getD c.fteidPool
  featureUEIP := b.featureUEIP.getD c.featureUEIP
  featureFTUP := b.featureFTUP.getD c.featureFTUP

/-- The configuration (`config.Conf`, which `h.Cfg` points to: main.go 110) and zerolog's global level, by name. -/
structure ConfState where
  conf : UpfConfig
  level : String
deriving DecidableEq

/-- zerolog's `ParseLevel` followed by `Level.String()`: the canonical name of a level. `none`: not a level. -/
abbrev LevelNames := String → Option String

/-- core/logger.go 16-29 `SetLoggerLevel`; `true`: no error -/
def ConfState.setLoggerLevel (names : LevelNames) (s : ConfState) (l : String) : ConfState × Bool :=
  if l = "" then (s, false)
  else match names l with
    | some n => ({ conf := { s.conf with loggingLevel := n }, level := n }, true)
    | none => (s, false)

/-- core/config_edit.go 11-18 `SetConfig` -/
def ConfState.setConfig (names : LevelNames) (s : ConfState) (c : UpfConfig) : ConfState × Bool :=
  s.setLoggerLevel names c.loggingLevel

/-- rest/config.go 22-41 `editConfig`: new state and status code. `none`: the body is not JSON of the right shape. -/
def ConfState.editConfig (names : LevelNames) (s : ConfState) (body : Option ConfBody) : ConfState × Nat :=
  match body with
  | none => (s, 400)
  | some b =>
    let conf := b.into {}
    let s : ConfState := { s with conf := conf }
    match s.setConfig names conf with
    | (s, false) => (s, 400)
    | (s, true) => (s, 200)

/-- rest/config.go 18-20 `displayConfig` -/
def ConfState.displayConfig (s : ConfState) : UpfConfig := s.conf

/-- what the handlers and schedulers read from the configuration: see `Sys.Step.config` -/
def UpfConfig.hb (c : UpfConfig) : HbCfg := ⟨c.heartbeatRetries, c.heartbeatTimeout⟩

end Eupf
