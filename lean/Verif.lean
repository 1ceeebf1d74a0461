import Verif.Base
import Verif.IdTracker
import Verif.Props.IdTracker
import Verif.ResourceManager
import Verif.Props.Pools
import Verif.SdfParser
import Verif.Bpf
import Verif.Session
import Verif.Handlers
import Verif.Node
import Verif.HandlerLemmas
import Verif.NodeLemmas
import Verif.Spec.Ledger
import Verif.Demo
import Verif.Props.Requests
import Verif.Props.Ledger
import Verif.Slots
import Verif.Spec.KnownRefs
import Verif.SlotSteps
import Verif.SlotNode
import Verif.Props.Slots
import Verif.NodeInv
import Verif.Spec.Keys
import Verif.Ranges
import Verif.DeleteLemmas
import Verif.Props.Deletion
import Verif.Props.PeerLoss
import Verif.Props.NoCrash
import Verif.Props.DeletionCases
import Verif.Props.DeletionExact
import Verif.Restart
import Verif.Spec.Restart
import Verif.Props.Restart
import Verif.Props.Usage
import Verif.Spec.Merge
import Verif.MergeLemmas
import Verif.Props.Merge
import Verif.Spec.Classify
import Verif.PdrLemmas
import Verif.Spec.Installed
import Verif.Props.PdrInstall
import Verif.Spec.Frames
import Verif.Spec.Flow
import Verif.Spec.Route
import Verif.Spec.Checksum
import Verif.Spec.Tunnel
import Verif.Xdp.Mem
import Verif.Xdp.RateLimit
import Verif.Xdp.Csum
import Verif.Xdp.Parse
import Verif.Xdp.Match
import Verif.Xdp.Gtp
import Verif.Xdp.Pipeline
import Verif.Xdp.Wp
import Verif.Xdp.Eval
import Verif.Xdp.Dispatch
import Verif.Xdp.Tail
import Verif.Xdp.Goes
import Verif.Xdp.Uplink
import Verif.Xdp.Reply
import Verif.Xdp.Outcome
import Verif.Xdp.DemoDp
import Verif.Props.Packets
import Verif.Xdp.CsumLemmas
import Verif.Xdp.SwapLemmas
import Verif.Props.Tunnel
import Verif.Props.Replies
import Verif.PdrTables
import Verif.Props.RateLimit
import Verif.Props.Conforming
import Verif.Props.Accounting
import Verif.Props.NeverConfigured
import Verif.Spec.Chosen
import Verif.Props.Chosen
import Verif.Props.TeidDistinct
import Verif.Spec.SdfGrammar
import Verif.SdfLemmas
import Verif.SdfAddr
import Verif.Props.SdfGrammar
import Verif.Spec.SdfMeaning
import Verif.Props.SdfMatch
import Verif.Heartbeat
import Verif.Spec.Heartbeats
import Verif.HeartbeatLemmas
import Verif.Props.Heartbeat
import Verif.Props.Wedge
import Verif.Spec.Counters
import Verif.Xdp.Counters
import Verif.Props.Counters
import Verif.Stats
import Verif.Spec.Reported
import Verif.Props.Stats
import Verif.Layout
import Verif.Props.Layout
import Verif.Rest
import Verif.Json
import Verif.Spec.Json
import Verif.Props.Json
import Verif.Props.Rest
import Verif.Config
import Verif.Props.Config
import Verif.GtpPath
import Verif.Props.GtpPath
import Verif.Spec.Footprint
import Verif.KeyGuard
import Verif.Spec.Asked
import Verif.Props.Created
import Verif.Props.EndToEnd
import Verif.Wire
import Verif.Spec.Wire
import Verif.Props.Wire
import Verif.Props.Refresh
import Verif.Props.Features
import Verif.Props.HeartbeatWire
import Verif.Props.Routing
import Verif.Spec.Lookups
import Verif.Props.Lookups
import Verif.Xdp.Smp
import Verif.Props.Smp
import Verif.Ies
import Verif.Props.Grouped
import Verif.Props.UrrRefs
import Verif.Props.Modification
import Verif.Props.RouteCache
import Verif.Races
import Verif.RaceLemmas
import Verif.RaceCover
import Verif.Props.Races
import Verif.Spec.Leaks
import Verif.LeakLemmas
import Verif.Props.Leaks
import Verif.Props.ChosenService
import Verif.Props.ChosenAddress
import Verif.Props.ChosenFeature
import Verif.Spec.FilterText
import Verif.Props.FilterText
import Verif.Props.Ipv6Service
import Verif.Spec.Service
import Verif.Props.Service
import Verif.Props.ServiceCases
import Verif.Spec.Capacity
import Verif.CapacityLemmas
import Verif.CapacityNode
import Verif.Props.Capacity
import Verif.Spec.Acceptance
import Verif.SizeLemmas
import Verif.AcceptLemmas
import Verif.Props.Acceptance
import Verif.Spec.Gone
import Verif.Props.Gone
import Verif.Props.GoneCases
import Verif.Spec.Exact
import Verif.ExactLemmas
import Verif.Props.Exact
import Verif.Props.ExactPackets
import Verif.Props.ExactCases
import Verif.Spec.OwnRules
import Verif.OwnLemmas
import Verif.Props.OwnRules
import Verif.Props.OwnRulesCases
import Verif.Spec.AbstractUpf
import Verif.AbstractLemmas
import Verif.Props.Abstract
import Verif.Props.AbstractPackets
import Verif.Props.AbstractCases
import Verif.Props.ToldRate
import Verif.Spec.Retransmit
import Verif.Props.Retransmit
import Verif.Props.RetransmitCases
import Verif.Spec.Fifo
import Verif.Props.Fifo
import Verif.Props.PeerRestart
import Verif.Moments
import Verif.Spec.Moments
import Verif.MomentLemmas
import Verif.Props.Moments
import Verif.Props.MomentCases
import Verif.CutLemmas
import Verif.MomentSlots
import Verif.MomentKeys
import Verif.Props.MomentIsolation
import Verif.Props.MergeTables
import Verif.Spec.Cut
import Verif.Props.Overlap
import Verif.Props.OverlapCases
import Verif.Props.WriteOrder
import Verif.Props.WriteOrderCases
import Verif.Spec.Atomic
import Verif.Xdp.Fate
import Verif.Props.Atomic
import Verif.Props.AtomicCases
import Verif.Props.CleanCuts
import Verif.Props.AtomicModify
import Verif.Props.AtomicModifyCases
import Verif.Spec.Overlap
import Verif.Props.AtomicOverlap
import Verif.Props.AtomicOverlapCases
import Verif.Spec.ModAcceptance
import Verif.ModAcceptLemmas
import Verif.Props.ModAcceptance
import Verif.Props.Limited
import Verif.Props.LimitedCases
import Verif.Spec.Twins
import Verif.Xdp.Twins
import Verif.Props.Twins
import Verif.Props.TwinsCases
import Verif.Spec.Timers
import Verif.TimerLemmas
import Verif.Props.Timers
import Verif.Props.TimersCases
import Verif.Spec.Billing
import Verif.BillingLemmas
import Verif.BillingLost
import Verif.Props.Billing
import Verif.Props.BillingCases
import Verif.Spec.Loops
import Verif.Props.Loops
import Verif.Spec.Fragments
import Verif.Props.Fragments
import Verif.Props.RestartGap
import Verif.Props.Idle
import Verif.Props.LayoutPdr
import Verif.Props.RacePools
import Verif.Props.ModAcceptance2
import Verif.AddressPool
import Verif.Props.AddressPool
import Verif.Props.Untold
import Verif.Props.SdfMatch6
import Verif.Props.RestartRoom
import Verif.Props.FilterText6
