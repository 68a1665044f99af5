import Verif.Num.Double
import Verif.Num.F64
import Verif.Num.GoMath
import Verif.Num.Real
import Verif.Spec.BoundedMap
import Verif.Spec.Circle
import Verif.Spec.Coherence
import Verif.Spec.Config
import Verif.Spec.Pattern
import Verif.Spec.Regression
import Verif.Model.Agent
import Verif.Model.App
import Verif.Model.Bars
import Verif.Model.Basin
import Verif.Model.Batching
import Verif.Model.Client
import Verif.Model.Closing
import Verif.Model.Collecting
import Verif.Model.Completion
import Verif.Model.Concurrency
import Verif.Model.Config
import Verif.Model.Continuous
import Verif.Model.ConvMonitor
import Verif.Model.Core
import Verif.Model.Demo
import Verif.Model.Display
import Verif.Model.Explain
import Verif.Model.GoalDirected
import Verif.Model.Grading
import Verif.Model.KeyQueue
import Verif.Model.Lifecycle
import Verif.Model.Markers
import Verif.Model.Mathx
import Verif.Model.Menu
import Verif.Model.Metrics
import Verif.Model.Monitoring
import Verif.Model.Neighbors
import Verif.Model.Patterns
import Verif.Model.RWLock
import Verif.Model.Resource
import Verif.Model.ScriptedKeys
import Verif.Model.SimSmall
import Verif.Model.Snapshot
import Verif.Model.Strategy
import Verif.Model.StrategyNames
import Verif.Model.Summary
import Verif.Model.Swarm
import Verif.Model.Tables
import Verif.Model.TaskGen
import Verif.Model.TestTopology
import Verif.Model.Texts
import Verif.Model.WorkKinds
import Verif.Model.WorkerPool
import Verif.Lemmas.Coherence
import Verif.Lemmas.F64
import Verif.Lemmas.HalfEven
import Verif.Lemmas.Normalize
import Verif.Lemmas.Phase
import Verif.Lemmas.Pi
import Verif.Lemmas.Regression
import Verif.Lemmas.RoundErr
import Verif.Lemmas.SyncMap
import Verif.Props.Accuracy
import Verif.Props.AchievedDouble
import Verif.Props.Adjust
import Verif.Props.Agent
import Verif.Props.AgentArc
import Verif.Props.AgentDouble
import Verif.Props.AgentRange
import Verif.Props.AgentSteps
import Verif.Props.AgentStuck
import Verif.Props.AgentTravel
import Verif.Props.App
import Verif.Props.AutoScale
import Verif.Props.Bars
import Verif.Props.Basin
import Verif.Props.BasinDouble
import Verif.Props.Batching
import Verif.Props.BatchingDouble
import Verif.Props.BornSound
import Verif.Props.BuildErrors
import Verif.Props.BusySwarm
import Verif.Props.ChartPanel
import Verif.Props.Client
import Verif.Props.ClientDouble
import Verif.Props.Closing
import Verif.Props.CoherenceDouble
import Verif.Props.Collecting
import Verif.Props.Completion
import Verif.Props.CompletionGaps
import Verif.Props.Concurrency
import Verif.Props.ConsensusPanel
import Verif.Props.Continuous
import Verif.Props.ConvMonitor
import Verif.Props.CoreDouble
import Verif.Props.CostDouble
import Verif.Props.Decision
import Verif.Props.DecisionDouble
import Verif.Props.DemoClient
import Verif.Props.DemoDoubles
import Verif.Props.DemoReset
import Verif.Props.DisruptDouble
import Verif.Props.EnergyDouble
import Verif.Props.Explain
import Verif.Props.ExplainBest
import Verif.Props.FillDouble
import Verif.Props.Gauges
import Verif.Props.GaugesDouble
import Verif.Props.GoalConfig
import Verif.Props.GradesDouble
import Verif.Props.Grading
import Verif.Props.KeyQueue
import Verif.Props.Knows
import Verif.Props.Lifecycle
import Verif.Props.LoadPanel
import Verif.Props.LocalAccuracy
import Verif.Props.Markers
import Verif.Props.Mathx
import Verif.Props.Menu
import Verif.Props.MetricsPanel
import Verif.Props.MetricsShares
import Verif.Props.MonitorRate
import Verif.Props.Monitoring
import Verif.Props.Neighbors
import Verif.Props.NudgeDouble
import Verif.Props.NudgeRun
import Verif.Props.PanelsDouble
import Verif.Props.Pattern
import Verif.Props.Patterns
import Verif.Props.PatternsDouble
import Verif.Props.Phase
import Verif.Props.PhaseAccuracy
import Verif.Props.PhaseConv
import Verif.Props.PhasePanels
import Verif.Props.PhasePanelsDouble
import Verif.Props.Pool
import Verif.Props.PoolDouble
import Verif.Props.PresetAgents
import Verif.Props.PresetDouble
import Verif.Props.Pull
import Verif.Props.PullDouble
import Verif.Props.RWLock
import Verif.Props.Remaining
import Verif.Props.ReorderDouble
import Verif.Props.ResetDouble
import Verif.Props.Resource
import Verif.Props.SavingsDouble
import Verif.Props.Scatter
import Verif.Props.ScriptedKeys
import Verif.Props.SimSmall
import Verif.Props.SineDouble
import Verif.Props.Snapshot
import Verif.Props.State
import Verif.Props.StepDouble
import Verif.Props.Strategy
import Verif.Props.StrategyCost
import Verif.Props.StrategyDouble
import Verif.Props.StrategySwitch
import Verif.Props.StrategyUse
import Verif.Props.StuckDouble
import Verif.Props.Summary
import Verif.Props.SwarmConfig
import Verif.Props.SwarmConn
import Verif.Props.SwarmGraph
import Verif.Props.SwarmNew
import Verif.Props.SwarmOps
import Verif.Props.SwarmPicture
import Verif.Props.SwitchDouble
import Verif.Props.SyncBudget
import Verif.Props.SyncRun
import Verif.Props.SyncSafe
import Verif.Props.Tables
import Verif.Props.Tables2
import Verif.Props.TablesDouble
import Verif.Props.TaskFlow
import Verif.Props.TaskGen
import Verif.Props.TemplateLibrary
import Verif.Props.TestTopology
import Verif.Props.Texts
import Verif.Props.ThresholdsDouble
import Verif.Props.Tightened
import Verif.Props.Topology
import Verif.Props.TopologyOption
import Verif.Props.TravelDouble
import Verif.Props.Tuning
import Verif.Props.TuningDouble
import Verif.Props.WorkKinds
import Verif.Props.WorkerPool
import Verif.Props.ZeroAgent
