import Verif.Model.Agent

/-!
# Model of `emerge/swarm/swarm.go` and `internal/topology`

Agents live on a heap and are referred to by addresses; two swarms or maps sharing an address share the agent. The
fields `basin` and `workerPool` are written but never read by the package and are left out, as are the two monitors
(modelled separately). All random choices are parameters.
-/

set_option autoImplicit false

namespace Verif
open GoMath

/-- `RecoveryConfig`, emerge/swarm/swarm_continuous_run.go:15-40. -/
structure RecoveryConfig (α : Type) where
  minimumViableCoherence : α
  targetMarginRatio : α
  smallDropRatio : α
  largeDropRatio : α
  stuckThreshold : Int
  checkInterval : Int

/-- `swarm.Swarm`, emerge/swarm/swarm.go:29-58. `heap` holds the agents, `next` is the first unused address. -/
structure Swarm (α : Type) where
  heap : Nat → Agent α
  next : Nat
  agents : SyncMap Nat
  agentSlice : List Nat
  agentIndex : SyncMap Nat
  optimized : Bool
  goalState : State α
  config : SwarmConfig α
  size : Int
  connectionsEstablished : Bool
  goalConfig : Option (GoalConfig α)
  recoveryConfig : RecoveryConfig α

/-- What the code leaves open: the order in which `sync.Map.Range` visits the entries of a map, and the random draws. -/
structure SwarmEnv (α : Type) where
  /-- the order of `Range` -/
  order : SyncMap Nat → SyncMap Nat
  order_perm : ∀ m, (order m).Perm m
  /-- draws made while creating the i-th agent -/
  draws : Nat → Draws
  /-- `random.Float64()` drawn for the pair (i, j) of list positions -/
  coin : Nat → Nat → α
  /-- the k-th outcome of `random.Intn(n)` during the turn of the i-th agent is `pick i k % n` -/
  pick : Nat → Nat → Nat
  /-- bound on the iterations of the one loop that need not terminate -/
  fuel : Nat

/-- Errors of `New`. -/
inductive SwarmErr where
  | invalidSize | invalidGoal | config | option | tooLarge | agents
  /-- the loop of `ensureMinimumConnectivity` is still running after `fuel` iterations -/
  | running
  deriving DecidableEq, Repr

section
variable {α : Type} [Zero α] [One α] [Add α] [Sub α] [Mul α] [Div α] [Neg α] [LT α] [LE α]
  [DecidableLT α] [DecidableLE α] [BEq α] [OfScientific α] [GoMath α]

/-- `DefaultRecoveryConfig`, emerge/swarm/swarm_continuous_run.go:44-79, with the constants of
emerge/swarm/thresholds.go:6-38. -/
def defaultRecoveryConfig (targetCoherence : α) : RecoveryConfig α :=
  if targetCoherence ≥ 0.9 then ⟨0.5, 0.98, 0.03, 0.08, 30, 100 * millisecond⟩
  else if targetCoherence ≥ 0.7 then ⟨0.4, 0.95, 0.05, 0.12, 30, 100 * millisecond⟩
  else if targetCoherence ≥ 0.5 then ⟨0.3, 0.92, 0.08, 0.15, 30, 100 * millisecond⟩
  else ⟨0.2, 0.85, 0.10, 0.20, 30, 100 * millisecond⟩

/-- Writing one cell of the heap. -/
def setAt (h : Nat → Agent α) (a : Nat) (x : Agent α) : Nat → Agent α := fun b => if b = a then x else h b

/-- `fmt.Sprintf("agent-%d", i)`. -/
def agentID (i : Nat) : String := "agent-" ++ toString i

/-! ## Creating agents -/

/-- Allocating an agent and `s.agents.Store(a.ID, a)`, emerge/swarm/swarm.go:220 and 293. -/
def Swarm.storeAgent (s : Swarm α) (a : Agent α) : Swarm α :=
  { s with heap := setAt s.heap s.next a, next := s.next + 1, agents := SyncMap.store s.agents a.id s.next }

/-- The loop of `createDefaultAgents`, emerge/swarm/swarm.go:215-221, on the remaining indices. -/
def createDefaultLoop (cfg : AgentConfig α) (draws : Nat → Draws) : List Nat → Swarm α → Except SwarmErr (Swarm α)
  | [], s => .ok s
  | i :: is, s =>
    match newFromConfig (agentID i) cfg (draws i) with
    | .error _ => .error .agents
    | .ok a => createDefaultLoop cfg draws is (s.storeAgent a)

/-- `AgentFromSwarm(s.config)` with the swarm size filled in, emerge/swarm/swarm.go:212-213 and 227-228. -/
def Swarm.agentConfig (s : Swarm α) : AgentConfig α := { agentFromSwarm s.config with swarmSize := s.size }

/-- `(*Swarm).createDefaultAgents`, emerge/swarm/swarm.go:211-223. -/
def Swarm.createDefaultAgents (s : Swarm α) (draws : Nat → Draws) : Except SwarmErr (Swarm α) :=
  createDefaultLoop s.agentConfig draws (List.range s.size.toNat) s

/-- `(*Swarm).createOptimizedAgents`, emerge/swarm/swarm.go:226-254. The batches visit the indices 0 … size−1 in order,
filling one cell of the slice after the other; `NewOptimizedFromConfig` returns no error. -/
def Swarm.createOptimizedAgents (s : Swarm α) (draws : Nat → Draws) : Swarm α :=
  let cfg := s.agentConfig
  (List.range s.size.toNat).foldl (fun s j =>
    { s with
      heap := setAt s.heap s.next (newOptimizedFromConfig (agentID j) cfg (draws j))
      next := s.next + 1
      agentSlice := s.agentSlice ++ [s.next]
      agentIndex := SyncMap.store s.agentIndex (agentID j) j }) { s with agentSlice := [] }

/-! ## Options -/

/-- The options of emerge/swarm/swarm.go:257-317. `WithMonitor` touches nothing that is modelled. An agent builder is a
function returning a new agent; the index is passed beside the ID so that it may be stateful. A topology builder is any
partial function on swarms. -/
inductive SwarmOption (α : Type) where
  | config (c : SwarmConfig α)
  | goalConfig (c : GoalConfig α)
  | monitor
  | agentBuilder (build : Nat → String → Int → SwarmConfig α → Agent α)
  | topology (build : Swarm α → Option (Swarm α))
  | recovery (c : RecoveryConfig α)

/-- Applying one option; `none` is an error. -/
def Swarm.applyOption (s : Swarm α) : SwarmOption α → Option (Swarm α)
  | .config c =>
    let r := c.normalizeAndValidate s.size
    if r.1 ≠ [] then none else some { s with config := r.2 }
  | .goalConfig c => if (c.validate).isSome then none else some { s with goalConfig := some c }
  | .monitor => some s
  | .agentBuilder build =>
    some ((List.range s.size.toNat).foldl (fun s i => s.storeAgent (build i (agentID i) s.size s.config)) s)
  | .topology build => (build s).map fun s => { s with connectionsEstablished := true }
  | .recovery c => some { s with recoveryConfig := c }

/-- The option loop of `New`, emerge/swarm/swarm.go:113-117. -/
def Swarm.applyOptions (s : Swarm α) : List (SwarmOption α) → Option (Swarm α)
  | [] => some s
  | o :: os => (s.applyOption o).bind fun s => s.applyOptions os

/-! ## Connections -/

/-- `(*Swarm).collectAgents`, emerge/swarm/swarm.go:331-350. -/
def Swarm.collectAgents (s : Swarm α) (order : SyncMap Nat → SyncMap Nat) : List Nat :=
  if s.optimized then s.agentSlice else (order s.agents).map Prod.snd

/-- `a.Neighbors().Load(neighbor.ID)` succeeds, emerge/swarm/swarm.go:366, 398, 424. -/
def hasNeighbor (h : Nat → Agent α) (a b : Nat) : Bool := (SyncMap.load (h a).neighbors (h b).id).isSome

/-- One `a.Neighbors().Store(b.ID, b)`. -/
def storeNeighbor (h : Nat → Agent α) (a b : Nat) : Nat → Agent α :=
  setAt h a { h a with neighbors := SyncMap.store (h a).neighbors (h b).id b }

/-- The two stores, emerge/swarm/swarm.go:367-368, 404-405, 425-426. -/
def link (h : Nat → Agent α) (a b : Nat) : Nat → Agent α := storeNeighbor (storeNeighbor h a b) b a

/-- The inner loop of `establishMinimalConnections`, emerge/swarm/swarm.go:356-373, run for at most `n` more attempts;
`pick k` is the index drawn at attempt `k`. -/
def minimalLoop (minN : Int) (agents : List Nat) (pick : Nat → Nat) (a : Nat) :
    Nat → Nat → (Nat → Agent α) → Int → (Nat → Agent α)
  | 0, _, h, _ => h
  | n + 1, k, h, connected =>
    if connected < minN ∧ connected < (agents.length : Int) - 1 then
      let b := agents.getD (pick k % agents.length) 0
      if (h b).id ≠ (h a).id ∧ hasNeighbor h a b = false then
        minimalLoop minN agents pick a n (k + 1) (link h a b) (connected + 1)
      else minimalLoop minN agents pick a n (k + 1) h connected
    else h

/-- `(*Swarm).establishMinimalConnections`, emerge/swarm/swarm.go:353-375, on the remaining agents and their positions. -/
def minimalConnections (minN : Int) (agents : List Nat) (pick : Nat → Nat → Nat) :
    List (Nat × Nat) → (Nat → Agent α) → (Nat → Agent α)
  | [], h => h
  | (a, i) :: l, h =>
    minimalConnections minN agents pick l (minimalLoop minN agents (pick i) a (agents.length * 2) 0 h 0)

/-- `(*Swarm).connectToNeighbors`, emerge/swarm/swarm.go:386-411, on the remaining agents and their positions: the heap
and the count. -/
def connectLoop (prob : α) (maxN : Int) (coin : Nat → α) (a i : Nat) :
    List (Nat × Nat) → (Nat → Agent α) → Int → (Nat → Agent α) × Int
  | [], h, connected => (h, connected)
  | (b, j) :: l, h, connected =>
    if j = i then connectLoop prob maxN coin a i l h connected
    else if connected ≥ maxN then (h, connected)
    else if hasNeighbor h a b then connectLoop prob maxN coin a i l h (connected + 1)
    else if coin j < prob then connectLoop prob maxN coin a i l (link h a b) (connected + 1)
    else connectLoop prob maxN coin a i l h connected

/-- The loop of `ensureMinimumConnectivity`, emerge/swarm/swarm.go:416-429, for at most `fuel` iterations. -/
def forceLoop (minN : Int) (agents : List Nat) (pick : Nat → Nat) (a : Nat) :
    Nat → Nat → (Nat → Agent α) → Int → Option (Nat → Agent α)
  | 0, _, h, connected => if connected < minN then none else some h
  | n + 1, k, h, connected =>
    if connected < minN then
      let b := agents.getD (pick k % agents.length) 0
      if (h b).id = (h a).id then forceLoop minN agents pick a n (k + 1) h connected
      else if hasNeighbor h a b then forceLoop minN agents pick a n (k + 1) h connected
      else forceLoop minN agents pick a n (k + 1) (link h a b) (connected + 1)
    else some h

/-- `(*Swarm).ensureMinimumConnectivity`, emerge/swarm/swarm.go:414-431. -/
def ensureMinimum (minN : Int) (agents : List Nat) (pick : Nat → Nat) (a fuel : Nat) (h : Nat → Agent α)
    (connected : Int) : Option (Nat → Agent α) :=
  if connected < minN ∧ (agents.length : Int) > minN then forceLoop minN agents pick a fuel 0 h connected else some h

/-- `(*Swarm).establishProbabilisticConnections`, emerge/swarm/swarm.go:378-383, on the remaining agents. -/
def probabilisticConnections (c : SwarmConfig α) (env : SwarmEnv α) (agents : List Nat) :
    List (Nat × Nat) → (Nat → Agent α) → Option (Nat → Agent α)
  | [], h => some h
  | (a, i) :: l, h =>
    let r := connectLoop c.connectionProbability c.maxNeighbors (env.coin i) a i agents.zipIdx h 0
    (ensureMinimum c.minNeighbors agents (env.pick i) a env.fuel r.1 r.2).bind fun h =>
      probabilisticConnections c env agents l h

/-- Whether the minimal connections are used, emerge/swarm/swarm.go:323. -/
def useMinimal (c : SwarmConfig α) (n : Nat) : Bool := c.enableConnectionOptim && decide ((n : Int) > c.connectionOptimThreshold)

/-- `(*Swarm).establishConnections`, emerge/swarm/swarm.go:320-328. -/
def Swarm.establishConnections (s : Swarm α) (env : SwarmEnv α) : Option (Swarm α) :=
  let agents := s.collectAgents env.order
  if useMinimal s.config agents.length then
    some { s with heap := minimalConnections s.config.minNeighbors agents env.pick agents.zipIdx s.heap }
  else (probabilisticConnections s.config env agents agents.zipIdx s.heap).map fun h => { s with heap := h }

/-! ## Construction -/

/-- The zero agent, content of unused heap cells. -/
def Agent.zero : Agent α :=
  { id := "", state := ⟨0, 0, 0, 0⟩, behavior := ⟨0, 0⟩, context := Context.zero, optNeighbors := ⟨[], [], 0, 0⟩,
    neighbors := [], useOptimized := false, swarmSize := 0, assumedMaxNeighbors := 0, resources := none,
    strategy := .basic (.phaseNudge 0) }

/-- The swarm of `New` before the options, emerge/swarm/swarm.go:84-110. -/
def Swarm.initial (size : Int) (goal : State α) (cfg : SwarmConfig α) : Swarm α :=
  let limits : CoherenceLimits α := getCoherenceLimits size
  let goal := if goal.coherence > limits.practical then { goal with coherence := limits.practical } else goal
  { heap := fun _ => Agent.zero, next := 0, agents := [], agentSlice := [], agentIndex := []
    optimized := decide (size > 100)
    goalState := goal, config := cfg, size := size, connectionsEstablished := false, goalConfig := none
    recoveryConfig := defaultRecoveryConfig goal.coherence }

/-- The creation of the agents in `New`, emerge/swarm/swarm.go:129-149. -/
def Swarm.createAgents (s : Swarm α) (env : SwarmEnv α) : Except SwarmErr (Swarm α) :=
  if s.optimized then
    if s.agentSlice.length = 0 then .ok (s.createOptimizedAgents env.draws) else .ok s
  else if s.agents.length = 0 then s.createDefaultAgents env.draws else .ok s

/-- The end of `New`, emerge/swarm/swarm.go:151-154. -/
def Swarm.finish (s : Swarm α) (env : SwarmEnv α) : Except SwarmErr (Swarm α) :=
  if s.connectionsEstablished then .ok s
  else match s.establishConnections env with
    | none => .error .running
    | some s => .ok s

/-- `cfg.NormalizeAndValidate(size)` with its error check, emerge/swarm/swarm.go:80-82, 120-122 and 179-181. -/
def checkConfig (c : SwarmConfig α) (size : Int) : Except SwarmErr (SwarmConfig α) :=
  match c.normalizeAndValidate size with
  | ([], c') => .ok c'
  | _ => .error .config

/-- The part of `New` after the options, emerge/swarm/swarm.go:119-154. -/
def Swarm.complete (s : Swarm α) (env : SwarmEnv α) : Except SwarmErr (Swarm α) :=
  (checkConfig s.config s.size).bind fun c =>
    if c.maxSwarmSize > 0 ∧ s.size > c.maxSwarmSize then .error .tooLarge
    else (Swarm.createAgents { s with config := c } env).bind fun s => s.finish env

/-- `swarm.New`, emerge/swarm/swarm.go:68-164. No option changes `s.size`, except possibly a topology builder; the local
variable `size` and the field are identified here. -/
def newSwarm (env : SwarmEnv α) (size : Int) (goal : State α) (opts : List (SwarmOption α)) :
    Except SwarmErr (Swarm α) :=
  if size ≤ 0 then .error .invalidSize
  else if goal.validate ≠ [] then .error .invalidGoal
  else (checkConfig (autoScaleConfig size) size).bind fun c =>
    match (Swarm.initial size goal c).applyOptions opts with
    | none => .error .option
    | some s => s.complete env

/-- The swarm of `NewSwarmFromConfig` before its agents exist, emerge/swarm/swarm.go:183-190. -/
def Swarm.plain (size : Int) (goal : State α) (c : SwarmConfig α) : Swarm α :=
  { heap := fun _ => Agent.zero, next := 0, agents := [], agentSlice := [], agentIndex := []
    optimized := false, goalState := goal, config := c, size := size, connectionsEstablished := false
    goalConfig := none, recoveryConfig := ⟨0, 0, 0, 0, 0, 0⟩ }

/-- `NewSwarmFromConfig`, emerge/swarm/swarm.go:168-208. The storage is always the map, the goal is not adjusted and the
recovery configuration is left at its zero value. -/
def newSwarmFromConfig (env : SwarmEnv α) (size : Int) (goal : State α) (cfg : SwarmConfig α) :
    Except SwarmErr (Swarm α) :=
  if size ≤ 0 then .error .invalidSize
  else if goal.validate ≠ [] then .error .invalidGoal
  else (checkConfig cfg size).bind fun c =>
    ((Swarm.plain size goal c).createDefaultAgents env.draws).bind fun s => s.finish env

/-! ## Reading -/

/-- `(*Swarm).MeasureCoherence`, emerge/swarm/swarm.go:462-483. -/
def Swarm.measureCoherence (s : Swarm α) (order : SyncMap Nat → SyncMap Nat) : α :=
  Verif.measureCoherence ((s.collectAgents order).map fun a => (s.heap a).state.phase)

/-- `(*Swarm).Agents`, emerge/swarm/swarm.go:486-509: the map from IDs to agents. -/
def Swarm.allAgents (s : Swarm α) (order : SyncMap Nat → SyncMap Nat) : SyncMap Nat :=
  if s.optimized then s.agentSlice.foldl (fun m a => SyncMap.store m (s.heap a).id a) []
  else (order s.agents).foldl (fun m p => SyncMap.store m p.1 p.2) []

/-- `(*Swarm).Agent`, emerge/swarm/swarm.go:512-532; an index beyond the slice panics. -/
def Swarm.agent (s : Swarm α) (id : String) : Outcome (Option Nat) :=
  if s.optimized then
    match SyncMap.load s.agentIndex id with
    | none => .ok none
    | some i => match s.agentSlice[i]? with
      | none => .panic
      | some a => .ok (some a)
  else .ok (SyncMap.load s.agents id)

/-- The agents visited by `(*Swarm).ForEachAgent`, emerge/swarm/swarm.go:612-619, with a callback that never stops: only
the map is consulted. -/
def Swarm.forEachAgent (s : Swarm α) (order : SyncMap Nat → SyncMap Nat) : List Nat := (order s.agents).map Prod.snd

/-! ## Disruption -/

/-- The clamp at the start of `DisruptAgents`, emerge/swarm/swarm.go:562-566. -/
def clampPercentage (p : α) : α := if p < 0 then 0 else if p > 1 then 1 else p

/-- The callback loop of `DisruptAgents`, emerge/swarm/swarm.go:571-582, on the remaining entries; `w k` is the word drawn
for the k-th disrupted agent. -/
def disruptLoop (target : Int) (w : Nat → Nat) : List Nat → Nat → (Nat → Agent α) → (Nat → Agent α)
  | [], _, h => h
  | a :: l, disrupted, h =>
    if (disrupted : Int) ≥ target then h
    else disruptLoop target w l (disrupted + 1) (setAt h a ((h a).setPhase (randPhase (w disrupted))))

/-- `targetCount`, emerge/swarm/swarm.go:568. -/
def Swarm.disruptTarget (s : Swarm α) (percentage : α) : Int := toInt ((ofInt s.size : α) * clampPercentage percentage)

/-- `(*Swarm).DisruptAgents`, emerge/swarm/swarm.go:560-608; the monitors it resets are not part of this state. -/
def Swarm.disruptAgents (s : Swarm α) (order : SyncMap Nat → SyncMap Nat) (w : Nat → Nat) (percentage : α) : Swarm α :=
  { s with heap := disruptLoop (s.disruptTarget percentage) w ((order s.agents).map Prod.snd) 0 s.heap }

/-! ## Topologies -/

/-- `a.ConnectTo(b.ID, b)` on the heap. -/
def connectCell (h : Nat → Agent α) (a b : Nat) : Nat → Agent α := setAt h a ((h a).connectTo (h b).id (some b))

/-- A sequence of `ConnectTo` calls. -/
def connectAll (h : Nat → Agent α) (calls : List (Nat × Nat)) : Nat → Agent α :=
  calls.foldl (fun h c => connectCell h c.1 c.2) h

/-- The calls made by `FullyConnected`, internal/topology/full.go:17-23, in order. -/
def fullCalls (agents : List Nat) : List (Nat × Nat) :=
  agents.zipIdx.flatMap fun ai => agents.zipIdx.filterMap fun bj => if ai.2 ≠ bj.2 then some (ai.1, bj.1) else none

/-- The calls made by `Ring`, internal/topology/ring.go:26-34; `(i-1+n)%n` with a non-negative dividend. -/
def ringCalls (agents : List Nat) : List (Nat × Nat) :=
  let n := agents.length
  agents.zipIdx.flatMap fun ai =>
    [(ai.1, agents.getD ((ai.2 + n - 1) % n) 0), (ai.1, agents.getD ((ai.2 + 1) % n) 0)]

/-- The calls made by `Star`, internal/topology/star.go:24-38. -/
def starCalls (agents : List Nat) : List (Nat × Nat) :=
  let hub := agents.headD 0
  agents.zipIdx.flatMap fun ai =>
    if ai.2 = 0 then agents.zipIdx.filterMap fun bj => if bj.2 ≠ 0 then some (hub, bj.1) else none
    else [(ai.1, hub)]

/-- `topology.FullyConnected`, internal/topology/full.go:10-26. -/
def fullyConnected (order : SyncMap Nat → SyncMap Nat) (s : Swarm α) : Option (Swarm α) :=
  some { s with heap := connectAll s.heap (fullCalls (s.forEachAgent order)) }

/-- `topology.Ring`, internal/topology/ring.go:13-37; `none` is the error for fewer than two agents. -/
def ring (order : SyncMap Nat → SyncMap Nat) (s : Swarm α) : Option (Swarm α) :=
  let agents := s.forEachAgent order
  if agents.length < 2 then none else some { s with heap := connectAll s.heap (ringCalls agents) }

/-- `topology.Star`, internal/topology/star.go:13-41. -/
def star (order : SyncMap Nat → SyncMap Nat) (s : Swarm α) : Option (Swarm α) :=
  let agents := s.forEachAgent order
  if agents.length < 2 then none else some { s with heap := connectAll s.heap (starCalls agents) }

end
end Verif
