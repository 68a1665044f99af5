# Formal verification of bio-adapt in Lean 4 — design

The code under study is the Go module in `/repo` (carlisia/bio-adapt). It is read as text and never run.
The model lives in `lean/Verif/Model`, the specifications in `lean/Verif/Spec`, supporting lemmas in
`lean/Verif/Lemmas`, and the property theorems, with the `example`s that show their hypotheses are
met, in `lean/Verif/Props`. `properties.jsonl` lists the properties, `MANIFEST.json` maps each to theorem
names, `seeded/LOG.jsonl` records the mutation tests.

## 1. Modelling conventions

* **Numbers.** Every function that computes with `float64` is written once, polymorphically, over a type `α`
  with `+ - * / < ≤ ==`, decimal literals and a class `GoMath` (sin, cos, atan2, sqrt, exp, math.Mod,
  math.Remainder, math.Min/Max, NaN/Inf tests, conversions). It is then read at:
  * `ℝ` — ideal arithmetic, used for the trigonometric laws;
  * `F64` — IEEE-754 binary64 *values*: NaN, ±Inf, and finite reals of the form m·2^e with |m| < 2^53,
    -1074 ≤ e ≤ 971. Each operation is the exact real result followed by an arbitrary round-to-nearest function
    (any tie-breaking rule; Go's ties-to-even is one of them), overflowing to ±Inf at 2^1024 − 2^970. The three theorems that need
    ties-to-even (`C104_latency_rounded`, `C141_colour_double`, `C95_ten_double`) assume it as the hypothesis `HalfEven`, which `exists_halfEven` shows can be met.
    The sign of zero is not represented. Comparisons with NaN are false. `math.Mod` is exact, as in IEEE.
    sin/cos/atan2/exp are parameters of which only the contract of the class `LibM` is assumed: on finite doubles |sin x| ≤ 1, |cos x| ≤ 1,
    atan2 is finite and at most π in magnitude, exp of a non-positive number is in [0, 1] (`LibM.some` shows that the
    contract can be met). What `int(x)` returns for NaN, infinities and out-of-range values is arbitrary;
  * Lean's `Float` — only to run the model during development; no theorem uses it.
* **Integers** are `Int`/`Nat` unless a property is about wrap-around. `time.Duration`/`time.Time` are integers
  (nanoseconds). The current time and random draws are explicit arguments, and the theorems quantify over them.
* **Errors** are values (`Except`/inductive results); panics are an explicit outcome, never a totalised default.
* **Maps** (`sync.Map`, Go maps) are association lists in an arbitrary order; results that could depend on the
  order are proved for every permutation.
* **Concurrency**: goroutines are threads of an interleaving state machine whose atomic steps are the atomic
  loads/stores, mutex operations and channel operations of the code.

## 2. Trusted base

Lean's kernel; the axioms `propext`, `Classical.choice`, `Quot.sound` (reported per theorem in section 5); the
reading of the Go source into definitions (every definition cites file and lines); Go's language semantics as
summarised above; the contract of `math` functions at `F64`. How accurate
that library is appears only as a hypothesis of C133-C137 (`TrigWithin ε`, `Accurate ε`), which the library `LibM.rounded` of correctly rounded
functions is proved to meet. Not modelled: memory layout and garbage collection,
the Go race detector's notion of data race, wall-clock drift, logging, the drawing of the terminal display (what it computes is modelled), fused multiply-add
(permitted by the Go specification on some architectures), overflow of `int` unless stated.

<!-- coverage -->
Of the 480 functions outside tests, 404 are modelled (cited by a definition). Not modelled are getters, constructors that only store, printing, and:

| file | functions not modelled |
|---|---|
| client/emerge/custom.go | `Custom` |
| client/emerge/emerge.go | `Agents`, `Config`, `Size`, `Stop`, `Swarm` |
| emerge/agent/agent.go | `Influence`, `Neighbors`, `Phase`, `SetDecisionMaker` |
| emerge/agent/atomic_state.go | `Load`, `Load`, `NewAtomicBehavior`, `NewAtomicState`, `Store`, `Store`, `Update` |
| emerge/agent/builder.go | `TestAgentConfig`, `createDecisionMaker`, `createGoalManager` |
| emerge/agent/pool.go | `Stats` |
| emerge/convergence/monitor.go | `IsConverging` |
| emerge/monitoring/monitor.go | `History` |
| emerge/monitoring/patterns.go | `Add`, `NewPatternLibrary` |
| emerge/strategy/adaptive.go | `WithSelector`, `minInt` |
| emerge/strategy/energy_aware.go | `NewEnergyAware` |
| emerge/strategy/frequency_lock.go | `NewFrequencyLock` |
| emerge/strategy/strategy.go | `NewAdaptive`, `NewSimpleDecisionMaker`, `NewTokenResourceManager`, `NewWeightedGoalManager` |
| emerge/swarm/goal_directed.go | `NewGoalDirectedSync` |
| emerge/swarm/swarm.go | `AutoScaleConfig`, `Config`, `ConfigForBatching`, `Size` |
| internal/emerge/convergence.go | `History` (copy of emerge/monitoring/convergence.go, same code but for the names of package and constructor) |
| internal/emerge/metrics.go | `History` (copy of emerge/monitoring/monitor.go) |
| internal/emerge/pattern.go | `Add`, `NewPatternLibrary` (copy of emerge/monitoring/patterns.go) |
| internal/random/random.go | `Float64`, `Intn` |
| internal/testutil/emerge/testutil.go | `Available`, `BenchmarkSwarm`, `Name`, `TestAgent`, `TestAgentWithMocks`, `TestSwarm` |
| simulations/display/controller.go | `Events`, `Events`, `NewKeyboardController`, `NewNetworkController` (channels) |
| simulations/display/display.go | `Close`, `Initialize`, `Run`, `Update`, `createEmptyGrid`, `createLayout`, `createWidgets`, `writeText` (widgets, layout, texts) |
| simulations/display/text_display.go | `Close`, `Initialize`, `SetSimulationName`, `ShowWelcome` (printing) |
| simulations/emerge/config.go | `Goal` |
| simulations/emerge/simulation/agent.go | `EmergeAgent`, `NewWorkload`, `Start` |
| simulations/emerge/simulation/batch_manager.go | `LastBatchInfo`, `NewBatchManager` |
| simulations/emerge/simulation/builder.go | `convertToSimConfig` |
| simulations/emerge/simulation/pattern/pattern.go | `Description` |
| simulations/emerge/ui/runner.go | `NewRunner`, `runUpdates` |
<!-- /coverage -->

## 3. Plan per property

| id | model | proof idea |
|----|-------|-----------|
| C01 | `WrapPhase` over ℝ and F64 (Mod exact) | floor characterisation of truncated mod; uniqueness of representative; F64: monotone rounding of a non-negative sum, Mod < 2π |
| C02 | `PhaseDifference` with both special cases; atan2 as `Complex.arg`; range also in doubles | arg of e^{id} is the principal value; negation at (0, 3π/2); `_partial` outside the special pairs |
| C03 | `MeasureCoherence` as a fold over a list | equals the norm of a complex mean; triangle inequality and its equality case |
| C04 | same | permutation lemma for the fold; angle addition; periodicity; doubles through the accuracy of C133 |
| C05 | `MeasureCoherenceWeighted` with both lists and min length | weighted triangle inequality; witness for mixed sign; overflow in doubles |
| C06 | `PatternDistance` with optional patterns; range also in doubles | bound each summand; zero set by cases |
| C07 | `IdentifyGaps` as a list of gaps | case analysis against a separate tolerance predicate; doubles: no gap to itself, positive severities for all inputs |
| C08 | `State.Validate` at F64 | case split NaN/Inf/finite |
| C09 | `normalize`, loops as well-founded/fuelled iterations over ℝ; F64 for the failure condition | loop invariant: congruence; idempotence |
| C10 | the loop as a step relation at F64 | spacing of doubles ≥ 2^56: subtraction absorbed, so no number of iterations exits; `_partial` termination over ℝ |
| C11 | `Decide` as left fold | fold invariant: maximal and first; doubles: the same fold up to rounding errors of the scores |
| C12 | same at F64 | running maximum is never NaN |
| C13 | all strategies at ℝ; ranges also in doubles | bounds from C02's range |
| C14 | `Propose` then `ApplyAction` at ℝ | distance = |difference|; induction on steps |
| C15 | Pulse as a state machine with explicit time | invariant: lastPulse is the last pulse time |
| C16 | Adaptive with arbitrary selector; panic explicit | case analysis |
| C17 | `Blend` at ℝ; range also in doubles | C01+C02 |
| C18 | scale tables over Int | omega |
| C19 | name/key tables | decide over the whole finite table |
| C20 | `GetCoherenceLimits` over Int | case split, monotone by cases; doubles by monotonicity of rounding |
| C21 | `GetMinimumSwarmSize` | witness 0.985; `_partial` on the exact region |
| C22 | `ValidateCoherenceTarget`, `GetConvergenceTimeFactor` | case split; doubles: literals are 1e-12 apart |
| C23 | `For`, `WithSize`, `Validate` | goal cases × size classes |
| C24 | `TuneFor` | witness (MinimizeLatency, Throughput); exact table of valid combinations |
| C25 | `config.Swarm` normalise/validate, all fields | field by field; idempotence |
| C26 | `AutoScaleConfig` | integer division bounds by omega |
| C27 | same at F64 | NaN witness; `_partial` for non-NaN |
| C28 | `ForBatching` | as C26 |
| C29 | token manager state machine at ℝ and F64 | invariant by induction; conservation by induction |
| C30 | same at F64 | NaN witness; `_partial` |
| C31 | `Intn` on raw 31-bit draws | counting residues below a multiple of n |
| C32 | `Float64`, `Phase` at F64 | exactness of 53-bit integers; nearest double below 2π |
| C33 | parallel arrays with count; abstract bounded map | refinement, one commuting square per operation |
| C34 | agent-level connect over C33 | corollary; witness at the 21st; unlimited for zero agents |
| C35 | agent record and its operations at F64/ℝ | invariant by induction over operations |
| C36 | `ApplyAction` | case analysis; error branch returns the same state; doubles: wrapped sum with error bound |
| C37 | same | induction; witness for negative cost |
| C38 | `ProposeAdjustment` with random draws as arguments | case analysis |
| C39 | `UpdateContext` | C03 bound; density witness; doubles: division by zero, one rounding |
| C40 | interleaving machine of load/store threads | every stored value is produced by an update of a stored value |
| C41 | same | two-thread witness; `_partial` for non-overlapping updates |
| C42 | pool state machine with nondeterministic reuse | witnesses; `_partial` for reused agents' reset fields |
| C43 | swarm construction and both storages | list lemmas |
| C44 | connection phases as a relation over random streams | graph invariant; termination condition of the minimum-connectivity loop |
| C45 | same | witness stream; `_partial`: bound on initiated edges |
| C46 | two neighbour stores per agent | witness for every swarm with a connection |
| C47 | topology builders over agents with capacity 20 | exact edge sets |
| C48 | option order in `New` | witness for all sizes |
| C49 | `DisruptAgents` over both storages | count bound; no-op theorem above 100 |
| C50 | both storages | equivalence up to permutation; doubles: twice the error of C133 |
| C51 | `AchieveSynchronization` as a loop over an environment stream | induction on the budget |
| C52 | budget computation with platform-dependent int(+Inf) | witness; `_partial` for factors that are finite |
| C53 | one synchronisation step over all agents | invariant; the number of perturbations by induction over the rounds |
| C54 | event-driven state machine | trace invariants; witness trace for the early exit |
| C55 | `needsResync` and default recovery tiers | case analysis; equivalence with documented conditions |
| C56 | all API entry points as operations on the monitor | invariant: no sample is ever recorded |
| C57 | fold over phases | bounds; witness target 4π |
| C58 | decision function | iff and monotonicity; doubles: rounding is monotone |
| C59 | monitor state machine | history = last 100 |
| C60 | convergence monitor state machine | refinement to history of samples |
| C61 | regression formula over windows | algebra with sums; Cauchy–Schwarz strictness for the denominator |
| C62 | RWMutex (writer preference) with threads as lock programs | witness deadlock; progress theorem for non-nested programs |
| C63 | tracker state machine | invariants |
| C64 | similarity at F64 and ℝ | NaN witness; `_partial` for positive amplitude and period |
| C65 | `morphWaveform` | index bound; convexity; doubles: products with 0 and 1 are exact |
| C66 | engine with template list | argmin fold, permutation |
| C67 | basin functions at ℝ and F64 | bounds; witnesses |
| C68 | channel + workers state machine | trace invariants |
| C69 | chunking | list lemmas |
| C70 | metrics state machine | sums by induction |
| C71 | workloads + queue + processor machine | conservation invariant |
| C72 | modifier table | exact range; witness; doubles with error bounds |
| C73 | `Build` composition at F64 | uses C08, C23, C26 |
| C74 | grading tables | monotonicity by cases |
| C75 | both agent constructors | field-by-field comparison; witnesses; doubles: option lists |
| C76 | key decoding, event filter, configuration update composed | case analysis; induction over key sequences |
| C77 | lifecycle machine with a set of live runs | witness; invariant for alternating pause/resume |
| C78 | modifier table and qualifier | case analysis over goals and size classes; witnesses |
| C79 | prediction from rate and last sample | truncation bounds over the reals; witness with two samples 2⁻⁵⁰ apart in doubles; doubles: range of the quotient |
| C80 | the client, one tick of a run at a synchronised swarm | pattern of a synchronised swarm computed; distance is 0.3·(1 − target); finite table of thresholds; doubles: the same steps exactly, margins for the table, the one tie by exact rounding |
| C81 | temporal patterns: Detect and Complete | induction over the sample list; length of the completion of a detected gap is 0; doubles: equal steps up to 10⁻¹² |
| C82 | workloads + queue + processor + Reset machine | a reachable state without moves; exact description of such states; variant for the length of a reset |
| C83 | as C82 | conservation from any state on; invariant of an undisturbed reset |
| C84 | as C82 | invariant linking IDs to counters, injectivity of `id-task-n` |
| C85 | program loop with contexts and the signal handler | restart count invariant |
| C86 | program loop with automatic pattern selection | case analysis, exact condition |
| C87 | `Reset` and the goals' targets | geometric sums of unit vectors; doubles: phases up to 10⁻⁶, the order parameter is 1-Lipschitz, C133 |
| C88 | `Disrupt`, the recovery check of `Run` | counting, sums of unit vectors; doubles: wrapped sums, C133 |
| C89 | request patterns tick by tick | induction over ticks |
| C90 | `float32` conversion of words, both random draws | nearest representable number, counting |
| C91 | pause state with the moments at which it is read | induction, witness; doubles: C133; sequences: last operation |
| C92 | construction of the demo's client | case analysis over goals and scales, at ℝ and at doubles |
| C93 | activity levels of the snapshot | induction over ticks |
| C94 | gap completion, templates of the engine | case analysis, truncation to integers, association lists |
| C95 | samples, rate and switch of the monitor | invariant over records, counting; doubles: seven tenths of a whole number |
| C96 | strategy selection and its records | induction over the loop and over histories, witness |
| C97 | whole synchronisation run | simulation between two runs |
| C98 | pull of a spread swarm | forward distance on the circle, induction, witness; doubles: rounding errors below 10⁻⁸ per pull |
| C99 | templates and library of the monitoring package | induction over the library, witness; doubles: similarity to itself is exact |
| C100 | load panel of the demo | truncation, counting, witness for all sizes |
| C101, C102 | gauges and metrics panels | case analysis over goals, truncation, witnesses; doubles: thresholds by exact rounding |
| C103 | consensus panel | projection on a slot's centre, witness; doubles: same votes as in exact arithmetic |
| C104 | schedule, latency, health panels, indicators | truncation, counting, witness; doubles: exact comparisons or margins, a tie |
| C105 | coherence chart | induction over the history |
| C106, C107 | agent colours, picture of the swarm | complex sums, circle distance, truncation, witnesses |
| C108 | adjustment loop over the agents | induction over the agents, witness |
| C109 | one nudge | forward distance on the circle, interval bounds for the random factors, witness; doubles: the same contraction with error bounds for every operation |
| C110 | scattering | induction over agents and iterations, complex sums, witness; doubles: wrapped sums, C133 |
| C111 | repeated adjustments | contraction of the forward distance per agent, cosine bound for the coherence; doubles: contraction with error bounds, and C133 for the measured coherence |
| C112 | configuration presets for agents | case analysis over the options, witness; doubles: C134 for the local goal |
| C113 | sine waves | geometric sum of complex roots of unity |
| C114 | recommendation tables | case analysis for all integers, witness |
| C115 | monitor statistics | invariant over call sequences (C60), mean bounds by induction |
| C116 | wave bars | floor characterisation, witness; doubles: one rounding |
| C117 | `TuneFor`, `WithSize`, presets | case analysis over traits, size bands and parameters, witnesses; doubles: relative errors far below the factors |
| C118 | `Propose` of the four strategies | closed forms, induction over proposals, witness; doubles: errors below 10⁻¹² |
| C119 | test topologies | induction over stores, set equality of neighbours, `IsConnectedTo` unchanged |
| C120 | `shouldBatch` | case analysis against the distance on the circle, witness; doubles: margin |
| C121 | `ParseScale`, `DisplayName`, `TextDisplay.Update` | case analysis, induction over updates |
| C122 | test doubles | algebra against the real functions, witnesses; doubles: comparisons |
| C123 | `UpdateContext`, `ProposeAdjustment`, `ApplyAction` over a network | cone of unit vectors, invariant over histories, witness |
| C124 | the same, `Decide` | exact score comparison, invariant over histories, witness; doubles: the comparison holds with a margin (0.433 rad) that rounding cannot undo |
| C125 | the same, all strategies | score bound; doubles: error bounds along the score and the proposal |
| C126 | `getWorkloadsForGoal`, `initialize`, `createTask` | finite tables, counting of a cyclic sequence, witness |
| C127 | `Statistics`, `Snapshot`, `RecordBatch`, `Reset` | invariant over histories, witness |
| C128 | `Snapshot`, batch manager of C71 | invariant over histories, witness |
| C129 | the menu, `getPatternReason`, the assessment | finite tables, case analysis on the number of agents, witness; doubles: distance of the table from the thresholds |
| C130 | flags `disrupted`, `resetting` and the goroutines that clear them | invariant over histories, witnesses |
| C131 | `ProcessKey`, `handleEvents`, the loop of `main` | invariant over histories, simulation of `App.pressAll`, witnesses |
| C132 | the timeout of `Run`, the loop of `main` | invariant over histories, construction of a run of any length |
| C133 | `MeasureCoherence` in doubles against the exact order parameter | forward error analysis with the bound of `rnd_err` for one rounding; the accuracy of the library is a hypothesis |
| C134, C135 | `WrapPhase`, `PhaseDifference` in doubles against exact angles | forward error analysis modulo whole turns |
| C136, C137 | repeated nudges of an agent, of a swarm, in doubles | contraction with an error per step; C133 on the result |
| C138 | `AutomatedController` | invariant over interleavings, construction of runs |
| C139 | `ProposeAdjustment`, `ApplyAction` in networks, with phases set from outside | potential argument: every movement is paid for; doubles: rounding errors below 10⁻¹¹ per act |
| C140 | the bars of the panels, at ℝ and at `F64` | floors of proportions; error of two roundings; witnesses for load, schedule in doubles and capacity |
| C141 | colour of the cost panel over all sequences of events, at ℝ | from C70; witness with batches of one task; doubles: costs at most half, ties to even |
| C142 | `formatDuration`, `formatTime` over exact quotients, rounding to nearest as a parameter | nearest rounding is monotone and exact on whole numbers; witness 105 s |
| C143 | texts of validation errors | occurrence in order, by induction on the list |
| C144 | insights and status line of the traffic panel, at ℝ | exact range of targets; witness with the scale tiny; doubles: margins |
| C145 | context and local goal of an agent (`UpdateContext`) in doubles, library with accuracy ε | error of the sums (C133), order parameter is Lipschitz, mean of vectors in a cone |
| C146 | gauges (C101) in doubles | monotone rounding, gap between a share and the next whole per cent; witness 0.29 |
| C147 | wave bars (C116), latency histogram (C104), picture (C107) in doubles | monotone rounding, bounds of every intermediate value |
| C148 | energy over histories (C37) in doubles | induction over the actions, one rounding per action; witness: 100 − c rounds to 100 |
| C149 | the metrics panel | closed forms, intervals; doubles for rounds and empty workloads; witnesses 0.897 and no batch; spread and shares |
| C150 | agents by configured strategy in doubles; rate at ℝ | invariant and simulation over histories of operations; rate by cases |
| C151 | workload snapshots, `Simulation.Snapshot`, `convertSnapshot` | list induction; composition with C96, C03 and the pause; witness clock; doubles: C133 |
| C152 | `internal/sim/mathx.go` at ℝ and in doubles | nearest point, lattice; cases of `F64`; witness NaN |
| C153 | explanations, gauges and metrics panel (C101) | finite tables of texts; coherence of agents together and opposed; witness for recovery; topics; good and bad |
| C154 | `App` (C76), setters of the display, configuration panel | invariant over keys, injectivity of finite tables |
| C155 | both `ShowSummary`, statistics at the end (C96) | figures as members of the summary; savings as a function of the batches; witness: a run without batches |
| C156 | `updateSwarmDisplay`, `App` (C76) | invariant over keys, finite table of titles |
| C157 | `newFromConfig`, `newOptimizedFromConfig`, `Name` of strategies | case analysis over all strings; witness "pulse" |
| C158 | `newSwarm`, `newSwarmFromConfig`, `Swarm.run` in doubles | invariant over allocated agents, then C53; witness NaN; size: constructors |
| C159 | `BatchSys` (C71), `shownCollecting`, `currentBatchSize` | invariant of C71 on the queue; witness: an agent that sends two tasks at once |

## 4. Findings

Places where the property a user would rely on is false of the code. For each, `Cxx_claim` states the expected
property, `Cxx_refuted` proves its negation, and `Cxx_…_partial` proves what does hold.

* **C02** `PhaseDifference(0, 3π/2)` and `(3π/2, 0)` return the opposite direction (special cases in phase.go).
  Consequences: a phase nudge between these angles moves away (C14), blending with weight 1 misses (C17).
* **C05** weighted coherence leaves [0, 1] for weights of mixed sign.
* **C07** `IdentifyGaps` panics on a missing pattern, while `PatternDistance` accepts it.
* **C10** `State.normalize` does not terminate for finite phases of magnitude above 2^56.
* **C19** the shortcut of MaintainRhythm (R) is the reset key, so that goal cannot be selected.
* **C21** `GetMinimumSwarmSize` is insufficient for targets in (0.98, 0.99) and above 0.99, and not minimal.
* **C24** the latency preset tuned for throughput has adjustment scale 1.02 and is rejected by its own validation; it is
  the only such cell. Tuning the traffic preset three times for resilience is rejected.
* **C27** NaN parameters pass both validations and are not repaired by normalisation.
* **C28** the batching configuration for up to 30 workloads is rejected unless it is normalised first.
* **C30** requesting or releasing NaN makes the token balance NaN for ever; so does an infinite request on an infinite budget.
* **C34** the 21st peer is dropped without an error: every agent has room for 20.
* **C35** `SetPhase(±Inf)` and `SetLocalGoal(±Inf)` store NaN; `SetFrequency` stores any duration, including 0.
* **C37** an action with negative cost creates energy.
* **C39** the density is −1/0-like without swarm information and exceeds 1 with more neighbours than assumed.
* **C41** concurrent `Update`s lose writes; `ApplyAction` checks the energy in a separate load, so two actions can both be
  accepted although their total exceeds the energy.
* **C42** `Get` panics unless something was put before; connections made by `ConnectTo`, tokens and strategy survive reuse.
* **C44** above 1000 agents the sparse connection scheme makes 2·n attempts at random and can leave every agent isolated;
  nothing checks the configured minimum afterwards.
* **C45** `MaxNeighbors` bounds only the connections an agent initiates: at n = 20 an agent can get 19 neighbours with a
  maximum of 4.
* **C46** `establishConnections` writes to `Agent.Neighbors()`, a `sync.Map`, while agents made by `agent.New` consult their
  fixed-size neighbour store: the swarm's connections are invisible to `IsConnectedTo`, `NeighborCount`, `UpdateContext`.
* **C48** `WithTopology` runs before the agents are created: ring and star make `New` fail, the complete graph leaves all
  agents isolated, and above 100 agents the topology is lost even if a builder option precedes it.
* **C49** `DisruptAgents` walks the map only: above 100 agents nothing is perturbed.
* **C50** `ForEachAgent` (and with it every topology builder) sees no agents in slice storage.
* **C63** One NaN distance makes `Progress` NaN. Progress is relative to the oldest sample still retained, so it falls back
  to 0 when the history is trimmed although the distance only ever decreased (`C63_progress_forgets`), and with a window of
  1 or 2 no trend is ever judged (`C63_tiny_window`).
* **C65** `morphWaveform` with exactly one empty waveform returns the other one at every progress.
* **C66** When a template matches, `CompletePattern` moves the phase towards the template (the default ones all have phase
  0), not towards the target, by an uncapped fraction; at phase 2 with target 3 it moves away from the target
  (`C66_moves_away`). The frequency weight is not capped at all: from 2.5 s towards 250 ms it produces a negative period
  (`C66_frequency_overshoot`).
* **C51** Without agents the first stuck iteration panics (`random.Intn(0)` in `addStochasticResonance`).
* **C57** A goal phase outside one turn (accepted by `State.Validate`) makes the phase convergence exceed 1: 3 for the goal 4π
  and a single agent at phase 0.
* **C58** Achievement also needs a pattern distance below the threshold, and the distance punishes coherence *above* the
  target: a swarm at its goal 0.5 that becomes fully coherent is no longer "achieved".
* `AchieveSynchronization` computes its budget as `int(factor * GetConvergenceTimeFactor(…))`, and the latter is +Inf for a
  target above the practical limit. `New` lowers its goal to that limit, `NewSwarmFromConfig` does not. On amd64 the
  conversion gives the smallest integer, so every `Run` of such a swarm (5 agents, goal coherence 1) fails after zero
  iterations; on arm64 the same program gets 1000 iterations (C52).
* `Validate` of the goal configuration does not look at `MaxIterationsFactor`; zero is accepted and leaves no iterations (C52).
* `Validate` does not look at the magnitudes `NoiseMagnitude`, `RandomWalkMagnitude`, `PerturbationMagnitude` and
  `CoherenceFactor`. A NaN there makes the phases of agents NaN during synchronisation (C53).
* `RunContinuous` is documented to run until the context is cancelled, but it returns as soon as one synchronisation fails, for
  example because the swarm is disturbed for longer than the iteration budget (C54_refuted, C54_failure_ends).
* The stuck rule of `needsResync` (low coherence for a number of checks) requires a condition that an earlier rule already tests,
  so it never changes the result (C55_stuck_rule_dead). For targets below 0.2 the default viable minimum of 0.2 is above
  the target, so a swarm at its target is resynchronised for ever (C55_low_targets). A swarm that is too coherent is never
  corrected (C55_oversynchronised), and neither is one whose coherence is NaN (C55_nan_ignored).
* **The convergence monitor can deadlock.** `PredictConvergenceTime` and `Statistics` (emerge/monitoring/convergence.go and the
  copy in internal/emerge) call methods that take the read lock again while they hold it. Go's RWMutex makes new readers wait
  behind a queued writer, so one `Record` or `Reset` arriving in between blocks both for ever (`C62_deadlock_predict`,
  `C62_deadlock_statistics`, `C62_refuted`). All other methods are safe in any number and schedule (`C62_simple_partial`).
* **A predicted convergence time can be negative.** With a rate of about 2⁻⁵⁰ per sample the estimate is over 2⁶³ ns and the
  conversion to `time.Duration` on amd64 gives the smallest `int64` (`C79_refuted`).
* **A NaN sample leaves a converged monitor converged**: it is neither at least nor below the threshold (`C60_nan_sticks`).
* The doc comment of `Stability` says lower is more stable; the function returns 1 for constant samples and falls with the
  variance (`C61_stability`).
* **A client never reports convergence.** Nothing records a sample in the monitor that `IsConverged` and `Coherence` read, so after
  any sequence of calls they are `false` and 0, also after a run that succeeded (`C56_silent_partial`, `C56_refuted`).
* **Perfect synchronisation is not counted as success** for the default clients of goal ReachConsensus at every scale (in doubles the
  smallest scale is a rounding accident on the boundary), MinimizeAPICalls from Medium up, and MaintainRhythm at Large and Huge: the
  pattern distance grows with coherence above the target (`C80_client`, `C80_default_partial`, `C80_refuted`). In doubles one entry of that table differs: for consensus at the smallest scale
  0.3·(1 − 0.9) and 0.03 are equal in exact arithmetic, the computed distance is two units in the last place below the threshold, and the run
  succeeds (`C80_default_double_partial`, `C80_tie`).
* `ValidateCoherenceTarget` lets NaN through: all its comparisons are false, so the target stays NaN without a warning, and the convergence time
  factor of NaN is 8 (`C22_nan`).
* `NewWithOptions` rejects a coherence of 0 that the builder takes as "default", and lets NaN through to be refused by `Build`
  (`C73_options`, `C73_build`).
* **Similarity is NaN for flat patterns.** If both patterns have amplitude 0 (perfect synchronisation, or a single sample) or both have
  period 0, a quotient 0/0 makes the similarity NaN even with itself, and the pattern library never identifies them
  (`C64_nan`, `C64_refuted`, `C64_library_blind`).
* **Detected gaps cannot be completed.** `Detect` reports a jump between neighbouring samples as a gap without interior, for which
  `Complete` returns no phases; and it indexes `Frequencies` without checking its length and panics (`C81_refuted`, `C81_detect`).
* **The basin force doubles** for a negative phase and a positive target, up to twice the strength, so the adjustment overshoots; it
  still gets closer (`C67_refuted`, `C67_closer`). A basin of radius 0 gives NaN at its own target (`C67_radius_zero`).
* **`Simulation.Reset` can deadlock the demo.** `BatchManager.Reset` loops `for len(queue) > 0 { <-queue }` while the processor receives from the
  same queue. If the processor takes the last batch between the test and the receive, `Reset` waits for ever holding `Simulation.mu` and
  `BatchManager.mu`, and the workloads and the processor wait for these (`C82_refuted`, `C82_stuck`).
* **A reset does not start afresh**: batches the processor already holds are processed and counted after it (`C83_refuted`), and task IDs
  are used again because the counters restart (`C84_refuted`). A full queue drops batches silently (`C71_overflow`).
* **Worker pool.** Stopping it may leave submitted tasks unrun, after which `Submit` blocks for ever on a full channel (`C68_drain_refuted`,
  `C68_after_stop`); stopping twice panics (`C68_stop`). `NewSwarm` starts a pool for swarms of more than 100 agents, but no code outside the tests submits to it
  or stops it, so its goroutines never end (`C68_no_exit`). With more than 16 CPUs a swarm of 999 gets more workers than one of
  1000 (`C68_workerCount_mono`).
* **The space bar starts a second synchronisation.** `Resume` without a pause starts another client run; the next pause cancels only the newest
  (`C77_refuted`, `C77_orphan`), and the space bar calls `Resume` at any time (`C77_space`). Even with pauses and resumes in turn two runs are possible,
  because the goroutines read `s.swarmCtx` when they first run (`C77_race_refuted`).
* **Signals are ignored after a switch.** `handleSignals` holds the cancel function of the first context; after a scale, goal or pattern was switched
  neither SIGINT nor SIGTERM ends the program (`C85_refuted`, `C85_signal_partial`).
* **The pattern shown is not the one that runs.** `buildConfig` is filled before the pattern is selected automatically, so the workloads run with
  `Unset` while the best pattern is shown, and the key of the pattern shown is ignored as "no change" (`C86_refuted`, `C86_exact_partial`,
  `C76_refuted`).
* **NaN is graded "Excellent".** `InterpretCoherenceLevel` tests `<` bounds only, so a NaN coherence falls through to the best level
  (`C74_refuted`, `C74_excellent_partial`).
* **Reset reaches the goal.** After `Reset`, RecoverFromFailure and AdaptToTraffic already meet their target of 0.2 (`C87_reset_met`, `C87_refuted`).
* **The disruption flag is the wrong way round for goals that want little coherence**, and for half of the goals it is taken down at the first look
  after the disruption (`C88_first_look`, `C88_refuted`). With fewer than five agents `Disrupt` does nothing (`C88_disrupt`).
* **Pause mixes moments.** Coherence and phases are read while the swarm still runs, so the frozen picture may show a coherence that does not belong to
  its phases (`C91_refuted`).
* **`secureRandFloat32` can return 1.** `float32(u)` rounds the 128 largest words up to 2^32 (`C90_refuted`, `C90_range_partial`). No caller is harmed.
* **Mixed workloads are always shown as quiet**, because `lastRequestTime` is never set (`C93_refuted`, `C93_mixed`).
* **Strategy selection has no effect.** Nothing reads the selected strategy but the bookkeeping of the selection itself; runs that differ in it end alike
  (`C97_no_effect`, `C97_refuted`).
* **Success rates are not rates.** A success is not counted as an attempt, so a rate may exceed 1 (`C96_refuted`); and no code of the library reports a
  success, so every rate is 0 and chance decides (`C96_no_success_partial`).
* **Agents just ahead of the target are sent round the circle.** `pullAgent` measures the way forward only; half a radian ahead becomes more than 0.85
  radians behind (`C98_sent_round`, `C98_refuted`). Repeated pulls still converge, from behind (`C98_converges`).
* **Identify ignores variations and tolerances.** A pattern matched by one template may be identified as another that does not match it
  (`C99_wrong_template`, `C99_refuted`).
* **The load panel is always IMBALANCED.** It counts regions from -π although phases start at 0: the first two regions are always empty
  (`C100_regions`, `C100_status`).
* **Gauges ignore the target for most goals** (`C101_refuted`, `C101_green_partial`), **and contradict the metrics panel** (`C102_refuted`, `C102_energy`,
  `C102_traffic`, `C102_steady`). In doubles there is one more coherence at which they do: for the double just below 0.8 `int(coherence * 100)` is 80
  while `coherence >= 0.8` is false, so for ReachConsensus the gauge is yellow and the panel red, for RecoverFromFailure green and yellow
  (`C102_double_refuted`, `C102_agree_double_partial`).
* **Infinite densities.** An agent with neighbours in a swarm of one (or told to assume none) divides by zero; its density is plus infinity
  (`C39_density_double`). The theorem over the reals, `C39_density_partial`, gives 0 there only because of Lean's convention for a division by zero.
* **NaN is free.** `cost > energy` is false if either is NaN: such an action succeeds, the energy becomes NaN, and every later action of a known type
  succeeds too (`C148_nan`, `C148_nan_cost`).
* **Split votes in coherent swarms.** Agents close together on two sides of a slot border count as disagreeing (`C103_split`).
* **Panels forget that phases wrap.** An agent just before phase 0 is late, slow, failed and red (`C104_sides`); a synchronised swarm beyond phase 1 is never
  FULLY RESILIENT (`C104_resilient`). An agent whose phase is NaN counts as healthy (`C104_nan_healthy`). Rounding can lift an agent into the next
  latency bin (`C104_latency_rounded`).
* **Infinite waveforms.** Morphing multiplies the far end by 0 at progress 0; an infinite sample of the target makes the result NaN at once
  (`C65_infinite`).
* **Colours.** Agents more than a turn ahead of the computed mean phase are green however far they are from it (`C106_always_green`); in a fully synchronised
  swarm all agents are red (`C106_synchronised`); in a scattered one red is never used (`C106_scattered`).
* **Synchronised agents vanish from the picture** when they fall on its centre (`C107_missing`).
* **Settled swarms: the scale compounds.** `adjustmentScale *= 0.2` is executed inside the loop over the agents, so the k-th nudged agent is nudged 5^k
  times less (`C108_settled`, `C108_refuted`).
* **Nudges go round the circle.** `WrapPhase(target - phase)` is never negative; an agent 0.5 radians ahead of the target is sent to more than 0.8 radians
  away (`C109_sent_round`, `C109_refuted`). The forward distance does shrink (`C109_forward`).
* **Scattering may raise the coherence** (`C110_refuted`), and needs at least three iterations from synchrony (`C110_three`).
* **Test agents are not predictable.** `TestAgent` promises that "all randomization is disabled"; its local goal 0 is taken for "not set" by
  `createGoalOptions` and replaced by a random one (`C112_refuted`, `C112_test_partial`).
* **Tiny swarms are not fully connected.** `MaxNeighbors` returns 9 for the tiny scale with the comment "Fully connected"; the scale has 20 agents
  (`C114_refuted`).
* **Wave bars mirror.** The bars show the sine of the phase, so the agents at `φ` and `π - φ` look the same (`C116_mirror`, `C116_refuted`).
* **Tuning against its own comment.** `TuneFor(Stability)` ("gentler and more predictable") raises the range of the random variation for every goal
  (`C117_stability`, `C117_refuted`); `TuneFor(Precision)` lowers a demanded convergence above 0.98 (`C117_precision_refuted`); `WithSize` gives
  swarms of up to 50 agents larger tolerances than medium ones although "large swarms need more tolerance" (`C117_size_refuted`).
* **Saving energy costs energy.** `EnergyAware.Propose` charges at least 0.5 for every step of a tenth of the remaining way (the second argument of its
  `math.Max(0.5, …)` never wins). To come within 0.1 radians it always needs more energy than `PhaseNudge` needs for its whole way (`C118_dearer`, `C118_refuted`).
* **Test topologies connect nobody.** `FullyConnectedTopology`, `RingTopology` and `StarTopology` of the test utilities store neighbours with
  `a.Neighbors().Store`. Every agent keeps its neighbours elsewhere (`useOptimizedNeighbors` is always true), so that `IsConnectedTo`, `UpdateContext` and the
  local coherence see none of them, while `NeighborCount` reports them all (`C119_unnoticed`, `C119_count`, `C119_never`).
* **Synchronised and silent.** Workloads send when the phase is near zero, not when the swarm is synchronised: with all agents at π coherence is 1 and nothing
  is ever sent (`C120_refuted`).
* **Test doubles differ.** `MockGoalManager.Blend` and `MockSyncStrategy.Propose` ignore that phases are on a circle, `MockResourceManager` grants all or nothing
  and has no maximum (`C122_blend_differs`, `C122_propose`, `C122_request`, `C122_release`).
* **Agents do not act on their own.** `UpdateContext`, `ProposeAdjustment` and `ApplyAction` are called by tests only; swarms are moved by the central
  goal-directed loop. What the three would do is the subject of C36, C38, C39 and C123–C125.
* **Distant agents are frozen.** `UpdateContext` always sets the stability to 0.5, so that staying put scores 0.5 / 0.1 = 5, and a nudge scores more only close
  to the goal: with the default rate an agent farther than about 0.43 radians from its goal never moves, and two agents at least 0.432 radians apart that know only
  each other never approach (`C124_pair_never_meets`, `C124_frozen`). `UpdateContext` also sets the progress to 0, the only benefit of an energy-aware move:
  such agents never move at all (`C125_energy_aware_still`).
* **The wrong way out of the arc.** Because of the special case in `PhaseDifference` an agent at 3π/2 with goal 0 moves away from it (`C123_refuted`).
* **The peak is always 0.** Nothing calls `MetricsCollector.UpdateCoherence`, so the summary of the demo shows a peak coherence of 0 % and a time to converge
  of 0 whatever happened (`C127_never`). The counter `totalBatches` of the batch manager is never read.
* **"Collecting: n tasks" counts batches.** The number shown is the number of batches in the queue, and while the consumer holds tasks the display says
  "Waiting for tasks..." (`C128_refuted`, `C128_hidden`).
* **Kinds that look the same.** The list of agents cuts names after eleven letters, so it cannot tell `LoadBalancer1` from `LoadBalancer2` (`C126_refuted`).
  The first task of a workload has the second of its types, since the counter is increased before it is used.
* **The menu.** It has 5000 agents for the scale Huge, which has 2000 (`C129_counts`; no entry is shown differently for it). Mixed requests, optimal for fault
  recovery, are praised with "(unpredictable recovery timing)" (`C129_refuted`).
* **Markers cleared by older goroutines.** Each reset and each disruption starts a goroutine that clears a shared flag later. A second reset 1.9 s after the first is
  shown for 0.1 s, a second disruption 29 s after the first loses its marker a second later although the swarm has not recovered, and a coherence read before a disruption
  clears its marker at once (`C130_refuted`).
* **Lost keys.** The eleventh key waiting is dropped, also if it is the one that quits (`C131_full`), and a key pressed right behind a switch of scale, goal or pattern is
  lost with the controller of the run that ends (`C131_refuted`).
* **The time limit restarts.** `RunnerConfig.Timeout` limits each run of the loop in `main`, not the program (`C132_forever`).
* **A goroutine that cannot be stopped.** `AutomatedController` sends its script with blocking sends and has no way to be told to stop; if the receiver leaves
  with more than ten events outstanding, its goroutine stays for ever (`C138_leak`). The keyboard controller drops events instead (C131).
* **Energy is never given back.** `SetEnergy` and `TokenManager.Release` have no caller outside tests. A new agent (energy 100, nudging) can move at most fifty radians
  on its own in its whole life, and every accepted "maintain" costs a tenth as well (`C139_range`, `C139_exhausted`). The swarm's own adjustments set phases directly and cost nothing.
* **A strategy with a NaN rate.** `NewPhaseNudge` lets NaN through its clamp (both comparisons are false). Value and cost of its proposals are NaN, no
  check rejects them, and an agent that acts on one has NaN as phase and energy from then on (`C13_nan_rate`).
* **Infinite weighted coherence.** With a weight of `2^512` or more the square in `MeasureCoherenceWeighted` overflows and a perfectly coherent group
  measures as +Inf (`C05_overflow_double`).
* **Bars.** A bar of the load panel can be 79 cells long although its scale has twenty (`C140_load_refuted`); the longest schedule bar of eleven agents has 14
  cells instead of 15 because `11 * (15.0 / 11)` is below 15 in doubles (`C140_schedule_double_refuted`); the capacity bar turns red at 85 % but the
  advice to scale up comes at 80 % (`C140_capacity_refuted`).
* **The savings are always green.** A call without synchronisation is counted at twice the price of one in a batch, so that the savings are at least 50 % after
  any batch, even if all batches have one task; the yellow of the cost panel is unreachable (`C141_refuted`, `C141_colour_partial`).
* **The clock of the text display rounds.** It shows `60s` from 59.5 s on and `02m` from 1 min 30 s on (`C142_refuted`, `C142_clock_partial`).
* **Traffic panel.** With the scale tiny the insights can say in red that the agents are scattered while the status is green, and with the scale huge the other
  way round (`C144_refuted`, `C144_agree_partial`).
* **Gauges lose a per cent.** `int(coherence * 100)` shows 28 for a coherence of 0.29, and so does the gauge of idle agents if 29 of 100 are idle
  (`C146_refuted`, `C146_coherence_partial`, `C146_whole_partial`, `C146_share_partial`).
* **Tiny adjustments are free.** `s.Energy-energyCost` rounds to `s.Energy` if the cost is below half a unit in the last place, so an agent with
  an energy of 100 can apply any number of adjustments that cost less than 2^-47 (`C148_free`, `C148_refuted`, `C148_spend_partial`).
* **The metrics panel contradicts itself.** Percentages are rounded, statuses are not: a coherence of 0.897 is shown as 90 % beside "Syncing..."
  (`C149_refuted`). The "recovery time" is the time since the last batch, and 292 years if there was none (`C149_recovery_refuted`).
* **Adaptive agents do not adapt.** The selector takes the first strategy if the stability is above 0.7, but the only values an agent's context ever has are 0
  and 0.5 (a placeholder in `updateContext`). An agent configured as adaptive is a frequency-lock agent (`C150_refuted`, `C150_adaptive_partial`).
* **The threshold of `EnergyAware` is not used**; agents that differ in it behave alike for ever (`C150_threshold`).
* **Configured rates are not clamped.** `createStrategy` fills the struct directly instead of calling `NewPhaseNudge`, and nothing validates `StrategyRate`:
  with the rate 5 an agent proposes to go five times as far as its goal (`C150_rate_refuted`).
* **A paused display goes on in part.** Phases and coherence are frozen, but the elapsed time and the numbers of tasks and batches are read as they are
  (`C151_refuted`, `C151_frozen_partial`).
* **`Min` and `Max` of `internal/sim` are not symmetric for NaN**: `Min(NaN, 1)` is 1, `Min(1, NaN)` is NaN (`C152_refuted`, `C152_nan`).
* **Recovery is explained the wrong way round.** The panel for RecoverFromFailure asks for agents in anti-phase ("When green = failures isolated"), but its gauge
  and its status are red for agents in anti-phase and green for agents together (`C153_reversed`, `C153_refuted`). The gauges for SaveEnergy and
  AdaptToTraffic, explained by taking turns and staggering, do not depend on phases (`C153_blind`).
* The convergence monitor asks for another strategy when "more than 70 %" of the window stalls, and computes the bound as `float64(n)*0.7`. Where seven tenths
  of the window are a whole number the product may round below it: of 90 samples, 63 stalled ones (exactly 70 %) already cause a switch (`C95_ninety`). With the
  default window of ten the product is exactly 7 (`C95_ten_double`, needs ties to even).
* **Every run is praised.** Both displays end with "Agents successfully learned to batch API calls!" whatever happened (`C155_always`), also without a single batch,
  and batches of one call count as savings of 50 % (`C155_refuted`).
* **Large swarms silently replace strategies.** `NewOptimizedFromConfig` has no error, and the strategies "pulse" and "adaptive", and misspelt names, become phase
  nudging there, while `NewFromConfig` honours or rejects them (`C157_optimized_partial`, `C157_refuted`).
* **A stubbornness that is not a number reaches every agent.** Any accepted configuration is still accepted with it (`C158_nan_accepted`, `C158_nan`), like the
  coupling strength in C27.
* **"Collecting: N tasks" counts batches.** The figure is the length of the queue of agent batches (`C159_refuted`), tasks that the consumer holds are left out
  (`C159_taken`), and `CurrentBatchSize()` of the batch manager is ten times that length (`C159_estimate`). `PendingCount` is always zero: nothing is ever appended to `current`.
* `NewSwarmFromConfig` leaves the recovery configuration at its zero value (see C54), never uses slice storage and does
  not clamp the goal as `New` does; the fields `basin` and `workerPool` are never read after construction, so the worker
  goroutines of an optimised swarm only ever idle.
* **C75** the two agent constructors differ in token budget, in the rates of frequency_lock and energy_aware, and in how
  they read zero.
* **C72** the coherence modifier can be 0.48, below the documented 0.5.
* **C78** the pattern listed as best is not the best one for ≥ 1000 or ≤ 50 agents.

## 5. Axioms per theorem

Output of `#print axioms` for every theorem named in `MANIFEST.json`, grouped by the set of axioms.

* **no axioms** (4): `C114_refuted`, `C129_counts`, `C149_flags`, `C95_rate_few`

* **propext** (24): `C127_never`, `C129_reason_given`, `C131_refuted`, `C131_full`, `C155_figures`, `C33_range_stop`, `C50_coherence_order_partial`, `C55_exact`, `C55_stuck_rule_dead`, `C62_deadlock_predict`, `C62_deadlock_statistics`, `C68_order`, `C68_no_exit`, `C68_stop`, `C68_drain_refuted`, `C68_new`, `C74_success`, `C76_select`, `C76_control`, `C76_refuted`, `C85_refuted`, `C86_refuted`, `C86_exact_partial`, `C93_flag`

* **Quot.sound, propext** (50): `C105_history`, `C105_covered`, `C114_recommended`, `C114_between`, `C121_parse`, `C126_types`, `C127_pulse`, `C129_table`, `C130_goes_out`, `C130_can_end`, `C131_order`, `C131_every_key_partial`, `C132_when`, `C132_one_run_partial`, `C149_colour`, `C151_agents`, `C151_pending`, `C151_counts`, `C154_configuration`, `C156_panel`, `C159_refuted`, `C159_taken`, `C16_defaultSelector_valid`, `C31_in_range`, `C36_failure_unchanged`, `C36_success_frame`, `C40_single_update`, `C40_invariant`, `C41_serial_partial`, `C42_first_get_panics`, `C42_connections_survive`, `C42_leftovers`, `C42_statistics_partial`, `C50_forEach`, `C54_recovery_config`, `C59_history`, `C60_tracks`, `C60_reports`, `C62_exclusion`, `C62_simple_partial`, `C62_readers_partial`, `C70_distribution`, `C71_losses`, `C71_overflow`, `C76_other`, `C77_calls`, `C82_stuck`, `C82_reset_partial`, `C83_undisturbed`, `C91_sequence`

* **Classical.choice, Quot.sound, propext** (839): `C01_wrapPhase_canonical`, `C01_wrapPhase_idempotent`, `C01_wrapPhase_eq_iff`, `C01_wrapPhase_double`, `C02_range_double`, `C02_refuted`, `C02_wrong_direction`, `C02_phaseDifference_partial`, `C02_phaseDifference_range`, `C02_fails_on_special`, `C03_coherence_eq_orderParameter`, `C03_coherence_range`, `C03_coherence_eq_one_iff`, `C03_coherence_nil`, `C03_coherence_double`, `C04_perm_double`, `C04_rotate_double`, `C04_coherence_perm`, `C04_coherence_rotate`, `C04_coherence_turns`, `C05_overflow_double`, `C05_weighted_eq`, `C05_weighted_range`, `C05_weighted_const`, `C05_weighted_truncates`, `C05_weighted_zero`, `C05_mixed_sign_out_of_range`, `C06_range_double`, `C06_distance_formula`, `C06_distance_nonneg`, `C06_distance_le_one`, `C06_distance_eq_zero_iff`, `C06_distance_self`, `C06_distance_nil`, `C07_self_double`, `C07_severity_double`, `C07_gap_types`, `C07_gap_fields`, `C07_no_gap_self`, `C07_nil_panics`, `C08_validate_iff`, `C08_validate_messages`, `C09_normalize_real`, `C09_normalize_f64`, `C10_terminates_iff`, `C10_refuted`, `C10_terminates_partial`, `C100_regions`, `C100_deviation`, `C100_status`, `C100_evenly_partial`, `C100_refuted`, `C100_regions_double`, `C101_range`, `C101_green_partial`, `C101_percents`, `C101_refuted`, `C101_green_double_partial`, `C102_refuted`, `C102_agree_partial`, `C102_energy`, `C102_traffic`, `C102_steady`, `C102_agree_double_partial`, `C102_double_refuted`, `C102_energy_double`, `C102_traffic_double`, `C103_votes`, `C103_shown`, `C103_coherent`, `C103_unanimous`, `C103_split`, `C103_refuted`, `C103_double`, `C104_timing`, `C104_latency`, `C104_histogram`, `C104_health`, `C104_resilient`, `C104_resilient_coherent`, `C104_indicator`, `C104_sides`, `C104_refuted`, `C104_timing_double`, `C104_health_double`, `C104_dot_double`, `C104_resilient_double`, `C104_nan_healthy`, `C104_latency_double`, `C104_latency_rounded`, `C104_indicator_double`, `C105_series`, `C106_scattered_double`, `C106_field`, `C106_scattered`, `C106_green_partial`, `C106_always_green`, `C106_synchronised`, `C106_sides`, `C106_refuted`, `C107_bounds_double`, `C107_bounds`, `C107_drawn`, `C107_drawn_partial`, `C107_missing`, `C107_refuted`, `C108_once`, `C108_scale`, `C108_settled`, `C108_refuted`, `C109_forward`, `C109_rest`, `C109_closer_partial`, `C109_sent_round`, `C109_refuted`, `C109_double`, `C11_decide_optimal`, `C11_decide_hopeless`, `C11_decide_nil`, `C11_decide_confidence`, `C11_double`, `C110_once_double`, `C110_change_double`, `C110_once`, `C110_change`, `C110_synchronised`, `C110_three`, `C110_refuted`, `C111_contracts_double`, `C111_synchronises_double`, `C111_contracts`, `C111_synchronises`, `C111_no_gap`, `C112_default_double`, `C112_built`, `C112_default`, `C112_randomised`, `C112_test_partial`, `C112_refuted`, `C113_double`, `C113_wave`, `C113_templates`, `C114_scales`, `C115_statistics`, `C115_derived`, `C116_height_double`, `C116_nan`, `C116_height`, `C116_mirror`, `C116_refuted`, `C117_levers`, `C117_presets`, `C117_stability`, `C117_refuted`, `C117_precision_partial`, `C117_precision_refuted`, `C117_size`, `C117_size_spread`, `C117_size_rest`, `C117_size_refuted`, `C117_extremes`, `C117_levers_double`, `C117_presets_double`, `C118_rates_double`, `C118_energy_double`, `C118_rates`, `C118_energy`, `C118_dearer`, `C118_arrives`, `C118_refuted`, `C119_full`, `C119_ring`, `C119_star`, `C119_unnoticed`, `C119_count`, `C119_never`, `C119_refuted`, `C12_decide_total`, `C120_near_double`, `C120_near`, `C120_together`, `C120_refuted`, `C121_title`, `C121_lines`, `C121_flood`, `C122_request_double`, `C122_release_double`, `C122_blend_same`, `C122_blend_differs`, `C122_propose`, `C122_request`, `C122_release`, `C122_decide`, `C122_refuted`, `C123_perceived_goal`, `C123_gathered_partial`, `C123_refuted`, `C124_context`, `C124_out_of_reach`, `C124_moves_iff_partial`, `C124_accepted_step`, `C124_frozen`, `C124_pair_never_meets`, `C124_refuted`, `C124_far_double`, `C124_frozen_double`, `C124_pair_double`, `C125_plain`, `C125_energy_aware_still`, `C125_small_steps`, `C125_plain_double`, `C125_small_steps_double`, `C125_accurate_double`, `C126_assignment`, `C126_rotation`, `C126_labels`, `C126_refuted`, `C126_list_partial`, `C127_refuted`, `C127_totals_partial`, `C128_hidden`, `C128_refuted`, `C128_shown_partial`, `C129_double`, `C129_good_double`, `C129_keys`, `C129_good`, `C129_marks`, `C129_refuted`, `C129_reasons_partial`, `C129_specific`, `C129_scale`, `C13_clampRate`, `C13_propose_sane`, `C13_propose_sane_double`, `C13_clampRate_double`, `C13_nan_rate`, `C130_resetting_partial`, `C130_disrupted_partial`, `C130_refuted`, `C132_forever`, `C132_refuted`, `C133_accurate`, `C133_range`, `C133_order`, `C133_decision`, `C134_wrap`, `C135_difference`, `C136_nudge`, `C136_converges`, `C136_eventually`, `C137_measured`, `C137_swarm`, `C138_order`, `C138_complete`, `C138_time`, `C138_exact`, `C138_progress`, `C138_leak`, `C138_ends`, `C139_budget`, `C139_total`, `C139_range`, `C139_exhausted`, `C139_budget_double`, `C139_range_double`, `C14_nudge_contracts`, `C14_nudge_iterate`, `C14_nudge_iterate_any`, `C14_nudge_quarter`, `C14_nudge_wrong_way`, `C140_health`, `C140_latency`, `C140_cells`, `C140_filled`, `C140_capacity`, `C140_capacity_refuted`, `C140_load_refuted`, `C140_load_partial`, `C140_schedule`, `C140_health_double`, `C140_schedule_double_partial`, `C140_schedule_double_refuted`, `C140_counts`, `C141_colour_double`, `C141_colour_partial`, `C141_refuted`, `C141_shade`, `C142_duration`, `C142_time`, `C142_clock_partial`, `C142_refuted`, `C143_all`, `C143_clear`, `C144_insight`, `C144_agree_partial`, `C144_refuted`, `C144_agree_double_partial`, `C145_local`, `C145_goal`, `C146_coherence_partial`, `C146_order`, `C146_green`, `C146_whole_partial`, `C146_share_partial`, `C146_coherence_refuted`, `C146_refuted`, `C147_wave`, `C147_bin`, `C147_histogram`, `C147_picture`, `C148_nan`, `C148_nan_cost`, `C148_accounting`, `C148_free`, `C148_refuted`, `C148_spend_partial`, `C149_refuted`, `C149_percent_partial`, `C149_latency`, `C149_drift`, `C149_battery`, `C149_load`, `C149_rounds`, `C149_empty`, `C149_recovery_refuted`, `C149_recovery_partial`, `C149_spread`, `C149_shares`, `C15_pulse_spacing`, `C15_pulse_due`, `C150_first`, `C150_adaptive_partial`, `C150_refuted`, `C150_threshold`, `C150_rate_partial`, `C150_rate_refuted`, `C151_coherence_double`, `C151_state`, `C151_costs`, `C151_coherence`, `C151_refuted`, `C151_frozen_partial`, `C152_clamp`, `C152_lattice`, `C152_clamp_double`, `C152_nan`, `C152_symmetric_partial`, `C152_refuted`, `C153_texts`, `C153_gauge_partial`, `C153_reversed`, `C153_blind`, `C153_refuted`, `C153_best_worst`, `C153_topic`, `C154_workloads`, `C155_always`, `C155_refuted`, `C155_percent_partial`, `C156_words`, `C157_rejects`, `C157_named`, `C157_optimized_partial`, `C157_refuted`, `C158_touches`, `C158_born`, `C158_born_config`, `C158_stays`, `C158_nan`, `C158_nan_accepted`, `C158_busy`, `C158_size`, `C158_size_config`, `C159_shown_partial`, `C159_estimate`, `C16_adaptive_total`, `C16_agent`, `C17_range_double`, `C17_blend`, `C17_blend_clamps`, `C17_blend_zero`, `C17_blend_one_partial`, `C17_blend_special`, `C17_refuted`, `C18_scale_roundtrip`, `C18_fromCount`, `C18_scale_monotone`, `C18_default_target_achievable`, `C18_unknown`, `C18_neighbors`, `C18_achievable_double`, `C18_monotone_double`, `C19_goal_names`, `C19_goal_keys`, `C19_trait_names`, `C19_scale_names`, `C19_pattern_names`, `C19_pattern_keys`, `C19_refuted`, `C19_goal_keys_partial`, `C19_events_reachable`, `C20_limits_ordered`, `C20_limits_monotone`, `C20_limits_trivial`, `C20_ordered_double`, `C20_monotone_double`, `C21_minimum_size_sufficient_iff`, `C21_refuted`, `C21_minimum_size_partial`, `C21_minimum_size_monotone`, `C21_not_minimal`, `C21_sufficient_iff_double`, `C21_monotone_double`, `C22_adjusted`, `C22_warning_iff`, `C22_timeFactor_values`, `C22_timeFactor_monotone`, `C22_timeFactor_thresholds`, `C22_adjusted_double`, `C22_warning_iff_double`, `C22_nan`, `C22_values_double`, `C22_monotone_double`, `C23_preset_valid`, `C23_withSize_valid_iff`, `C23_preset_withSize`, `C23_tolerances_positive`, `C23_preset_withSize_double`, `C24_tune_valid_iff`, `C24_tune_preset_iff_partial`, `C24_latency_throughput`, `C24_refuted`, `C24_tune_withSize_partial`, `C24_repeated_tuning_rejected`, `C24_tune_withSize_double_partial`, `C25_fails_iff`, `C25_fails_iff_real`, `C25_result_validates`, `C25_valid_unchanged`, `C25_idempotent`, `C25_repairs`, `C26_valid_iff`, `C26_documented_ranges`, `C26_never_repaired`, `C26_too_large`, `C26_coupling`, `C27_goal_validate_real`, `C27_swarm_validate_iff_partial`, `C27_swarm_validate_real`, `C27_goal_validate_iff_partial`, `C27_nan_accepted`, `C27_refuted`, `C28_valid_iff`, `C28_small_rejected`, `C28_normalizes`, `C28_coupling`, `C29_request`, `C29_release`, `C29_bounded_and_conserved`, `C29_exact_balance`, `C29_request_f64`, `C29_release_f64`, `C29_bounded_f64`, `C30_refuted`, `C30_poisoned_forever`, `C30_step_partial`, `C30_infinite_budget`, `C31_panics_iff`, `C31_equal_shares`, `C31_acceptance`, `C31_uniform`, `C32_float_exact`, `C32_float_range`, `C32_phase`, `C33_store`, `C33_load`, `C33_delete`, `C33_clear`, `C33_count`, `C33_range`, `C33_all`, `C33_refines`, `C34_exact`, `C34_connected_partial`, `C34_others_kept`, `C34_disconnected`, `C34_refuted`, `C34_unlimited`, `C35_refuted`, `C35_frequency_refuted`, `C35_ranges_partial`, `C35_frequency_partial`, `C35_new_frequency`, `C36_outcome`, `C36_success`, `C36_phase_double`, `C37_accounting`, `C37_refuted`, `C37_spend_partial`, `C37_tokens_track`, `C38_accepted_applies`, `C38_acceptance`, `C38_stubborn`, `C38_stubborn_f64`, `C39_local_coherence`, `C39_ranges`, `C39_unanimous_goal`, `C39_refuted`, `C39_density_partial`, `C39_density_double`, `C40_past_is_history`, `C40_agent_state`, `C40_agent_behavior`, `C41_lost_update`, `C41_refuted`, `C41_overspend`, `C41_energy_partial`, `C42_refuted`, `C42_stale_refuted`, `C42_fields_partial`, `C43_succeeds`, `C43_new`, `C43_fromConfig`, `C43_fromConfig_succeeds`, `C43_goalConfig_succeeds`, `C44_graph_partial`, `C44_fromConfig_partial`, `C44_isolated`, `C44_refuted_real`, `C44_refuted`, `C45_hub`, `C45_average_partial`, `C45_nineteen`, `C45_refuted`, `C45_refuted_real`, `C46_refuted`, `C46_invisible`, `C47_full_exact`, `C47_star_exact`, `C47_ring`, `C47_star`, `C47_full`, `C47_truncated`, `C48_ring_star_fail`, `C48_full_isolated`, `C48_large_isolated`, `C48_builder_first_partial`, `C48_ring_partial`, `C48_builder_last`, `C48_refuted`, `C49_none`, `C49_real_partial`, `C49_disrupt_partial`, `C49_refuted`, `C50_coherence_double_partial`, `C50_reads_partial`, `C50_refuted`, `C50_coherence_real_partial`, `C51_honest`, `C51_complete`, `C51_no_agents_panics`, `C51_iteration_ends`, `C51_iteration_ends_double`, `C52_fromConfig_partial`, `C52_gives_up`, `C52_saturating`, `C52_new_partial`, `C52_zero_factor`, `C52_presets`, `C52_refuted_new`, `C52_refuted`, `C53_adjustments`, `C53_perturbations`, `C53_run`, `C53_achieve`, `C53_run_double_partial`, `C53_presets_moderate`, `C53_nan_noise`, `C53_refuted`, `C53_amount`, `C54_one_sync`, `C54_spacing`, `C54_restart_iff`, `C54_exit_partial`, `C54_failure_ends`, `C54_refuted`, `C55_low_targets`, `C55_refuted`, `C55_at_target_partial`, `C55_oversynchronised`, `C55_nan_ignored`, `C56_silent_partial`, `C56_refuted`, `C57_convergence`, `C57_no_agents`, `C57_refuted`, `C57_variance`, `C57_variance_in_range`, `C57_convergence_double`, `C57_variance_double`, `C58_monotone_double_partial`, `C58_decision`, `C58_refuted`, `C58_frequency_counts`, `C58_monotone_partial`, `C59_average`, `C59_average_double`, `C60_last`, `C60_nan_sticks`, `C60_extremes`, `C60_time_nonneg`, `C61_rate`, `C61_denominator`, `C61_rate_linear`, `C61_rate_reflect`, `C61_stability`, `C61_stability_double`, `C61_stability_exact`, `C61_deviation`, `C62_refuted`, `C63_history`, `C63_stuck`, `C63_converging`, `C63_tiny_window`, `C63_trend`, `C63_progress_real`, `C63_progress_partial`, `C63_refuted`, `C63_stuck_example`, `C63_progress_forgets`, `C64_similarity_partial`, `C64_self`, `C64_symm`, `C64_amplitude`, `C64_new_self`, `C64_range_double`, `C64_self_double`, `C64_nan`, `C64_refuted`, `C64_library_blind`, `C64_identify`, `C65_total`, `C65_between`, `C65_refuted`, `C65_empty`, `C65_endpoints_partial`, `C65_filled`, `C65_endpoints_double`, `C65_infinite`, `C66_matching_unchanged`, `C66_nearest`, `C66_order_independent`, `C66_phase_range`, `C66_half_gap_partial`, `C66_template_step`, `C66_refuted`, `C66_moves_away`, `C66_frequency_overshoot`, `C66_phase_range_double`, `C67_distance`, `C67_force_partial`, `C67_boosted`, `C67_adjustment_partial`, `C67_closer`, `C67_refuted`, `C67_converges`, `C67_rate`, `C67_force_double`, `C67_radius_zero`, `C67_new`, `C67_inside`, `C68_conserved`, `C68_once`, `C68_bounds`, `C68_quiescent`, `C68_terminates`, `C68_submit`, `C68_after_stop`, `C68_workerCount`, `C68_workerCount_mono`, `C69_split`, `C69_count`, `C69_least`, `C70_counts`, `C70_process`, `C70_savings`, `C70_converged`, `C70_peak`, `C70_savings_double`, `C70_totals`, `C71_conserved`, `C71_once`, `C71_limits`, `C71_drained`, `C72_refuted`, `C72_modifier_range`, `C72_modifier_partial`, `C72_double_partial`, `C72_double_refuted`, `C73_client`, `C73_build`, `C73_options`, `C73_shorthands`, `C74_consistent`, `C74_levels`, `C74_speed_bounds`, `C74_diagnose`, `C74_levels_double`, `C74_refuted`, `C74_excellent_partial`, `C74_speed`, `C75_oscillator`, `C75_agree_iff`, `C75_refuted`, `C75_agree_partial`, `C75_from_swarm`, `C75_zero_differs`, `C75_from_swarm_double`, `C76_ends`, `C76_last`, `C76_pattern_partial`, `C77_space`, `C77_keys_partial`, `C77_refuted`, `C77_orphan`, `C77_paused_partial`, `C77_race_refuted`, `C77_single_partial`, `C77_stop`, `C77_return`, `C78_best_pattern_partial`, `C78_refuted`, `C78_qualifier_monotone`, `C78_double_partial`, `C78_double_refuted`, `C78_qualifier_double`, `C79_predict_double_partial`, `C79_predict`, `C79_predict_line`, `C79_refuted`, `C80_perfect`, `C80_client`, `C80_default_partial`, `C80_refuted`, `C80_perfect_double`, `C80_client_double`, `C80_default_double_partial`, `C80_double_refuted`, `C80_tie`, `C81_complete_double`, `C81_detect`, `C81_unfilled_partial`, `C81_refuted`, `C81_jump_circle`, `C81_complete`, `C82_refuted`, `C82_length`, `C83_refuted`, `C83_later_partial`, `C84_ids_partial`, `C84_refuted`, `C85_signal_partial`, `C87_coherence`, `C87_frame`, `C87_reset_partial`, `C87_reset_met`, `C87_refuted`, `C87_coherence_double`, `C87_reset_double_partial`, `C88_disrupt`, `C88_effect`, `C88_synchronised`, `C88_first_look`, `C88_flag_partial`, `C88_refuted`, `C88_disrupt_double`, `C88_effect_double`, `C89_reset`, `C89_high`, `C89_sparse`, `C89_steady`, `C89_mixed`, `C89_paused`, `C89_burst_sizes`, `C89_burst`, `C90_float32`, `C90_range_partial`, `C90_refuted`, `C90_chances`, `C90_intn`, `C91_frozen`, `C91_consistent_partial`, `C91_refuted`, `C91_consistent_double_partial`, `C92_shorthand`, `C92_builds`, `C92_target`, `C93_partial`, `C93_mixed`, `C93_refuted`, `C93_burst`, `C93_mixed_age`, `C94_interpolated`, `C94_template`, `C94_adjustment`, `C94_add`, `C94_latest`, `C95_velocity`, `C95_rate`, `C95_switch`, `C95_approaching`, `C95_stalling`, `C95_sample`, `C95_switch_double`, `C95_ten_double`, `C95_ninety`, `C95_stalling_double`, `C95_ten`, `C96_best`, `C96_records`, `C96_refuted`, `C96_no_success_partial`, `C97_no_effect`, `C97_refuted`, `C98_forward`, `C98_converges`, `C98_closer_partial`, `C98_sent_round`, `C98_refuted`, `C98_forward_double`, `C98_converges_double`, `C99_own_double`, `C99_matches`, `C99_own`, `C99_anything`, `C99_identified_partial`, `C99_wrong_template`, `C99_refuted`
