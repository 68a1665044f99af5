{"id": "C01", "title": "Phase wrapping is canonical", "statement": "Wrapping a phase returns the one and only representative of that angle in [0, 2π): the result lies in [0, 2π), differs from the input by a whole number of turns, is unchanged by wrapping again, and two inputs wrap to the same value exactly when they differ by a whole number of turns. In IEEE doubles the result of wrapping any finite input is still a finite value in [0, 2π).", "quantifier": "every real phase; every finite double, every rounding of the intermediate sum", "why_tests_cant": "The input space is a continuum (2^64 doubles) and the half-open upper bound is decided by one rounding step that example inputs do not hit.", "anchors": ["emerge/core/phase.go:WrapPhase"]}
{"id": "C02", "title": "Phase difference is the signed shortest rotation", "statement": "PhaseDifference(a, b) lies in (-π, π], rotating b by it lands exactly on a (mod 2π), and no other rotation taking b to a is shorter. (The code violates this for the pairs (0, 3π/2) and (3π/2, 0): it returns the opposite direction.)", "quantifier": "every pair of real phases; range and accuracy also in doubles", "why_tests_cant": "A unit test can only sample pairs; the two special-cased pairs are tested with the wrong expected sign, so the suite confirms the defect.", "anchors": ["emerge/core/phase.go:PhaseDifference"]}
{"id": "C03", "title": "Coherence is the length of the mean unit vector", "statement": "The coherence of a list of phases is in [0, 1]; it equals the modulus of the mean of e^{iθ}; it is 1 exactly when the list is non-empty and all phases denote the same angle; it is 0 for the empty list.", "quantifier": "every finite list of real phases, any length; range also in doubles", "why_tests_cant": "Needs the triangle inequality and its equality case for arbitrary many phases; samples cannot establish an upper bound or an iff.", "anchors": ["emerge/core/phase.go:MeasureCoherence", "emerge/swarm/swarm.go:Swarm.MeasureCoherence"]}
{"id": "C04", "title": "Coherence depends only on the multiset of relative phases", "statement": "Coherence is unchanged by reordering the phases (agents are enumerated in an unspecified map order), by rotating all phases together, and by adding whole turns to individual phases.", "quantifier": "every list of phases, every permutation, every common rotation, every choice of turns; in doubles reordering and rotating up to an error that is bounded", "why_tests_cant": "Map iteration order is nondeterministic; a test observes one order per run.", "anchors": ["emerge/core/phase.go:MeasureCoherence", "emerge/swarm/swarm.go:Swarm.MeasureCoherence"]}
{"id": "C05", "title": "Weighted coherence stays in [0,1] for non-negative weights", "statement": "For non-negative weights the weighted coherence is in [0, 1], agrees with the plain coherence when all weights are equal and positive, ignores surplus entries of the longer list, and is 0 when there is no weight. With weights of mixed sign the result can leave [0, 1].", "quantifier": "every pair of lists (any lengths) of phases and weights", "why_tests_cant": "Unbounded lists of reals and mismatched lengths; bounds over all of them are an inequality, not a sample.", "anchors": ["emerge/core/phase.go:MeasureCoherenceWeighted"]}
{"id": "C06", "title": "Pattern distance is a bounded dissimilarity", "statement": "The distance of a pattern to a target is non-negative, at most 1 for patterns with coherence in [0, 1], zero from a pattern to itself, zero only if phases agree (mod 2π), coherences agree and frequencies agree whenever the target frequency is positive; it is the maximal float when either pattern is missing.", "quantifier": "every pair of patterns with real phase/coherence and integer durations; bounds also in doubles", "why_tests_cant": "Quantifies over all pattern pairs; the zero-set is an iff.", "anchors": ["emerge/core/pattern.go:PatternDistance"]}
{"id": "C07", "title": "Gap identification reports exactly the out-of-tolerance components", "statement": "Identifying gaps between a current and a target pattern lists a phase, frequency or coherence gap exactly when that component is outside its documented tolerance, at most one gap each, in that order, with positive severities; identical patterns produce no gap.", "quantifier": "every pair of patterns; severities and identical patterns also in doubles", "why_tests_cant": "An iff over a continuum of patterns including all threshold boundaries.", "anchors": ["emerge/core/pattern.go:IdentifyGaps"]}
{"id": "C08", "title": "State validation accepts exactly the meaningful states", "statement": "Validating a goal state succeeds exactly when the frequency is positive, the coherence is a number in [0, 1] and the phase is a finite number; NaN and infinities are rejected.", "quantifier": "every frequency and every pair of IEEE values including NaN and ±Inf", "why_tests_cant": "Float comparisons with NaN are all false, so a boundary-value suite easily misses an accepted NaN.", "anchors": ["emerge/core/state.go:State.Validate"]}
{"id": "C09", "title": "State normalisation repairs everything repairable", "statement": "After a successful NormalizeAndValidate the state validates, its phase lies in [0, 2π) and denotes the same angle as before, in-range coherence and positive frequency are untouched, and normalising again changes nothing. It fails exactly for NaN coherence or NaN/infinite phase.", "quantifier": "every state (ideal real arithmetic for the phase); failure condition over IEEE values", "why_tests_cant": "A repair function has to be right on every input including those nobody wrote a test for; idempotence is a law.", "anchors": ["emerge/core/state.go:State.NormalizeAndValidate", "emerge/core/state.go:State.normalize"]}
{"id": "C10", "title": "Normalising a finite phase terminates", "statement": "Normalising a state with any finite phase returns. (False in IEEE arithmetic: for a huge phase, subtracting 2π is absorbed by rounding and the loop never exits.)", "quantifier": "every finite double phase", "why_tests_cant": "Non-termination cannot be observed by a finite test; the trigger is a rounding effect at magnitudes above 2^55.", "anchors": ["emerge/core/state.go:State.normalize"]}
{"id": "C11", "title": "The decision maker picks the best benefit/cost ratio", "statement": "For a non-empty option list the chosen action is one of the options, no option has a strictly better benefit-to-cost ratio (cost floored at 0.1), it is the first such option, and the reported confidence is in [0, 1] and equals half the winning ratio clamped. For an empty list it is the maintain action with the state's own coherence as confidence.", "quantifier": "every state and every option list of any length, over the reals; in doubles the chosen ratio is best up to rounding", "why_tests_cant": "Optimality over all options and tie-breaking over all positions is a universally quantified statement over unbounded lists.", "anchors": ["emerge/decision/simple.go:SimpleDecisionMaker.Decide"]}
{"id": "C12", "title": "The decision maker is total on NaN and infinite options", "statement": "Whatever IEEE values the options carry (NaN, ±Inf, negative), the decision maker returns one of the given options and a confidence that is a real number in [0, 1].", "quantifier": "every option list with arbitrary IEEE costs and benefits", "why_tests_cant": "NaN poisoning of a running maximum depends on the position of the NaN; exhaustive sampling is impossible.", "anchors": ["emerge/decision/simple.go:SimpleDecisionMaker.Decide"]}
{"id": "C13", "title": "Strategy proposals are bounded and applicable", "statement": "Every built-in strategy, for a rate/amplitude in [0,1] and a local coherence in [0,1], proposes a phase change of at most half a turn, a non-negative cost, a confidence in [0, 1] and an action type that agents know how to apply.", "quantifier": "every strategy, parameter in range, current/target state and context", "why_tests_cant": "Bounds over continuous state and parameters.", "anchors": ["emerge/strategy/phase_nudge.go:PhaseNudge.Propose", "emerge/strategy/frequency_lock.go:FrequencyLock.Propose", "emerge/strategy/energy_aware.go:EnergyAware.Propose", "emerge/strategy/pulse.go:Pulse.Propose"]}
{"id": "C14", "title": "Phase nudging contracts to the target without overshoot", "statement": "Applying a phase nudge of rate r multiplies the circular distance to the target by exactly (1-r), so n nudges leave (1-r)^n of the initial distance, never crossing the target; except from the exact 3π/2 ↔ 0 pair, where the nudge moves away.", "quantifier": "every start phase, target phase, rate in [0,1], number of nudges", "why_tests_cant": "A convergence law for all numbers of steps from all starts.", "anchors": ["emerge/strategy/phase_nudge.go:PhaseNudge.Propose", "emerge/agent/agent.go:Agent.ApplyAction"]}
{"id": "C15", "title": "Pulses are spaced by at least one period", "statement": "In any sequence of proposals made at non-decreasing times, any two pulse actions are at least one period apart, and between pulses only maintain actions are proposed.", "quantifier": "every call history with arbitrary times, every period, any number type", "why_tests_cant": "Temporal property over unbounded call histories.", "anchors": ["emerge/strategy/pulse.go:Pulse.Propose"]}
{"id": "C16", "title": "The adaptive strategy is total and delegates faithfully", "statement": "For any selector function, even one returning out-of-range indexes, the adaptive strategy never panics: it returns exactly the proposal of the selected strategy, or of the first one if the index is out of range, or maintain if it has no strategies. The default selector always picks a valid index. An agent stores the progress of the part that ran and of no other.", "quantifier": "every selector, every strategy list, every context, any number type", "why_tests_cant": "Quantifies over arbitrary user-supplied functions.", "anchors": ["emerge/strategy/adaptive.go"]}
{"id": "C17", "title": "Goal blending interpolates between local and global", "statement": "Blending keeps the local frequency, moves the phase along the shortest arc by the clamped weight (weight 0 keeps the local angle, weight 1 reaches the global angle), yields a phase in [0, 2π), and a coherence between the two inputs.", "quantifier": "every pair of states, every weight including out-of-range ones", "why_tests_cant": "Law over continuum of weights and angles.", "anchors": ["emerge/goal/manager.go:WeightedManager.Blend"]}
{"id": "C18", "title": "Swarm scales and agent counts agree", "statement": "The scale computed from a scale's own default agent count is that scale; the scale is monotone in the agent count and defined for every count; default coherence decreases with scale.", "quantifier": "every integer agent count and every scale; coherences over the reals and in doubles", "why_tests_cant": "Monotonicity and totality over all integers.", "anchors": ["emerge/scale/scale.go"]}
{"id": "C19", "title": "Goal, trait, scale and pattern identifiers are unambiguous", "statement": "Different goals have different names and different shortcut keys; likewise for request patterns, scales and traits; goal keys, pattern keys and control keys never collide. (False: the shortcut key of MaintainRhythm, R, resets the simulation.)", "quantifier": "all pairs of enumeration values", "why_tests_cant": "Pairwise distinctness over whole tables is usually not tested.", "anchors": ["emerge/goal/config.go", "emerge/trait/trait.go", "emerge/scale/scale.go", "simulations/emerge/simulation/pattern/pattern.go", "simulations/display/controller.go"]}
{"id": "C20", "title": "Coherence limits are ordered and improve with size", "statement": "For every swarm size 0 ≤ recommended ≤ practical ≤ theoretical ≤ 1, and from size 2 upwards each of the three limits is non-decreasing in the size.", "quantifier": "every integer swarm size, over the reals and in doubles", "why_tests_cant": "Ordering and monotonicity over all sizes.", "anchors": ["emerge/swarm/limits.go:GetCoherenceLimits"]}
{"id": "C21", "title": "The minimum swarm size is sufficient for the target", "statement": "A swarm of the size returned for a target coherence can practically reach that target. (False for targets strictly between 0.98 and 0.99 and above 0.99.) The size is monotone in the target; it is not minimal: for target 0.91 it returns 10 although 5 agents suffice.", "quantifier": "every target coherence, over the reals and in doubles", "why_tests_cant": "The failing region is an open interval between two tested thresholds.", "anchors": ["emerge/swarm/limits.go:GetMinimumSwarmSize"]}
{"id": "C22", "title": "Target validation never asks for the impossible", "statement": "The adjusted target never exceeds the theoretical limit of the swarm size, never exceeds the request, equals the request whenever the request is within the theoretical limit, and a warning is produced exactly when the request exceeds the recommended limit. The convergence time factor is infinite exactly above the practical limit and otherwise one of 1, 2, 4, 8, non-decreasing in the target. A NaN target passes validation unchanged, without a warning and with time factor 8.", "quantifier": "every swarm size and target, over the reals and in doubles", "why_tests_cant": "Decision logic over a continuum with nested thresholds.", "anchors": ["emerge/swarm/limits.go:ValidateCoherenceTarget", "emerge/swarm/limits.go:GetConvergenceTimeFactor"]}
{"id": "C23", "title": "Goal presets validate at every size", "statement": "The configuration preset for any goal, scaled to any swarm size, passes its own validation.", "quantifier": "every goal value (including unknown ones) and every integer size", "why_tests_cant": "Size is unbounded, and each preset field is rescaled by size-dependent factors.", "anchors": ["emerge/swarm/config.go:For", "emerge/swarm/config.go:Config.WithSize", "emerge/swarm/config.go:Config.Validate"]}
{"id": "C24", "title": "Trait tuning keeps configurations valid", "statement": "Tuning a goal preset for any trait yields a configuration that passes validation. (False: latency minimisation tuned for throughput exceeds the adjustment-scale bound.)", "quantifier": "every goal and trait", "why_tests_cant": "Tests tune one trait on one goal; the failing combination is one cell of the table; repeated tuning compounds.", "anchors": ["emerge/swarm/config.go:Config.TuneFor", "emerge/swarm/config.go:Config.Validate"]}
{"id": "C25", "title": "Swarm configuration normalisation is a projection onto valid configurations", "statement": "For any configuration, NormalizeAndValidate fails exactly when the size is not positive or exceeds the allowed maximum; otherwise the result validates, valid configurations are unchanged except that unset batch and worker sizes are filled in, and normalising twice equals normalising once.", "quantifier": "every swarm configuration and every integer size", "why_tests_cant": "A 20-field product space; interplay of clamps (min/max neighbours, size) must never re-break a repaired field.", "anchors": ["internal/config/swarm.go:Swarm.NormalizeAndValidate", "internal/config/swarm.go:Swarm.normalize", "internal/config/swarm.go:Swarm.Validate"]}
{"id": "C26", "title": "Auto-scaled configuration is valid for every size", "statement": "The automatically scaled configuration for n agents passes validation for n exactly when 1 ≤ n ≤ 1,000,000, and after normalisation never needs repair.", "quantifier": "every integer size", "why_tests_cant": "Integer divisions (n/5, n/10, n/100) make min ≤ max neighbour bounds size dependent.", "anchors": ["internal/config/swarm.go:AutoScaleConfig"]}
{"id": "C27", "title": "A validated configuration has every probability in range", "statement": "If a swarm configuration passes validation then each probability-like parameter is a number in [0, 1] and each bounded parameter respects its bound. (False for NaN: every NaN parameter passes.)", "quantifier": "every configuration over IEEE values", "why_tests_cant": "NaN passes `x < 0 || x > 1`; only reasoning over all IEEE values shows which fields are affected.", "anchors": ["internal/config/swarm.go:Swarm.Validate", "emerge/swarm/config.go:Config.Validate"]}
{"id": "C28", "title": "Batching configuration can always be used", "statement": "For every positive workload count up to the maximum size, the batching configuration becomes valid by normalisation, with the documented coupling bounds; without normalisation it is rejected exactly for small workloads whose update interval is zero.", "quantifier": "every integer workload count", "why_tests_cant": "Size-dependent arithmetic over all counts.", "anchors": ["internal/config/swarm.go:ForBatching"]}
{"id": "C29", "title": "Tokens are conserved and bounded", "statement": "For every history of requests and releases on a token manager, available tokens stay between 0 and the maximum; a request grants at most what is asked and at most what is available, granting all if available; a release adds exactly the amount up to the cap. In exact arithmetic available = initial − granted + returned. The bounds hold in IEEE doubles under any round-to-nearest mode for all non-NaN amounts.", "quantifier": "every operation history of any length with any amounts", "why_tests_cant": "Invariant over unbounded histories, including rounding in every step.", "anchors": ["internal/resource/token.go:TokenManager"]}
{"id": "C30", "title": "Token manager survives hostile amounts", "statement": "No request or release amount, including NaN and infinities, can push available tokens outside [0, max]. (False: requesting or releasing NaN poisons the balance permanently.)", "quantifier": "every operation history over IEEE values", "why_tests_cant": "NaN propagates silently; once poisoned every later balance is NaN.", "anchors": ["internal/resource/token.go:TokenManager.Request", "internal/resource/token.go:TokenManager.Release"]}
{"id": "C31", "title": "Random integers are in range and unbiased", "statement": "A random integer below n is always in [0, n), every value is produced by exactly the same number of accepted raw draws, at least half of all raw draws are accepted, and it panics exactly for n ≤ 0 or n above 2^31−1.", "quantifier": "every n and every raw random word", "why_tests_cant": "Uniformity is a counting statement over 2^31 raw draws; sampling only estimates it.", "anchors": ["internal/random/random.go:Intn"]}
{"id": "C32", "title": "Random floats and phases are in their half-open ranges", "statement": "A random float is in [0, 1) and is exactly representable; a random phase is in [0, 2π) even after IEEE rounding.", "quantifier": "every 64-bit random word", "why_tests_cant": "The top endpoint occurs with probability 2^-53; a rounding up to 2π would never show in tests.", "anchors": ["internal/random/random.go:Float64", "internal/random/random.go:Phase"]}
{"id": "C33", "title": "Neighbour storage is a bounded map", "statement": "Under any sequence of store, load, delete, clear and range operations the neighbour storage behaves like a finite map from IDs with fixed capacity: store overwrites or inserts unless full and new, load returns the latest stored value, delete removes exactly one ID, count is the number of IDs, enumeration visits each ID exactly once.", "quantifier": "every operation sequence, capacity, ID set", "why_tests_cant": "Swap-with-last deletion on parallel arrays: correctness over all interleavings of operations.", "anchors": ["emerge/agent/neighbor_storage.go:NeighborStorage"]}
{"id": "C34", "title": "Connecting makes agents connected", "statement": "After an agent connects to another agent it reports being connected to it, connections made earlier are kept, and disconnecting removes exactly that connection. (False once 20 neighbours are stored: the connection is silently dropped.) Agents that do not use the bounded storage have no such limit.", "quantifier": "every sequence of connect/disconnect calls", "why_tests_cant": "Capacity effects appear only at the 21st neighbour.", "anchors": ["emerge/agent/agent.go:Agent.ConnectTo", "emerge/agent/agent.go:Agent.IsConnectedTo", "emerge/agent/agent.go:Agent.DisconnectFrom"]}
{"id": "C35", "title": "Agent fields stay in their documented ranges", "statement": "Starting from any newly created agent, after any sequence of public setter calls and applied actions with non-NaN arguments, the phase is in [0, 2π), energy is non-negative, influence and stubbornness are in [0, 1] and frequency is positive.", "quantifier": "every operation sequence with every argument (IEEE doubles)", "why_tests_cant": "Invariant over unbounded call sequences.", "anchors": ["emerge/agent/agent.go"]}
{"id": "C36", "title": "Applying an action is all-or-nothing", "statement": "Applying an action fails exactly when its cost exceeds the energy or its type is unknown; on failure no observable state changes; on success a maintain action keeps the phase, any other action advances the phase by its value (mod 2π), and energy drops by exactly the reported cost.", "quantifier": "every agent state, every action; the new phase also in doubles", "why_tests_cant": "Covers all action types including unknown strings, and all energies.", "anchors": ["emerge/agent/agent.go:Agent.ApplyAction"]}
{"id": "C37", "title": "Energy accounting adds up over histories", "statement": "Over any sequence of applied actions with non-negative cost, remaining energy equals initial energy minus the sum of the costs reported by successful applications, so an agent can never spend more than it had. (A negative cost creates energy.)", "quantifier": "every sequence of actions", "why_tests_cant": "Conservation over unbounded histories.", "anchors": ["emerge/agent/agent.go:Agent.ApplyAction"]}
{"id": "C38", "title": "Accepted proposals can always be carried out", "statement": "Whenever an agent proposes an adjustment and reports acceptance, immediately applying it succeeds; a rejected proposal is the maintain action; a fully stubborn agent never accepts.", "quantifier": "every agent state, goal, random draw, and built-in strategy", "why_tests_cant": "Depends on random draws and all strategy outcomes.", "anchors": ["emerge/agent/agent.go:Agent.ProposeAdjustment"]}
{"id": "C39", "title": "Context figures are proper fractions", "statement": "After updating its context, an agent's local coherence is in [0, 1], the local goal phase is in [0, 2π), and the density is in [0, 1]. (Density is false: an agent without swarm information gets a negative density, others may exceed 1. In doubles it is plus infinity for an agent with neighbours that assumes at most 0, and in [0, 1] exactly if the agent has at most as many neighbours as it assumes.)", "quantifier": "every neighbour set and swarm information; densities also in doubles (below 2^53 neighbours)", "why_tests_cant": "Division by an estimated neighbour count that may be zero or negative.", "anchors": ["emerge/agent/agent.go:Agent.UpdateContext"]}
{"id": "C40", "title": "Concurrent updates never break agent invariants", "statement": "Under every interleaving of any number of goroutines performing agent operations, every observed agent state is one that some single update produced, so all field invariants hold at all times.", "quantifier": "every number of goroutines and every schedule", "why_tests_cant": "Schedules are unbounded and nondeterministic.", "anchors": ["emerge/agent/atomic_state.go", "emerge/agent/agent.go"]}
{"id": "C41", "title": "Concurrent updates are not lost", "statement": "If two actions are applied concurrently and both succeed, the energy drops by the sum of both costs. (False: the update is load-modify-store without compare-and-swap.) It holds for every schedule in which updates do not overlap.", "quantifier": "every schedule", "why_tests_cant": "The losing interleaving is a narrow race window.", "anchors": ["emerge/agent/atomic_state.go:AtomicState.Update", "emerge/agent/atomic_state.go:AtomicBehavior.Update"]}
{"id": "C42", "title": "Pooled agents are clean", "statement": "An agent obtained from the pool is usable and carries nothing over from its previous use. (False: a fresh pool panics on the first Get, and neighbours stored by ConnectTo survive Put/Get.)", "quantifier": "every sequence of pool operations", "why_tests_cant": "sync.Pool's behaviour is nondeterministic; stale data appears only on reuse.", "anchors": ["emerge/agent/pool.go"]}
{"id": "C43", "title": "A new swarm has exactly the requested agents", "statement": "Creating a swarm of n agents yields n agents named agent-0 … agent-(n-1); enumeration, lookup by ID and size agree, whichever internal storage is used.", "quantifier": "every size n ≥ 1", "why_tests_cant": "Storage switches at 100 agents; agreement must hold for every size.", "anchors": ["emerge/swarm/swarm.go:New", "emerge/swarm/swarm.go:Swarm.Agents", "emerge/swarm/swarm.go:Swarm.Agent", "emerge/swarm/swarm.go:Swarm.Size"]}
{"id": "C44", "title": "Swarm connections are symmetric, loop-free and sufficient", "statement": "For every outcome of the random choices, the connection graph built for a swarm is symmetric, has no self-connection, connects only swarm members, and every agent has at least the configured minimum number of neighbours when enough agents exist.", "quantifier": "every size, configuration and random stream on which construction terminates", "why_tests_cant": "Random graphs: a test sees one sample per run.", "anchors": ["emerge/swarm/swarm.go:Swarm.establishConnections", "emerge/swarm/swarm.go:Swarm.ensureMinimumConnectivity"]}
{"id": "C45", "title": "The maximum number of neighbours is respected", "statement": "No agent of a newly created swarm has more neighbours than the configured maximum. (False: only the initiating side is checked.)", "quantifier": "every configuration and random stream", "why_tests_cant": "Depends on an adversarial random stream.", "anchors": ["emerge/swarm/swarm.go:Swarm.establishConnections"]}
{"id": "C46", "title": "Swarm connections are visible to the agents", "statement": "If two agents of a new swarm are neighbours then each reports being connected to the other, and takes the other into account in its local context. (False: the connections are written to a different store than the one consulted.)", "quantifier": "every newly created swarm", "why_tests_cant": "Two parallel representations; each is tested separately.", "anchors": ["emerge/swarm/swarm.go:Swarm.establishConnections", "emerge/agent/agent.go:Agent.IsConnectedTo", "emerge/agent/agent.go:Agent.UpdateContext"]}
{"id": "C47", "title": "Topology builders build the named graph", "statement": "The ring, star and fully-connected builders connect exactly the pairs of their named graph. Ring works for every size ≥ 2; the star and the complete graph are exact up to 21 agents and are truncated beyond that.", "quantifier": "every number of agents and enumeration order", "why_tests_cant": "Graph shape for all sizes; truncation occurs above every tested size.", "anchors": ["internal/topology/full.go", "internal/topology/ring.go", "internal/topology/star.go"]}
{"id": "C48", "title": "Choosing a topology takes effect", "statement": "A swarm created with a topology option has that topology. (False: the option runs before the agents exist, so ring and star fail and complete yields no connections.)", "quantifier": "every size and topology", "why_tests_cant": "Option ordering effect not visible when topology builders are tested in isolation.", "anchors": ["emerge/swarm/swarm.go:WithTopology", "emerge/swarm/swarm.go:New"]}
{"id": "C49", "title": "Disruption hits the requested fraction of any swarm", "statement": "Disrupting a fraction p of a swarm perturbs at most ⌊p·n⌋ agents, leaves all phases in [0, 2π) and does perturb agents when p·n ≥ 1. (False for swarms above 100 agents, where nothing is perturbed.)", "quantifier": "every size, fraction and random stream", "why_tests_cant": "Storage-dependent; tests use small swarms.", "anchors": ["emerge/swarm/swarm.go:Swarm.DisruptAgents", "emerge/swarm/swarm.go:Swarm.ForEachAgent"]}
{"id": "C50", "title": "Storage modes are observationally equivalent for reads", "statement": "For the same agents, lookup, enumeration and coherence measurement give the same answers in map storage and slice storage. In doubles the two measurements differ by at most twice the error of C133, in whatever order the map is visited.", "quantifier": "every agent set with distinct IDs; coherence also in doubles, every order of visit", "why_tests_cant": "Equivalence of two implementations for all inputs.", "anchors": ["emerge/swarm/swarm.go"]}
{"id": "C51", "title": "Synchronisation is bounded and honest", "statement": "A synchronisation run performs at most 1000 iterations, returns success only if the goal pattern was measured as achieved in its last iteration, returns the context error when cancelled, and otherwise reports failure after exactly its iteration budget.", "quantifier": "every environment behaviour (measurements, cancellation time)", "why_tests_cant": "Universally quantified over all measurement sequences.", "anchors": ["emerge/swarm/goal_directed.go:GoalDirectedSync.AchieveSynchronization"]}
{"id": "C52", "title": "Synchronisation always gets a positive iteration budget", "statement": "Every run on a swarm built by a public constructor may use at least one iteration. (False: for an explicit configuration with a target between the practical and theoretical limits the budget is int(+Inf).)", "quantifier": "every size and target accepted by the constructors", "why_tests_cant": "Implementation-defined conversion reached only in a parameter window.", "anchors": ["emerge/swarm/goal_directed.go:GoalDirectedSync.AchieveSynchronization", "emerge/swarm/limits.go:GetConvergenceTimeFactor"]}
{"id": "C53", "title": "Synchronisation steps preserve agent validity", "statement": "Each synchronisation step keeps every phase in [0, 2π) and every frequency positive, for every measurement, configuration and random stream. Perturbing moves max(1, floor(n times the configured share)) members, each by at most half the configured noise.", "quantifier": "every agent set, configuration and random stream", "why_tests_cant": "Invariant over unbounded runs with randomness.", "anchors": ["emerge/swarm/goal_directed.go:GoalDirectedSync.applyPatternCompletion", "emerge/swarm/goal_directed.go:GoalDirectedSync.addStochasticResonance"]}
{"id": "C54", "title": "Continuous running exits only on cancellation", "statement": "A continuous run returns only after its context is cancelled. (False: it also returns when a synchronisation run fails.) At most one synchronisation is active at any time and consecutive restarts are more than 500 ms apart.", "quantifier": "every event schedule", "why_tests_cant": "Temporal property over unbounded nondeterministic schedules.", "anchors": ["emerge/swarm/swarm_continuous_run.go:Swarm.RunContinuous"]}
{"id": "C55", "title": "Resynchronisation is triggered exactly when needed", "statement": "The resynchronisation decision is true exactly when coherence is below the viable or acceptable minimum, or dropped too far from the peak (as documented), and never when the coherence is at or above target. (False for low targets, where the viable minimum 0.2 exceeds the target.)", "quantifier": "every coherence, peak, target and recovery configuration", "why_tests_cant": "Nested thresholds over a continuum; one documented condition is unreachable.", "anchors": ["emerge/swarm/swarm_continuous_run.go:needsResync", "emerge/swarm/swarm_continuous_run.go:DefaultRecoveryConfig"]}
{"id": "C56", "title": "Convergence reported to clients reflects the swarm", "statement": "After a successful run the client reports convergence and the measured coherence. (False: nothing ever records a sample, so the client always reports 0 and not converged.)", "quantifier": "every client call sequence", "why_tests_cant": "Needs the absence of a call over all executions.", "anchors": ["client/emerge/emerge.go", "emerge/swarm/swarm.go:Swarm.CurrentCoherence", "emerge/swarm/swarm.go:Swarm.IsConverged"]}
{"id": "C57", "title": "Phase convergence is a proper measure", "statement": "For phases and target in [0, 2π) the phase convergence is in [0, 1], and is 1 exactly when all agents are at the target; phase variance is in [0, π²]. (For a target outside [0, 2π], which validation allows, the measure can exceed 1.)", "quantifier": "every agent phase list and target", "why_tests_cant": "Bounds over unbounded lists; the failing region needs an unnormalised target.", "anchors": ["emerge/swarm/phase_convergence.go:MeasurePhaseConvergence", "emerge/swarm/phase_convergence.go:MeasurePhaseVariance"]}
{"id": "C58", "title": "Pattern achievement is decided by the documented thresholds", "statement": "A measured pattern counts as achieved exactly when its coherence is within the size-dependent tolerance of the goal (doubled near the practical limit) and, for high-coherence goals, the phase convergence also reaches the goal; raising measured coherence or convergence never un-achieves a goal.", "quantifier": "every measurement, goal and size; the monotone part also in doubles", "why_tests_cant": "Decision logic over a continuum.", "anchors": ["emerge/swarm/goal_directed.go:GoalDirectedSync.isPatternAchieved"]}
{"id": "C59", "title": "The monitor remembers exactly the last 100 samples", "statement": "After any sequence of recorded samples the history is exactly the last 100 of them in order, the latest is the last one, and the average is the mean of the history.", "quantifier": "every sample sequence of any length", "why_tests_cant": "Sliding-window behaviour for unbounded sequences.", "anchors": ["emerge/monitoring/monitor.go:Monitor"]}
{"id": "C60", "title": "Convergence status equals 'last sample at or above threshold'", "statement": "After any history of samples and resets the monitor is converged exactly when the most recent sample since the last reset reaches the threshold; extremes are the true extremes seen (capped by the initial values); convergence time measures from the beginning of the current unbroken converged stretch.", "quantifier": "every sample/reset history with non-decreasing times", "why_tests_cant": "Refinement over unbounded histories.", "anchors": ["emerge/monitoring/convergence.go:ConvergenceMonitor"]}
{"id": "C61", "title": "Convergence rate is the regression slope and stability a proper score", "statement": "The reported rate is the least-squares slope of the last at most ten samples (exact on linear data, zero on constant data, antisymmetric under reflection) and stability is in (0, 1], equal to 1 exactly for constant recent samples. Stability is exp of minus ten standard deviations of the last at most twenty samples.", "quantifier": "every history with increasing times", "why_tests_cant": "Algebraic identity for all windows; division is always by a non-zero number.", "anchors": ["emerge/monitoring/convergence.go:ConvergenceMonitor.ConvergenceRate", "emerge/monitoring/convergence.go:ConvergenceMonitor.Stability"]}
{"id": "C62", "title": "The convergence monitor cannot deadlock", "statement": "No set of goroutines calling monitor methods can block each other forever. (False: two methods re-acquire the read lock they hold; with a writer queued in between, all block.) All other methods are deadlock-free in any number and schedule.", "quantifier": "every set of goroutines and every schedule", "why_tests_cant": "Requires an unlucky interleaving of three lock operations.", "anchors": ["emerge/monitoring/convergence.go:ConvergenceMonitor.PredictConvergenceTime", "emerge/monitoring/convergence.go:ConvergenceMonitor.Statistics"]}
{"id": "C63", "title": "Stuck detection and progress tracking are sound", "statement": "The distance tracker keeps at most twice its window of samples and always the most recent ones, reports stuck only after more than five consecutive flat trends since the last movement or reset, and reports progress in [0, 1].", "quantifier": "every sample history and window size", "why_tests_cant": "Invariant over unbounded histories.", "anchors": ["emerge/convergence/monitor.go:Monitor"]}
{"id": "C64", "title": "Pattern similarity is a proper similarity", "statement": "Similarity of two patterns is in [0, 1] and 1 for identical patterns. (False for patterns with zero amplitude or period: the result is NaN.)", "quantifier": "every pair of patterns over IEEE values", "why_tests_cant": "0/0 arises only for degenerate patterns.", "anchors": ["emerge/monitoring/patterns.go:Pattern.Similarity"]}
{"id": "C65", "title": "Waveform morphing is total and interpolating", "statement": "Morphing waveforms of any two lengths never reads out of range, yields the longer length, lies pointwise between the two resampled waveforms, returns the current one at progress 0 and the target at progress 1. In doubles the end points hold for finite waveforms only: an infinite sample turns the morph into NaN at progress 0.", "quantifier": "every pair of waveforms and every progress in [0,1]; end points also in doubles", "why_tests_cant": "Index arithmetic over all length pairs.", "anchors": ["emerge/completion/engine.go:morphWaveform"]}
{"id": "C66", "title": "Pattern completion moves towards the target", "statement": "Completion uses the nearest acceptable template independent of enumeration order (up to ties), never moves the phase by more than half the gap in one step, keeps phases in [0, 2π), and leaves an already matching pattern alone.", "quantifier": "every template set, enumeration order and pattern", "why_tests_cant": "Map order nondeterminism and a continuum of patterns.", "anchors": ["emerge/completion/engine.go:Engine.CompletePattern"]}
{"id": "C67", "title": "Attractor basins pull inwards with bounded force", "statement": "Inside the basin the force is between 0 and the strength, zero at and beyond the radius, larger closer to the target, and the suggested adjustment never overshoots. (False for a negative phase with positive target, where the force doubles, and for radius 0, where it is NaN.)", "quantifier": "every basin and state", "why_tests_cant": "Continuum of states, special case hidden behind a sign test.", "anchors": ["internal/emerge/basin.go"]}
{"id": "C68", "title": "The worker pool runs each task at most once, in submission order", "statement": "Under every schedule each submitted task is started at most once, tasks are taken in submission order, and if the pool is never stopped and no worker can move every submitted task has run. Stopping twice panics, and after stopping tasks may be left unrun.", "quantifier": "every number of workers, tasks and schedule", "why_tests_cant": "Channel interleavings.", "anchors": ["emerge/swarm/swarm.go:WorkerPool"]}
{"id": "C69", "title": "API batching neither loses, duplicates nor overfills", "statement": "Splitting collected tasks into API batches preserves the tasks in order, every batch is non-empty and has at most 100 tasks, and the number of batches is the least possible.", "quantifier": "every task list", "why_tests_cant": "Chunking law for all lengths.", "anchors": ["simulations/emerge/simulation/batch_manager.go:splitIntoAPIBatches"]}
{"id": "C70", "title": "Batch metrics add up and savings are real", "statement": "After any sequence of processed batches the metric totals equal the sums over the batches, the average is tasks per batch, cost without synchronisation is 0.03 per task, savings are non-negative for non-empty batches and the savings percentage is between 50 and 99.5.", "quantifier": "every batch history", "why_tests_cant": "Sums over unbounded histories.", "anchors": ["simulations/emerge/simulation/metrics.go", "simulations/emerge/simulation/batch_manager.go:processCollectedBatch"]}
{"id": "C71", "title": "Tasks are accounted for end to end", "statement": "Every generated task is pending, queued, processed, discarded by a reset or was dropped because the queue was full; none is processed twice; none is lost while the queue has room.", "quantifier": "every interleaving of task generation, batch sending and processing", "why_tests_cant": "Conservation over all schedules.", "anchors": ["simulations/emerge/simulation/agent.go:Workload.sendBatch", "simulations/emerge/simulation/batch_manager.go"]}
{"id": "C72", "title": "Pattern coherence modifiers are in the documented range", "statement": "The modifier for any goal, agent count and pattern is between 0.5 and 1.5. (False: sparse patterns in small swarms get 0.48.)", "quantifier": "every goal value, agent count and pattern value, over the reals and in doubles", "why_tests_cant": "Combination of two tables with a size adjustment.", "anchors": ["simulations/emerge/simulation/pattern/pattern.go:GetCoherenceModifier"]}
{"id": "C73", "title": "Building a client succeeds exactly for meaningful coherence", "statement": "Building a client for any goal and scale succeeds exactly when the requested coherence is a number not above 1 (non-positive means the scale's default); the client has the scale's number of agents.", "quantifier": "every goal, scale value and IEEE coherence", "why_tests_cant": "Composition of four validators for all inputs.", "anchors": ["client/emerge/custom.go:Build", "client/emerge/custom.go"]}
{"id": "C74", "title": "Result grading is monotone and consistent", "statement": "Quality and diagnosis grades are monotone in the coherence, cover every value, and success is reported exactly when the final coherence reaches the target.", "quantifier": "every coherence and target", "why_tests_cant": "Monotonicity over a continuum.", "anchors": ["internal/analysis/quality.go", "internal/analysis/diagnostics.go"]}
{"id": "C75", "title": "Small and large swarms configure agents alike", "statement": "For a configuration with all parameters positive and in range, the two agent constructors produce agents with the same energy, influence, stubbornness and strategy. (For zero-valued parameters or differing token budget they disagree.) In doubles the agents of a swarm agree in state, behaviour, strategy and budget.", "quantifier": "every agent configuration", "why_tests_cant": "Two independent implementations over a product of parameters.", "anchors": ["emerge/agent/agent.go:NewOptimizedFromConfig", "emerge/agent/builder.go:NewFromConfig"]}
{"id": "C76", "title": "Keyboard and run loop switch exactly what was selected", "statement": "Pressing a key while a simulation runs has exactly the documented effect: a goal, scale or pattern key that differs from the current setting stops the run and restarts it with exactly that one setting changed; the key of the current setting is ignored; reset and disrupt are ignored while paused; quit ends the program.", "quantifier": "for every key, every current configuration and every pause state, for every sequence of keys", "why_tests_cant": "the effect is spread over three state machines (key decoding, event filtering, configuration update) and has to hold for every combination and history", "anchors": ["simulations/display/controller.go:ProcessKey", "simulations/emerge/ui/runner.go:isChangeEvent", "simulations/emerge/ui/runner.go:handleEvents", "simulations/emerge/main.go"]}
{"id": "C77", "title": "At most one synchronisation runs per simulation", "statement": "For every sequence of start, pause, resume and stop calls at most one client run is active, and after a pause none is. (False: resuming without pausing starts a second run, and a later pause cancels only the newest one.) It holds for sequences in which resume only follows pause.", "quantifier": "for every sequence of lifecycle calls", "why_tests_cant": "an orphaned background run has no immediately visible effect and depends on the whole call history", "anchors": ["simulations/emerge/simulation/simulation.go:Simulation.Start", "simulations/emerge/simulation/simulation.go:Simulation.Pause", "simulations/emerge/simulation/simulation.go:Simulation.Resume"]}
{"id": "C78", "title": "The recommended request pattern is the most favourable one", "statement": "The best pattern listed for a goal has the greatest coherence modifier among all patterns for that goal, at every swarm size. (False for at least 1000 and for at most 50 agents, where size adjustments reverse the order.) A better qualifier never goes with a smaller modifier.", "quantifier": "for every goal, pattern and agent count, over the reals and in doubles", "why_tests_cant": "the modifier combines a table and size adjustments; the ranking must hold for all counts", "anchors": ["simulations/emerge/simulation/pattern/pattern.go"]}
{"id": "C79", "title": "The predicted convergence time is a sensible estimate", "statement": "The predicted time to convergence is zero when the monitor is converged or not rising, never negative, and for samples on a rising line it is the time at which the continued line reaches the threshold. (False in doubles: with a tiny positive rate the estimate exceeds the range of int64 and amd64 turns it into the most negative duration.) It is never negative in doubles either if the remaining coherence is at most 9·10^10 times the rate.", "quantifier": "for every threshold, sample history and rate", "why_tests_cant": "the bad case needs a rate far below ordinary sampling noise, and the good case is about every line and every window", "anchors": ["emerge/monitoring/convergence.go:ConvergenceMonitor.PredictConvergenceTime"]}
{"id": "C80", "title": "A perfectly synchronised swarm counts as synchronised", "statement": "Once every agent of a client built with its default coherence is at the target phase and frequency, the run reports success. (False: the distance to the target pattern also punishes coherence above the target, so perfect synchronisation does not count for reaching consensus at any scale but the smallest, for minimising API calls from the medium scale up, nor for maintaining a rhythm at the two largest scales.) At the smallest scale consensus counts only because of rounding: the two sides of the comparison are equal in exact arithmetic.", "quantifier": "for every goal, scale, requested coherence, swarm and iteration order, over the reals and in doubles (up to 2^26 agents, a library exact at zero)", "why_tests_cant": "which of the goal and scale combinations fail depends on thresholds spread over three tables, and perfect synchronisation is a limit state that sampled runs never hit", "anchors": ["emerge/swarm/goal_directed.go:GoalDirectedSync.isPatternAchieved", "client/emerge/custom.go:Builder.Build"]}
{"id": "C81", "title": "Detected gaps are filled", "statement": "Every gap that Detect finds in a temporal pattern is filled by Complete with phases that lead from one side of the jump to the other. (False: a detected gap lies between two neighbouring samples and has no interior, so Complete returns nothing to insert; and Detect panics when a jump lies beyond the recorded frequencies.)", "quantifier": "for every pattern, with phases and frequencies of any lengths; completion also in doubles for gaps of up to a million samples", "why_tests_cant": "a pattern of arbitrary length with jumps anywhere; the two functions are tested separately with hand-made gaps that Detect never produces", "anchors": ["emerge/monitoring/patterns.go:TargetPattern.Detect", "emerge/monitoring/patterns.go:TargetPattern.Complete"]}
{"id": "C82", "title": "Resetting the simulation returns", "statement": "Simulation.Reset always returns, whatever the workloads and the batch processor are doing. (False: BatchManager.Reset checks the queue's length and then receives from it; if the processor takes the last batch in between, Reset waits for ever while holding the locks that the workloads and the processor need.)", "quantifier": "every interleaving of the workloads, the batch processor and Reset", "why_tests_cant": "needs the processor to run between two adjacent instructions of Reset; a test would hang once in a great many runs", "anchors": ["simulations/emerge/simulation/batch_manager.go:BatchManager.Reset", "simulations/emerge/simulation/simulation.go:Simulation.Reset", "simulations/emerge/simulation/agent.go:Workload.monitorBatching", "simulations/emerge/simulation/agent.go:Workload.generateTasks"]}
{"id": "C83", "title": "A reset starts afresh", "statement": "After Simulation.Reset has returned no task created before it is processed or counted. (False: batches that the processor has already taken from the queue are processed afterwards and counted in the fresh metrics.)", "quantifier": "every interleaving of the workloads, the batch processor and Reset", "why_tests_cant": "depends on what the processor holds at the moment of the reset", "anchors": ["simulations/emerge/simulation/batch_manager.go:BatchManager.Reset", "simulations/emerge/simulation/simulation.go:Simulation.Reset", "simulations/emerge/simulation/agent.go:Workload.Reset"]}
{"id": "C84", "title": "Task IDs identify tasks", "statement": "If the workloads have different IDs, no two tasks ever processed have the same ID. (False after a reset: the counters start again at 0.)", "quantifier": "every interleaving and any number of workloads, tasks and resets", "why_tests_cant": "uniqueness over unbounded histories; rests on the injectivity of the ID format", "anchors": ["simulations/emerge/simulation/agent.go:Workload.createTask", "simulations/emerge/simulation/agent.go:Workload.Reset"]}
{"id": "C85", "title": "A signal ends the demo", "statement": "An interrupt or termination signal ends the demo program, whatever keys were pressed before. (False after a scale, goal or pattern was switched: the handler holds the cancel function of the first context only.)", "quantifier": "every sequence of keys before the signal", "why_tests_cant": "needs a real terminal, a switch of settings and then a signal", "anchors": ["simulations/emerge/main.go:main", "simulations/emerge/main.go:handleSignals"]}
{"id": "C86", "title": "The request pattern shown is the one that runs", "statement": "The pattern shown on screen, and compared with when a pattern key is pressed, is the pattern that the workloads generate tasks with. (False until a pattern is chosen: the automatic selection happens after the simulation was built.)", "quantifier": "every sequence of keys", "why_tests_cant": "the workloads' behaviour under Unset resembles a pattern and no test compares the two", "anchors": ["simulations/emerge/main.go:runSimulation", "simulations/emerge/simulation/builder.go:New"]}
{"id": "C87", "title": "Reset takes the swarm away from its goal", "statement": "After the demo's Reset the swarm misses the coherence its goal asks for, so that synchronisation can be watched again; only phases change. (False for RecoverFromFailure and AdaptToTraffic, whose target is met at once.)", "quantifier": "every goal and every number of agents; in doubles up to a million agents", "why_tests_cant": "coherence after reset is a geometric sum over any number of agents", "anchors": ["simulations/emerge/simulation/simulation.go:Reset"]}
{"id": "C88", "title": "A disruption disturbs, and is reported until it is over", "statement": "Disrupt turns exactly the first fifth of the agents by half a turn, lowers the coherence of a synchronised swarm to 1 − 2⌊n/5⌋/n, and the disruption flag stays up until the swarm meets its goal again. (The flag is false for the goals that want little coherence, and is taken down at the first look for half of the goals.)", "quantifier": "every swarm size, every set of phases, every goal and scale; the turn and its effect also in doubles", "why_tests_cant": "the flag depends on goal, scale and number of agents together", "anchors": ["simulations/emerge/simulation/simulation.go:Disrupt", "simulations/emerge/simulation/simulation.go:Snapshot"]}
{"id": "C89", "title": "Request patterns keep their promises", "statement": "A high-frequency workload makes more than 10 tasks per second (at least 20), a sparse one less than one per second (at most a half), a steady one exactly two; bursts last between half a second and two seconds with 3 to 7 tasks per tick and end with a quiet tick; paused workloads do nothing.", "quantifier": "every sequence of ticks and random draws", "why_tests_cant": "random draws; a test sees a few of them", "anchors": ["simulations/emerge/simulation/agent.go:generateTasks", "simulations/emerge/simulation/agent.go:shouldGenerateTask", "simulations/emerge/simulation/agent.go:getTaskBatchSize"]}
{"id": "C90", "title": "Random draws are in range and fair", "statement": "secureRandFloat32 is in [0, 1) and falls below 0.2, 0.3 and 0.7 for that share of the words; secureRandIntn(n) is in [0, n) and uniform up to one word. (The float can be exactly 1: the conversion of the 128 largest words rounds up to 2^32.)", "quantifier": "all 2^32 and 2^64 words, every bound", "why_tests_cant": "the exception is drawn once in 33 million calls", "anchors": ["simulations/emerge/simulation/agent.go:secureRandFloat32", "simulations/emerge/simulation/agent.go:secureRandIntn"]}
{"id": "C91", "title": "A paused demo shows one moment", "statement": "While paused the demo shows the coherence and phases of one moment, unchanged until Resume, with the coherence that belongs to the phases. (False: Pause reads the coherence and the phases one after the other while the swarm still moves.) After any sequence of pauses and resumptions the live values are shown unless the last of them was a pause.", "quantifier": "every sequence of swarm states; the measured coherence also in doubles", "why_tests_cant": "needs a swarm step between two reads", "anchors": ["simulations/emerge/simulation/simulation.go:Pause"]}
{"id": "C92", "title": "The demo's client is the one it asks for", "statement": "The client built by the demo for a goal and scale succeeds, is of the asked size, and aims at the target looked up for goal and scale, both through the shorthand constructors and the builder.", "quantifier": "every goal and scale, every random start, real and floating point", "why_tests_cant": "the target passes through builder, configuration and two defaults", "anchors": ["simulations/emerge/simulation/builder.go:createEmergeClient"]}
{"id": "C93", "title": "A busy workload is not shown as quiet", "statement": "A workload that has just made tasks and still has some pending is not shown as quiet; a bursty one is shown in a burst exactly when its last tick made tasks. (False for Mixed: the time of the last request is never recorded, so it is always shown as quiet.)", "quantifier": "every pattern, every history of ticks and draws", "why_tests_cant": "the screen is not tested", "anchors": ["simulations/emerge/simulation/agent.go:Snapshot", "simulations/emerge/simulation/agent.go:generateTasks"]}
{"id": "C94", "title": "Completed gaps lead towards the target", "statement": "A frequency (coherence boost) is filled in exactly when the pattern has that gap. Without a template it lies between current and target frequency, at most halfway; with one it moves towards the template's by the relative error. The reported adjustment leads from the base to the filled frequency. AddTemplate replaces what was stored under the name and nothing else.", "quantifier": "every pair of patterns, every set of templates, every sequence of additions", "why_tests_cant": "frequencies are unbounded integers and rounding is to nanoseconds", "anchors": ["emerge/completion/engine.go:CompletePattern", "emerge/completion/engine.go:AddTemplate"]}
{"id": "C95", "title": "The convergence monitor's rate and its call for another strategy", "statement": "Every recorded sample carries the speed of the distance since the sample before; the rate is the mean of the non-zero speeds of the last window; a switch is asked for exactly when the window holds three samples of which more than 70 % do not approach by a thousandth per second. So a steadily approaching swarm is never told to switch, and one that does not approach is told as soon as three samples are there. In doubles exactly 70 % can count as more than 70 %, as in a window of 90; unless seven tenths of the window are a whole number, and with ties to even in the default window of ten, the rule is exact.", "quantifier": "every window size and every sequence of records and resets; the switch also in doubles", "why_tests_cant": "arbitrary histories longer than window and cap", "anchors": ["emerge/convergence/monitor.go:RecordSample", "emerge/convergence/monitor.go:GetConvergenceRate", "emerge/convergence/monitor.go:ShouldSwitchStrategy"]}
{"id": "C96", "title": "A switch selects the best strategy on record", "statement": "switchStrategy selects the first strategy with the highest score, whose record counts the switches away from it as attempts and the reported successes; successes never exceed attempts. (False: a success is not an attempt. RecordSuccess is never called by the library.)", "quantifier": "every sequence of switches and reports, all clocks and random words", "why_tests_cant": "depends on history, clock and randomness", "anchors": ["emerge/swarm/goal_directed.go:switchStrategy", "emerge/swarm/goal_directed.go:RecordSuccess"]}
{"id": "C97", "title": "The selected strategy matters", "statement": "There is a run whose swarm depends on which strategy is selected. (False: the selected strategy is never used; runs with different selections end alike, agent by agent.)", "quantifier": "every swarm, every pair of selections, every sequence of events, every number type", "why_tests_cant": "a statement about all runs", "anchors": ["emerge/swarm/goal_directed.go:AchieveSynchronization", "emerge/swarm/goal_directed.go:switchStrategy"]}
{"id": "C98", "title": "A pull brings an agent closer to the target phase", "statement": "In a coherent but spread swarm every agent beyond the threshold is pulled towards the target phase: its forward distance shrinks by a factor between 1 − 0.945·scale and 1 − 0.855·scale, so that repeated pulls bring it within the threshold or below any distance; the distance on the circle shrinks. (The last is false: the pull always goes forward, an agent half a radian ahead of the target ends 0.85 radians behind it.)", "quantifier": "every agent, target, scale and random word, any number of pulls; in doubles for thresholds of at least 0.001 and scales in [0.1, 1]", "why_tests_cant": "randomised step on a circle", "anchors": ["emerge/swarm/goal_directed.go:applyPatternCompletion"]}
{"id": "C99", "title": "A matched pattern is identified as something it matches", "statement": "Matches accepts exactly the patterns similar to the template within its tolerance or to one of its variations; a template matches its own pattern; and a pattern matched by some template of the library is identified as a template that matches it. (The last is false: Identify takes the template whose base is most similar and looks at neither variations nor tolerances.)", "quantifier": "every pattern, template and library; own patterns also in doubles", "why_tests_cant": "libraries and patterns are unbounded", "anchors": ["emerge/monitoring/patterns.go:Matches", "emerge/monitoring/patterns.go:Identify"]}
{"id": "C100", "title": "The load panel reports the spread of the agents", "statement": "An evenly spread swarm is shown as BALANCED and one at a single phase as not. (False: regions are counted from -π while phases start at 0, so two of the four regions are always empty; a swarm of 9 or more agents is always IMBALANCED, one of 4 or fewer always BALANCED.)", "quantifier": "every swarm size and all phases on the circle", "why_tests_cant": "all sizes and all real phases", "anchors": ["simulations/display/display.go:displayLoadDistribution", "simulations/display/display.go:calculateLoadVariance"]}
{"id": "C101", "title": "Progress gauges", "statement": "Percentages lie between 0 and 100, and the progress gauge is green exactly when the swarm has reached its target coherence. (The second is false for most goals; proved is what the gauge is green for, goal by goal.)", "quantifier": "every goal and every snapshot, over the reals and in doubles", "why_tests_cant": "real-valued snapshots, any number of agents", "anchors": ["simulations/display/display.go:updateGoalSpecificGauges"]}
{"id": "C102", "title": "Gauge and metrics panel agree", "statement": "The gauge is never green while the metrics panel of the same snapshot is red. (False for several goals; proved exactly where they agree.) In doubles gauge and panel also differ at one coherence that exact arithmetic does not distinguish: the double just below 0.8.", "quantifier": "every goal and every snapshot, over the reals and in doubles", "why_tests_cant": "thresholds differ only in narrow bands", "anchors": ["simulations/display/display.go:updateGoalSpecificGauges", "simulations/display/display.go:updateMetricsDisplay"]}
{"id": "C103", "title": "A coherent swarm is shown to be in consensus", "statement": "If nearly all agents share a phase, CONSENSUS is announced, and only then. (Only one half holds: announced consensus implies a coherence above 0.87; agents next to each other on both sides of a slot border are shown split.)", "quantifier": "every swarm, over the reals and in doubles (up to 2^40 agents)", "why_tests_cant": "border cases between slots", "anchors": ["simulations/display/display.go:displayConsensusProgress"]}
{"id": "C104", "title": "Panels of single agents depend on the distance from phase 0", "statement": "What schedule, latency, health, dot and indicator show of an agent depends on its distance from phase 0, not on the side. (False: an agent 0.05 before phase 0 is late, slowest, failed and red, one 0.05 after it on time, fast, healthy and green. Proved: what each shows exactly, that the histogram counts each agent once and never panics, that FULLY RESILIENT implies a coherence of 0.875, and which indicators are right.) In doubles an agent whose phase is NaN is healthy, late and red, and the double just below 6 is shown one latency bin too high.", "quantifier": "all phases on the circle, all goals, every swarm, over the reals and in doubles", "why_tests_cant": "real phases, wrap-around", "anchors": ["simulations/display/display.go:displayScheduleAlignment", "simulations/display/display.go:displayLatencyHistogram", "simulations/display/display.go:displaySystemHealth", "simulations/display/display.go:updateAgentsDisplay", "simulations/display/display.go:getAgentCharacter"]}
{"id": "C105", "title": "The coherence chart", "statement": "The chart holds the last fifty unpaused measurements in order; a point is green exactly when its value or the one before reaches the target, red exactly when its value or the one before is below; each value is drawn.", "quantifier": "every sequence of measurements and pauses, every target, in every number type", "why_tests_cant": "unbounded histories", "anchors": ["simulations/display/display.go:updateCoherenceChart"]}
{"id": "C106", "title": "Agents near the mean phase are green", "statement": "The mean field is the coherence and the direction of the sum of unit vectors; in a coherent swarm an agent is green exactly when it is near the mean phase. (The second is false: an agent more than a turn ahead of the mean phase as computed is green however far away it is, and in a fully synchronised swarm nobody is green.)", "quantifier": "every swarm and every agent; scattered swarms also in doubles", "why_tests_cant": "real phases, wrap-around", "anchors": ["simulations/display/display.go:calculateMeanField", "simulations/display/display.go:getAgentColor"]}
{"id": "C107", "title": "Every agent appears in the picture of the swarm", "statement": "The first twenty agents are drawn, within the grid. (Within the grid always; but above a coherence of 0.92 agents may fall on the centre and are then left out; up to 0.92 all are drawn.)", "quantifier": "every coherence, agent and phase; the bounds also in doubles", "why_tests_cant": "real positions truncated to cells", "anchors": ["simulations/display/display.go:updateSwarmVisualization"]}
{"id": "C108", "title": "An adjustment treats all agents alike", "statement": "One adjustment adjusts every agent exactly once from its own state and no other agent; in a settled swarm all nudged agents are treated alike. (The second is false: the scale is divided by five again for every third agent, so the k-th nudge is 5^k times weaker.)", "quantifier": "every swarm, configuration, random sequence", "why_tests_cant": "the number of agents is unbounded", "anchors": ["emerge/swarm/goal_directed.go:applyPatternCompletion"]}
{"id": "C109", "title": "A nudge brings an agent closer to the target phase", "statement": "With the default configuration a nudge from beyond the threshold brings the agent closer to the target on the circle and never overshoots. (False: the difference is always taken forwards, so an agent just ahead of the target is sent round the circle; proved is that the forward distance shrinks by at least six percent and that there is no overshoot.)", "quantifier": "every agent, coherence, swarm of seven or more, random sequence; the contraction also in doubles", "why_tests_cant": "random factors and all real phases", "anchors": ["emerge/swarm/goal_directed.go:applyPatternCompletion"]}
{"id": "C110", "title": "Scattering a swarm that is too coherent", "statement": "When a low coherence target is exceeded each agent is moved once, by at most 0.15π; the coherence changes by at most 2·sin(0.075π); from full synchrony at least three iterations are needed to come below one half; and the coherence does not rise. (The last is false: agents can be moved onto each other.)", "quantifier": "every swarm and random sequence; step and change also in doubles", "why_tests_cant": "all real phases and every sequence of random numbers", "anchors": ["emerge/swarm/goal_directed.go:applyPatternCompletion"]}
{"id": "C111", "title": "Repeated adjustments synchronise a swarm", "statement": "With the default configuration, at least seven agents, no phase gap and a target coherence of at least 0.4, the coherence exceeds 0.8 at least once within 38 adjustments, whatever the initial phases, the visiting order and the random numbers; until then every agent's way forward to the target shrinks by at least six percent each time, down to 0.06 radians.", "quantifier": "every swarm of seven or more, all initial phases, visiting orders and random sequences, over the reals and in doubles", "why_tests_cant": "real phases, unbounded swarm sizes and random factors", "anchors": ["emerge/swarm/goal_directed.go:applyPatternCompletion"]}
{"id": "C112", "title": "Agents built from the configuration presets are as documented", "statement": "An agent built from the default configuration does not depend on random numbers and has the documented values; a randomised one has random phase, local goal and frequency only; a test agent is predictable. (The last is false: the local goal 0 of the test configuration counts as unset and is replaced by a random one.) In doubles the default agent has exactly these values too, but for its local goal, which is within 10⁻¹⁴ of π.", "quantifier": "every id and random sequence; every complete configuration", "why_tests_cant": "all random sequences", "anchors": ["emerge/agent/builder.go:NewFromConfig", "internal/config/agent.go:DefaultAgent", "internal/config/agent.go:RandomizedAgent", "internal/config/agent.go:TestAgent"]}
{"id": "C113", "title": "Sampled sine waves", "statement": "GenerateSineWave returns the requested number of samples of one turn of the sine, within [-1, 1], starting at 0 and summing to 0; the default templates carry this wave.", "quantifier": "every number of points", "why_tests_cant": "any number of points", "anchors": ["emerge/core/pattern.go:GenerateSineWave"]}
{"id": "C114", "title": "Recommended sizes and neighbours", "statement": "A goal is recommended for exactly the sizes it is said to work well with, these form an interval, a medium swarm suits every goal; recommended neighbours are fewer than the agents, and the two update interval tables agree. A tiny swarm is fully connected, as the comment says. (The last is false: 9 neighbours for 20 agents.)", "quantifier": "every goal, size and scale value", "why_tests_cant": "all integers as sizes", "anchors": ["emerge/goal/config.go:Type.IsRecommendedForSize", "emerge/scale/scale.go:Size.MaxNeighbors", "emerge/scale/scale.go:Size.UpdateInterval"]}
{"id": "C115", "title": "Statistics of the convergence monitor", "statement": "After any sequence of recordings and resets the statistics describe the samples since the last reset: number, last value, mean, standard deviation; mean and last value lie between the extremes; convergence is reported exactly if the last sample reaches the target, with its time; predictions are made only while the trend is upwards and the target not reached. Rate, stability and prediction are those of the samples since the last reset.", "quantifier": "every sequence of calls and every sample value", "why_tests_cant": "unbounded histories", "anchors": ["emerge/monitoring/convergence.go:ConvergenceMonitor.Statistics"]}
{"id": "C116", "title": "Wave bars of the terminal display", "statement": "The bar of an agent has between 0 and 8 rows, and row k is filled exactly if the sine of the phase is at least k/4 - 1. Bars of equal height mean close phases. (The last is false: opposite agents at phases 0 and π have the same bar.) In doubles a phase that is not finite has a bar of platform-dependent height.", "quantifier": "every phase, over the reals and in doubles", "why_tests_cant": "all real phases", "anchors": ["simulations/display/display.go:displayBatchingWaves"]}
{"id": "C117", "title": "Tuning for a trait and for a size", "statement": "Tuning a configuration for a trait raises and lowers the parameters that belong to the trait, by at most a factor of two, and leaves all others alone; larger swarms are updated no more often and get no fewer iterations; the presets' extremes are where their names say. Stability lowers all randomness, precision never lowers the demanded convergence, larger swarms get larger tolerances. (The last three are false.) In doubles tuning still raises and lowers these parameters strictly, by at most a factor of two.", "quantifier": "every configuration with room for tuning, every trait number, goal number and size", "why_tests_cant": "all real parameters and all integers as sizes, traits and goals", "anchors": ["emerge/swarm/config.go:Config.TuneFor", "emerge/swarm/config.go:Config.WithSize", "emerge/swarm/config.go:For"]}
{"id": "C118", "title": "What the strategies cost", "statement": "Phase nudging and frequency locking cost in proportion to the phase they move; the energy-aware strategy moves a tenth of the way for a fixed price and arrives within 33 proposals. It needs no more energy to arrive than phase nudging. (The last is false: it always needs more than phase nudging needs for its whole way.)", "quantifier": "every target away from the special angles, every starting phase, rate and number of proposals; prices and gains also in doubles", "why_tests_cant": "real phases and rates, walks of any length", "anchors": ["emerge/strategy/energy_aware.go:EnergyAware.Propose", "emerge/strategy/phase_nudge.go:PhaseNudge.Propose", "emerge/strategy/frequency_lock.go:FrequencyLock.Propose", "emerge/strategy/pulse.go:Pulse.Propose"]}
{"id": "C119", "title": "Topologies of the test utilities", "statement": "FullyConnectedTopology, RingTopology and StarTopology file exactly the complete graph, the ring and the star in the maps of the agents, whatever the order in which the map of agents is visited; fewer than two agents are refused where documented. Afterwards every agent is connected to its neighbours. (The last is false: no agent notices any of these connections, although it counts them.)", "quantifier": "any number of agents with different IDs, all visiting orders", "why_tests_cant": "graphs of any size, all iteration orders of Go maps", "anchors": ["internal/testutil/emerge/testutil.go:FullyConnectedTopology", "internal/testutil/emerge/testutil.go:RingTopology", "internal/testutil/emerge/testutil.go:StarTopology", "emerge/agent/agent.go:Agent.Neighbors"]}
{"id": "C120", "title": "When a workload sends its tasks", "statement": "A workload sends exactly if it has pending tasks and its agent's phase is within 0.1 radians of zero on the circle; in a fully synchronised swarm all workloads with pending tasks decide alike. In a synchronised swarm a workload with pending tasks sends them. (The last is false.)", "quantifier": "every phase in [0, 2π), every number of tasks, every list of phases; the decision also in doubles", "why_tests_cant": "all real phases, swarms of any size", "anchors": ["simulations/emerge/simulation/agent.go:Workload.shouldBatch"]}
{"id": "C121", "title": "Names of scales and lines of the text display", "statement": "ParseScale accepts exactly the names that scale.Size.String prints and inverts it; the title tells the number of agents created; the text display prints the first update, never two lines within a second, and drops an update only if a line is less than a second old.", "quantifier": "every string, every scale, every sequence of update times", "why_tests_cant": "all strings and all sequences of times", "anchors": ["simulations/emerge/config.go:ParseScale", "simulations/emerge/config.go:Config.DisplayName", "simulations/display/text_display.go:TextDisplay.Update"]}
{"id": "C122", "title": "Test doubles against the real parts", "statement": "The doubles for blending, proposing, energy and decisions agree with the real goal manager, the shortest way and the token manager exactly inside a half circle, with enough energy, and below the maximum; outside they differ. They always agree. (The last is false.)", "quantifier": "every state, weight in [0, 1], token manager and amount; energy also in doubles", "why_tests_cant": "real phases, weights and amounts", "anchors": ["internal/testutil/emerge/testutil.go:MockGoalManager.Blend", "internal/testutil/emerge/testutil.go:MockSyncStrategy.Propose", "internal/testutil/emerge/testutil.go:MockResourceManager.Request", "internal/testutil/emerge/testutil.go:MockDecisionMaker.Decide"]}
{"id": "C123", "title": "Agents stay on the arc they share", "statement": "The goal an agent takes from its neighbours lies on every arc shorter than half a turn that holds the agent and its neighbours. A group of agents whose phases and goals lie on such an arc never leaves it by looking around and acting, and nothing panics. (The last is false for arcs longer than a quarter turn, and proved for arcs up to 1.57 radians.)", "quantifier": "every network of agents, built-in strategy, arc, and history of calls with any times and random numbers", "why_tests_cant": "networks and histories of any length over real phases", "anchors": ["emerge/agent/agent.go:Agent.UpdateContext", "emerge/agent/agent.go:Agent.ProposeAdjustment", "emerge/agent/agent.go:Agent.ApplyAction", "emerge/core/phase.go:PhaseDifference"]}
{"id": "C124", "title": "Agents that are not at their goal can move", "statement": "An agent with a nudging strategy that has looked around, is not fully stubborn and has the energy can move towards its goal. (False: it can exactly if it is within reach, about 0.43 radians for the default rate; otherwise it stays where it is, whatever the random numbers, and so do networks of such agents, for ever.)", "quantifier": "every agent, rate, distance; every network out of reach and every history of calls; agents, networks and pairs also in doubles", "why_tests_cant": "all real distances, unbounded histories and networks", "anchors": ["emerge/agent/agent.go:Agent.UpdateContext", "emerge/agent/agent.go:Agent.ProposeAdjustment", "emerge/decision/simple.go:SimpleDecisionMaker.Decide", "emerge/strategy/phase_nudge.go:PhaseNudge.Propose"]}
{"id": "C125", "title": "Small steps", "statement": "An agent that has looked around moves at most 0.15 radians in one step, whatever its strategy and parameters; with the energy-aware strategy it does not move at all.", "quantifier": "every agent, built-in strategy (also adaptive), parameters, neighbours, times and random numbers; in doubles up to 1e-9 for libraries accurate to 1/50", "why_tests_cant": "all real parameters and phases", "anchors": ["emerge/agent/agent.go:Agent.UpdateContext", "emerge/agent/agent.go:Agent.ProposeAdjustment", "emerge/decision/simple.go:SimpleDecisionMaker.Decide", "emerge/strategy/energy_aware.go:EnergyAware.Propose"]}
{"id": "C126", "title": "Kinds of workload", "statement": "Every goal has eight kinds of workload with three types of task each. They are dealt out evenly to the agents, a workload takes its three types in turn, and its tasks are labelled without repetition. The list of agents tells the kinds apart. (The last is false for load distribution, where two load balancers and two cache servers look the same.)", "quantifier": "every goal, also unknown ones; every number of agents; every stretch of the tasks of a workload", "why_tests_cant": "unbounded numbers of agents and tasks, all goals", "anchors": ["simulations/emerge/simulation/agent.go:Workload.createTask", "simulations/emerge/simulation/agent.go:getWorkloadsForGoal", "simulations/emerge/simulation/builder.go:Simulation.initialize"]}
{"id": "C127", "title": "The summary and the batch pulse", "statement": "The summary is that of the API batches recorded since the last reset, BATCH SENT is shown for half a second after each, and the peak coherence is at least the final coherence. (The last is false: the peak is always 0, because nothing calls UpdateCoherence.)", "quantifier": "every history of batches and resets, interleaved in any way, every swarm; the peak also in floating point", "why_tests_cant": "histories of any length and interleaving", "anchors": ["simulations/emerge/simulation/simulation.go:Simulation.Statistics", "simulations/emerge/simulation/simulation.go:Simulation.Snapshot", "simulations/emerge/simulation/metrics.go:MetricsCollector.RecordBatch", "simulations/emerge/simulation/metrics.go:MetricsCollector.UpdateCoherence", "simulations/emerge/simulation/batch_manager.go:BatchManager.processCollectedBatch"]}
{"id": "C128", "title": "Tasks being collected", "statement": "The number of tasks shown as being collected is the number of tasks waiting, and Waiting for tasks... is shown exactly when there are none. (False: the number is that of queued batches, and tasks with the consumer are not counted.)", "quantifier": "every set of workloads and every interleaving of workloads, consumer and clock", "why_tests_cant": "unbounded histories and interleavings", "anchors": ["simulations/emerge/simulation/simulation.go:Simulation.Snapshot", "simulations/emerge/simulation/batch_manager.go:BatchManager.collectSynchronizedBatches", "simulations/display/display.go:TerminalDisplay.updateMetricsForBatching"]}
{"id": "C129", "title": "The menu and the assessment agree", "statement": "The key shown for an entry of the menu selects it; the entries shown in bold, ticked and assessed as good are the same ones, namely those that do not lower the coherence, respectively are recommended; reasons given fit the assessment. (The last is false for mixed requests in fault recovery.)", "quantifier": "every goal, pattern, scale and number of agents, also unknown ones, over the reals and in doubles", "why_tests_cant": "all numbers of agents, every combination of goal, pattern and scale", "anchors": ["simulations/display/display.go:TerminalDisplay.updateInstructionsWidget", "simulations/display/display.go:TerminalDisplay.updateConfigurationDisplay", "simulations/display/display.go:getPatternReason", "simulations/emerge/simulation/pattern/pattern.go:GetQualifier", "emerge/goal/config.go:Type.IsRecommendedForSize"]}
{"id": "C130", "title": "The markers Disrupted and Resetting", "statement": "After a reset the marker Resetting is shown for two seconds, and after a disruption the marker Disrupted is shown until the swarm has recovered or thirty seconds have passed. (False as soon as there are two resets or two disruptions: the goroutine of the earlier one clears the marker of the later one; a measurement taken before a disruption clears its marker at once.)", "quantifier": "every history of resets, disruptions, measurements and clock, interleaved in any way", "why_tests_cant": "histories of any length, every interleaving of the goroutines", "anchors": ["simulations/emerge/simulation/simulation.go:Simulation.Reset", "simulations/emerge/simulation/simulation.go:Simulation.Disrupt"]}
{"id": "C131", "title": "Every key counts", "statement": "Every recognised key takes effect, in the order of pressing. At most ten events wait, none is reordered. (The first is false: the eleventh waiting key is dropped, and a key pressed before the next run has begun is lost with the controller of the old one.)", "quantifier": "every history of keys and moves of the goroutines, every start of the program", "why_tests_cant": "histories of any length, every interleaving of keyboard and handler", "anchors": ["simulations/display/controller.go:KeyboardController.ProcessKey", "simulations/emerge/ui/runner.go:Runner.handleEvents", "simulations/emerge/main.go:runSimulation"]}
{"id": "C132", "title": "The time limit of the demo", "statement": "A configured time limit bounds how long the program runs. (False: it is a limit of one run, and every switch of scale, goal or pattern begins a new one.)", "quantifier": "every time limit, every duration, every start of the program", "why_tests_cant": "runs of unbounded length", "anchors": ["simulations/emerge/ui/runner.go:Runner.Run", "simulations/emerge/main.go:main"]}
{"id": "C133", "title": "The accuracy of the measured coherence", "statement": "If the library's sine and cosine are within ε, the coherence computed in doubles differs from the exact order parameter of the same phases by at most 3/2·ε + (3/4·n + 8)·2^-53. So it never exceeds one by more than that, another order of the agents changes it by at most twice that, and a comparison with a threshold is right unless the exact value is that close to the threshold.", "quantifier": "every list of fewer than 2^53 finite phases, every rounding to nearest, every library within ε", "why_tests_cant": "all lists of doubles of any length; a test would need exact real arithmetic as oracle", "anchors": ["emerge/core/phase.go:MeasureCoherence"]}
{"id": "C134", "title": "Wrapping keeps the angle", "statement": "Wrapping a finite double gives a double in [0, 2π) that is the same angle up to (2·|x| + 22)·2^-53. So the wrapped phase of a small number is accurate, while the error grows with the size of the number.", "quantifier": "every finite double, every rounding to nearest", "why_tests_cant": "all doubles; the exact angle is irrational", "anchors": ["emerge/core/phase.go:WrapPhase"]}
{"id": "C135", "title": "The accuracy of the phase difference", "statement": "For phases of at most 14 in size, outside the two hard-wired pairs, the difference computed in doubles is at most π in size and is the angle from one phase to the other up to 6ε + 29·2^-53.", "quantifier": "every pair of doubles of that size, every rounding, every library within ε", "why_tests_cant": "all pairs of doubles; the exact angle is irrational", "anchors": ["emerge/core/phase.go:PhaseDifference"]}
{"id": "C136", "title": "Nudging converges in doubles", "statement": "With a rate r in (0, 1], repeated nudges computed in doubles bring every phase to within (1-r)^n·e + (12ε + 145·2^-53)/r of the target after n nudges, where e is the distance at the start. So rounding neither stops the convergence nor makes it drift.", "quantifier": "every rate, every target away from the hard-wired ones, every start, every number of nudges, every rounding, every library within ε", "why_tests_cant": "unboundedly many steps in doubles", "anchors": ["emerge/strategy/phase_nudge.go:Propose", "emerge/agent/agent.go:ApplyAction"]}
{"id": "C137", "title": "A nudged swarm measures as coherent", "statement": "After n nudges of every agent towards one target, the coherence measured in doubles is at least 1 - δ²/2 - error, with δ = 28·(1-r)^n + (12ε + 145·2^-53)/r and the error of C133.", "quantifier": "every swarm of fewer than 2^53 agents, every number of nudges, every rounding, every library within ε", "why_tests_cant": "swarms of any size, unboundedly many steps in doubles", "anchors": ["emerge/strategy/phase_nudge.go:Propose", "emerge/core/phase.go:MeasureCoherence"]}
{"id": "C138", "title": "The scripted controller delivers its script", "statement": "However the goroutine, the receiver and time interleave, the events received are the script in order, none lost and none twice; none comes before the delays up to it have passed, and with a waiting receiver each comes exactly then; the rest of the script can always still be delivered. But the goroutine cannot be stopped: if the receiver leaves while more than ten events are outstanding, it never ends.", "quantifier": "every script, every list of delays, every interleaving", "why_tests_cant": "every interleaving of goroutine, receiver and clock", "anchors": ["simulations/display/controller.go:NewAutomatedController", "simulations/display/controller.go:AutomatedController.run"]}
{"id": "C139", "title": "Energy bounds how far an agent moves", "statement": "Over every history, whatever agents do and whatever is done to their phases from outside, the movements an agent makes on its own, added up, are at most its energy divided by the price of its strategy (2 per radian for nudges, 3 for frequency locks, 4 for pulses, at least 3/2 otherwise). Energy never grows and never becomes negative; an agent without energy never moves again. In doubles the same bound holds up to 10⁻¹¹ units per act.", "quantifier": "every network of agents, every history of looking around, acting and setting phases, every random number; in doubles every history of an agent with at most 1000 units of energy", "why_tests_cant": "histories of any length in networks of any size", "anchors": ["emerge/agent/agent.go:ApplyAction", "emerge/agent/agent.go:ProposeAdjustment", "emerge/strategy/phase_nudge.go:Propose"]}
{"id": "C140", "title": "The bars of the panels are in proportion", "statement": "The bars for healthy, degraded and failed agents, the latency histogram and the bars of twenty cells have the largest whole number of cells in proportion to the number of agents; the three health bars together have 18 to 20 cells. The bars of the load panel fit into twenty cells. The longest bar of the schedule has fifteen cells. The capacity bar has a red cell exactly when the advice is to scale up. (The last three do not hold: a load bar can have 79 cells; in doubles the longest schedule bar can have 14, for instance for eleven agents; with 83 % in use the advice is to scale up and no cell is red.)", "quantifier": "every number of agents, every distribution of phases and activities, every rounding to nearest", "why_tests_cant": "all counts; rounding fails for scattered numbers only", "anchors": ["simulations/display/display.go:displaySystemHealth", "simulations/display/display.go:displayLoadDistribution", "simulations/display/display.go:displayLatencyHistogram", "simulations/display/display.go:displayScheduleAlignment", "simulations/display/display.go:displayTrafficLoad", "simulations/display/display.go:displayConsensusProgress", "simulations/display/display.go:displayEnergyPattern"]}
{"id": "C141", "title": "The colour of the savings says whether batching pays", "statement": "The savings in the cost panel are green only if tasks are sent together, that is, if the average batch has more than one task. (This does not hold: they are red before the first batch and green after any batch, even if every agent sends alone; they are never yellow.)", "quantifier": "every sequence of batches, coherence readings and resets, over the reals and (batches of at most 100 tasks, ties to even) in doubles", "why_tests_cant": "all sequences of events", "anchors": ["simulations/display/display.go:updateCostDisplay", "simulations/emerge/simulation/metrics.go"]}
{"id": "C142", "title": "The durations shown are right", "statement": "Durations below one minute are shown in seconds, others in minutes. The value shown is off by at most half of its last digit, and a longer duration never shows as a shorter one, also across the change of unit. The text display shows complete minutes, and less than sixty seconds. (The last part does not hold: from 59.5 s on it shows 60 s, and from one minute and a half on it shows two minutes.)", "quantifier": "every duration, every way of rounding ties", "why_tests_cant": "infinitely many durations", "anchors": ["simulations/display/display.go:formatDuration", "simulations/display/text_display.go:formatTime"]}
{"id": "C143", "title": "The text of the validation errors loses nothing", "statement": "The text of a list of validation errors contains the text of every error in the order of the list, each with its field, value and message. It says that there are no errors exactly if there are none.", "quantifier": "every list of errors with any texts", "why_tests_cant": "lists of any length with any texts", "anchors": ["internal/config/validation.go:Error"]}
{"id": "C144", "title": "The insights agree with the status line", "statement": "In the panels for AdaptToTraffic with the default target of a scale, the key insights and the status line do not contradict each other, one green and the other red. (This holds exactly for targets from 0.6 to 8/9, so for the scales small, medium and large; it fails for tiny and huge.)", "quantifier": "every coherence, every state of the agents, every target, over the reals and in doubles", "why_tests_cant": "real-valued thresholds, all agents", "anchors": ["simulations/display/display.go:displayTrafficLoad", "simulations/display/display.go:updateMetricsForTraffic", "emerge/scale/scale.go:DefaultTargetCoherence"]}
{"id": "C145", "title": "What an agent sees and wants in doubles is accurate", "statement": "The coherence an agent computes in floating point from its neighbours' phases is their order parameter up to an error that grows with the number of neighbours times 2^-53. If all neighbours are within δ ≤ 1/4 of an angle, the local goal the agent computes is within δ + δ² of it, up to such an error.", "quantifier": "every number of neighbours (up to 2^40 for the goal), all double phases, every rounding to nearest and every library with a given accuracy", "why_tests_cant": "rounding errors over unboundedly many neighbours", "anchors": ["emerge/agent/agent.go:UpdateContext"]}
{"id": "C146", "title": "The gauges show whole per cents in doubles", "statement": "A gauge that shows the coherence shows k for the double nearest to k per cent, and a gauge that shows a share of the agents shows it rounded down. (This does not hold: a coherence of 0.29 and 29 idle agents of 100 show as 28. The value shown is never more than one off; it is exact for shares that are not whole per cents, never below the exact value of the double rounded down, and more coherence never shows as less.)", "quantifier": "every double coherence in [0, 1], every number of agents up to 2^40, every rounding to nearest", "why_tests_cant": "rounding of all doubles", "anchors": ["simulations/display/display.go:updateGoalSpecificGauges"]}
{"id": "C147", "title": "The wave bars, the latency histogram and the picture of the swarm in doubles", "statement": "In floating point a wave bar has 0 to 8 rows and row k is filled exactly when the library's sine reaches k/4 - 1, up to 2^-52. The latency histogram never indexes outside its bins and counts each agent once. In the picture of the swarm every agent is inside the grid and, up to a coherence of 0.92, drawn.", "quantifier": "all double phases (up to 7 in absolute value for the histogram), all numbers of agents, every rounding to nearest, every library with an accuracy of 1/10000 for the picture", "why_tests_cant": "rounding of all doubles at the borders of rows, bins and cells", "anchors": ["simulations/display/display.go:displayBatchingWaves", "simulations/display/display.go:displayLatencyHistogram", "simulations/display/display.go:updateSwarmVisualization"]}
{"id": "C148", "title": "Energy accounting in doubles", "statement": "In floating point the energy of an agent stays finite and non-negative and never grows, whatever actions of non-negative cost it applies, and the costs it pays never add up to more than the energy it had. (The last part does not hold: an agent with an energy of 100 pays nothing for adjustments that cost less than 2^-47, however many it makes. The costs exceed the energy by at most one rounding per successful action.) An energy or a cost that is not a number is never too low or too high: from then on every action succeeds.", "quantifier": "every agent, every sequence of actions, every rounding to nearest", "why_tests_cant": "unbounded histories and rounding of all doubles", "anchors": ["emerge/agent/agent.go:ApplyAction"]}
{"id": "C149", "title": "The numbers of the metrics panel", "statement": "The panel of metrics shows the coherence rounded to a whole percentage beside a status of the right colour and text, derived numbers (load per server, voting rounds, latencies, battery hours, timing drift) that follow their formulas, stay in range and are monotone in what they measure, and the time a recovery took. (Two parts do not hold: 0.897 is shown as 90 % beside the text for less than 90 %, and the recovery time is the time since the last batch, 292 years if there was none.) The spread of the load panel falls from 100 to 0 % when the coherence rises, and the shares of idle and of busy agents count every agent once; their statuses follow from the numbers shown.", "quantifier": "all coherences, targets, numbers of agents and times; voting rounds and empty workloads also in doubles", "why_tests_cant": "all real values and the borders between them", "anchors": ["simulations/display/display.go:updateMetricsDisplay"]}
{"id": "C150", "title": "Configured strategies do what they are configured to do", "statement": "An agent built with the adaptive strategy uses each of its strategies in some situation, the threshold of the energy-aware strategy matters, and a phase nudge never proposes to go beyond the goal. (None of them holds: the stability an agent perceives is 0 or 0.5 and never above 0.7, so the first strategy is never asked; two populations that differ in thresholds only behave alike for ever; and a configured rate is taken as it is, so that proposals overshoot exactly if it is beyond 1.)", "quantifier": "every configuration, every history of operations on every population, in doubles; every rate at the reals", "why_tests_cant": "unbounded histories of all operations", "anchors": ["emerge/agent/builder.go:createStrategy", "emerge/strategy/adaptive.go:defaultSelector", "emerge/strategy/energy_aware.go:Propose", "emerge/agent/agent.go:UpdateContext"]}
{"id": "C151", "title": "What reaches the screen", "statement": "A snapshot carries every workload once and in order with its numbers and phase, a total that is the sum of the parts, the costs of the batches recorded since the last reset, and a coherence that is that of the phases shown; the display counts every workload in exactly one state; and while the simulation is paused the display stands still. (The last part does not hold: phases and coherence stand still, the elapsed time and the numbers of tasks and batches go on.)", "quantifier": "all workloads, swarms, metrics histories and batch queues of any size; the coherence also in doubles", "why_tests_cant": "all states that concurrent parts of the simulation may be in", "anchors": ["simulations/emerge/simulation/simulation.go:Snapshot", "simulations/emerge/simulation/agent.go:Snapshot", "simulations/emerge/ui/runner.go:convertSnapshot"]}
{"id": "C152", "title": "Helpers of internal/sim", "statement": "Clamp01 gives the point of [0, 1] next to its argument; Min and Max give the smaller and the larger, whatever the order of the arguments. (In doubles the order matters exactly if one argument is NaN: the second is returned.)", "quantifier": "all reals; all doubles with NaN and the infinities", "why_tests_cant": "all doubles", "anchors": ["internal/sim/mathx.go:Clamp01", "internal/sim/mathx.go:Min", "internal/sim/mathx.go:Max"]}
{"id": "C153", "title": "The gauge is green in the state that the explanation asks for", "statement": "The description panel explains every goal: four goals ask for agents in anti-phase or taking turns, four for agents together. The gauge of a goal is green in the state that the explanation calls good and not in the one that it calls bad. (False for three goals: for the recovery from failures it is the other way round, and for saving energy and for traffic the gauge does not look at phases. Proved for the other five.) For every goal the worst case names a harm and the best case none, and the explanation of each goal speaks of its own topic and of that of no other.", "quantifier": "every goal, every swarm of any size in which all agents are together or half of them opposite to the others", "why_tests_cant": "swarms of any size with any phases", "anchors": ["simulations/display/display.go:getBestWorstDescriptions", "simulations/display/display.go:updateGoalSpecificGauges"]}
{"id": "C154", "title": "The configuration panel tells runs apart", "statement": "Whatever keys are pressed, the configuration panel names the goal, the scale with its number of agents, and the pattern of the current run, and two runs have the same panel exactly if they agree in all three.", "quantifier": "every start and every sequence of keys", "why_tests_cant": "unboundedly many sequences of keys", "anchors": ["simulations/display/display.go:updateConfigurationDisplay", "simulations/emerge/main.go:runSimulation", "simulations/emerge/config.go:DisplayName"]}
{"id": "C155", "title": "The closing summary praises only runs that saved something", "statement": "At the end of a run both displays report the same figures, and they say that the agents successfully learned to batch calls exactly if some batch of the run had at least two calls, which is when the savings are above one half. (False: both always say so, even after a run without any batch or with batches of one call, for which savings of 50 % are reported. Proved: the figures agree except for the time to converge, savings are at least one half, and above it exactly if some batch had two calls, which is exactly if the average is above one.)", "quantifier": "every sequence of recorded batches and resets, every number of agents", "why_tests_cant": "unboundedly many sequences of batches", "anchors": ["simulations/display/display.go:ShowSummary", "simulations/display/text_display.go:ShowSummary", "simulations/emerge/simulation/simulation.go:Statistics"]}
{"id": "C156", "title": "The swarm panel is that of the running goal", "statement": "Whatever keys are pressed, the swarm panel has the title of the goal of the current run, and two runs have the same title exactly if they have the same goal.", "quantifier": "every start and every sequence of keys", "why_tests_cant": "unboundedly many sequences of keys", "anchors": ["simulations/display/display.go:updateSwarmDisplay"]}
{"id": "C157", "title": "Misspelt part names are reported", "statement": "Building an agent from a configuration succeeds exactly if the names of decision maker, goal manager, resource manager and strategy are known, otherwise the error is that of the first unknown one, and the strategy of the agent bears the configured name; this holds for the constructor of large swarms too. (False for the constructor of large swarms: it rejects nothing, and every strategy other than frequency locking and energy awareness, among them pulse, adaptive and misspelt ones, becomes phase nudging. Proved for the usual constructor.)", "quantifier": "every configuration of an agent, all random draws", "why_tests_cant": "every string as a name", "anchors": ["emerge/agent/agent.go:NewFromConfig", "emerge/agent/agent.go:NewOptimizedFromConfig", "emerge/strategy/phase_nudge.go:Name"]}
{"id": "C158", "title": "Agents are born in range and stay valid", "statement": "Every agent of a swarm that has been built with options whose numbers are usable has its phase and local goal in [0, 2π), energy not negative, influence and stubbornness in [0, 1] and a positive frequency; there are as many as asked for; all of this stays so however long the swarm is synchronised, while the agents propose, act, look around, connect and are set to finite values in any order; and synchronising changes nothing but phases and frequencies. A stubbornness that is not a number is accepted, and every agent gets it. Every agent knows the size of its swarm and how many neighbours to count on: those prescribed, otherwise all others, or 20 where there are more than a hundred agents.", "quantifier": "every size, goal, list of options, random draws, orders of visits and sequences of ticks, in IEEE doubles with any accuracy of the elementary functions", "why_tests_cant": "unboundedly many agents, ticks and orders; all doubles", "anchors": ["emerge/swarm/swarm.go:New", "emerge/swarm/swarm.go:NewSwarmFromConfig", "emerge/agent/agent.go:NewFromConfig", "emerge/agent/agent.go:NewOptimizedFromConfig"]}
{"id": "C159", "title": "The metrics panel shows how many tasks are being collected", "statement": "In every reachable state of the batching system the figure behind 'Collecting: N tasks' is the number of tasks that have left their agents and are not yet in an API batch. (False: it is the number of agent batches in the queue, so two tasks sent at once are shown as one, and tasks that the consumer has already taken are not shown. Proved: it is at most the number of tasks and at most 100, it is positive exactly if tasks are in the queue, and it is right exactly if every queued batch has one task and the consumer holds none. The batch manager's own estimate is zero exactly if no task is queued, but may be ten for two tasks.)", "quantifier": "every set of agents, every execution (interleaving of agents, consumer and resets) of any length", "why_tests_cant": "unboundedly many interleavings and tasks", "anchors": ["simulations/emerge/simulation/simulation.go:Snapshot", "simulations/emerge/simulation/batch_manager.go:CurrentBatchSize", "simulations/display/display.go:updateMetricsDisplay"]}
