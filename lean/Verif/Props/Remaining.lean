import Verif.Props.Basin
import Verif.Props.Batching
import Verif.Props.Client
import Verif.Props.TaskGen
import Verif.Props.DemoClient
import Verif.Props.MonitorRate
import Verif.Props.Monitoring
import Verif.Props.Gauges
import Verif.Props.Pull

/-!
# C112, C115 and additions to C67, C70, C73, C89, C91, C95
-/

set_option autoImplicit false
set_option linter.unusedSectionVars false

namespace Verif
open GoMath Spec

local notation "π" => Real.pi

/-- **C67** A state is in the basin exactly if its phase is within the radius of the target's on the circle; outside there is no force. -/
theorem C67_inside (b : Basin ℝ) (s : State ℝ) (d : ℝ) (hd : IsCircDist s.phase b.target.phase d) :
    (b.contains s = true ↔ d ≤ b.radius) ∧ (b.contains s = false → b.force s = 0) := by
  have e := circDist_unique hd (C67_distance b s).1
  have h1 : b.contains s = true ↔ d ≤ b.radius := by unfold Basin.contains; rw [decide_eq_true_iff, e]
  refine ⟨h1, fun h => ?_⟩
  unfold Basin.force
  rw [if_pos]
  rw [← e]
  by_contra hc
  rw [h1.2 (not_lt.1 hc)] at h
  cases h

section
variable {α : Type} [Zero α] [One α] [Add α] [Sub α] [Mul α] [Div α] [Neg α] [LT α] [LE α]
  [DecidableLT α] [DecidableLE α] [BEq α] [OfScientific α] [GoMath α]

/-- **C70** The snapshot reports one API call per task and the number of batches recorded since the last reset. -/
theorem C70_totals (start : ℤ) (ops : List (Spec.MetricsOp α)) :
    let s := (ops.foldl Spec.MetricsOp.apply (Metrics.new start)).current
    s.totalAPICalls = ((Spec.sizes ops).sum : ℕ) ∧ s.totalBatches = (Spec.sizes ops).length := by
  obtain ⟨h1, -, h3, -⟩ := C70_counts start ops
  exact ⟨h3, h1⟩

/-- **C73** The shorthands: the default client batches API calls in a tiny swarm of twenty agents, as documented; the other two take the scale given. All three
are clients that could be made with options as well. -/
theorem C73_shorthands (s : Size) (env : SwarmEnv α) (now : ℤ) (order : SyncMap ℕ → SyncMap ℕ) (hp : ∀ m, (order m).Perm m) :
    (∀ c, clientDefault env now = .ok c → (∃ addr, HasExactly c.sync.swarm order 20 addr) ∧ c.config = (configFor 0).withSize 20 ∧
      newWithOptions [.goal 0, .scale 0] env now = .ok c) ∧
    (∀ c, clientMinimizeAPICalls s env now = .ok c → ∃ n : ℕ, Agents s n ∧ (∃ addr, HasExactly c.sync.swarm order n addr) ∧
      c.config = (configFor 0).withSize n ∧ newWithOptions [.scale s, .goal 0] env now = .ok c) ∧
    (∀ c, clientDistributeLoad s env now = .ok c → ∃ n : ℕ, Agents s n ∧ (∃ addr, HasExactly c.sync.swarm order n addr) ∧
      c.config = (configFor 1).withSize n ∧ newWithOptions [.scale s, .goal 1] env now = .ok c) := by
  refine ⟨fun c e => ?_, fun c e => ?_, fun c e => ?_⟩
  · obtain ⟨n, h1, h2, h3, -⟩ := C73_client _ env now c e order hp
    have hn : (n : ℤ) = 20 := h1.1 rfl
    have hn' : n = 20 := by omega
    subst hn'
    exact ⟨h2, h3, e⟩
  · obtain ⟨n, h1, h2, h3, -⟩ := C73_client _ env now c e order hp
    exact ⟨n, h1, h2, h3, e⟩
  · obtain ⟨n, h1, h2, h3, -⟩ := C73_client _ env now c e order hp
    exact ⟨n, h1, h2, h3, e⟩

/-- **C89** After a reset a generator behaves like a new one of its pattern for ever, whatever happened before. -/
theorem C89_reset (g : GenState) (before after : List GenTick) :
    ((g.run before).2.reset).run after = (GenState.new g.pattern).run after := by
  rw [← run_pattern before g]
  rfl

/-- Pausing with the two readings of the swarm, or resuming. -/
inductive Spec.PauseOp (α : Type) where
  | pause (first second : List (Agent α))
  | resume

/-- The state after an operation. -/
def Spec.PauseOp.apply (p : PauseState α) : PauseOp α → PauseState α
  | .pause f s => p.pause f s
  | .resume => p.resume

/-- **C91** After any sequence of pauses and resumptions the live values are shown, unless the last operation was a pause; then the coherence is that of the first
reading of this pause, whatever was read by earlier ones. -/
theorem C91_sequence (ops : List (PauseOp α)) (agents : List (Agent α)) (id : String) (x : α) :
    let p := ops.foldl PauseOp.apply (PauseState.init : PauseState α)
    ((∀ f s, ops.getLast? ≠ some (.pause f s)) → p.shownCoherence agents = agentsCoherence agents ∧ p.shownPhase id x = x) ∧
    ∀ f s, ops.getLast? = some (.pause f s) → p.shownCoherence agents = agentsCoherence f := by
  rcases List.eq_nil_or_concat ops with rfl | ⟨l, o, rfl⟩
  · exact ⟨fun _ => ⟨rfl, rfl⟩, fun f s h => by cases h⟩
  · rw [List.concat_eq_append, List.foldl_concat, List.getLast?_concat]
    cases o with
    | pause f s => exact ⟨fun h => absurd rfl (h f s), fun f' s' h => by cases h; rfl⟩
    | resume => exact ⟨fun _ => ⟨rfl, rfl⟩, fun f s h => by cases h⟩

end

/-- **C95** What a recorded sample contains: the time, the coherence and the distance given, and the rate at which the velocity changed since the last sample; no
acceleration before the third sample or if the clock did not advance. -/
theorem C95_sample (m : ConvMonitor ℝ) (now : ℤ) (c : Option (TargetPattern ℝ)) (coh : ℝ) :
    let s := m.sample now c coh
    s.timestamp = now ∧ s.coherence = coh ∧ s.distance = patternDistance c m.target ∧
    (m.history.length < 2 → s.acceleration = 0) ∧
    ∀ last, m.history.getLast? = some last →
      (now ≤ last.timestamp → s.acceleration = 0) ∧
      (last.timestamp < now → 2 ≤ m.history.length → s.acceleration * seconds last s = s.velocity - last.velocity) := by
  unfold ConvMonitor.sample
  dsimp only
  cases hl : m.history.getLast? with
  | none => exact ⟨rfl, rfl, rfl, fun _ => rfl, fun last h => by cases h⟩
  | some last =>
    simp only [durationSeconds_real]
    by_cases hp : last.timestamp < now
    · have hs : (0 : ℝ) < ((now - last.timestamp : ℤ) : ℝ) / 1000000000 := by
        have : (0 : ℝ) < ((now - last.timestamp : ℤ) : ℝ) := by exact_mod_cast sub_pos.2 hp
        positivity
      rw [if_pos hs]
      refine ⟨rfl, rfl, rfl, fun h => if_neg (by omega), ?_⟩
      intro l h
      cases h
      refine ⟨fun h' => absurd hp (not_lt.2 h'), fun _ h2 => ?_⟩
      show (if m.history.length > 1 then _ else _) * _ = _
      rw [if_pos (by omega)]
      exact div_mul_cancel₀ _ hs.ne'
    · have hs : ¬ (0 : ℝ) < ((now - last.timestamp : ℤ) : ℝ) / 1000000000 := by
        have : ((now - last.timestamp : ℤ) : ℝ) ≤ 0 := by exact_mod_cast sub_nonpos.2 (not_lt.1 hp)
        rw [not_lt]
        exact div_nonpos_of_nonpos_of_nonneg this (by norm_num)
      rw [if_neg hs]
      refine ⟨rfl, rfl, rfl, fun _ => rfl, ?_⟩
      intro l h
      cases h
      exact ⟨fun _ => rfl, fun h' => absurd h' hp⟩

/-! ### C112: predefined agent configurations -/

namespace Spec

/-- What one sees of an agent, except for its local goal. -/
structure Shows (a : Agent ℝ) (id : String) (phase energy influence stubbornness rate tokens : ℝ) (frequency : ℤ) : Prop where
  id : a.id = id
  phase : a.state.phase = phase
  energy : a.state.energy = energy
  frequency : a.state.frequency = frequency
  influence : a.behavior.influence = influence
  stubbornness : a.behavior.stubbornness = stubbornness
  strategy : a.strategy = .basic (.phaseNudge rate)
  tokens : ∃ t, a.resources = some t ∧ t.available = tokens
  neighbors : a.neighbors = []

end Spec

namespace Spec

/-- A configuration of a weighted token agent with phase nudges whose parameters are all given and in range. -/
structure FullySet (cfg : AgentConfig ℝ) : Prop where
  decision : cfg.decisionMakerType = "simple"
  goals : cfg.goalManagerType = "weighted"
  resources : cfg.resourceManagerType = "token"
  strategy : cfg.strategyType = "phase_nudge"
  tokens : 0 < cfg.maxTokens
  rate : cfg.strategyRate ≠ 0
  frequency : cfg.frequency ≠ 0
  energy : 0 < cfg.initialEnergy
  influence : 0 < cfg.influence ∧ cfg.influence ≤ 1
  stubbornness : 0 < cfg.stubbornness ∧ cfg.stubbornness ≤ 1
  size : cfg.swarmSize = 0

end Spec

theorem clampUnit_real {x : ℝ} (h0 : 0 ≤ x) (h1 : x ≤ 1) : clampUnit x = x := by
  unfold clampUnit
  rw [if_neg (not_lt.2 h0), if_neg (not_lt.2 h1)]

/-- **C112** What an agent built from a complete configuration looks like: phase and frequency are as configured unless they are to be random; so is the local goal,
but a local goal of 0 is also replaced by a random one. -/
theorem C112_built (id : String) (cfg : AgentConfig ℝ) (d : Draws) (h : FullySet cfg) :
    ∃ a, newFromConfig id cfg d = .ok a ∧
      Shows a id (if cfg.randomizePhase then randPhase d.phase else wrapPhase cfg.phase) cfg.initialEnergy cfg.influence cfg.stubbornness cfg.strategyRate
        cfg.maxTokens (if cfg.randomizeFrequency then 100000000 + 1000000 * rtrunc (50 * randFloat64 d.freq) else cfg.frequency) ∧
      ((cfg.randomizeLocalGoal = true ∨ cfg.localGoal = 0) → SameAngle a.state.localGoal (randPhase d.goal)) ∧
      (cfg.randomizeLocalGoal = false → cfg.localGoal ≠ 0 → a.state.localGoal = wrapPhase cfg.localGoal) := by
  have hr : createResourceManager cfg = some (TokenManager.new cfg.maxTokens) := by
    unfold createResourceManager
    rw [if_pos (.inr h.resources)]
    simp [h.tokens.ne']
  have hs : createStrategy cfg d.now = some (.basic (.phaseNudge cfg.strategyRate)) := by
    unfold createStrategy
    rw [if_pos (.inr h.strategy)]
    simp [h.rate]
  have hb : newFromConfig id cfg d = .ok (Agent.new id d.phase0 d.goal0 d.freq0
      ([.resourceManager (TokenManager.new cfg.maxTokens), .strategy (.basic (.phaseNudge cfg.strategyRate))] ++ configOptions cfg d)) := by
    unfold newFromConfig
    rw [if_neg (by simp [h.decision]), if_neg (by simp [h.goals]), hr, hs]
  refine ⟨_, hb, ?_⟩
  have hf : 100 * millisecond + randomMillis (α := ℝ) d.freq = 100000000 + 1000000 * rtrunc (50 * randFloat64 d.freq) := by
    unfold randomMillis millisecond
    rw [GoMath.toInt_real, show (randFloat64 d.freq * 50.0 : ℝ) = 50 * randFloat64 d.freq by norm_num; ring]
    ring
  have hfe : fmax 0 cfg.initialEnergy = cfg.initialEnergy := by rw [GoMath.fmax_real]; exact max_eq_right h.energy.le
  have w0 : wrapPhase (0 : ℝ) = wrapPhase 0 := rfl
  have hi := clampUnit_real h.influence.1.le h.influence.2
  have ht := clampUnit_real h.stubbornness.1.le h.stubbornness.2
  have htok : (TokenManager.new cfg.maxTokens).available = cfg.maxTokens := by
    unfold TokenManager.available TokenManager.new
    simp [not_lt.2 h.tokens.le]
  have hph : (if cfg.phase != 0 then AgentOption.phase cfg.phase else AgentOption.phase 0) = AgentOption.phase cfg.phase := by
    by_cases hz : cfg.phase = 0
    · simp [hz]
    · simp [hz]
  refine ⟨?_, ?_, ?_⟩
  · unfold configOptions
    rw [hph]
    cases cfg.randomizePhase <;> cases cfg.randomizeFrequency <;> cases cfg.randomizeLocalGoal <;> by_cases hz : cfg.localGoal = 0 <;>
      simp [Agent.new, Agent.applyOption, Agent.initial, Agent.setPhase, Agent.setFrequency, Agent.setEnergy, Agent.setLocalGoal, Agent.setInfluence,
        Agent.setStubbornness, h.size, hz, h.frequency, h.energy.ne', h.influence.1.ne', h.stubbornness.1.ne', hi, ht, hfe, hf] <;>
      constructor <;> first | rfl | exact ⟨_, rfl, htok⟩
  · intro hg
    have hq : SameAngle (wrapPhase (randPhase d.goal : ℝ)) (randPhase d.goal) := wrapPhase_sameAngle _
    have hq' : SameAngle (randPhase d.goal : ℝ) (randPhase d.goal) := ⟨0, by simp⟩
    unfold configOptions
    rw [hph]
    cases hrg : cfg.randomizeLocalGoal
    · rw [hrg] at hg
      have hz : cfg.localGoal = 0 := by simpa using hg
      cases cfg.randomizePhase <;> cases cfg.randomizeFrequency <;>
        simp [Agent.new, Agent.applyOption, Agent.initial, Agent.setPhase, Agent.setFrequency, Agent.setEnergy, Agent.setLocalGoal, Agent.setInfluence,
          Agent.setStubbornness, h.size, hz, h.frequency, hq]
    · cases cfg.randomizePhase <;> cases cfg.randomizeFrequency <;>
        simp [Agent.new, Agent.applyOption, Agent.initial, Agent.setPhase, Agent.setFrequency, Agent.setEnergy, Agent.setInfluence,
          Agent.setStubbornness, h.size, h.frequency, hq']
  · intro hg hz
    unfold configOptions
    rw [hph, hg]
    cases cfg.randomizePhase <;> cases cfg.randomizeFrequency <;>
      simp [Agent.new, Agent.applyOption, Agent.initial, Agent.setPhase, Agent.setFrequency, Agent.setEnergy, Agent.setLocalGoal, Agent.setInfluence,
        Agent.setStubbornness, h.size, hz, h.frequency]

theorem default_complete : FullySet (defaultAgentConfig : AgentConfig ℝ) ∧ FullySet (randomizedAgentConfig : AgentConfig ℝ) ∧ FullySet (testAgentConfig : AgentConfig ℝ) := by
  refine ⟨?_, ?_, ?_⟩ <;> constructor <;>
    simp only [defaultAgentConfig, randomizedAgentConfig, testAgentConfig, millisecond] <;> first | rfl | (constructor <;> norm_num) | norm_num

theorem wrapPhase_zero_eq : wrapPhase (0 : ℝ) = 0 := wrapPhase_of_mem le_rfl (by positivity)

/-- **C112** An agent of the default configuration is the same whatever random numbers are drawn, and as documented. -/
theorem C112_default (id : String) (d : Draws) :
    ∃ a, newFromConfig id (defaultAgentConfig : AgentConfig ℝ) d = .ok a ∧ Shows a id 0 100 0.5 0.2 0.3 100 100000000 ∧ a.state.localGoal = π := by
  have hp := Real.pi_pos
  obtain ⟨a, h1, h2, -, h4⟩ := C112_built id defaultAgentConfig d default_complete.1
  refine ⟨a, h1, ?_, ?_⟩
  · simp only [defaultAgentConfig, wrapPhase_zero_eq, Bool.false_eq_true, if_false, millisecond] at h2
    norm_num at h2 ⊢
    exact h2
  · rw [h4 rfl (by simp [defaultAgentConfig, hp.ne'])]
    simp only [defaultAgentConfig, GoMath.piMul_real]
    rw [wrapPhase_of_mem] <;> norm_num <;> linarith

/-- **C112** A randomised agent differs in phase, local goal and frequency only: they are the random ones, on the circle and from 100 up to 149 milliseconds. -/
theorem C112_randomised (id : String) (d : Draws) :
    ∃ a phase freq, newFromConfig id (randomizedAgentConfig : AgentConfig ℝ) d = .ok a ∧ Shows a id phase 100 0.5 0.2 0.3 100 freq ∧
      phase = 2 * π * randFloat64 d.phase ∧ SameAngle a.state.localGoal (2 * π * randFloat64 d.goal) ∧ ∃ k : ℤ, freq = 1000000 * k ∧ 100 ≤ k ∧ k ≤ 149 := by
  obtain ⟨a, h1, h2, h3, -⟩ := C112_built id randomizedAgentConfig d default_complete.2.1
  have e : ∀ w : ℕ, (randPhase w : ℝ) = 2 * π * randFloat64 w := by
    intro w
    unfold randPhase
    rw [GoMath.piMul_real]
    norm_num
    ring
  refine ⟨a, randPhase d.phase, 100000000 + 1000000 * rtrunc (50 * randFloat64 d.freq), h1, ?_, e _, ?_, ?_⟩
  · simp only [randomizedAgentConfig, defaultAgentConfig, if_true] at h2
    norm_num at h2 ⊢
    exact h2
  · rw [← e]; exact h3 (.inl rfl)
  · obtain ⟨r0, r1⟩ := randFloat64_real_mem d.freq
    have hf := rtrunc_floor (50 * randFloat64 d.freq) (by linarith)
    refine ⟨100 + rtrunc (50 * randFloat64 d.freq), by ring, ?_, ?_⟩
    · rw [hf]
      have : 0 ≤ ⌊50 * (randFloat64 d.freq : ℝ)⌋ := Int.floor_nonneg.2 (by linarith)
      omega
    · rw [hf]
      have : ⌊50 * (randFloat64 d.freq : ℝ)⌋ < 50 := Int.floor_lt.2 (by push_cast; linarith)
      omega

/-- "All randomization is disabled and values are predictable" (internal/config/agent.go:78-79): test agents do not depend on random numbers. -/
def C112_claim : Prop := ∀ (id : String) (d d' : Draws) (a a' : Agent ℝ), newFromConfig id testAgentConfig d = .ok a → newFromConfig id testAgentConfig d' = .ok a' →
  a.state = a'.state

/-- **C112** (partial) Everything about a test agent but its local goal is predictable; the local goal is random. -/
theorem C112_test_partial (id : String) (d : Draws) :
    ∃ a, newFromConfig id (testAgentConfig : AgentConfig ℝ) d = .ok a ∧ Shows a id 0 100 0.8 0.01 0.5 100 50000000 ∧
      SameAngle a.state.localGoal (2 * π * randFloat64 d.goal) := by
  obtain ⟨a, h1, h2, h3, -⟩ := C112_built id testAgentConfig d default_complete.2.2
  refine ⟨a, h1, ?_, ?_⟩
  · simp only [testAgentConfig, wrapPhase_zero_eq, Bool.false_eq_true, if_false, millisecond] at h2
    norm_num at h2 ⊢
    exact h2
  · have e : (randPhase d.goal : ℝ) = 2 * π * randFloat64 d.goal := by
      unfold randPhase
      rw [GoMath.piMul_real]
      norm_num
      ring
    rw [← e]; exact h3 (.inr rfl)

/-- **C112** False: a configured local goal of 0 counts as not configured. -/
theorem C112_refuted : ¬ C112_claim := by
  intro hc
  have hp := Real.pi_pos
  let d0 : Draws := ⟨0, 0, 0, 0, 0, 0, 0⟩
  let d1 : Draws := ⟨0, 0, 0, 0, 2 ^ 52, 0, 0⟩
  obtain ⟨a, h1, -, k, hk⟩ := C112_test_partial "a" d0
  obtain ⟨b, h2, -, l, hl⟩ := C112_test_partial "a" d1
  have h := hc "a" d0 d1 a b h1 h2
  have r0 : (randFloat64 d0.goal : ℝ) = 0 := by simp [d0, randFloat64]
  have r1 : (randFloat64 d1.goal : ℝ) = 1 / 2 := by simp only [d1, randFloat64, GoMath.ofInt_real]; norm_num
  rw [h, r0] at hk
  rw [r1, hk] at hl
  have h3 : π * (2 * k - 2 * l - 1) = 0 := by linarith
  rcases mul_eq_zero.1 h3 with h3 | h3
  · exact hp.ne' h3
  · have : (2 * k - 2 * l - 1 : ℤ) = 0 := by exact_mod_cast h3
    omega

/-! ### C115: statistics of the convergence monitor -/

/-- **C115** The statistics describe the samples since the last reset: their number, last value, mean and standard deviation; the mean and the last value lie between
the reported extremes; convergence is reported together with its time, and exactly if the last sample reaches the target; a prediction is only made while the target
is not reached and the trend is upwards. -/
theorem C115_statistics (threshold : ℝ) (created : ℤ) (ops : List (TrackerOp ℝ)) :
    let s := (ops.foldl Tracker.apply (Tracker.new threshold created)).statistics
    let xs := (Spec.since ops).map Prod.fst
    s.samples = xs.length ∧ s.targetCoherence = threshold ∧
    (xs = [] → s.mean = none ∧ s.stdDev = none ∧ s.currentCoherence = 0 ∧ s.converged = false) ∧
    (∀ ys x, xs = ys ++ [x] → s.currentCoherence = x ∧ (s.converged = true ↔ threshold ≤ x) ∧ s.min ≤ x ∧ x ≤ s.max ∧
      ∃ μ σ, s.mean = some μ ∧ s.stdDev = some σ ∧ μ * xs.length = xs.sum ∧ 0 ≤ σ ∧ σ ^ 2 * xs.length = (xs.map fun y => (y - μ) ^ 2).sum ∧
        s.min ≤ μ ∧ μ ≤ s.max) ∧
    s.convergenceTime.isSome = s.converged ∧
    (∀ t, s.convergenceTime = some t → ∃ t', Spec.ReachedAt threshold (Spec.since ops) t' ∧ t = t' - Spec.started created ops) ∧
    (∀ t, s.predicted = some t → 0 < t ∧ s.converged = false ∧ 0 < s.convergenceRate ∧ s.currentCoherence < threshold) := by
  have ht := C60_tracks threshold created ops
  have hrep := C60_reports threshold created ops
  have hlast := C60_last threshold created ops
  have hext := C60_extremes threshold created ops
  dsimp only at hrep hext ⊢
  generalize ops.foldl Tracker.apply (Tracker.new threshold created) = m at *
  have hh := ht.history_eq
  generalize hx : (Spec.since ops).map Prod.fst = xs at *
  have hmem : ∀ x ∈ xs, m.minCoherence ≤ x ∧ x ≤ m.maxCoherence := by
    intro x hx'
    rw [← hx] at hx'
    obtain ⟨p, hp, rfl⟩ := List.mem_map.1 hx'
    exact ⟨hext.2.2 (.inr ⟨p.2, hp⟩), hext.1.2 (.inr ⟨p.2, hp⟩)⟩
  refine ⟨by simp [Tracker.statistics, hh], ht.threshold_eq, ?_, ?_, ?_, ?_, ?_⟩
  · rintro rfl
    have hs : Spec.since ops = [] := by simpa using hx
    refine ⟨by simp [Tracker.statistics, hh], by simp [Tracker.statistics, hh], hrep.2.2.2.1 hs, ?_⟩
    show m.convergedTime.isSome = false
    rw [Bool.eq_false_iff]
    intro h
    obtain ⟨l, x, t, h', -⟩ := hlast.1 h
    rw [hs] at h'
    simp at h'
  · intro ys x hxs
    have hs : ∃ l t, Spec.since ops = l ++ [(x, t)] := by
      rcases List.eq_nil_or_concat (Spec.since ops) with h | ⟨l, ⟨y, t⟩, h⟩
      · rw [h] at hx; rw [← hx] at hxs; simp at hxs
      · rw [List.concat_eq_append] at h
        rw [h, List.map_append, hxs] at hx
        have := List.append_inj' hx rfl
        simp only [List.map_cons, List.map_nil, List.cons.injEq, and_true] at this
        exact ⟨l, t, by rw [h, this.2]⟩
    obtain ⟨l, t, hs⟩ := hs
    have hne : 0 < m.history.length := by rw [hh, hxs]; simp
    have hxm : x ∈ xs := by rw [hxs]; simp
    have hlen : (0 : ℝ) < xs.length := by rw [hxs]; simp; positivity
    refine ⟨hrep.2.2.2.2 l x t hs, ?_, (hmem x hxm).1, (hmem x hxm).2, ?_⟩
    · show m.isConverged = true ↔ _
      rw [hlast]
      constructor
      · rintro ⟨l', x', t', h', hle⟩
        rw [hs] at h'
        have := List.append_inj' h' rfl
        simp only [List.cons.injEq, Prod.mk.injEq, and_true] at this
        rw [this.2.1]; exact hle
      · exact fun h => ⟨l, x, t, hs, h⟩
    · have e1 : sliceMean m.history = xs.sum / xs.length := by
        unfold sliceMean
        rw [hh, GoMath.ofInt_real, Int.cast_natCast, List.sum_eq_foldl]
      have e2 : sliceVariance m.history = (xs.map fun y => (y - xs.sum / xs.length) ^ 2).sum / xs.length := by rw [sliceVariance_eq, hh]
      have hv : (0 : ℝ) ≤ (xs.map fun y => (y - xs.sum / xs.length) ^ 2).sum / xs.length := by
        refine div_nonneg (List.sum_nonneg ?_) hlen.le
        intro y hy
        obtain ⟨z, -, rfl⟩ := List.mem_map.1 hy
        exact sq_nonneg _
      refine ⟨xs.sum / xs.length, Real.sqrt ((xs.map fun y => (y - xs.sum / xs.length) ^ 2).sum / xs.length), ?_, ?_, div_mul_cancel₀ _ hlen.ne', Real.sqrt_nonneg _, ?_,
        ?_, ?_⟩
      · show (if 0 < m.history.length then some (sliceMean m.history) else none) = _
        rw [if_pos hne, e1]
      · show (if 0 < m.history.length then some (GoMath.sqrt (sliceVariance m.history)) else none) = _
        rw [if_pos hne, e2, GoMath.sqrt_real]
      · rw [Real.sq_sqrt hv, div_mul_cancel₀ _ hlen.ne']
      · rw [le_div_iff₀ hlen, mul_comm]
        have : ∀ l : List ℝ, (∀ y ∈ l, m.minCoherence ≤ y) → (l.length : ℝ) * m.minCoherence ≤ l.sum := by
          intro l
          induction l with
          | nil => simp
          | cons a l ih =>
            intro h
            rw [List.sum_cons, List.length_cons]; push_cast
            have h1 := h a (by simp)
            have h2 := ih fun y hy => h y (by simp [hy])
            linarith
        exact this xs fun y hy => (hmem y hy).1
      · rw [div_le_iff₀ hlen, mul_comm]
        have : ∀ l : List ℝ, (∀ y ∈ l, y ≤ m.maxCoherence) → l.sum ≤ (l.length : ℝ) * m.maxCoherence := by
          intro l
          induction l with
          | nil => simp
          | cons a l ih =>
            intro h
            rw [List.sum_cons, List.length_cons]; push_cast
            have h1 := h a (by simp)
            have h2 := ih fun y hy => h y (by simp [hy])
            linarith
        exact this xs fun y hy => (hmem y hy).2
  · simp [Tracker.statistics]
  · intro t h
    have h' : m.convergedTime.map (· - m.startTime) = some t := h
    rw [Option.map_eq_some_iff] at h'
    obtain ⟨t', h1, h2⟩ := h'
    exact ⟨t', ht.reachedAt t' h1, by rw [← h2, ht.start_eq]⟩
  · intro t h
    have h' : (if m.predictConvergenceTime > 0 then some m.predictConvergenceTime else none) = some t := h
    split_ifs at h' with hpos
    cases h'
    obtain ⟨-, h2, -⟩ := C79_predict m
    have hn : ¬ (m.isConverged = true ∨ m.convergenceRate ≤ 0 ∨ m.convergenceAt ≤ m.currentCoherence) := fun hc => by
      rw [h2 hc] at hpos; exact absurd hpos (lt_irrefl _)
    rw [not_or, not_or, not_le, not_le, ht.threshold_eq] at hn
    exact ⟨hpos, by simpa [Tracker.statistics, Tracker.isConverged] using hn.1, hn.2.1, hn.2.2⟩

/-- Three samples, the last above the target. -/
example : let s := ([.record 0.2 1, .record 0.4 2, .record 0.9 3].foldl Tracker.apply (Tracker.new (0.8 : ℝ) 0)).statistics
    s.samples = 3 ∧ s.currentCoherence = 0.9 ∧ s.converged = true := by
  have h := C115_statistics 0.8 0 [.record 0.2 1, .record 0.4 2, .record 0.9 3]
  dsimp only at h ⊢
  obtain ⟨h1, -, -, h4, -⟩ := h
  obtain ⟨h5, h6, -⟩ := h4 [0.2, 0.4] 0.9 rfl
  exact ⟨h1, h5, h6.2 (by norm_num)⟩

end Verif
