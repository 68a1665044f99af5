import Verif.Props.AgentRange

/-!
# C42: the agent pool; C75: the two agent constructors
-/

set_option autoImplicit false
set_option linter.unusedSectionVars false

namespace Verif
open GoMath

/-! ## C42 -/

section generic
variable {α : Type} [Zero α] [One α] [Add α] [Sub α] [Mul α] [Div α] [Neg α] [LT α] [LE α]
  [DecidableLT α] [DecidableLE α] [BEq α] [OfScientific α] [GoMath α]

/-- A request to the pool; in a `get`, `pick` is the choice made by `sync.Pool`. -/
inductive PoolOp (α : Type) where
  | get (pick : ℕ) (id : String) (w1 w2 w3 w4 : ℕ)
  | put (a : Option (Agent α))

/-- A history of pool requests; a panic ends it. The list collects the agents handed out. -/
def Pool.run (p : Pool α) : List (PoolOp α) → Outcome (List (Agent α) × Pool α)
  | [] => .ok ([], p)
  | .get pick id w1 w2 w3 w4 :: ops =>
    match p.get pick id w1 w2 w3 w4 with
    | .panic => .panic
    | .ok (a, p') =>
      match Pool.run p' ops with
      | .panic => .panic
      | .ok (l, q) => .ok (a :: l, q)
  | .put a :: ops => Pool.run (p.put a) ops

/-- **C42, first failure.** The first `Get` on a pool into which nothing was put panics, whatever the pool does. -/
theorem C42_first_get_panics (pick : ℕ) (id : String) (w1 w2 w3 w4 : ℕ) :
    (Pool.empty : Pool α).get pick id w1 w2 w3 w4 = .panic := by
  simp [Pool.get, Pool.empty]

/-- **C42, second failure.** Connections made through `ConnectTo` survive being returned and obtained again: if the pool
hands the same agent out, it is still connected to exactly the same peers, under its new name. -/
theorem C42_connections_survive (a : Agent α) (h : a.useOptimized = true) (p : Pool α) (id : String)
    (w1 w2 w3 w4 : ℕ) : ∃ b p', (p.put (some a)).get 0 id w1 w2 w3 w4 = .ok (b, p') ∧ b.id = id ∧
      (∀ x, b.isConnectedTo x = a.isConnectedTo x) ∧ b.neighborList = a.neighborList := by
  refine ⟨_, _, rfl, rfl, fun x => ?_, ?_⟩
  · simp [Agent.isConnectedTo, Agent.reset, Agent.clear, h]
  · simp [Agent.neighborList, Agent.reset, Agent.clear, h]

/-- It also keeps the token balance, the strategy and the swarm information of the previous user. -/
theorem C42_leftovers (a : Agent α) (p : Pool α) (id : String) (w1 w2 w3 w4 : ℕ) :
    ∃ b p', (p.put (some a)).get 0 id w1 w2 w3 w4 = .ok (b, p') ∧ b.resources = a.resources ∧
      b.strategy = a.strategy ∧ b.swarmSize = a.swarmSize ∧ b.assumedMaxNeighbors = a.assumedMaxNeighbors :=
  ⟨_, _, rfl, rfl, rfl, rfl, rfl⟩

/-- Invariant of pool histories: waiting agents are unnamed, and the statistics add up. -/
structure PoolInv (p : Pool α) : Prop where
  unnamed : ∀ a ∈ p.free, a.id = "" ∧ a.neighbors = []
  balance : p.inUse = p.gets - p.puts
  size : p.free.length + p.gets = p.puts
  news : p.news = p.gets

theorem poolInv_run (p : Pool α) (h : PoolInv p) (ops : List (PoolOp α)) (l : List (Agent α)) (q : Pool α)
    (e : p.run ops = .ok (l, q)) : PoolInv q := by
  induction ops generalizing p l with
  | nil => injection e with e; injection e with e1 e2; subst e2; exact h
  | cons op ops ih =>
    cases op with
    | put a =>
      refine ih _ ?_ l e
      cases a with
      | none => exact h
      | some a =>
        obtain ⟨h1, h2, h3, h4⟩ := h
        refine ⟨?_, ?_, ?_, h4⟩
        · intro b hb
          rcases List.mem_cons.1 hb with rfl | hb
          · exact ⟨rfl, rfl⟩
          · exact h1 b hb
        · simp only [Pool.put]; push_cast; omega
        · simp only [Pool.put, List.length_cons]; omega
    | get pick id w1 w2 w3 w4 =>
      simp only [Pool.run, Pool.get] at e
      cases hp : p.free[pick]? with
      | none => rw [hp] at e; cases e
      | some a =>
        rw [hp] at e
        simp only at e
        split at e
        · cases e
        · next l' q' hrun =>
          injection e with e; injection e with e1 e2; subst e2
          refine ih _ ?_ _ hrun
          obtain ⟨h1, h2, h3, h4⟩ := h
          obtain ⟨hlt, hget⟩ := List.getElem?_eq_some_iff.1 hp
          refine ⟨?_, ?_, ?_, ?_⟩
          · intro b hb; exact h1 b (List.mem_of_mem_eraseIdx hb)
          · simp only; push_cast; omega
          · simp only [List.length_eraseIdx, if_pos hlt]; omega
          · have := (h1 a (hget ▸ List.getElem_mem hlt)).1
            simp only [this, if_true]; omega

/-- **C42 (partial), statistics.** In every history that does not panic: the agents in use are those handed out minus
those returned, one agent is waiting for every return not yet reused, and every `Get` is counted as new (because `Put`
erases the name by which the pool recognises reuse). -/
theorem C42_statistics_partial (ops : List (PoolOp α)) (l : List (Agent α)) (q : Pool α)
    (e : (Pool.empty : Pool α).run ops = .ok (l, q)) :
    q.inUse = q.gets - q.puts ∧ q.free.length + q.gets = q.puts ∧ q.news = q.gets ∧ l.length = q.gets := by
  have h := poolInv_run _ ⟨fun a ha => (by cases ha), rfl, rfl, rfl⟩ ops l q e
  refine ⟨h.balance, h.size, h.news, ?_⟩
  have key : ∀ (ops : List (PoolOp α)) (p : Pool α) (l : List (Agent α)), p.run ops = .ok (l, q) →
      p.gets + l.length = q.gets := by
    intro ops
    induction ops with
    | nil => intro p l e; injection e with e; injection e with e1 e2; subst e1 e2; rfl
    | cons op ops ih =>
      intro p l e
      cases op with
      | put a => rw [← ih _ l e]; cases a <;> rfl
      | get pick id w1 w2 w3 w4 =>
        simp only [Pool.run, Pool.get] at e
        cases hp : p.free[pick]? with
        | none => rw [hp] at e; cases e
        | some a =>
          rw [hp] at e
          simp only at e
          split at e
          · cases e
          · next l' q' hrun =>
            injection e with e; injection e with e1 e2; subst e1 e2
            rw [← ih _ l' hrun, List.length_cons]; simp only; omega
  simpa [Pool.empty] using key ops _ l e

end generic

/-- The full claim, kept in view: whatever was put into the pool, `Get` succeeds and the agent has no peers. -/
def C42_claim : Prop := ∀ (ops : List (PoolOp ℝ)) (p : Pool ℝ) (l : List (Agent ℝ)),
  (Pool.empty : Pool ℝ).run ops = .ok (l, p) → ∀ (pick : ℕ) (id : String) (w1 w2 w3 w4 : ℕ),
  ∃ a p', p.get pick id w1 w2 w3 w4 = .ok (a, p') ∧ ∀ x, a.isConnectedTo x = false

/-- Getting an agent from a new pool panics. -/
theorem C42_refuted : ¬ C42_claim := fun h => by
  obtain ⟨a, p', e, -⟩ := h [] _ _ rfl 0 "x" 0 0 0 0
  rw [C42_first_get_panics] at e
  cases e

/-- The claim is also false after something has been put: the agent handed out has a peer it never connected to. -/
theorem C42_stale_refuted : ¬ ∀ (a : Agent ℝ) (id x : String) (w1 w2 w3 w4 : ℕ),
    ∃ b p', ((Pool.empty : Pool ℝ).put (some a)).get 0 id w1 w2 w3 w4 = .ok (b, p') ∧ b.isConnectedTo x = false :=
  fun h => by
    obtain ⟨b, p', e, hb⟩ := h pairedAgent "x" "you" 0 0 0 0
    have ho : pairedAgent.useOptimized = true := by simp [pairedAgent, Agent.connectTo, Agent.initial]
    obtain ⟨b', p'', e', -, hc, -⟩ := C42_connections_survive pairedAgent ho Pool.empty "x" 0 0 0 0
    rw [e'] at e
    injection e with e; injection e with e1 e2; subst e1
    rw [hc] at hb
    have : pairedAgent.isConnectedTo "you" = true := by
      simp [pairedAgent, Agent.connectTo, Agent.initial, Agent.isConnectedTo, NeighborStorage.new,
        NeighborStorage.store, NeighborStorage.find, NeighborStorage.load]
    rw [this] at hb; cases hb

section
variable [Rounding] [LibM]
open Rounding

theorem in01_scale (w : ℕ) (c : ℝ) (h0 : 0 ≤ c) (h1 : c ≤ 1) : ∃ d : Dbl, ∀ x : F64, x = F64.ofReal c →
    (randFloat64 w : F64) * x = .fin d ∧ 0 ≤ d.1 ∧ d.1 ≤ rnd c
  := by
  obtain ⟨u, e, hu0, hu1⟩ := C32_float_range.1 w
  obtain ⟨y, hy, ey, hy0, hy1⟩ := F64.ofReal_between isDouble_zero isDouble_one h0 h1
  obtain ⟨z, hz, ez, hz0, hz1⟩ := F64.ofReal_between (x := u.1 * y) isDouble_zero hy (by positivity) (by nlinarith)
  refine ⟨⟨z, hz⟩, fun x hx => ?_⟩
  subst hx
  rw [e, ey, F64.mul_fin, ez]
  refine ⟨rfl, hz0, hz1.trans_eq ?_⟩
  have : F64.ofReal c = .fin ⟨rnd c, Rounding.isDouble c⟩ := by
    unfold F64.ofReal
    rw [if_pos]
    rw [abs_of_nonneg h0]
    refine lt_of_le_of_lt h1 ?_
    simpa using isDouble_one.abs_lt_overflow
  rw [this] at ey
  injection ey with ey
  exact (congrArg Subtype.val ey).symm

/-- **C42 (partial), fields.** An agent obtained from the pool has the requested name, every state and behaviour field
within its documented range (in IEEE doubles), full energy, an empty context and an empty neighbour map. Missing: the
connections made through `ConnectTo`, the resources, the strategy and the swarm information, which survive. -/
theorem C42_fields_partial (p : Pool F64) (pick : ℕ) (id : String) (w1 w2 w3 w4 : ℕ) (a : Agent F64) (p' : Pool F64)
    (e : p.get pick id w1 w2 w3 w4 = .ok (a, p')) :
    a.id = id ∧ AgentOK a ∧ a.state.energy = (100.0 : F64) ∧ 0 < a.state.frequency ∧ a.neighbors = [] ∧
      a.context = Context.zero := by
  unfold Pool.get at e
  cases hp : p.free[pick]? with
  | none => rw [hp] at e; cases e
  | some b =>
    rw [hp] at e
    injection e with e; injection e with e1 e2; subst e1
    have d100 : IsDouble (100 : ℝ) := isDouble_ofNat 100 (by norm_num)
    refine ⟨rfl, ⟨inTurn_rand w1, inTurn_rand w2, ?_, ?_, ?_⟩, rfl, ?_, rfl, rfl⟩
    · refine Or.inr ⟨⟨100, d100⟩, ?_, by norm_num⟩
      change F64.ofReal (100.0 : ℝ) = _
      rw [show (100.0 : ℝ) = 100 by norm_num, F64.ofReal_of_isDouble d100]
    · obtain ⟨d, hd⟩ := in01_scale w3 (0.1 : ℝ) (by norm_num) (by norm_num)
      obtain ⟨hd1, hd2, hd3⟩ := hd (0.1 : F64) rfl
      obtain ⟨y, hy, ey, hy0, hy1⟩ := F64.ofReal_between (x := (0.1 : ℝ)) isDouble_zero
        (show IsDouble (1 / 2 : ℝ) from ⟨1, -1, by norm_num, by norm_num, by norm_num, by norm_num⟩)
        (by norm_num) (by norm_num)
      have hr : rnd (0.1 : ℝ) ≤ 1 / 2 :=
        rnd_le (show IsDouble (1 / 2 : ℝ) from ⟨1, -1, by norm_num, by norm_num, by norm_num, by norm_num⟩) (by norm_num)
      change F64.In01 ((0.1 : F64) + randFloat64 w3 * (0.1 : F64))
      rw [hd1, show (0.1 : F64) = F64.ofReal (0.1 : ℝ) from rfl, ey, F64.add_fin]
      exact F64.in01_ofReal (by positivity) (by dsimp only; linarith)
    · obtain ⟨d, hd⟩ := in01_scale w4 (0.3 : ℝ) (by norm_num) (by norm_num)
      obtain ⟨hd1, hd2, hd3⟩ := hd (0.3 : F64) rfl
      have hr : rnd (0.3 : ℝ) ≤ 1 := rnd_le isDouble_one (by norm_num)
      change F64.In01 (randFloat64 w4 * (0.3 : F64))
      rw [hd1]
      exact ⟨d.1, d.2, rfl, hd2, hd3.trans hr⟩
    · change 0 < 100 * millisecond
      unfold millisecond; norm_num

/-- a history that does not panic: put an agent, take it out again, put nil -/
example (a : Agent F64) : ∃ b q, (Pool.empty : Pool F64).run [.put (some a), .get 0 "x" 1 2 3 4, .put none] = .ok ([b], q) ∧
    b.id = "x" ∧ q.gets = 1 :=
  ⟨_, _, rfl, rfl, rfl⟩

end

/-! ## C75 -/

/-- The fields in which the two constructors are compared. -/
structure SameAgent (a b : Agent ℝ) : Prop where
  energy : a.state.energy = b.state.energy
  influence : a.behavior.influence = b.behavior.influence
  stubbornness : a.behavior.stubbornness = b.behavior.stubbornness
  strategy : a.strategy = b.strategy

/-- All parameters positive and in range, and all component names known to both constructors. -/
structure GoodAgentConfig (cfg : AgentConfig ℝ) : Prop where
  energy : 0 < cfg.initialEnergy
  tokens : 0 < cfg.maxTokens
  rate : 0 < cfg.strategyRate ∧ cfg.strategyRate ≤ 1
  influence : 0 < cfg.influence ∧ cfg.influence ≤ 1
  stubbornness : 0 < cfg.stubbornness ∧ cfg.stubbornness ≤ 1
  decision : cfg.decisionMakerType = "simple"
  goal : cfg.goalManagerType = "weighted"
  resource : cfg.resourceManagerType = "token"
  strategy : cfg.strategyType = "phase_nudge" ∨ cfg.strategyType = "frequency_lock" ∨ cfg.strategyType = "energy_aware"

/-- The full claim, kept in view. -/
def C75_claim : Prop := ∀ (id : String) (cfg : AgentConfig ℝ) (d : Draws), GoodAgentConfig cfg →
  ∃ a, newFromConfig id cfg d = .ok a ∧ SameAgent a (newOptimizedFromConfig id cfg d)

/-- What `NewOptimizedFromConfig` sets. -/
theorem newOptimized_fields (id : String) (cfg : AgentConfig ℝ) (d : Draws) :
    (newOptimizedFromConfig id cfg d).state.energy =
      (if cfg.resourceManagerType = "token" ∧ cfg.maxTokens > 0 then cfg.maxTokens else max 0 cfg.initialEnergy) ∧
    (newOptimizedFromConfig id cfg d).behavior.influence = clampUnit cfg.influence ∧
    (newOptimizedFromConfig id cfg d).behavior.stubbornness = clampUnit cfg.stubbornness ∧
    (newOptimizedFromConfig id cfg d).strategy =
      (if cfg.strategyType = "phase_nudge" then .basic (.phaseNudge cfg.strategyRate)
        else if cfg.strategyType = "frequency_lock" then .basic (.frequencyLock 0.5)
        else if cfg.strategyType = "energy_aware" then .basic (.energyAware 10.0)
        else .basic (.phaseNudge cfg.strategyRate)) := by
  unfold newOptimizedFromConfig
  dsimp only
  generalize (if cfg.assumedMaxNeighbors = 0 then (if cfg.swarmSize > 100 then 20 else cfg.swarmSize - 1)
    else cfg.assumedMaxNeighbors) = m
  generalize (if cfg.strategyType = "phase_nudge" then AgentStrategy.basic (.phaseNudge cfg.strategyRate)
        else if cfg.strategyType = "frequency_lock" then .basic (.frequencyLock 0.5)
        else if cfg.strategyType = "energy_aware" then .basic (.energyAware 10.0)
        else .basic (.phaseNudge cfg.strategyRate)) = s
  by_cases ht : cfg.resourceManagerType = "token" ∧ cfg.maxTokens > 0
  · rw [if_pos ht, if_pos ht]
    have hm : (TokenManager.new cfg.maxTokens).available = cfg.maxTokens := by
      simp [TokenManager.new, TokenManager.available, ht.2.not_gt]
    cases cfg.randomizePhase <;> cases cfg.randomizeLocalGoal <;> cases cfg.randomizeFrequency <;>
      exact ⟨hm, rfl, rfl, rfl⟩
  · rw [if_neg ht, if_neg ht]
    cases cfg.randomizePhase <;> cases cfg.randomizeLocalGoal <;> cases cfg.randomizeFrequency <;>
      exact ⟨rfl, rfl, rfl, rfl⟩

/-- What `NewFromConfig` sets. -/
theorem newFromConfig_fields (id : String) (cfg : AgentConfig ℝ) (d : Draws) (a : Agent ℝ)
    (h : newFromConfig id cfg d = .ok a) :
    a.state.energy = max 0 (if cfg.initialEnergy = 0 then 100 else cfg.initialEnergy) ∧
    a.behavior.influence = clampUnit (if cfg.influence = 0 then 0.5 else cfg.influence) ∧
    a.behavior.stubbornness = clampUnit (if cfg.stubbornness = 0 then 0.2 else cfg.stubbornness) ∧
    createStrategy cfg d.now = some a.strategy := by
  unfold newFromConfig at h
  split_ifs at h
  cases hr : createResourceManager cfg with
  | none => rw [hr] at h; cases h
  | some rm =>
    rw [hr] at h
    cases hs : createStrategy cfg d.now with
    | none => rw [hs] at h; cases h
    | some s =>
      rw [hs] at h
      injection h with h
      subst h
      unfold configOptions
      have key : ∀ (o1 o2 o3 : AgentOption ℝ) (tail : List (AgentOption ℝ)),
          (o1 = .randomPhase d.phase ∨ ∃ x, o1 = .phase x) →
          (o2 = .randomLocalGoal d.goal ∨ ∃ x, o2 = .localGoal x) →
          (o3 = .randomFrequency d.freq ∨ ∃ x, o3 = .frequency x) →
          (tail = [] ∨ ∃ n m, tail = [.swarmInfo n m]) → ∀ e i st : ℝ,
          let a := Agent.new id d.phase0 d.goal0 d.freq0 ([.resourceManager rm, .strategy s] ++
            ([o1, o2, o3, .energy e, .influence i, .stubbornness st] ++ tail))
          a.state.energy = max 0 e ∧ a.behavior.influence = clampUnit i ∧ a.behavior.stubbornness = clampUnit st ∧
            a.strategy = s := by
        intro o1 o2 o3 tail h1 h2 h3 h4 e i st
        rcases h1 with rfl | ⟨x, rfl⟩ <;> rcases h2 with rfl | ⟨y, rfl⟩ <;> rcases h3 with rfl | ⟨z, rfl⟩ <;>
          rcases h4 with rfl | ⟨n, m, rfl⟩ <;> exact ⟨rfl, rfl, rfl, rfl⟩
      have := key (if cfg.randomizePhase then .randomPhase d.phase
          else if cfg.phase != 0 then .phase cfg.phase else .phase 0)
        (if cfg.randomizeLocalGoal then .randomLocalGoal d.goal
          else if cfg.localGoal != 0 then .localGoal cfg.localGoal else .localGoal (randPhase d.goal))
        (if cfg.randomizeFrequency then .randomFrequency d.freq
          else if cfg.frequency ≠ 0 then .frequency cfg.frequency else .frequency (100 * millisecond))
        (if cfg.swarmSize > 0 then [.swarmInfo cfg.swarmSize cfg.assumedMaxNeighbors] else [])
        (by split_ifs <;> simp) (by split_ifs <;> simp) (by split_ifs <;> simp) (by split_ifs <;> simp)
        (if cfg.initialEnergy == 0 then 100.0 else cfg.initialEnergy)
        (if cfg.influence == 0 then 0.5 else cfg.influence)
        (if cfg.stubbornness == 0 then 0.2 else cfg.stubbornness)
      obtain ⟨t1, t2, t3, t4⟩ := this
      refine ⟨t1.trans ?_, t2.trans ?_, t3.trans ?_, by rw [t4]⟩
      · by_cases h : cfg.initialEnergy = 0 <;> norm_num [h]
      · by_cases h : cfg.influence = 0 <;> simp [h]
      · by_cases h : cfg.stubbornness = 0 <;> simp [h]

/-- **C75, the oscillator.** Both constructors use the configured phase, local goal, frequency and swarm information, or the
drawn ones where randomisation is asked for; so they agree on phase always, and on local goal and frequency unless these are
zero and not randomised (then `NewFromConfig` draws a goal and uses 100 ms). -/
theorem C75_oscillator (id : String) (cfg : AgentConfig ℝ) (d : Draws) (a : Agent ℝ) (h : newFromConfig id cfg d = .ok a) :
    let b := newOptimizedFromConfig id cfg d
    (cfg.randomizePhase = true → a.state.phase = randPhase d.phase ∧ b.state.phase = randPhase d.phase) ∧
    (cfg.randomizePhase = false → a.state.phase = wrapPhase cfg.phase ∧ b.state.phase = wrapPhase cfg.phase) ∧
    (cfg.randomizeLocalGoal = true → a.state.localGoal = randPhase d.goal ∧ b.state.localGoal = randPhase d.goal) ∧
    (cfg.randomizeLocalGoal = false → b.state.localGoal = wrapPhase cfg.localGoal ∧
      (cfg.localGoal ≠ 0 → a.state.localGoal = wrapPhase cfg.localGoal)) ∧
    (cfg.randomizeFrequency = true → a.state.frequency = b.state.frequency) ∧
    (cfg.randomizeFrequency = false → cfg.frequency ≠ 0 → a.state.frequency = b.state.frequency) ∧
    (cfg.randomizeFrequency = false → cfg.frequency = 0 → a.state.frequency = 100 * millisecond) ∧
    (cfg.randomizeFrequency = false → b.state.frequency = cfg.frequency) ∧
    (0 < cfg.swarmSize → a.swarmSize = cfg.swarmSize ∧ a.assumedMaxNeighbors = cfg.assumedMaxNeighbors) ∧
    b.swarmSize = cfg.swarmSize := by
  dsimp only
  unfold newFromConfig at h
  split_ifs at h
  cases hr : createResourceManager cfg with
  | none => rw [hr] at h; cases h
  | some rm =>
    rw [hr] at h
    cases hs : createStrategy cfg d.now with
    | none => rw [hs] at h; cases h
    | some s =>
      rw [hs] at h
      injection h with h
      subst h
      unfold configOptions newOptimizedFromConfig
      dsimp only
      generalize (if cfg.assumedMaxNeighbors = 0 then (if cfg.swarmSize > 100 then 20 else cfg.swarmSize - 1)
        else cfg.assumedMaxNeighbors) = m
      generalize (if cfg.strategyType = "phase_nudge" then AgentStrategy.basic (.phaseNudge cfg.strategyRate)
        else if cfg.strategyType = "frequency_lock" then .basic (.frequencyLock 0.5)
        else if cfg.strategyType = "energy_aware" then .basic (.energyAware 10.0)
        else .basic (.phaseNudge cfg.strategyRate)) = st
      have hp : (if (cfg.phase != 0) = true then AgentOption.phase cfg.phase else .phase 0) = .phase cfg.phase := by
        by_cases h : cfg.phase = 0 <;> simp [h]
      have hg : cfg.localGoal ≠ 0 → (if (cfg.localGoal != 0) = true then AgentOption.localGoal cfg.localGoal
          else .localGoal (randPhase d.goal)) = .localGoal cfg.localGoal := fun h => by simp [h]
      rw [hp]
      generalize hq : (if (cfg.localGoal != 0) = true then AgentOption.localGoal cfg.localGoal
          else .localGoal (randPhase d.goal)) = og at hg ⊢
      have hog : ∃ x, og = .localGoal x := by rw [← hq]; split_ifs <;> exact ⟨_, rfl⟩
      obtain ⟨x, rfl⟩ := hog
      have hx : cfg.localGoal ≠ 0 → x = cfg.localGoal := fun h => by
        have := hg h
        injection this
      clear hg hq
      have hfz : (if cfg.frequency ≠ 0 then AgentOption.frequency (α := ℝ) cfg.frequency else .frequency (100 * millisecond)) =
          .frequency (if cfg.frequency ≠ 0 then cfg.frequency else 100 * millisecond) := by split_ifs <;> rfl
      rw [hfz]
      generalize hfq : (if cfg.frequency ≠ 0 then cfg.frequency else 100 * millisecond) = f
      have hf1 : cfg.frequency ≠ 0 → f = cfg.frequency := fun h => by rw [← hfq, if_pos h]
      have hf2 : cfg.frequency = 0 → f = 100 * millisecond := fun h => by rw [← hfq, if_neg (by simpa using h)]
      clear hfq hfz hp
      have htail : ∃ tail : List (AgentOption ℝ), (if cfg.swarmSize > 0 then
          [AgentOption.swarmInfo cfg.swarmSize cfg.assumedMaxNeighbors] else []) = tail ∧
          (0 < cfg.swarmSize → tail = [.swarmInfo cfg.swarmSize cfg.assumedMaxNeighbors]) ∧
          (¬ 0 < cfg.swarmSize → tail = []) := ⟨_, rfl, fun h => if_pos h, fun h => if_neg h⟩
      obtain ⟨tail, e, t1, t2⟩ := htail
      have hres : ∃ l : List (AgentOption ℝ), (if cfg.resourceManagerType = "token" ∧ cfg.maxTokens > 0 then
          [AgentOption.resourceManager (TokenManager.new cfg.maxTokens)] else []) = l ∧ (l = [] ∨ ∃ t, l = [.resourceManager t]) := by
        refine ⟨_, rfl, ?_⟩
        split_ifs
        · exact Or.inr ⟨_, rfl⟩
        · exact Or.inl rfl
      obtain ⟨l, e', hl⟩ := hres
      rw [e, e']
      clear e e' hr hs
      by_cases hsz : 0 < cfg.swarmSize
      · obtain rfl := t1 hsz
        rcases hl with rfl | ⟨t, rfl⟩ <;>
        cases cfg.randomizePhase <;> cases cfg.randomizeLocalGoal <;> cases cfg.randomizeFrequency <;>
        exact ⟨fun h => (by first | exact ⟨rfl, rfl⟩ | cases h), fun h => (by first | exact ⟨rfl, rfl⟩ | cases h),
          fun h => (by first | exact ⟨rfl, rfl⟩ | cases h),
          fun h => (by first | exact ⟨rfl, fun h' => congrArg wrapPhase (hx h')⟩ | cases h),
          fun h => (by first | rfl | cases h), fun h h' => (by first | exact hf1 h' | cases h),
          fun h h' => (by first | exact hf2 h' | cases h), fun h => (by first | rfl | cases h), fun _ => ⟨rfl, rfl⟩, rfl⟩
      · obtain rfl := t2 hsz
        rcases hl with rfl | ⟨t, rfl⟩ <;>
        cases cfg.randomizePhase <;> cases cfg.randomizeLocalGoal <;> cases cfg.randomizeFrequency <;>
        exact ⟨fun h => (by first | exact ⟨rfl, rfl⟩ | cases h), fun h => (by first | exact ⟨rfl, rfl⟩ | cases h),
          fun h => (by first | exact ⟨rfl, rfl⟩ | cases h),
          fun h => (by first | exact ⟨rfl, fun h' => congrArg wrapPhase (hx h')⟩ | cases h),
          fun h => (by first | rfl | cases h), fun h h' => (by first | exact hf1 h' | cases h),
          fun h h' => (by first | exact hf2 h' | cases h), fun h => (by first | rfl | cases h), fun h => absurd h hsz, rfl⟩

/-- `NewFromConfig` succeeds on good configurations. -/
theorem newFromConfig_ok (id : String) (cfg : AgentConfig ℝ) (d : Draws) (h : GoodAgentConfig cfg) :
    ∃ a, newFromConfig id cfg d = .ok a := by
  unfold newFromConfig
  rw [if_neg (by simp [h.decision]), if_neg (by simp [h.goal])]
  have hr : createResourceManager cfg = some (TokenManager.new cfg.maxTokens) := by
    simp [createResourceManager, h.resource, h.tokens.ne']
  rw [hr]
  have hs : ∃ s, createStrategy cfg d.now = some s := by
    unfold createStrategy
    rcases h.strategy with e | e | e <;> rw [e] <;> simp
  obtain ⟨s, hs⟩ := hs
  rw [hs]
  exact ⟨_, rfl⟩

/-- **C75, exactly when.** For a good configuration the two constructors agree exactly if the token budget equals the
initial energy and the strategy is a phase nudge (or a frequency lock that happens to ask for rate 0.5). -/
theorem C75_agree_iff (id : String) (cfg : AgentConfig ℝ) (d : Draws) (h : GoodAgentConfig cfg) (a : Agent ℝ)
    (ha : newFromConfig id cfg d = .ok a) :
    SameAgent a (newOptimizedFromConfig id cfg d) ↔ cfg.maxTokens = cfg.initialEnergy ∧
      (cfg.strategyType = "phase_nudge" ∨ cfg.strategyType = "frequency_lock" ∧ cfg.strategyRate = 0.5) := by
  obtain ⟨o1, o2, o3, o4⟩ := newOptimized_fields id cfg d
  obtain ⟨f1, f2, f3, f4⟩ := newFromConfig_fields id cfg d a ha
  rw [if_pos ⟨h.resource, h.tokens⟩] at o1
  rw [if_neg h.energy.ne', max_eq_right h.energy.le] at f1
  rw [if_neg h.influence.1.ne'] at f2
  rw [if_neg h.stubbornness.1.ne'] at f3
  have hs : a.strategy = (newOptimizedFromConfig id cfg d).strategy ↔
      (cfg.strategyType = "phase_nudge" ∨ cfg.strategyType = "frequency_lock" ∧ cfg.strategyRate = 0.5) := by
    rw [o4]
    have hr0 : (cfg.strategyRate == 0) = false := by simpa using h.rate.1.ne'
    rcases h.strategy with e | e | e
    · rw [createStrategy, e] at f4
      simp only [hr0] at f4
      injection f4 with f4
      simp [e, ← f4]
    · rw [createStrategy, e] at f4
      simp [hr0] at f4
      simp [e, ← f4]
    · rw [createStrategy, e] at f4
      simp [hr0] at f4
      simp [e, ← f4]
      have := h.rate.2
      norm_num
      intro hc; rw [hc] at this; norm_num at this
  constructor
  · rintro ⟨h1, h2, h3, h4⟩
    exact ⟨by rw [← o1, ← h1, f1], hs.1 h4⟩
  · rintro ⟨h1, h2⟩
    exact ⟨by rw [f1, o1, h1], by rw [f2, o2], by rw [f3, o3], hs.2 h2⟩

/-- A good configuration: 150 tokens, 100 units of energy, frequency lock at rate 0.3. -/
noncomputable def splitConfig : AgentConfig ℝ :=
  { decisionMakerType := "simple", goalManagerType := "weighted", resourceManagerType := "token",
    strategyType := "frequency_lock", maxTokens := 150, strategyRate := 0.3, phase := 0, localGoal := 0, frequency := 1,
    initialEnergy := 100, influence := 0.5, stubbornness := 0.2, swarmSize := 5, assumedMaxNeighbors := 4,
    randomizePhase := false, randomizeLocalGoal := false, randomizeFrequency := false }

theorem splitConfig_good : GoodAgentConfig splitConfig := by
  constructor <;> norm_num [splitConfig]

/-- The claim is false. -/
theorem C75_refuted : ¬ C75_claim := fun h => by
  obtain ⟨a, ha, hs⟩ := h "x" splitConfig ⟨0, 0, 0, 0, 0, 0, 0⟩ splitConfig_good
  have := ((C75_agree_iff _ _ _ splitConfig_good a ha).1 hs).1
  norm_num [splitConfig] at this

/-- **C75 (partial).** For good configurations using the phase nudge with a token budget equal to the initial energy, both
constructors succeed and agree. Missing: other strategies and budgets, where they disagree (`C75_agree_iff`). -/
theorem C75_agree_partial (id : String) (cfg : AgentConfig ℝ) (d : Draws) (h : GoodAgentConfig cfg)
    (hm : cfg.maxTokens = cfg.initialEnergy) (hs : cfg.strategyType = "phase_nudge") :
    ∃ a, newFromConfig id cfg d = .ok a ∧ SameAgent a (newOptimizedFromConfig id cfg d) := by
  obtain ⟨a, ha⟩ := newFromConfig_ok id cfg d h
  exact ⟨a, ha, (C75_agree_iff id cfg d h a ha).2 ⟨hm, Or.inl hs⟩⟩

/-- **C75 for configurations derived from a swarm** (the ones actually used for swarms of more than 100 agents and for
smaller ones): with positive energy and coupling, influence and stubbornness in (0, 1], both constructors agree. -/
theorem C75_from_swarm (id : String) (sc : SwarmConfig ℝ) (d : Draws) (h1 : 0 < sc.initialEnergy)
    (h2 : 0 < sc.couplingStrength ∧ sc.couplingStrength ≤ 1) (h3 : 0 < sc.influenceDefault ∧ sc.influenceDefault ≤ 1)
    (h4 : 0 < sc.stubbornness ∧ sc.stubbornness ≤ 1) :
    ∃ a, newFromConfig id (agentFromSwarm sc) d = .ok a ∧
      SameAgent a (newOptimizedFromConfig id (agentFromSwarm sc) d) :=
  C75_agree_partial id _ d ⟨h1, h1, h2, h3, h4, rfl, rfl, rfl, Or.inl rfl⟩ rfl rfl

/-- With stubbornness 0, which configurations accept, the two constructors disagree even then: one reads it as
"not set" and uses 0.2. -/
theorem C75_zero_differs (id : String) (sc : SwarmConfig ℝ) (d : Draws) (h : sc.stubbornness = 0) (a : Agent ℝ)
    (ha : newFromConfig id (agentFromSwarm sc) d = .ok a) :
    a.behavior.stubbornness = 0.2 ∧ (newOptimizedFromConfig id (agentFromSwarm sc) d).behavior.stubbornness = 0 := by
  obtain ⟨-, -, o3, -⟩ := newOptimized_fields id (agentFromSwarm sc) d
  obtain ⟨-, -, f3, -⟩ := newFromConfig_fields id (agentFromSwarm sc) d a ha
  have e : (agentFromSwarm sc).stubbornness = 0 := h
  rw [e] at o3 f3
  exact ⟨by rw [f3]; norm_num [clampUnit], by rw [o3]; norm_num [clampUnit]⟩

/-- the default agent configuration satisfies the hypotheses of `C75_agree_partial` -/
example : GoodAgentConfig defaultAgentConfig ∧ (defaultAgentConfig : AgentConfig ℝ).maxTokens =
    (defaultAgentConfig : AgentConfig ℝ).initialEnergy ∧ (defaultAgentConfig : AgentConfig ℝ).strategyType = "phase_nudge" := by
  refine ⟨?_, rfl, rfl⟩
  constructor <;> norm_num [defaultAgentConfig]

end Verif
