import Verif.Props.SyncRun

/-!
# C52: the number of iterations a run may use
-/

set_option autoImplicit false
set_option linter.unusedSectionVars false

namespace Verif
open GoMath

/-! ## What the constructors keep -/

section generic
variable {α : Type} [Zero α] [One α] [Add α] [Sub α] [Mul α] [Div α] [Neg α] [LT α] [LE α]
  [DecidableLT α] [DecidableLE α] [BEq α] [OfScientific α] [GoMath α]

theorem createDefaultLoop_goalConfig (cfg : AgentConfig α) (draws : ℕ → Draws) (l : List ℕ) (s s' : Swarm α)
    (e : createDefaultLoop cfg draws l s = .ok s') : s'.goalConfig = s.goalConfig ∧ s'.goalState = s.goalState := by
  induction l generalizing s with
  | nil => cases e; exact ⟨rfl, rfl⟩
  | cons i is ih =>
    unfold createDefaultLoop at e
    cases ha : newFromConfig (agentID i) cfg (draws i) with
    | error x => rw [ha] at e; cases e
    | ok a => rw [ha] at e; exact ih (s.storeAgent a) e

theorem createOptimized_goalConfig (s : Swarm α) (draws : ℕ → Draws) :
    (s.createOptimizedAgents draws).goalConfig = s.goalConfig ∧ (s.createOptimizedAgents draws).goalState = s.goalState := by
  unfold Swarm.createOptimizedAgents
  dsimp only
  generalize s.agentConfig = cfg
  induction s.size.toNat with
  | zero => exact ⟨rfl, rfl⟩
  | succ n ih =>
    rw [List.range_succ, List.foldl_append]
    exact ih

/-- Completing a swarm changes neither its goal nor its goal-directed configuration. -/
theorem complete_goal (s s' : Swarm α) (env : SwarmEnv α) (e : s.complete env = .ok s') :
    s'.goalConfig = s.goalConfig ∧ s'.goalState = s.goalState := by
  unfold Swarm.complete at e
  cases hc : checkConfig s.config s.size with
  | error x => rw [hc] at e; cases e
  | ok c =>
    rw [hc] at e
    simp only [Except.bind] at e
    split_ifs at e
    unfold Swarm.createAgents at e
    dsimp only at e
    split_ifs at e
    · obtain ⟨h, rfl, -⟩ := finish_eq _ _ _ e
      exact createOptimized_goalConfig { s with config := c } env.draws
    · obtain ⟨h, rfl, -⟩ := finish_eq _ _ _ e; exact ⟨rfl, rfl⟩
    · cases hd : Swarm.createDefaultAgents { s with config := c } env.draws with
      | error x => rw [hd] at e; cases e
      | ok t =>
        rw [hd] at e
        obtain ⟨h, rfl, -⟩ := finish_eq _ _ _ e
        exact createDefaultLoop_goalConfig _ _ _ { s with config := c } t hd
    · obtain ⟨h, rfl, -⟩ := finish_eq _ _ _ e; exact ⟨rfl, rfl⟩

/-- `NewSwarmFromConfig` stores the goal unchanged and no goal-directed configuration. -/
theorem fromConfig_goal (env : SwarmEnv α) (size : ℤ) (goal : State α) (cfg : SwarmConfig α) (s : Swarm α)
    (e : newSwarmFromConfig env size goal cfg = .ok s) : s.goalConfig = none ∧ s.goalState = goal := by
  unfold newSwarmFromConfig at e
  split_ifs at e
  cases hc : checkConfig cfg size with
  | error x => rw [hc] at e; cases e
  | ok c =>
    rw [hc] at e
    simp only [Except.bind] at e
    cases hd : (Swarm.plain size goal c).createDefaultAgents env.draws with
    | error x => rw [hd] at e; cases e
    | ok t =>
      rw [hd] at e
      obtain ⟨h, rfl, -⟩ := finish_eq _ _ _ e
      exact createDefaultLoop_goalConfig _ _ _ (Swarm.plain size goal c) t hd

/-- The goal-directed configuration left by options is the initial one or that of one of the options, which is valid. -/
theorem applyOptions_goalConfig (s s' : Swarm α) (os : List (SwarmOption α)) (ho : ∀ o ∈ os, o.Simple)
    (e : s.applyOptions os = some s') :
    s'.goalConfig = s.goalConfig ∨ ∃ c, .goalConfig c ∈ os ∧ c.validate = none ∧ s'.goalConfig = some c := by
  induction os generalizing s with
  | nil => cases e; exact .inl rfl
  | cons o os ih =>
    obtain ⟨t, e1, e2⟩ := Option.bind_eq_some_iff.1 e
    have h0 := ho o (by simp)
    rcases ih t (fun o' ho' => ho o' (by simp [ho'])) e2 with h | ⟨c, h1, h2, h3⟩
    · rw [h]
      cases o with
      | config c => unfold Swarm.applyOption at e1; dsimp only at e1; split_ifs at e1; cases e1; exact .inl rfl
      | goalConfig c =>
        unfold Swarm.applyOption at e1; dsimp only at e1; split_ifs at e1 with hv; cases e1
        exact .inr ⟨c, by simp, by simpa using hv, rfl⟩
      | monitor => cases e1; exact .inl rfl
      | agentBuilder b => exact h0.elim
      | topology b => exact h0.elim
      | recovery c => cases e1; exact .inl rfl
    · exact .inr ⟨c, List.mem_cons_of_mem _ h1, h2, h3⟩

/-- **C43.** For every configuration accepted for the size and every valid goal, if the draws are fair then
`NewSwarmFromConfig` succeeds. -/
theorem C43_fromConfig_succeeds (env : SwarmEnv α) (size : ℤ) (h1 : 1 ≤ size) (goal : State α) (hg : goal.validate = [])
    (cfg : SwarmConfig α) (hv : (cfg.normalizeAndValidate size).1 = [])
    (hfair : ∀ i, Spec.FairPicks (env.pick i) size.toNat) :
    ∃ N s, ∀ n ≥ N, newSwarmFromConfig { env with fuel := n } size goal cfg = .ok s := by
  rcases hn : cfg.normalizeAndValidate size with ⟨errs, c⟩
  rw [hn] at hv
  obtain rfl : errs = [] := hv
  have hc : checkConfig cfg size = .ok c := by unfold checkConfig; rw [hn]
  have hb := normalized_bounds cfg _ size (by omega) hn
  obtain ⟨t, ht⟩ := createDefault_total (Swarm.plain size goal c) env.draws
  obtain ⟨hsh, addr, hpop, hf⟩ := createDefault_ok (Swarm.plain size goal c) t env.draws rfl ht
  obtain ⟨l, e5⟩ : ∃ l, FreshPop t env.order size.toNat l := ⟨_, freshPop_of_map _ _ env.order_perm _ addr hsh.opt hpop hf⟩
  obtain ⟨g, -⟩ := fresh_graph t env.order _ _ e5
  have hcfg : t.config = c := hsh.config
  have key : ∃ N s, ∀ n ≥ N, t.establishConnections { env with fuel := n } = some s := by
    unfold Swarm.establishConnections
    dsimp only
    rw [e5.eq]
    by_cases hu : useMinimal t.config l.length = true
    · simp only [if_pos hu]; exact ⟨0, _, fun n _ => rfl⟩
    · simp only [if_neg hu]
      obtain ⟨N, h', e⟩ := prob_terminates t.config env l l.zipIdx (fun p hp => hp)
        (by rw [hcfg]; exact ⟨hb.1, hb.2.1⟩) (fun i => by rw [e5.len]; exact hfair i) t.heap g
      exact ⟨N, { t with heap := h' }, fun n hn => by rw [e n hn]; rfl⟩
  obtain ⟨N, s, e⟩ := key
  refine ⟨N, s, fun n hn' => ?_⟩
  unfold newSwarmFromConfig
  rw [if_neg (show ¬ size ≤ 0 by omega), if_neg (by rw [hg]; simp), hc]
  simp only [Except.bind]
  rw [ht]
  dsimp only
  unfold Swarm.finish
  rw [if_neg (by rw [hsh.conn]; simp [Swarm.plain]), e n hn']

/-! ## The specification -/

/-- Before the first tick the run is waiting for it: it has neither failed nor panicked. -/
def Spec.Waits (s : Swarm α) (order : SyncMap ℕ → SyncMap ℕ) : Prop := (s.run order []).1 = .waiting

/-- The run gives up at once: whatever happens, it has failed after zero iterations. -/
def Spec.GivesUp (s : Swarm α) (order : SyncMap ℕ → SyncMap ℕ) : Prop :=
  ∀ evs, ∃ b g, s.run order evs = (.failed b, 0, g)

theorem loop_waits (budget : ℤ) (g : Gds α) (h : 1 ≤ budget) : (g.loop budget [] 0).1 = .waiting := by
  unfold Gds.loop
  rw [if_pos (show ((0 : ℕ) : ℤ) < budget by omega)]

theorem loop_gives_up (budget : ℤ) (g : Gds α) (evs : List (SyncEvent α)) (h : budget ≤ 0) :
    g.loop budget evs 0 = (.failed budget, 0, g) := by
  unfold Gds.loop
  rw [if_neg (show ¬ ((0 : ℕ) : ℤ) < budget by omega)]

theorem achieve_eq (g : Gds α) (order : SyncMap ℕ → SyncMap ℕ) (target : TargetPattern α) (evs : List (SyncEvent α)) (n : ℤ)
    (hn : (g.swarm.allAgents order).length = n) (hi : 0 < g.config.updateInterval) :
    ∃ g' : Gds α, g.achieve order target evs = g'.loop (iterationBudget g.config n (adjustTarget n target).coherence) evs 0 := by
  subst hn
  exact ⟨_, if_neg (not_le.2 hi)⟩

theorem run_cases (s : Swarm α) (order : SyncMap ℕ → SyncMap ℕ) (n : ℤ) (hn : (s.allAgents order).length = n)
    (cfg : GoalConfig α) (hc : s.goalConfig.getD defaultConfig = cfg) (hi : 0 < cfg.updateInterval) :
    (1 ≤ iterationBudget cfg n (adjustTarget n s.targetPattern).coherence → Spec.Waits s order) ∧
    (iterationBudget cfg n (adjustTarget n s.targetPattern).coherence ≤ 0 → Spec.GivesUp s order) := by
  have key := fun evs => achieve_eq (Gds.ofSwarm s s.targetPattern) order s.targetPattern evs n hn (by rw [← hc] at hi; exact hi)
  have hcfg : (Gds.ofSwarm s s.targetPattern).config = cfg := hc
  rw [hcfg] at key
  constructor
  · intro h
    obtain ⟨g', e⟩ := key []
    unfold Spec.Waits Swarm.run
    rw [e]
    exact loop_waits _ _ h
  · intro h evs
    obtain ⟨g', e⟩ := key evs
    unfold Swarm.run
    rw [e]
    exact ⟨_, _, loop_gives_up _ _ _ h⟩

theorem timeFactor_cases (n : ℤ) (t : α) :
    (t > (getCoherenceLimits n : CoherenceLimits α).practical → getConvergenceTimeFactor n t = none) ∧
    (¬ t > (getCoherenceLimits n : CoherenceLimits α).practical → ∃ f, getConvergenceTimeFactor n t = some f ∧
      (f = 1 ∨ f = 2.0 ∨ f = 4.0 ∨ f = 8.0)) := by
  constructor
  · intro h
    unfold getConvergenceTimeFactor; dsimp only; rw [if_pos h]
  · intro h
    unfold getConvergenceTimeFactor; dsimp only; rw [if_neg h]
    split_ifs <;> exact ⟨_, rfl, by simp⟩

end generic

/-! ## Doubles -/

section f64
variable [Rounding] [LibM]

/-- An iteration factor the conversion to an integer can handle. -/
def Spec.SaneFactor (x : F64) : Prop := ∃ d : Dbl, x = .fin d ∧ 1 ≤ d.1 ∧ d.1 ≤ 2 ^ 49

theorem lit_lt (a b x y : ℝ) (hx : IsDouble x) (hy : IsDouble y) (h1 : a ≤ x) (hxy : x < y) (h2 : y ≤ b) (h0 : 0 ≤ a) (hb : b ≤ 1) :
    F64.ofReal a < F64.ofReal b := by
  obtain ⟨u, hu, e, -, hu1⟩ := F64.ofReal_between isDouble_zero hx h0 h1
  obtain ⟨v, hv, e', hv1, -⟩ := F64.ofReal_between hy isDouble_one h2 hb
  rw [e, e', F64.lt_fin]
  dsimp only
  linarith

theorem isDouble_256 (n : ℤ) (h : |n| < 2 ^ 53) : IsDouble (n / 256 : ℝ) := ⟨n, -8, h, by norm_num, by norm_num, by norm_num; ring⟩

theorem practical_lt_theoretical (n : ℤ) (hn : 2 ≤ n) :
    (getCoherenceLimits n : CoherenceLimits F64).practical < (getCoherenceLimits n : CoherenceLimits F64).theoretical := by
  unfold getCoherenceLimits
  rw [if_neg (by omega), if_neg (by omega)]
  split_ifs
  · exact lit_lt _ _ _ _ (isDouble_256 224 (by norm_num)) (isDouble_256 240 (by norm_num)) (by norm_num) (by norm_num) (by norm_num) (by norm_num) (by norm_num)
  · exact lit_lt _ _ _ _ (isDouble_256 240 (by norm_num)) (isDouble_256 248 (by norm_num)) (by norm_num) (by norm_num) (by norm_num) (by norm_num) (by norm_num)
  · exact lit_lt _ _ _ _ (isDouble_256 244 (by norm_num)) (isDouble_256 252 (by norm_num)) (by norm_num) (by norm_num) (by norm_num) (by norm_num) (by norm_num)
  · exact lit_lt _ _ _ _ (isDouble_256 250 (by norm_num)) (isDouble_256 254 (by norm_num)) (by norm_num) (by norm_num) (by norm_num) (by norm_num) (by norm_num)
  · exact lit_lt _ _ _ _ (isDouble_256 252 (by norm_num)) (isDouble_256 254 (by norm_num)) (by norm_num) (by norm_num) (by norm_num) (by norm_num) (by norm_num)
  · exact lit_lt _ _ _ _ (isDouble_256 254 (by norm_num)) (isDouble_256 255 (by norm_num)) (by norm_num) (by norm_num) (by norm_num) (by norm_num) (by norm_num)

theorem lit_int (x : ℝ) (n : ℤ) (h : x = n) (hn : |n| < 2 ^ 53) : F64.ofReal x = .fin ⟨n, isDouble_int hn⟩ := by
  subst h; exact F64.ofReal_of_isDouble _

/-- A sane factor and a target not above the practical limit leave at least one iteration. -/
theorem budget_pos (cfg : GoalConfig F64) (n : ℤ) (t : F64) (hf : Spec.SaneFactor cfg.maxIterationsFactor)
    (ht : ¬ t > (getCoherenceLimits n : CoherenceLimits F64).practical) : 1 ≤ iterationBudget cfg n t := by
  obtain ⟨f, e, hv⟩ := (timeFactor_cases n t).2 ht
  obtain ⟨d, ed, d1, d2⟩ := hf
  unfold iterationBudget
  rw [e, ed]
  dsimp only
  have hk : ∃ k : ℤ, ∃ hk : |k| < 2 ^ 53, f = .fin ⟨(k : ℝ), isDouble_int hk⟩ ∧ 1 ≤ k ∧ k ≤ 8 := by
    rcases hv with rfl | rfl | rfl | rfl
    · exact ⟨1, by norm_num, by rw [F64.one_def]; congr; norm_num, by norm_num, by norm_num⟩
    · exact ⟨2, by norm_num, lit_int _ 2 (by norm_num) (by norm_num), by norm_num, by norm_num⟩
    · exact ⟨4, by norm_num, lit_int _ 4 (by norm_num) (by norm_num), by norm_num, by norm_num⟩
    · exact ⟨8, by norm_num, lit_int _ 8 (by norm_num) (by norm_num), by norm_num, by norm_num⟩
  obtain ⟨k, hk, rfl, k1, k2⟩ := hk
  rw [F64.mul_fin]
  have k1' : (1 : ℝ) ≤ k := by exact_mod_cast k1
  have k2' : (k : ℝ) ≤ 8 := by exact_mod_cast k2
  obtain ⟨r, er, r1, r2⟩ := F64.ofReal_int_between (x := d.1 * k) 1 (2 ^ 52) (by norm_num) (by norm_num)
    (by push_cast; nlinarith) (by push_cast; nlinarith)
  rw [er]
  have hr : (1 : ℝ) ≤ r.1 := by exact_mod_cast r1
  have htr : rtrunc r.1 = ⌊r.1⌋ := by unfold rtrunc; rw [if_pos (by linarith)]
  have h1 : 1 ≤ ⌊r.1⌋ := Int.le_floor.2 (by exact_mod_cast hr)
  have h2 : ⌊r.1⌋ ≤ 2 ^ 52 := by
    have : ((⌊r.1⌋ : ℤ) : ℝ) ≤ ((2 ^ 52 : ℤ) : ℝ) := (Int.floor_le _).trans r2
    exact_mod_cast this
  have : toInt (F64.fin r) = ⌊r.1⌋ := by
    change (if _ then _ else _) = _
    rw [htr, if_pos ⟨by linarith, by linarith⟩]
  rw [this]
  unfold minInt
  split_ifs <;> omega

theorem mul_inf (d : Dbl) (h : 0 < d.1) : (F64.fin d : F64) * F64.pinf = .pinf := by
  change F64.infSign d.1 = _
  unfold F64.infSign; rw [if_pos h]

theorem max_twice : (maxFloat : F64) * 2.0 = .pinf := by
  change F64.fin ⟨maxDouble, isDouble_maxDouble⟩ * F64.ofReal (2.0 : ℝ) = _
  rw [lit_int (2.0 : ℝ) 2 (by norm_num) (by norm_num), F64.mul_fin]
  dsimp only
  unfold F64.ofReal
  have h1 := one_lt_maxDouble
  have h2 : overflow ≤ maxDouble * ((2 : ℤ) : ℝ) := by
    unfold overflow maxDouble
    push_cast
    have h3 : (2 : ℝ) ^ 971 = 2 * 2 ^ 970 := by rw [pow_succ]; ring
    have h4 : (2 : ℝ) ^ 1024 = 2 ^ 54 * 2 ^ 970 := by rw [← pow_add]
    rw [h4, h3]
    have h5 : (0 : ℝ) < 2 ^ 970 := by positivity
    clear h3 h4 h1
    generalize (2 : ℝ) ^ 970 = t at *
    norm_num
    linarith
  rw [if_neg (by rw [abs_of_nonneg (by push_cast; linarith)]; exact not_lt.2 h2), if_pos (by push_cast; linarith)]

/-- With a target above the practical limit the budget is the conversion of +∞ to an integer. -/
theorem budget_inf (cfg : GoalConfig F64) (n : ℤ) (t : F64) (hf : Spec.SaneFactor cfg.maxIterationsFactor)
    (ht : t > (getCoherenceLimits n : CoherenceLimits F64).practical) :
    iterationBudget cfg n t = minInt (LibM.badInt F64.pinf) 1000 := by
  obtain ⟨d, ed, d1, -⟩ := hf
  unfold iterationBudget
  rw [(timeFactor_cases n t).1 ht, ed]
  dsimp only
  rw [max_twice, mul_inf d (by linarith)]
  rfl

theorem default_sane : Spec.SaneFactor (defaultConfig : GoalConfig F64).maxIterationsFactor :=
  ⟨_, lit_int (200.0 : ℝ) 200 (by norm_num) (by norm_num), by norm_num, by norm_num⟩

theorem default_interval : 0 < (defaultConfig : GoalConfig F64).updateInterval := by
  show (0 : ℤ) < 100 * millisecond
  unfold millisecond; norm_num

theorem valid_interval {α : Type} [Zero α] [One α] [Add α] [Sub α] [Mul α] [Div α] [Neg α] [LT α] [LE α]
    [DecidableLT α] [DecidableLE α] [BEq α] [OfScientific α] [GoMath α] (c : GoalConfig α) (h : c.validate = none) :
    0 < c.updateInterval := by
  by_contra hc
  unfold GoalConfig.validate at h
  rw [if_pos (show c.updateInterval ≤ 0 by omega)] at h
  split_ifs at h

theorem practical_le (n : ℤ) (t : F64) (h : ¬ t > (getCoherenceLimits n : CoherenceLimits F64).practical) (p : TargetPattern F64)
    (hp : p.coherence = t) : (adjustTarget n p).coherence = t := by
  unfold adjustTarget
  dsimp only
  split_ifs with h1
  · exfalso
    rw [hp] at h1
    by_cases hn : 2 ≤ n
    · have h1' : (getCoherenceLimits n : CoherenceLimits F64).theoretical < t := h1
      have h2 : (getCoherenceLimits n : CoherenceLimits F64).practical < t := _root_.trans (practical_lt_theoretical n hn) h1'
      exact h h2
    · unfold getCoherenceLimits at h h1
      by_cases h0 : n ≤ 0
      · rw [if_pos h0] at h h1; exact h h1
      · rw [if_neg h0, if_pos (by omega)] at h h1; exact h h1
  · exact hp

theorem practical_gt (n : ℤ) (hn : 2 ≤ n) (p : TargetPattern F64)
    (h : p.coherence > (getCoherenceLimits n : CoherenceLimits F64).practical) :
    (adjustTarget n p).coherence > (getCoherenceLimits n : CoherenceLimits F64).practical := by
  unfold adjustTarget
  dsimp only
  split_ifs with h1
  · exact practical_lt_theoretical n hn
  · exact h

/-- **C52, the part that holds for `NewSwarmFromConfig`.** With a goal coherence that is not above the practical limit for
the size, the run waits for its first tick. -/
theorem C52_fromConfig_partial (env : SwarmEnv F64) (size : ℤ) (goal : State F64) (cfg : SwarmConfig F64) (s : Swarm F64)
    (e : newSwarmFromConfig env size goal cfg = .ok s)
    (h : ¬ goal.coherence > (getCoherenceLimits size : CoherenceLimits F64).practical)
    (order : SyncMap ℕ → SyncMap ℕ) (hp : ∀ m, (order m).Perm m) : Spec.Waits s order := by
  obtain ⟨hc, hg⟩ := fromConfig_goal env size goal cfg s e
  obtain ⟨addr, hx⟩ := C43_fromConfig env size goal cfg s e order hp
  have hs := (built_fromConfig env size goal cfg s e).1
  refine (run_cases s order size (by rw [hx.count]; omega) defaultConfig (by rw [hc]; rfl) default_interval).1 ?_
  rw [practical_le size goal.coherence h s.targetPattern (by show s.goalState.coherence = _; rw [hg])]
  exact budget_pos _ _ _ default_sane h

/-- **C52 fails for `NewSwarmFromConfig`.** With two agents or more and a goal coherence above the practical limit, a run
gives up without a single iteration wherever the conversion of +∞ to `int` is not positive, as on amd64. -/
theorem C52_gives_up (hbad : LibM.badInt F64.pinf ≤ 0) (env : SwarmEnv F64) (size : ℤ) (hn : 2 ≤ size) (goal : State F64)
    (cfg : SwarmConfig F64) (s : Swarm F64) (e : newSwarmFromConfig env size goal cfg = .ok s)
    (h : goal.coherence > (getCoherenceLimits size : CoherenceLimits F64).practical)
    (order : SyncMap ℕ → SyncMap ℕ) (hp : ∀ m, (order m).Perm m) : Spec.GivesUp s order := by
  obtain ⟨hc, hg⟩ := fromConfig_goal env size goal cfg s e
  obtain ⟨addr, hx⟩ := C43_fromConfig env size goal cfg s e order hp
  refine (run_cases s order size (by rw [hx.count]; omega) defaultConfig (by rw [hc]; rfl) default_interval).2 ?_
  rw [budget_inf _ _ _ default_sane (practical_gt size hn s.targetPattern (by show s.goalState.coherence > _; rw [hg]; exact h))]
  unfold minInt
  rw [if_pos (by omega)]
  exact hbad

/-- Where the conversion is positive (arm64 saturates) the same runs have a budget. -/
theorem C52_saturating (hbad : 1 ≤ LibM.badInt F64.pinf) (env : SwarmEnv F64) (size : ℤ) (hn : 2 ≤ size) (goal : State F64)
    (cfg : SwarmConfig F64) (s : Swarm F64) (e : newSwarmFromConfig env size goal cfg = .ok s)
    (order : SyncMap ℕ → SyncMap ℕ) (hp : ∀ m, (order m).Perm m) : Spec.Waits s order := by
  by_cases h : goal.coherence > (getCoherenceLimits size : CoherenceLimits F64).practical
  · obtain ⟨hc, hg⟩ := fromConfig_goal env size goal cfg s e
    obtain ⟨addr, hx⟩ := C43_fromConfig env size goal cfg s e order hp
    refine (run_cases s order size (by rw [hx.count]; omega) defaultConfig (by rw [hc]; rfl) default_interval).1 ?_
    rw [budget_inf _ _ _ default_sane (practical_gt size hn s.targetPattern (by show s.goalState.coherence > _; rw [hg]; exact h))]
    unfold minInt
    split_ifs <;> omega
  · exact C52_fromConfig_partial env size goal cfg s e h order hp

theorem initial_practical (size : ℤ) (goal : State F64) (c : SwarmConfig F64) :
    ¬ (Swarm.initial size goal c).goalState.coherence > (getCoherenceLimits size : CoherenceLimits F64).practical := by
  unfold Swarm.initial
  dsimp only
  split_ifs with h
  · exact irrefl _
  · exact h

/-- **C52, the part that holds for `New`.** With options that neither build agents nor connect them, and with sane
iteration factors in the goal configurations given, the run waits for its first tick: `New` lowers the goal coherence to the
practical limit. -/
theorem C52_new_partial (env : SwarmEnv F64) (size : ℤ) (goal : State F64) (opts : List (SwarmOption F64))
    (ho : ∀ o ∈ opts, o.Simple) (hf : ∀ c, .goalConfig c ∈ opts → Spec.SaneFactor c.maxIterationsFactor) (s : Swarm F64)
    (e : newSwarm env size goal opts = .ok s) (order : SyncMap ℕ → SyncMap ℕ) (hp : ∀ m, (order m).Perm m) :
    Spec.Waits s order := by
  obtain ⟨addr, hx⟩ := C43_new env size goal opts (fun o h => simple_proper o (ho o h)) s e order hp
  obtain ⟨h1, -, c, t, -, h3, h4⟩ := newSwarm_ok env size goal opts s e
  obtain ⟨g1, g2⟩ := complete_goal t s env h4
  obtain ⟨-, -, g3⟩ := applyOptions_simple _ t opts ho h3
  have hpr := initial_practical size goal c
  rw [← g3, ← g2] at hpr
  have key : ∃ cfg, s.goalConfig.getD defaultConfig = cfg ∧ 0 < cfg.updateInterval ∧ Spec.SaneFactor cfg.maxIterationsFactor := by
    rw [g1]
    rcases applyOptions_goalConfig _ t opts ho h3 with h | ⟨d, k1, k2, k3⟩
    · rw [h]; exact ⟨_, rfl, default_interval, default_sane⟩
    · rw [k3]; exact ⟨d, rfl, valid_interval d k2, hf d k1⟩
  obtain ⟨cfg, k1, k2, k3⟩ := key
  refine (run_cases s order size (by rw [hx.count]; omega) cfg k1 k2).1 ?_
  rw [practical_le size _ hpr s.targetPattern rfl]
  exact budget_pos _ _ _ k3 hpr

/-- **C52 fails for `New` too** when an option sets the iteration factor to zero, which the validation accepts. -/
theorem C52_zero_factor (env : SwarmEnv F64) (size : ℤ) (goal : State F64) (d : GoalConfig F64) (hd : d.maxIterationsFactor = 0)
    (s : Swarm F64) (e : newSwarm env size goal [.goalConfig d] = .ok s) (order : SyncMap ℕ → SyncMap ℕ)
    (hp : ∀ m, (order m).Perm m) : Spec.GivesUp s order := by
  have ho : ∀ o ∈ ([.goalConfig d] : List (SwarmOption F64)), o.Simple := by
    intro o h; rw [List.mem_singleton] at h; subst h; trivial
  obtain ⟨addr, hx⟩ := C43_new env size goal _ (fun o h => simple_proper o (ho o h)) s e order hp
  obtain ⟨h1, -, c, t, -, h3, h4⟩ := newSwarm_ok env size goal _ s e
  obtain ⟨g1, g2⟩ := complete_goal t s env h4
  obtain ⟨-, -, g3⟩ := applyOptions_simple _ t _ ho h3
  have hpr := initial_practical size goal c
  rw [← g3, ← g2] at hpr
  have key : s.goalConfig.getD defaultConfig = d ∧ 0 < d.updateInterval := by
    rw [g1]
    obtain ⟨t', e1, e2⟩ := Option.bind_eq_some_iff.1 h3
    unfold Swarm.applyOption at e1
    dsimp only at e1
    split_ifs at e1 with hv
    cases e1; cases e2
    exact ⟨rfl, valid_interval d (by simpa using hv)⟩
  refine (run_cases s order size (by rw [hx.count]; omega) d key.1 key.2).2 ?_
  rw [practical_le size _ hpr s.targetPattern rfl]
  obtain ⟨f, e, hv⟩ := (timeFactor_cases size s.goalState.coherence).2 hpr
  unfold iterationBudget
  rw [e, hd]
  dsimp only
  have h0 : (0 : F64) * f = 0 := by
    have hk : ∃ k : Dbl, f = .fin k := by
      rcases hv with rfl | rfl | rfl | rfl
      · exact ⟨_, rfl⟩
      · exact ⟨_, lit_int _ 2 (by norm_num) (by norm_num)⟩
      · exact ⟨_, lit_int _ 4 (by norm_num) (by norm_num)⟩
      · exact ⟨_, lit_int _ 8 (by norm_num) (by norm_num)⟩
    obtain ⟨k, rfl⟩ := hk
    rw [F64.zero_def, F64.mul_fin]
    dsimp only
    rw [zero_mul, F64.ofReal_of_isDouble isDouble_zero]
  rw [h0]
  have : toInt (0 : F64) = 0 := by
    rw [F64.zero_def]
    change (if _ then _ else _) = _
    have : rtrunc 0 = 0 := by unfold rtrunc; simp
    dsimp only
    rw [this]; simp
  rw [this]
  unfold minInt
  simp

/-! ## The presets -/

/-- A finite factor between two bounds. -/
def FactorIn (l u : ℤ) (x : F64) : Prop := ∃ d : Dbl, x = .fin d ∧ (l : ℝ) ≤ d.1 ∧ d.1 ≤ u

theorem factor_lit (x : ℝ) (n : ℤ) (h : x = n) (hn : |n| < 2 ^ 53) (l u : ℤ) (hl : l ≤ n) (hu : n ≤ u) :
    FactorIn l u (F64.ofReal x) :=
  ⟨_, lit_int x n h hn, Int.cast_le.2 hl, Int.cast_le.2 hu⟩

theorem configFor_factor (g : GoalType) : FactorIn 80 350 (configFor g : GoalConfig F64).maxIterationsFactor := by
  unfold configFor
  split <;> first
    | exact factor_lit (150.0 : ℝ) 150 (by norm_num) (by norm_num) _ _ (by norm_num) (by norm_num)
    | exact factor_lit (100.0 : ℝ) 100 (by norm_num) (by norm_num) _ _ (by norm_num) (by norm_num)
    | exact factor_lit (250.0 : ℝ) 250 (by norm_num) (by norm_num) _ _ (by norm_num) (by norm_num)
    | exact factor_lit (80.0 : ℝ) 80 (by norm_num) (by norm_num) _ _ (by norm_num) (by norm_num)
    | exact factor_lit (300.0 : ℝ) 300 (by norm_num) (by norm_num) _ _ (by norm_num) (by norm_num)
    | exact factor_lit (180.0 : ℝ) 180 (by norm_num) (by norm_num) _ _ (by norm_num) (by norm_num)
    | exact factor_lit (350.0 : ℝ) 350 (by norm_num) (by norm_num) _ _ (by norm_num) (by norm_num)
    | exact factor_lit (200.0 : ℝ) 200 (by norm_num) (by norm_num) _ _ (by norm_num) (by norm_num)

theorem tuneFor_factor (c : GoalConfig F64) (t : ℤ) (h : FactorIn 80 350 c.maxIterationsFactor) :
    FactorIn 40 350 (c.tuneFor t).maxIterationsFactor := by
  have hw : FactorIn 40 350 c.maxIterationsFactor := by
    obtain ⟨d, e, a, b⟩ := h
    exact ⟨d, e, le_trans (by norm_num) a, b⟩
  unfold GoalConfig.tuneFor
  split <;> try exact hw
  obtain ⟨d, e, a, b⟩ := h
  show FactorIn 40 350 (c.maxIterationsFactor * F64.ofReal (0.7 : ℝ))
  obtain ⟨y, hy, ey, y0, y1⟩ := F64.ofReal_between (x := 0.7) (isDouble_256 128 (by norm_num)) isDouble_one (by norm_num) (by norm_num)
  rw [e, ey, F64.mul_fin]
  push_cast at a b y0
  obtain ⟨r, er, r1, r2⟩ := F64.ofReal_int_between (x := d.1 * y) 40 350 (by norm_num) (by norm_num)
    (by push_cast; nlinarith) (by push_cast; nlinarith)
  exact ⟨r, er, r1, r2⟩

theorem withSize_factor (c : GoalConfig F64) (n : ℤ) (h : FactorIn 40 350 c.maxIterationsFactor) :
    FactorIn 40 700 (c.withSize n).maxIterationsFactor := by
  have hw : FactorIn 40 700 c.maxIterationsFactor := by
    obtain ⟨d, e, a, b⟩ := h
    exact ⟨d, e, a, b.trans (by norm_num)⟩
  obtain ⟨d, e, a, b⟩ := h
  push_cast at a b
  have key : ∀ x : ℝ, 1 ≤ x → x ≤ 2 → FactorIn 40 700 (c.maxIterationsFactor * F64.ofReal x) := by
    intro x h1 h2
    obtain ⟨y, ey, y0, y1⟩ := F64.ofReal_int_between (x := x) 1 2 (by norm_num) (by norm_num) (by push_cast; exact h1)
      (by push_cast; exact h2)
    push_cast at y0 y1
    rw [e, ey, F64.mul_fin]
    obtain ⟨r, er, r1, r2⟩ := F64.ofReal_int_between (x := d.1 * y.1) 40 700 (by norm_num) (by norm_num)
      (by push_cast; nlinarith) (by push_cast; nlinarith)
    exact ⟨r, er, r1, r2⟩
  unfold GoalConfig.withSize
  split_ifs
  · exact hw
  · exact hw
  · exact hw
  · exact key 1.5 (by norm_num) (by norm_num)
  · exact key 2.0 (by norm_num) (by norm_num)

/-- **C52.** Every preset, tuned for any trait and sized for any number of agents, has a sane iteration factor. -/
theorem C52_presets (g : GoalType) (t n : ℤ) :
    Spec.SaneFactor (((configFor g : GoalConfig F64).tuneFor t).withSize n).maxIterationsFactor := by
  obtain ⟨d, e, a, b⟩ := withSize_factor _ n (tuneFor_factor _ t (configFor_factor g))
  exact ⟨d, e, le_trans (by norm_num) a, b.trans (by norm_num)⟩

end f64

/-! ## The claim and its refutation -/

/-- What the user expects: on a swarm made by a public constructor a run gets at least one iteration. -/
def C52_claim : Prop :=
  ∀ (_ : Rounding) (_ : LibM) (order : SyncMap ℕ → SyncMap ℕ), (∀ m, (order m).Perm m) →
    (∀ (env : SwarmEnv F64) (size : ℤ) (goal : State F64) (cfg : SwarmConfig F64) (s : Swarm F64),
      newSwarmFromConfig env size goal cfg = .ok s → Spec.Waits s order) ∧
    (∀ (env : SwarmEnv F64) (size : ℤ) (goal : State F64) (opts : List (SwarmOption F64)) (s : Swarm F64),
      newSwarm env size goal opts = .ok s → Spec.Waits s order)

theorem gives_up_not_waits {α : Type} [Zero α] [One α] [Add α] [Sub α] [Mul α] [Div α] [Neg α] [LT α] [LE α]
    [DecidableLT α] [DecidableLE α] [BEq α] [OfScientific α] [GoMath α] (s : Swarm α) (order : SyncMap ℕ → SyncMap ℕ)
    (h : Spec.GivesUp s order) : ¬ Spec.Waits s order := by
  intro hw
  obtain ⟨b, g, e⟩ := h []
  unfold Spec.Waits at hw
  rw [e] at hw
  cases hw

/-- The library of a machine that, like amd64, converts everything out of range to the smallest integer. -/
@[instance_reducible] noncomputable def LibM.amd64 : LibM := { LibM.some with badInt := fun _ => -(2 ^ 63) }

/-- A swarm made by `NewSwarmFromConfig` with five agents, the automatically scaled configuration and goal coherence 1. -/
theorem exists_fromConfig [Rounding] [LibM] : ∃ (env : SwarmEnv F64) (s : Swarm F64),
    newSwarmFromConfig env 5 goalF (autoScaleConfig 5) = .ok s := by
  have hv := (autoScale_valid_iff (α := F64) 5).2 ⟨by norm_num, by norm_num⟩
  obtain ⟨N, s, h⟩ := C43_fromConfig_succeeds (SwarmEnv.simple (fun _ _ => (0 : F64)) (fun _ k => k)) 5 (by norm_num) goalF
    goalF_valid (autoScaleConfig 5) (by
      unfold SwarmConfig.normalizeAndValidate
      rw [if_neg (by rw [hv]; simp)]) (fun _ => fair_self _)
  exact ⟨_, s, h N le_rfl⟩

theorem one_gt_practical [Rounding] [LibM] : goalF.coherence > (getCoherenceLimits 5 : CoherenceLimits F64).practical := by
  show F64.ofReal (0.92 : ℝ) < 1
  obtain ⟨u, hu, e, -, h1⟩ := F64.ofReal_between (x := 0.92) isDouble_zero (isDouble_256 240 (by norm_num)) (by norm_num) (by norm_num)
  rw [e, F64.one_def, F64.lt_fin]
  push_cast at h1
  dsimp only
  linarith

theorem lit_not_lt [Rounding] [LibM] (a b : ℝ) (h : a ≤ b) (h0 : 0 ≤ a) (h1 : b ≤ 1) : ¬ F64.ofReal b < F64.ofReal a := by
  unfold F64.ofReal
  have ho : (1 : ℝ) < overflow := isDouble_one.abs_lt_overflow |> fun h => by simpa using h
  rw [if_pos (by rw [abs_of_nonneg (h0.trans h)]; linarith), if_pos (by rw [abs_of_nonneg h0]; linarith), F64.lt_fin, not_lt]
  exact rnd_mono h

theorem lit_zero [Rounding] [LibM] : (0 : F64) = F64.ofReal 0 := (F64.ofReal_of_isDouble isDouble_zero).symm
theorem lit_one [Rounding] [LibM] : (1 : F64) = F64.ofReal 1 := (F64.ofReal_of_isDouble isDouble_one).symm

/-- In doubles, the default configuration with any iteration factor is valid. -/
theorem default_valid [Rounding] [LibM] (x : F64) :
    ({ (defaultConfig : GoalConfig F64) with maxIterationsFactor := x } : GoalConfig F64).validate = none := by
  unfold GoalConfig.validate
  dsimp only [defaultConfig]
  rw [lit_zero, lit_one]
  have key : ∀ a b : ℝ, a ≤ b → 0 ≤ a → b ≤ 1 → ¬ F64.ofReal b < F64.ofReal a := lit_not_lt
  have hlit : ∀ (m : ℕ) (s : Bool) (e : ℕ), (OfScientific.ofScientific m s e : F64) = F64.ofReal (OfScientific.ofScientific m s e : ℝ) :=
    fun _ _ _ => rfl
  simp only [hlit]
  have hnot : ∀ a : ℝ, 0 ≤ a → a ≤ 1 → ¬ (F64.ofReal a < F64.ofReal 0 ∨ F64.ofReal 1 < F64.ofReal a) := fun a h0 h1 =>
    not_or.2 ⟨key 0 a h0 le_rfl h1, key a 1 h1 h0 le_rfl⟩
  rw [if_neg (hnot _ (by norm_num) (by norm_num)), if_neg (hnot _ (by norm_num) (by norm_num)),
    if_neg (key _ _ (by norm_num) (by norm_num) (by norm_num)), if_neg (key _ _ (by norm_num) (by norm_num) (by norm_num)),
    if_neg (not_or.2 ⟨key _ _ (by norm_num) (by norm_num) (by norm_num), key _ _ (by norm_num) (by norm_num) (by norm_num)⟩),
    if_neg (key _ _ (by norm_num) (by norm_num) (by norm_num)), if_neg (hnot _ (by norm_num) (by norm_num)),
    if_neg (by unfold millisecond; norm_num), if_neg (by unfold second; norm_num),
    if_neg (hnot _ (by norm_num) (by norm_num)), if_neg (hnot _ (by norm_num) (by norm_num))]

/-- **C43.** `New` with a valid goal configuration succeeds when the draws are fair. -/
theorem C43_goalConfig_succeeds {α : Type} [Zero α] [One α] [Add α] [Sub α] [Mul α] [Div α] [Neg α] [LT α] [LE α]
    [DecidableLT α] [DecidableLE α] [BEq α] [OfScientific α] [GoMath α] [UnitFacts α] (env : SwarmEnv α) (size : ℤ)
    (h1 : 1 ≤ size) (h2 : size ≤ 1000000) (goal : State α) (hg : goal.validate = []) (d : GoalConfig α) (hd : d.validate = none)
    (hfair : ∀ i, Spec.FairPicks (env.pick i) size.toNat) :
    ∃ N s, ∀ n ≥ N, newSwarm { env with fuel := n } size goal [.goalConfig d] = .ok s := by
  have hv := (autoScale_valid_iff (α := α) size).2 ⟨h1, h2⟩
  have hcheck : checkConfig (autoScaleConfig size : SwarmConfig α) size = .ok (autoScaleConfig size) := by
    unfold checkConfig SwarmConfig.normalizeAndValidate
    rw [if_neg (by rw [hv]; simp), autoScale_normalize size h1 h2]
  have hmax : ¬ ((autoScaleConfig size : SwarmConfig α).maxSwarmSize > 0 ∧
      size > (autoScaleConfig size : SwarmConfig α).maxSwarmSize) := by
    have := ((validate_eq_nil _ _).1 hv).1.2
    generalize (autoScaleConfig size : SwarmConfig α).maxSwarmSize = m at this ⊢
    omega
  have hb := ((validate_eq_nil _ _).1 hv).2.2.1
  generalize hac : (autoScaleConfig size : SwarmConfig α) = c at hcheck hmax hb
  have hi := initial_inv size (by omega) goal c
  obtain ⟨t, l, e1, e2, e3, e4, e5, e6, e7⟩ := createAgents_fresh { Swarm.initial size goal c with goalConfig := some d } env
    size.toNat ⟨hi.size, hi.slice, hi.index, hi.opt, .inl rfl⟩ rfl
  have e2' : t.config = c := e2
  have e5' : t.connectionsEstablished = false := e5
  obtain ⟨g, -⟩ := fresh_graph t env.order size.toNat l e7
  have key : ∃ N s, ∀ n ≥ N, t.establishConnections { env with fuel := n } = some s := by
    unfold Swarm.establishConnections
    dsimp only
    rw [e7.eq]
    by_cases hu : useMinimal t.config l.length = true
    · simp only [if_pos hu]; exact ⟨0, _, fun n _ => rfl⟩
    · simp only [if_neg hu]
      obtain ⟨N, h', e⟩ := prob_terminates t.config env l l.zipIdx (fun p hp => hp) (by rw [e2']; exact hb.2)
        (fun i => by rw [e7.len]; exact hfair i) t.heap g
      exact ⟨N, { t with heap := h' }, fun n hn => by rw [e n hn]; rfl⟩
  obtain ⟨N, s, e⟩ := key
  refine ⟨N, s, fun n hn => ?_⟩
  unfold newSwarm
  rw [if_neg (show ¬ size ≤ 0 by omega), if_neg (by rw [hg]; simp), hac, hcheck]
  simp only [Except.bind]
  have ha : (Swarm.initial size goal c).applyOptions [.goalConfig d] =
      some { Swarm.initial size goal c with goalConfig := some d } := by
    unfold Swarm.applyOptions Swarm.applyOption
    dsimp only
    rw [hd, if_neg (by simp)]
    rfl
  rw [ha]
  dsimp only
  unfold Swarm.complete
  have h0 : checkConfig (Swarm.initial size goal c).config (Swarm.initial size goal c).size = .ok c := hcheck
  dsimp only
  rw [h0]
  simp only [Except.bind]
  have hm : ¬ (c.maxSwarmSize > 0 ∧ (Swarm.initial size goal c).size > c.maxSwarmSize) := hmax
  rw [if_neg hm]
  have e1' : Swarm.createAgents { ({ Swarm.initial size goal c with goalConfig := some d } : Swarm α) with config := c }
      { env with fuel := n } = .ok t := e1
  rw [e1']
  dsimp only
  unfold Swarm.finish
  rw [if_neg (by rw [e5']; simp), e n hn]

/-- A swarm made by `New` whose goal configuration allows no iterations, or as many as one likes. -/
theorem exists_withFactor [Rounding] [LibM] (x : F64) : ∃ (env : SwarmEnv F64) (s : Swarm F64),
    newSwarm env 7 goalF [.goalConfig { (defaultConfig : GoalConfig F64) with maxIterationsFactor := x }] = .ok s := by
  obtain ⟨N, s, h⟩ := C43_goalConfig_succeeds (SwarmEnv.simple (fun _ _ => (0 : F64)) (fun _ k => k)) 7 (by norm_num) (by norm_num)
    goalF goalF_valid _ (default_valid x) (fun _ => fair_self _)
  exact ⟨_, s, h N le_rfl⟩

/-- Beside `C52_new_partial`. -/
example [Rounding] [LibM] : ∃ (env : SwarmEnv F64) (s : Swarm F64) (c : GoalConfig F64),
    newSwarm env 7 goalF [.goalConfig c] = .ok s ∧ Spec.SaneFactor c.maxIterationsFactor := by
  obtain ⟨env, s, e⟩ := exists_withFactor (F64.ofReal 200.0)
  exact ⟨env, s, _, e, default_sane⟩

/-- **C52 is false for `New` as well**, whatever the machine does with infinities. -/
theorem C52_refuted_new [Rounding] [LibM] : ¬ ∀ (env : SwarmEnv F64) (size : ℤ) (goal : State F64)
    (opts : List (SwarmOption F64)) (s : Swarm F64), newSwarm env size goal opts = .ok s → Spec.Waits s id := by
  intro h
  obtain ⟨env, s, e⟩ := exists_withFactor 0
  exact gives_up_not_waits s id (C52_zero_factor env 7 goalF _ rfl s e id (fun _ => List.Perm.refl _)) (h env 7 goalF _ s e)


/-- **C52 is false as stated.** -/
theorem C52_refuted : ¬ C52_claim := by
  intro h
  let _ : Rounding := Rounding.some
  let _ : LibM := LibM.amd64
  obtain ⟨env, s, e⟩ := exists_fromConfig
  refine gives_up_not_waits s id ?_ ((h Rounding.some LibM.amd64 id (fun _ => List.Perm.refl _)).1 env 5 goalF _ s e)
  exact C52_gives_up (by show (-(2 ^ 63) : ℤ) ≤ 0; norm_num) env 5 (by norm_num) goalF _ s e one_gt_practical id
    (fun _ => List.Perm.refl _)

example : ∃ (_ : Rounding) (_ : LibM) (env : SwarmEnv F64) (s : Swarm F64),
    newSwarmFromConfig env 5 goalF (autoScaleConfig 5) = .ok s ∧ LibM.badInt F64.pinf ≤ 0 ∧
    goalF.coherence > (getCoherenceLimits 5 : CoherenceLimits F64).practical := by
  let _ : Rounding := Rounding.some
  let _ : LibM := LibM.amd64
  obtain ⟨env, s, e⟩ := exists_fromConfig
  exact ⟨Rounding.some, LibM.amd64, env, s, e, by show (-(2 ^ 63) : ℤ) ≤ 0; norm_num, one_gt_practical⟩

end Verif
