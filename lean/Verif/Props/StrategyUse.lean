import Verif.Props.AgentRange
import Verif.Props.Strategy
import Verif.Props.Patterns

/-! # C150: what the configured strategies do -/

set_option autoImplicit false
set_option linter.unusedSectionVars false

namespace Verif
open GoMath Spec

/-! ### Adaptive agents -/

section
variable [Rounding] [LibM]

theorem half_not_gt : ¬ ((0.5 : F64) > 0.7) := by
  obtain ⟨x, hx, ex, x1, -⟩ := F64.ofReal_between (x := (0.7 : ℝ)) (a := 1 / 2) (b := 1)
    ⟨1, -1, by norm_num, by norm_num, by norm_num, by norm_num⟩ isDouble_one (by norm_num) (by norm_num)
  obtain ⟨y, hy, ey, -, y2⟩ := F64.ofReal_between (x := (0.5 : ℝ)) (a := 0) (b := 1 / 2) isDouble_zero
    ⟨1, -1, by norm_num, by norm_num, by norm_num, by norm_num⟩ (by norm_num) (by norm_num)
  change ¬ F64.lt (F64.ofReal 0.7) (F64.ofReal 0.5)
  rw [ex, ey]
  exact not_lt.2 (le_trans y2 x1)

theorem zero_not_gt : ¬ ((0 : F64) > 0.7) := by
  obtain ⟨x, hx, ex, x1, -⟩ := F64.ofReal_between (x := (0.7 : ℝ)) (a := 0) (b := 1) isDouble_zero isDouble_one
    (by norm_num) (by norm_num)
  change ¬ F64.lt (F64.ofReal 0.7) (.fin ⟨0, isDouble_zero⟩)
  rw [ex]
  exact not_lt.2 x1

/-- The stability an agent has: none before the first update of its context, and one half from then on. -/
def Spec.StabilityOf (a : Agent F64) : Prop := a.context.stability = 0 ∨ a.context.stability = 0.5

theorem Spec.StabilityOf.low {a : Agent F64} (h : StabilityOf a) : ¬ a.context.stability > 0.7 := by
  rcases h with h | h <;> rw [h]
  · exact zero_not_gt
  · exact half_not_gt

/-- Which strategy an adaptive agent of low stability asks: the second or the third. -/
theorem adaptive_pick (l : List (Strat F64)) (now : ℤ) (cur goal : State F64) (ctx : Context F64) (hs : ¬ ctx.stability > 0.7)
    (hl : 2 ≤ l.length) : ∃ i s, (i = 1 ∨ i = 2) ∧ l[i]? = some s ∧
      (AgentStrategy.adaptive l).propose now cur goal ctx =
        .ok ((s.propose now cur goal ctx).1, .adaptive (l.set i (s.propose now cur goal ctx).2)) := by
  have hsel : ∃ i : ℕ, (i = 1 ∨ i = 2) ∧ i < l.length ∧ defaultSelector l.length ctx = (i : ℤ) := by
    unfold defaultSelector
    rw [if_neg hs]
    by_cases hc : ctx.localCoherence > 0.5
    · rw [if_pos hc]; exact ⟨1, Or.inl rfl, by omega, by omega⟩
    · rw [if_neg hc]
      rcases Nat.lt_or_ge 2 l.length with h | h
      · exact ⟨2, Or.inr rfl, h, by omega⟩
      · exact ⟨1, Or.inl rfl, by omega, by omega⟩
  obtain ⟨i, hi, hlt, he⟩ := hsel
  refine ⟨i, l[i], hi, by simp [hlt], ?_⟩
  unfold AgentStrategy.propose adaptivePropose
  simp only [List.length_zipIdx, he]
  rw [if_neg (by omega)]
  have h1 : ¬ ((i : ℤ) < 0 ∨ (i : ℤ) ≥ l.length) := by omega
  simp only [if_neg h1]
  rw [if_neg (by omega)]
  simp [hlt]

/-- An adaptive agent whose strategies satisfy `Q`. -/
def Spec.AdaptiveWith (Q : List (Strat F64) → Prop) (a : Agent F64) : Prop :=
  (∃ l, a.strategy = .adaptive l ∧ Q l) ∧ StabilityOf a

/-- `Q` is kept when the second or the third strategy is asked. -/
def Spec.KeptByAsking (Q : List (Strat F64) → Prop) : Prop :=
  ∀ (l : List (Strat F64)) (i : ℕ) (s : Strat F64) (now : ℤ) (cur goal : State F64) (ctx : Context F64), Q l → (i = 1 ∨ i = 2) →
    l[i]? = some s → 2 ≤ l.length ∧ Q (l.set i (s.propose now cur goal ctx).2)

theorem adaptive_step (Q : List (Strat F64) → Prop) (hQ : KeptByAsking Q) (h2 : ∀ l, Q l → 2 ≤ l.length) (w : Population) (a : Agent F64)
    (h : AdaptiveWith Q a) (op : AgentOp) : AdaptiveWith Q (agentStep w a op) := by
  obtain ⟨⟨l, hl, hq⟩, hs⟩ := h
  cases op with
  | setPhase x => exact ⟨⟨l, hl, hq⟩, hs⟩
  | setFrequency f => exact ⟨⟨l, hl, hq⟩, hs⟩
  | setEnergy x => exact ⟨⟨l, hl, hq⟩, hs⟩
  | setLocalGoal x => exact ⟨⟨l, hl, hq⟩, hs⟩
  | setInfluence x => exact ⟨⟨l, hl, hq⟩, hs⟩
  | setStubbornness x => exact ⟨⟨l, hl, hq⟩, hs⟩
  | connect id o =>
    have e : (a.connectTo id o).strategy = a.strategy ∧ (a.connectTo id o).context = a.context := by
      unfold Agent.connectTo; split_ifs <;> (try split) <;> exact ⟨rfl, rfl⟩
    refine ⟨⟨l, e.1.trans hl, hq⟩, ?_⟩
    show (a.connectTo id o).context.stability = 0 ∨ (a.connectTo id o).context.stability = 0.5
    rw [e.2]; exact hs
  | disconnect id =>
    have e : (a.disconnectFrom id).strategy = a.strategy ∧ (a.disconnectFrom id).context = a.context := by
      unfold Agent.disconnectFrom; split_ifs <;> exact ⟨rfl, rfl⟩
    refine ⟨⟨l, e.1.trans hl, hq⟩, ?_⟩
    show (a.disconnectFrom id).context.stability = 0 ∨ (a.disconnectFrom id).context.stability = 0.5
    rw [e.2]; exact hs
  | updateContext =>
    show AdaptiveWith Q (a.updateContext _)
    unfold Agent.updateContext
    dsimp only
    split_ifs <;> exact ⟨⟨l, hl, hq⟩, Or.inr rfl⟩
  | propose now goal d1 d2 =>
    show AdaptiveWith Q (match a.proposeAdjustment _ now goal d1 d2 with | .ok r => r.2 | .panic => a)
    unfold Agent.proposeAdjustment
    split_ifs
    · exact ⟨⟨l, hl, hq⟩, hs⟩
    · dsimp only
      rw [hl]
      obtain ⟨i, s, hi, hget, hp⟩ := adaptive_pick l now
        { phase := a.state.phase, frequency := a.state.frequency, coherence := a.localCoherence fun n => (w n).state.phase }
        { phase := a.state.localGoal, frequency := a.state.frequency, coherence := goal.coherence } a.context hs.low (h2 l hq)
      rw [hp]
      exact ⟨⟨_, rfl, (hQ l i s now _ _ _ hq hi hget).2⟩, hs⟩
  | apply act =>
    have e : (a.applyAction act).2.strategy = a.strategy ∧ (a.applyAction act).2.context = a.context := by
      unfold Agent.applyAction; split_ifs <;> (try split) <;> exact ⟨rfl, rfl⟩
    refine ⟨⟨l, e.1.trans hl, hq⟩, ?_⟩
    show (a.applyAction act).2.context.stability = 0 ∨ (a.applyAction act).2.context.stability = 0.5
    rw [e.2]; exact hs

theorem adaptive_run (Q : List (Strat F64) → Prop) (hQ : KeptByAsking Q) (h2 : ∀ l, Q l → 2 ≤ l.length) (ops : List (ℕ × AgentOp)) (w : Population)
    (n : ℕ) (h : AdaptiveWith Q (w n)) : AdaptiveWith Q (ops.foldl Population.step w n) := by
  induction ops generalizing w with
  | nil => exact h
  | cons op ops ih =>
    refine ih _ ?_
    unfold Population.step
    split_ifs with hn
    · exact adaptive_step Q hQ h2 w _ h _
    · exact h

/-- Options other than the strategy leave strategy and context of an agent alone. -/
theorem options_frame (opts : List (AgentOption F64)) (a : Agent F64) (h : ∀ o ∈ opts, ∀ s, o ≠ .strategy s) :
    (opts.foldl Agent.applyOption a).strategy = a.strategy ∧ (opts.foldl Agent.applyOption a).context = a.context := by
  induction opts generalizing a with
  | nil => exact ⟨rfl, rfl⟩
  | cons o os ih =>
    obtain ⟨i1, i2⟩ := ih (a.applyOption o) fun x hx => h x (List.mem_cons_of_mem _ hx)
    rw [List.foldl_cons, i1, i2]
    have ho := h o List.mem_cons_self
    cases o with
    | strategy s => exact absurd rfl (ho s)
    | _ => exact ⟨rfl, rfl⟩

/-- What `NewFromConfig` makes of a strategy. -/
theorem built_strategy (id : String) (cfg : AgentConfig F64) (d : Draws) (a : Agent F64) (h : newFromConfig id cfg d = .ok a) :
    createStrategy cfg d.now = some a.strategy ∧ a.context = Context.zero := by
  unfold newFromConfig at h
  split_ifs at h
  cases hr : createResourceManager cfg with
  | none => rw [hr] at h; cases h
  | some rm =>
    cases hst : createStrategy cfg d.now with
    | none => rw [hr, hst] at h; cases h
    | some s =>
      rw [hr, hst] at h
      cases h
      have hcfg : ∀ o ∈ configOptions cfg d, ∀ s, o ≠ .strategy s := by
        intro o ho s
        unfold configOptions at ho
        simp only [List.mem_append, List.mem_cons, List.not_mem_nil, or_false] at ho
        rcases ho with (rfl | rfl | rfl | rfl | rfl | rfl) | ho
        · split_ifs <;> simp
        · split_ifs <;> simp
        · split_ifs <;> simp
        · simp
        · simp
        · simp
        · split_ifs at ho
          · rw [List.mem_singleton.1 ho]; simp
          · simp at ho
      unfold Agent.new
      rw [List.foldl_append]
      obtain ⟨o1, o2⟩ := options_frame (configOptions cfg d)
        (List.foldl Agent.applyOption (Agent.initial id d.phase0 d.goal0 d.freq0) [.resourceManager rm, .strategy s]) hcfg
      rw [o1, o2]
      exact ⟨rfl, rfl⟩

/-- **C150, the first strategy.** An agent with an adaptive strategy over two or more strategies never asks the first of them, whatever is done with it and
with the others: it is the second or the third one that makes every proposal. -/
theorem C150_first (ops : List (ℕ × AgentOp)) (w : Population) (n : ℕ) (l : List (Strat F64)) (hl : 2 ≤ l.length)
    (h : (w n).strategy = .adaptive l) (hs : StabilityOf (w n)) (now : ℤ) (cur goal : State F64) :
    ∃ (l' : List (Strat F64)) (i : ℕ) (s : Strat F64), (ops.foldl Population.step w n).strategy = .adaptive l' ∧ l'.length = l.length ∧
      l'[0]? = l[0]? ∧ (i = 1 ∨ i = 2) ∧ l'[i]? = some s ∧
      (ops.foldl Population.step w n).strategy.propose now cur goal (ops.foldl Population.step w n).context =
        .ok ((s.propose now cur goal (ops.foldl Population.step w n).context).1,
          .adaptive (l'.set i (s.propose now cur goal (ops.foldl Population.step w n).context).2)) := by
  obtain ⟨⟨l', e, hlen, h0⟩, hst⟩ := adaptive_run (fun l' => l'.length = l.length ∧ l'[0]? = l[0]?)
    (fun l' i s now cur goal ctx hq hi hget => ⟨by omega, by rw [List.length_set]; exact hq.1, by
      rw [List.getElem?_set_ne (by omega)]; exact hq.2⟩)
    (fun l' hq => by omega) ops w n ⟨⟨l, h, rfl, rfl⟩, hs⟩
  obtain ⟨i, s, hi, hget, hp⟩ := adaptive_pick l' now cur goal (ops.foldl Population.step w n).context hst.low (by omega)
  exact ⟨l', i, s, e, hlen, h0, hi, hget, by rw [e, hp]⟩

/-- A fresh agent has no stability yet. -/
example (a : Agent F64) : let b := { a with strategy := .adaptive [.phaseNudge 0.3, .energyAware 0, .frequencyLock 0.5], context := Context.zero }
    StabilityOf b ∧ b.strategy = .adaptive [.phaseNudge 0.3, .energyAware 0, .frequencyLock 0.5] := ⟨Or.inl rfl, rfl⟩

/-- The full claim, kept in view: an agent built with the adaptive strategy nudges its phase in some situation. -/
def C150_claim : Prop := ∃ (id : String) (cfg : AgentConfig F64) (d : Draws) (a : Agent F64) (w : Population) (n : ℕ) (ops : List (ℕ × AgentOp))
    (now : ℤ) (cur goal : State F64) (r : (Action F64 × F64) × AgentStrategy F64),
  cfg.strategyType = "adaptive" ∧ newFromConfig id cfg d = .ok a ∧ w n = a ∧
  (ops.foldl Population.step w n).strategy.propose now cur goal (ops.foldl Population.step w n).context = .ok r ∧ r.1.1.type = "phase_nudge"

/-- **C150, adaptive agents do not adapt (partial).** An agent built with the adaptive strategy always locks its frequency, with the rate one half, in every
state of every run. Missing: the claim, which is false. -/
theorem C150_adaptive_partial (id : String) (cfg : AgentConfig F64) (d : Draws) (hc : cfg.strategyType = "adaptive") (w : Population) (n : ℕ)
    (hb : newFromConfig id cfg d = .ok (w n)) (ops : List (ℕ × AgentOp)) (now : ℤ) (cur goal : State F64) :
    (ops.foldl Population.step w n).strategy.propose now cur goal (ops.foldl Population.step w n).context =
      .ok (frequencyLockPropose 0.5 cur goal (ops.foldl Population.step w n).context, (w n).strategy) := by
  obtain ⟨b1, b2⟩ := built_strategy id cfg d _ hb
  have hst : (w n).strategy = .adaptive [.phaseNudge 0.3, .frequencyLock 0.5] := by
    unfold createStrategy at b1
    rw [hc, if_neg (by decide +kernel), if_neg (by decide +kernel), if_neg (by decide +kernel), if_pos rfl] at b1
    exact (Option.some.inj b1).symm
  obtain ⟨⟨l', e, hq⟩, hs⟩ := adaptive_run (fun l' => l' = [.phaseNudge 0.3, .frequencyLock 0.5])
    (by
      rintro l' i s now cur goal ctx rfl hi hget
      rcases hi with rfl | rfl
      · obtain rfl : Strat.frequencyLock 0.5 = s := by simpa using hget
        exact ⟨by simp, rfl⟩
      · simp at hget)
    (fun l' hq => by subst hq; simp) ops w n ⟨⟨_, hst, rfl⟩, Or.inl (by rw [b2]; rfl)⟩
  subst hq
  obtain ⟨i, s, hi, hget, hp⟩ := adaptive_pick [Strat.phaseNudge 0.3, Strat.frequencyLock 0.5] now cur goal
    (ops.foldl Population.step w n).context hs.low (le_refl 2)
  rw [e, hp, hst]
  rcases hi with rfl | rfl
  · obtain rfl : Strat.frequencyLock 0.5 = s := by simpa using hget
    rfl
  · simp at hget

/-- The claim is false. -/
theorem C150_refuted : ¬ C150_claim := by
  rintro ⟨id, cfg, d, a, w, n, ops, now, cur, goal, r, hc, hb, rfl, hp, ht⟩
  rw [C150_adaptive_partial id cfg d hc w n hb] at hp
  cases hp
  revert ht
  change "frequency_lock" ≠ "phase_nudge"
  decide +kernel

/-- Adaptive agents can be built. -/
example : ∃ a, newFromConfig "a" { (defaultAgentConfig : AgentConfig F64) with strategyType := "adaptive" } ⟨0, 0, 0, 0, 0, 0, 0⟩ = .ok a ∧
    a.strategy = .adaptive [.phaseNudge 0.3, .frequencyLock 0.5] := by
  set cfg : AgentConfig F64 := { (defaultAgentConfig : AgentConfig F64) with strategyType := "adaptive" } with hcfg
  have hst : ∀ now, createStrategy cfg now = some (.adaptive [.phaseNudge 0.3, .frequencyLock 0.5]) := by
    intro now
    unfold createStrategy
    rw [show cfg.strategyType = "adaptive" from rfl, if_neg (by decide +kernel), if_neg (by decide +kernel), if_neg (by decide +kernel), if_pos rfl]
  have hex : ∃ a, newFromConfig "a" cfg ⟨0, 0, 0, 0, 0, 0, 0⟩ = .ok a := by
    unfold newFromConfig
    have e1 : cfg.decisionMakerType = "simple" := rfl
    have e2 : cfg.goalManagerType = "weighted" := rfl
    have e3 : cfg.resourceManagerType = "token" := rfl
    rw [if_neg (not_not.2 (Or.inr (Or.inl e1))), if_neg (not_not.2 (Or.inr e2)), hst]
    unfold createResourceManager
    rw [if_pos (Or.inr e3)]
    exact ⟨_, rfl⟩
  obtain ⟨a, ha⟩ := hex
  refine ⟨a, ha, ?_⟩
  have := (built_strategy _ _ _ _ ha).1
  rw [hst] at this
  exact (Option.some.inj this).symm

/-! ### The threshold of the energy-aware strategy -/

/-- Two agents that are alike but for the threshold of an energy-aware strategy. -/
def Spec.AlikeButThreshold (a b : Agent F64) : Prop :=
  a = b ∨ ∃ t u : F64, a.strategy = .basic (.energyAware t) ∧ b = { a with strategy := .basic (.energyAware u) }

theorem alike_step (w v : Population) (a b : Agent F64) (hw : ∀ n, (w n).state.phase = (v n).state.phase) (h : AlikeButThreshold a b) (op : AgentOp) :
    AlikeButThreshold (agentStep w a op) (agentStep v b op) := by
  have hf : (fun n => (w n).state.phase) = fun n => (v n).state.phase := funext hw
  rcases h with rfl | ⟨t, u, ha, rfl⟩
  · left; cases op <;> first | rfl | (simp only [agentStep, hf])
  · right
    refine ⟨t, u, ?_⟩
    cases op with
    | setPhase x => exact ⟨ha, rfl⟩
    | setFrequency f => exact ⟨ha, rfl⟩
    | setEnergy x => exact ⟨ha, rfl⟩
    | setLocalGoal x => exact ⟨ha, rfl⟩
    | setInfluence x => exact ⟨ha, rfl⟩
    | setStubbornness x => exact ⟨ha, rfl⟩
    | connect id o =>
      simp only [agentStep, Agent.connectTo]
      split_ifs <;> (try split) <;> exact ⟨ha, rfl⟩
    | disconnect id =>
      simp only [agentStep, Agent.disconnectFrom]
      split_ifs <;> exact ⟨ha, rfl⟩
    | updateContext =>
      simp only [agentStep, hf]
      have hn : ({ a with strategy := .basic (.energyAware u) } : Agent F64).neighborList = a.neighborList := rfl
      unfold Agent.updateContext
      dsimp only
      rw [hn]
      split_ifs <;> exact ⟨ha, rfl⟩
    | propose now goal d1 d2 =>
      simp only [agentStep, hf]
      unfold Agent.proposeAdjustment
      dsimp only
      split_ifs
      · exact ⟨ha, rfl⟩
      · rw [ha]; exact ⟨rfl, rfl⟩
    | apply act =>
      simp only [agentStep, Agent.applyAction]
      split_ifs <;> (try split) <;> exact ⟨ha, rfl⟩

/-- **C150, the threshold.** The threshold of the energy-aware strategy has no effect: in two populations that differ in thresholds only, every agent is in the
same state after every run, and makes the same proposals. -/
theorem C150_threshold (ops : List (ℕ × AgentOp)) (w v : Population) (h : ∀ n, AlikeButThreshold (w n) (v n)) (n : ℕ) :
    (ops.foldl Population.step w n).state = (ops.foldl Population.step v n).state ∧
    (ops.foldl Population.step w n).context = (ops.foldl Population.step v n).context ∧
    ∀ (f : ℕ → F64) (now : ℤ) (goal : State F64) (d1 d2 : F64),
      (∃ r r', (ops.foldl Population.step w n).proposeAdjustment f now goal d1 d2 = .ok r ∧
        (ops.foldl Population.step v n).proposeAdjustment f now goal d1 d2 = .ok r' ∧ r.1 = r'.1) ∨
      (ops.foldl Population.step w n).proposeAdjustment f now goal d1 d2 = .panic ∧
        (ops.foldl Population.step v n).proposeAdjustment f now goal d1 d2 = .panic := by
  have key : AlikeButThreshold (ops.foldl Population.step w n) (ops.foldl Population.step v n) := by
    induction ops generalizing w v with
    | nil => exact h n
    | cons op ops ih =>
      refine ih _ _ fun m => ?_
      have hp : ∀ k, (w k).state.phase = (v k).state.phase := by
        intro k
        rcases h k with e | ⟨t, u, -, e⟩ <;> rw [e]
      unfold Population.step
      split_ifs with hm
      · exact alike_step w v _ _ hp (h m) _
      · exact h m
  rcases key with e | ⟨t, u, ha, e⟩
  · rw [e]
    refine ⟨rfl, rfl, fun f now goal d1 d2 => ?_⟩
    cases (ops.foldl Population.step v n).proposeAdjustment f now goal d1 d2 with
    | ok r => exact Or.inl ⟨r, r, rfl, rfl, rfl⟩
    | panic => exact Or.inr ⟨rfl, rfl⟩
  · rw [e]
    refine ⟨rfl, rfl, fun f now goal d1 d2 => Or.inl ?_⟩
    unfold Agent.proposeAdjustment
    dsimp only
    split_ifs
    · exact ⟨_, _, rfl, rfl, rfl⟩
    · rw [ha]; exact ⟨_, _, rfl, rfl, rfl⟩

end

/-- Two agents that differ in their thresholds. -/
example [Rounding] [LibM] (a : Agent F64) : AlikeButThreshold { a with strategy := .basic (.energyAware 0) } { a with strategy := .basic (.energyAware 50.0) } :=
  Or.inr ⟨0, 50.0, rfl, rfl⟩

/-! ### The rate -/

/-- The full claim, kept in view: an agent built with a phase nudge never proposes to move farther than to its goal. -/
def C150_rate_claim : Prop := ∀ (cfg : AgentConfig ℝ) (now : ℤ) (s : AgentStrategy ℝ) (cur goal : State ℝ) (ctx : Context ℝ)
    (r : (Action ℝ × ℝ) × AgentStrategy ℝ), cfg.strategyType = "phase_nudge" → createStrategy cfg now = some s →
  s.propose now cur goal ctx = .ok r → |r.1.1.value| ≤ |phaseDifference goal.phase cur.phase|

/-- **C150, the rate (partial).** It never does if and only if the configured rate is between -1 and 1; `NewFromConfig` takes it as it is.
Missing: the claim for every configuration, which is false. -/
theorem C150_rate_partial (cfg : AgentConfig ℝ) (now : ℤ) (s : AgentStrategy ℝ) (hc : cfg.strategyType = "phase_nudge") (hs : createStrategy cfg now = some s) :
    (∀ (cur goal : State ℝ) (ctx : Context ℝ) (r : (Action ℝ × ℝ) × AgentStrategy ℝ), s.propose now cur goal ctx = .ok r →
      |r.1.1.value| ≤ |phaseDifference goal.phase cur.phase|) ↔ |cfg.strategyRate| ≤ 1 := by
  unfold createStrategy at hs
  rw [if_pos (Or.inr hc)] at hs
  obtain rfl := (Option.some.inj hs).symm
  have hv : ∀ (cur goal : State ℝ) (ctx : Context ℝ) (r : (Action ℝ × ℝ) × AgentStrategy ℝ),
      (AgentStrategy.basic (.phaseNudge (if cfg.strategyRate == 0 then 0.7 else cfg.strategyRate))).propose now cur goal ctx = .ok r →
      r.1.1.value = phaseDifference goal.phase cur.phase * (if cfg.strategyRate == 0 then 0.7 else cfg.strategyRate) := by
    intro cur goal ctx r h
    cases h
    rfl
  constructor
  · intro h
    have h3 := h ⟨0, 0, 0⟩ ⟨3, 0, 0⟩ Context.zero _ rfl
    rw [hv _ _ _ _ rfl, phaseDifference_three, abs_mul] at h3
    by_cases h0 : cfg.strategyRate = 0
    · rw [h0]; norm_num
    · rw [if_neg (by simpa using h0)] at h3
      rw [abs_of_pos (by norm_num : (0 : ℝ) < 3)] at h3
      linarith
  · intro h cur goal ctx r hr
    rw [hv _ _ _ _ hr, abs_mul]
    refine mul_le_of_le_one_right (abs_nonneg _) ?_
    split_ifs
    · rw [abs_of_pos (by norm_num)]; norm_num
    · exact h

/-- The claim is false: nothing stops a configuration with the rate 5, whose proposals are five times too long. -/
theorem C150_rate_refuted : ¬ C150_rate_claim := by
  intro h
  have hs : ∃ s, createStrategy { (defaultAgentConfig : AgentConfig ℝ) with strategyType := "phase_nudge", strategyRate := 5 } 0 = some s := by
    unfold createStrategy
    rw [if_pos (Or.inr rfl)]
    exact ⟨_, rfl⟩
  obtain ⟨s, hs⟩ := hs
  have := (C150_rate_partial _ 0 s rfl hs).1 fun cur goal ctx r => h _ 0 s cur goal ctx r rfl hs
  change |(5 : ℝ)| ≤ 1 at this
  norm_num at this

/-- The default configuration is within the bound. -/
example : |(defaultAgentConfig : AgentConfig ℝ).strategyRate| ≤ 1 := by
  change |(0.3 : ℝ)| ≤ 1
  rw [abs_of_pos] <;> norm_num

end Verif
