import Verif.Props.AgentStuck

/-!
# C125: how far an agent moves in one step, for every built-in strategy
-/

set_option autoImplicit false
set_option linter.unusedSectionVars false

namespace Verif
open GoMath Spec

/-- A chosen proposal scores at least as much as staying put. -/
theorem chosen_score (s : State ℝ) (p : Action ℝ) (b : ℝ) (hp : 0 ≤ ratio p) (act : Action ℝ) (acc : ℝ)
    (h : decide' s [p, ⟨"maintain", 0, 0.1, b⟩] = (act, acc)) :
    (act = p ∨ act = ⟨"maintain", 0, 0.1, b⟩) ∧ (b * 10 ≤ ratio act) := by
  have hm := maxDouble_pos
  obtain ⟨-, h2, h3, -⟩ := C11_decide_optimal s [p, ⟨"maintain", 0, 0.1, b⟩] ⟨p, by simp, by linarith⟩
  rw [h] at h2 h3
  dsimp only at h2 h3
  refine ⟨by simpa using h2, ?_⟩
  have := h3 ⟨"maintain", 0, 0.1, b⟩ (by simp)
  have e : ratio ⟨"maintain", 0, 0.1, b⟩ = b * 10 := by
    show b / max 0.1 (1 / 10) = _
    norm_num
    ring
  rwa [e] at this

theorem ratio_ge {p : Action ℝ} {k : ℝ} (hk : 0 ≤ k) (h : k ≤ ratio p) : k * p.cost ≤ p.benefit := by
  unfold ratio at h
  have hm : (0 : ℝ) < max p.cost (1 / 10) := lt_of_lt_of_le (by norm_num) (le_max_right _ _)
  rw [le_div_iff₀ hm] at h
  have := mul_le_mul_of_nonneg_left (le_max_left p.cost (1 / 10)) hk
  linarith

/-- Specification: the longest step each strategy takes with the given local coherence, for an agent that has looked
around. -/
noncomputable def Spec.longestStep (coh : ℝ) : Strat ℝ → ℝ
  | .phaseNudge _ => 3 / 20
  | .frequencyLock _ => 2 / 15 * coh
  | .energyAware _ => 0
  | .pulse _ => 1 / 10

theorem step_bound (s : Strat ℝ) (now : ℤ) (cur tgt : State ℝ) (ctx : Context ℝ)
    (h0 : 0 ≤ ctx.localCoherence) (hst : ctx.stability = 1 / 2) (hpr : ctx.progress = 0) (act : Action ℝ) (acc : ℝ)
    (h : decide' cur [(s.propose now cur tgt ctx).1.1, ⟨"maintain", 0, 0.1, ctx.stability⟩] = (act, acc)) :
    |act.value| ≤ longestStep ctx.localCoherence s := by
  have hp := Real.pi_pos
  have hpos : ∀ c : ℝ, (0 : ℝ) < max c (1 / 10) := fun c => lt_of_lt_of_le (by norm_num) (le_max_right _ _)
  have hlong : 0 ≤ longestStep ctx.localCoherence s := by cases s <;> simp only [longestStep] <;> positivity
  have hle := abs_phaseDifference_le tgt.phase cur.phase
  have hfrac : 0 ≤ 1 - |phaseDifference tgt.phase cur.phase| / Real.pi := by
    have : |phaseDifference tgt.phase cur.phase| / Real.pi ≤ 1 := (div_le_one hp).2 hle
    linarith
  have hben : 0 ≤ (s.propose now cur tgt ctx).1.1.benefit := by
    cases s with
    | phaseNudge r =>
      simp only [Strat.propose, phaseNudgePropose, GoMath.abs_real, GoMath.piMul_real]
      norm_num
      norm_num at hfrac
      exact hfrac
    | frequencyLock r =>
      simp only [Strat.propose, frequencyLockPropose]
      norm_num
      exact h0
    | energyAware t =>
      simp only [Strat.propose, energyAwarePropose]
      split_ifs <;> simp only [hst, hpr] <;> norm_num
    | pulse p =>
      simp only [Strat.propose, Pulse.propose]
      split_ifs <;> simp only [hst] <;> norm_num
  obtain ⟨c1, c2⟩ := chosen_score cur _ ctx.stability (div_nonneg hben (hpos _).le) act acc h
  rw [hst] at c2
  have c3 := ratio_ge (by norm_num : (0 : ℝ) ≤ 1 / 2 * 10) c2
  rcases c1 with rfl | rfl
  · cases s with
    | phaseNudge r =>
      simp only [Strat.propose, phaseNudgePropose, GoMath.abs_real, GoMath.piMul_real, longestStep] at c3 ⊢
      have : 0 ≤ |phaseDifference tgt.phase cur.phase| / Real.pi := by positivity
      norm_num at c3
      rw [abs_mul]
      linarith
    | frequencyLock r =>
      simp only [Strat.propose, frequencyLockPropose, GoMath.abs_real, longestStep] at c3 ⊢
      norm_num at c3
      rw [abs_mul]
      linarith
    | energyAware t =>
      simp only [Strat.propose, energyAwarePropose, GoMath.abs_real, longestStep] at c2 ⊢
      split_ifs at c2 ⊢ with hh
      · simp
      · exfalso
        unfold ratio at c2
        rw [hpr] at c2
        norm_num at c2
    | pulse p =>
      simp only [Strat.propose, Pulse.propose, GoMath.abs_real, longestStep] at c3 ⊢
      split_ifs at c3 ⊢ with hh
      · simp
      · norm_num at c3
        rw [abs_mul]
        linarith
  · simpa using hlong

/-- **C125.** An agent with one of the four plain strategies that has looked around never moves farther in one step than
the strategy's longest step: 0.15 radians for a nudge, 2/15 of the local coherence for a frequency lock, 0.1 for a pulse,
and not at all for the energy-aware strategy. Whatever its parameters, the distances, the time and the random numbers. -/
theorem C125_plain (a : Agent ℝ) (phaseOf : ℕ → ℝ) (now : ℤ) (goal : State ℝ) (d1 d2 : ℝ) (s : Strat ℝ)
    (hs : a.strategy = .basic s) (h0 : 0 ≤ a.context.localCoherence)
    (hst : a.context.stability = 1 / 2) (hpr : a.context.progress = 0) (act : Action ℝ) (b : Agent ℝ)
    (h : a.proposeAdjustment phaseOf now goal d1 d2 = .ok ((act, true), b)) :
    ∃ δ, |δ| ≤ longestStep a.context.localCoherence s ∧ SameAngle (b.applyAction act).2.state.phase (a.state.phase + δ) := by
  obtain ⟨-, p, conf, s', acc, e1, e2, -, -⟩ := (C38_acceptance a phaseOf now goal d1 d2 act).1 ⟨b, h⟩
  obtain ⟨act', ok, s'', f1, f2, -⟩ := C38_accepted_applies a phaseOf now goal d1 d2
  rw [h] at f1
  simp only [Outcome.ok.injEq, Prod.mk.injEq] at f1
  obtain ⟨⟨rfl, rfl⟩, rfl⟩ := f1
  rw [hs] at e1
  simp only [AgentStrategy.propose, Outcome.ok.injEq, Prod.mk.injEq] at e1
  have hp : p = (s.propose now
      { phase := a.state.phase, frequency := a.state.frequency, coherence := a.localCoherence phaseOf }
      { phase := a.state.localGoal, frequency := a.state.frequency, coherence := goal.coherence } a.context).1.1 := by
    rw [e1.1]
  subst hp
  have hb := step_bound s now _ _ a.context h0 hst hpr act acc e2
  obtain ⟨-, -, g1, g2⟩ := C36_success _ _ _ (f2 rfl)
  by_cases ht : act.type = "maintain"
  · refine ⟨0, ?_, ?_⟩
    · have := abs_nonneg act.value
      simpa using this.trans hb
    · rw [g1 ht, add_zero]; exact SameAngle.refl _
  · exact ⟨act.value, hb, (g2 ht).1⟩

/-- **C125, energy-aware agents.** An agent with the energy-aware strategy that has looked around never moves. -/
theorem C125_energy_aware_still (a : Agent ℝ) (f : ℕ → ℝ) (phaseOf : ℕ → ℝ) (now : ℤ) (goal : State ℝ) (d1 d2 t : ℝ)
    (hs : a.strategy = .basic (.energyAware t)) (act : Action ℝ) (b : Agent ℝ)
    (h : (a.updateContext f).proposeAdjustment phaseOf now goal d1 d2 = .ok ((act, true), b)) :
    SameAngle (b.applyAction act).2.state.phase a.state.phase := by
  obtain ⟨f1, f2, -, -⟩ := updateContext_frame a f
  obtain ⟨δ, h1, h2⟩ := C125_plain (a.updateContext f) phaseOf now goal d1 d2 (.energyAware t) (by rw [f2, hs])
    (by rw [(C39_local_coherence a f).2, ← C03_coherence_eq_orderParameter]; exact (C03_coherence_range _).1)
    (C124_context a f).1 (C124_context a f).2 act b h
  have : δ = 0 := abs_nonpos_iff.1 h1
  rw [this, add_zero, f1] at h2
  exact h2

/-- **C125, all strategies.** Whatever the built-in strategy, also an adaptive combination: an agent that has looked
around moves at most 0.15 radians (8.6 degrees) in one step. -/
theorem C125_small_steps (a : Agent ℝ) (f phaseOf : ℕ → ℝ) (now : ℤ) (goal : State ℝ) (d1 d2 : ℝ) (act : Action ℝ) (b : Agent ℝ)
    (h : (a.updateContext f).proposeAdjustment phaseOf now goal d1 d2 = .ok ((act, true), b)) :
    ∃ δ, |δ| ≤ 0.15 ∧ SameAngle (b.applyAction act).2.state.phase (a.state.phase + δ) := by
  obtain ⟨u1, u2, -, -⟩ := updateContext_frame a f
  have hcoh : 0 ≤ (a.updateContext f).context.localCoherence ∧ (a.updateContext f).context.localCoherence ≤ 1 := by
    rw [(C39_local_coherence a f).2, ← C03_coherence_eq_orderParameter]; exact C03_coherence_range _
  obtain ⟨st1, st2⟩ := C124_context a f
  generalize hw : a.updateContext f = w at *
  rw [← u1]
  clear u1 u2
  have hlong : ∀ s, longestStep w.context.localCoherence s ≤ 0.15 := by
    intro s
    cases s <;> simp only [longestStep] <;> norm_num
    linarith
  obtain ⟨-, p, conf, s', acc, e1, e2, -, -⟩ := (C38_acceptance w phaseOf now goal d1 d2 act).1 ⟨b, h⟩
  obtain ⟨act', ok, s'', f1, f2, -⟩ := C38_accepted_applies w phaseOf now goal d1 d2
  rw [h] at f1
  simp only [Outcome.ok.injEq, Prod.mk.injEq] at f1
  obtain ⟨⟨rfl, rfl⟩, rfl⟩ := f1
  obtain ⟨-, -, g1, g2⟩ := C36_success _ _ _ (f2 rfl)
  have hval : |act.value| ≤ 0.15 := by
    cases hst : w.strategy with
    | basic s =>
      rw [hst] at e1
      simp only [AgentStrategy.propose, Outcome.ok.injEq, Prod.mk.injEq] at e1
      have hp : p = (s.propose now
          { phase := w.state.phase, frequency := w.state.frequency, coherence := w.localCoherence phaseOf }
          { phase := w.state.localGoal, frequency := w.state.frequency, coherence := goal.coherence } w.context).1.1 := by
        rw [e1.1]
      subst hp
      exact (step_bound s now _ _ w.context hcoh.1 st1 st2 act acc e2).trans (hlong s)
    | adaptive l =>
      rw [hst] at e1
      simp only [AgentStrategy.propose] at e1
      unfold adaptivePropose at e1
      by_cases hl : l.length = 0
      · rw [if_pos (by simpa using hl)] at e1
        simp only [Outcome.ok.injEq, Prod.mk.injEq] at e1
        obtain ⟨⟨rfl, -⟩, -⟩ := e1
        obtain ⟨c1, -⟩ := chosen_score _ _ _ (by simp [ratio, Action.maintain0]) act acc e2
        rcases c1 with rfl | rfl
        · simp only [Action.maintain0, abs_zero]; norm_num
        · simp only [abs_zero]; norm_num
      · rw [if_neg (by simpa using hl)] at e1
        dsimp only at e1
        split_ifs at e1
        all_goals
          split at e1
          · rename_i x _
            simp only [Outcome.ok.injEq, Prod.mk.injEq] at e1
            have hp : p = (x.1.propose now
                { phase := w.state.phase, frequency := w.state.frequency, coherence := w.localCoherence phaseOf }
                { phase := w.state.localGoal, frequency := w.state.frequency, coherence := goal.coherence } w.context).1.1 := by
              rw [e1.1]
            subst hp
            exact (step_bound x.1 now _ _ w.context hcoh.1 st1 st2 act acc e2).trans (hlong _)
          · cases e1
  by_cases ht : act.type = "maintain"
  · exact ⟨0, by norm_num, by rw [g1 ht, add_zero]; exact SameAngle.refl _⟩
  · exact ⟨act.value, hval, (g2 ht).1⟩

/-- Acceptance does occur: the first of the two agents at 0 and 1, after looking around, accepts to stay put. -/
example : ∃ act b,
    ((twoAgents 0).updateContext fun _ => 1).proposeAdjustment (fun _ => 1) 0 ⟨0, 1, 1⟩ 0.5 0 = .ok ((act, true), b) := by
  obtain ⟨u1, u2, -, -⟩ := updateContext_frame (twoAgents 0) fun _ => 1
  refine ⟨_, _, (nudge_propose ((twoAgents 0).updateContext fun _ => 1) _ 0 ⟨0, 1, 1⟩ 0.5 0 0.3 (by norm_num)
    (by rw [u2]; rfl) (C124_context _ _).1 ?_ _ _).2 ⟨rfl, ?_, lt_of_lt_of_le (by norm_num) (le_max_left _ _), rfl⟩⟩
  · have : ((twoAgents 0).updateContext fun _ => 1).behavior.stubbornness = 0.2 := by
      unfold Agent.updateContext; dsimp only; split_ifs <;> rfl
    rw [this]; norm_num
  · have he : ((twoAgents 0).updateContext fun _ => 1).state.energy = 100.0 := by
      unfold Agent.updateContext; dsimp only; split_ifs <;> rfl
    have hg := C39_unanimous_goal (twoAgents 0) (fun _ => 1) 1 (by rw [twoAgents_lists.1]; simp) (fun _ _ => SameAngle.refl 1)
    have hp := Real.pi_gt_three
    rw [if_neg, he]
    · norm_num
    · rw [u1]
      have hd : IsCircDist (1 : ℝ) 0 1 := by
        simpa using isCircDist_of_le (a := 1) (b := 0) (m := 1) ⟨0, by norm_num⟩ (by norm_num; linarith)
      have h0 : (twoAgents 0).state.phase = 0 := by simp [twoAgents]
      rw [h0]
      exact not_reach_default (far_difference (circDist_congr hg hd) (by norm_num))

end Verif
