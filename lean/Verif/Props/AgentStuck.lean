import Verif.Props.AgentArc
import Verif.Props.Completion

/-!
# C124: which agents move at all

After an agent has looked at its neighbours its stability is always 1/2, so that staying put scores `0.5 / 0.1 = 5`. A
nudge towards the goal scores less unless the agent is close to its goal.
-/

set_option autoImplicit false
set_option linter.unusedSectionVars false

namespace Verif
open GoMath Spec

/-- Specification: how far from its goal a nudging agent may be to prefer the nudge over staying put. -/
def Spec.Reach (r x : ℝ) : Prop := x * (10 * r + 1.5 / Real.pi) ≤ 1.5 ∧ x ≤ 2 * Real.pi / 3

noncomputable instance (r x : ℝ) : Decidable (Reach r x) := Classical.dec _

/-- **C124, the figures.** After looking around the stability is one half and the progress 0, whatever the neighbours do. -/
theorem C124_context (a : Agent ℝ) (phaseOf : ℕ → ℝ) :
    (a.updateContext phaseOf).context.stability = 1 / 2 ∧ (a.updateContext phaseOf).context.progress = 0 := by
  unfold Agent.updateContext
  dsimp only
  by_cases h : a.neighborList.length = 0
  · rw [if_pos h]; norm_num
  · rw [if_neg h]; norm_num

/-- The nudge scores at least 5 exactly within reach. -/
theorem nudge_score (r x : ℝ) : 5 ≤ (1 - x / Real.pi) * 1.5 / max (x * r * 2) (1 / 10) ↔ Reach r x := by
  have hp := Real.pi_pos
  have hm : (0 : ℝ) < max (x * r * 2) (1 / 10) := lt_of_lt_of_le (by norm_num) (le_max_right _ _)
  rw [le_div_iff₀ hm, mul_max_of_nonneg _ _ (by norm_num : (0 : ℝ) ≤ 5), max_le_iff]
  unfold Reach
  have e : (1 - x / Real.pi) * 1.5 = 1.5 - x * (1.5 / Real.pi) := by ring
  rw [e]
  constructor
  · rintro ⟨h1, h2⟩
    refine ⟨by linarith, ?_⟩
    have : x * (1.5 / Real.pi) ≤ 1 := by norm_num at h2 ⊢; linarith
    rw [← mul_div_assoc, div_le_one hp] at this
    norm_num at this
    linarith
  · rintro ⟨h1, h2⟩
    refine ⟨by linarith, ?_⟩
    have : x * (1.5 / Real.pi) ≤ 1 := by
      rw [← mul_div_assoc, div_le_one hp]
      norm_num
      linarith
    norm_num at this ⊢
    linarith

/-- The choice between a nudge and staying put with stability one half. -/
theorem nudge_choice (s : State ℝ) (v b x r : ℝ) (hxp : x ≤ Real.pi) (hb : b = (1 - x / Real.pi) * 1.5)
    (c : ℝ) (hc : c = x * r * 2) :
    (decide' s [⟨"phase_nudge", v, c, b⟩, ⟨"maintain", 0, 0.1, 1 / 2⟩]).1 =
      (if Reach r x then ⟨"phase_nudge", v, c, b⟩ else ⟨"maintain", 0, 0.1, 1 / 2⟩) ∧
    (decide' s [⟨"phase_nudge", v, c, b⟩, ⟨"maintain", 0, 0.1, 1 / 2⟩]).2 = 1 := by
  have hp := Real.pi_pos
  have hm : (0 : ℝ) < max (x * r * 2) (1 / 10) := lt_of_lt_of_le (by norm_num) (le_max_right _ _)
  have h1 : actionScore (⟨"phase_nudge", v, c, b⟩ : Action ℝ) = (1 - x / Real.pi) * 1.5 / max (x * r * 2) (1 / 10) := by
    rw [actionScore_real, hb, hc]; rfl
  have h0 : 0 ≤ (1 - x / Real.pi) * 1.5 / max (x * r * 2) (1 / 10) := by
    refine div_nonneg (mul_nonneg ?_ (by norm_num)) hm.le
    have : x / Real.pi ≤ 1 := (div_le_one hp).2 hxp
    linarith
  have h2 : actionScore (⟨"maintain", 0, 0.1, 1 / 2⟩ : Action ℝ) = 5 := by
    rw [actionScore_real]
    show (1 / 2 : ℝ) / max 0.1 (1 / 10) = 5
    norm_num
  have hmax := maxDouble_pos
  unfold decide'
  simp only [List.foldl_cons, List.foldl_nil]
  rw [if_pos (show actionScore (⟨"phase_nudge", v, c, b⟩ : Action ℝ) > -maxFloat by rw [h1]; show -maxDouble < _; linarith)]
  dsimp only
  rw [h2, h1]
  have hsc := nudge_score r x
  by_cases hR : Reach r x
  · rw [if_pos hR, if_neg (not_lt.2 (hsc.2 hR))]
    refine ⟨rfl, ?_⟩
    have := hsc.2 hR
    simp only [GoMath.fmin_real, GoMath.fmax_real]
    apply min_eq_right
    apply le_max_of_le_left
    norm_num at this ⊢
    linarith
  · have : (1 - x / Real.pi) * 1.5 / max (x * r * 2) (1 / 10) < 5 := not_le.1 fun h => hR (hsc.1 h)
    rw [if_neg hR, if_pos this]
    refine ⟨rfl, ?_⟩
    simp only [GoMath.fmin_real, GoMath.fmax_real]
    norm_num

/-- What a nudging agent with stability one half decides. -/
theorem nudge_propose (a : Agent ℝ) (phaseOf : ℕ → ℝ) (now : ℤ) (goal : State ℝ) (d1 d2 r : ℝ) (hr : 0 ≤ r)
    (hs : a.strategy = .basic (.phaseNudge r)) (hst : a.context.stability = 1 / 2)
    (h1 : ¬ d1 < a.behavior.stubbornness) (act : Action ℝ) (b : Agent ℝ) :
    a.proposeAdjustment phaseOf now goal d1 d2 = .ok ((act, true), b) ↔
      b = a ∧ act.cost ≤ a.state.energy ∧ d2 < max 0.5 (1 - a.context.localCoherence) ∧
      act = if Reach r |phaseDifference a.state.localGoal a.state.phase| then
          ⟨"phase_nudge", phaseDifference a.state.localGoal a.state.phase * r,
            |phaseDifference a.state.localGoal a.state.phase * r| * 2.0,
            (1 - |phaseDifference a.state.localGoal a.state.phase| / Real.pi) * 1.5⟩
        else ⟨"maintain", 0, 0.1, 1 / 2⟩ := by
  set D := phaseDifference a.state.localGoal a.state.phase with hD
  have hch := nudge_choice
    { phase := a.state.phase, frequency := a.state.frequency, coherence := a.localCoherence phaseOf }
    (D * r) _ |D| r (abs_phaseDifference_le _ _) rfl (|D * r| * 2.0)
    (by rw [abs_mul, abs_of_nonneg hr]; norm_num)
  unfold Agent.proposeAdjustment
  rw [if_neg h1, hs]
  simp only [AgentStrategy.propose, Strat.propose, phaseNudgePropose, ← hD, GoMath.abs_real, GoMath.fmax_real,
    GoMath.piMul_real]
  simp only [judgeProposal, hst]
  have e1 : ((1 : ℚ) : ℝ) * Real.pi = Real.pi := by norm_num
  rw [e1] at *
  generalize hres : decide' (α := ℝ) _ _ = res at hch ⊢
  obtain ⟨c1, c2⟩ := hch
  rw [c2, mul_one, ← c1]
  have hb' : ({ a with strategy := .basic (.phaseNudge r) } : Agent ℝ) = a := by rw [← hs]
  constructor
  · intro h
    injection h with h
    injection h with h hb
    split_ifs at h with h2 h3
    · cases h
    · injection h with h _
      exact ⟨by rw [← hb, ← hs], by rw [← h]; exact not_lt.1 h2, h3, h.symm⟩
    · cases h
  · rintro ⟨rfl, h2, h3, rfl⟩
    rw [if_neg (not_lt.2 h2), if_pos h3, ← hs]

/-! ## Single agents -/

/-- **C124, out of reach.** An agent that has looked around and is out of reach of its goal does not move: whatever the
time, the global goal and the random numbers, the only action it ever accepts is to stay put. -/
theorem C124_out_of_reach (a : Agent ℝ) (phaseOf : ℕ → ℝ) (now : ℤ) (goal : State ℝ) (d1 d2 r : ℝ) (hr : 0 ≤ r)
    (hs : a.strategy = .basic (.phaseNudge r)) (hst : a.context.stability = 1 / 2)
    (hR : ¬ Reach r |phaseDifference a.state.localGoal a.state.phase|) (act : Action ℝ) (b : Agent ℝ)
    (h : a.proposeAdjustment phaseOf now goal d1 d2 = .ok ((act, true), b)) :
    act.type = "maintain" ∧ (b.applyAction act).2.state.phase = a.state.phase := by
  by_cases h1 : d1 < a.behavior.stubbornness
  · unfold Agent.proposeAdjustment at h
    rw [if_pos h1] at h
    cases h
  · obtain ⟨rfl, h2, -, h4⟩ := (nudge_propose a phaseOf now goal d1 d2 r hr hs hst h1 act b).1 h
    rw [if_neg hR] at h4
    have ht : act.type = "maintain" := by rw [h4]
    refine ⟨ht, ?_⟩
    have hok := (C36_outcome b act).2.2 (not_lt.2 h2) (by rw [ht]; simp [knownTypes])
    exact (C36_success b act _ hok).2.2.1 ht

/-- The full claim, kept in view: an agent with the default strategy that has looked around, is not fully stubborn, has
energy for any nudge and is not at its goal can move (for some random numbers). -/
def C124_claim : Prop := ∀ (a : Agent ℝ) (phaseOf : ℕ → ℝ), a.strategy = .basic (.phaseNudge 0.3) →
  a.context.stability = 1 / 2 → a.behavior.stubbornness < 1 → 2 ≤ a.state.energy →
  ¬ SameAngle a.state.phase a.state.localGoal →
  ∃ now goal d1 d2 act b, 0 ≤ d1 ∧ d1 < 1 ∧ 0 ≤ d2 ∧ d2 < 1 ∧
    a.proposeAdjustment phaseOf now goal d1 d2 = .ok ((act, true), b) ∧
    ¬ SameAngle (b.applyAction act).2.state.phase a.state.phase

/-- **C124 (partial).** The exact condition: an agent with a nudging strategy that has looked around and is at the
distance `d > 0` from its goal can move, for some random numbers, exactly if it is not fully stubborn, has the energy, and
is within reach of its goal. With the default rate 0.3 the reach is about 0.43 radians. Missing: agents farther away, which
do not move at all. -/
theorem C124_moves_iff_partial (a : Agent ℝ) (phaseOf : ℕ → ℝ) (r d : ℝ) (hr : 0 < r) (hr1 : r ≤ 1)
    (hs : a.strategy = .basic (.phaseNudge r)) (hst : a.context.stability = 1 / 2)
    (hsp : ¬ SpecialPair a.state.localGoal a.state.phase) (hd : IsCircDist a.state.localGoal a.state.phase d) (hpos : 0 < d) :
    (∃ now goal d1 d2 act b, 0 ≤ d1 ∧ d1 < 1 ∧ 0 ≤ d2 ∧ d2 < 1 ∧
      a.proposeAdjustment phaseOf now goal d1 d2 = .ok ((act, true), b) ∧
      ¬ SameAngle (b.applyAction act).2.state.phase a.state.phase) ↔
    a.behavior.stubbornness < 1 ∧ Reach r d ∧ 2 * d * r ≤ a.state.energy := by
  have hdd : d = |phaseDifference a.state.localGoal a.state.phase| := circDist_unique hd (isCircDist_phaseDifference hsp)
  have hle := abs_phaseDifference_le a.state.localGoal a.state.phase
  have hp := Real.pi_pos
  have hcost : |phaseDifference a.state.localGoal a.state.phase * r| * 2.0 = 2 * d * r := by
    rw [abs_mul, abs_of_pos hr, ← hdd]; norm_num; ring
  constructor
  · rintro ⟨now, goal, d1, d2, act, b, -, h2, -, -, h5, h6⟩
    have h1 : ¬ d1 < a.behavior.stubbornness := fun h => by
      unfold Agent.proposeAdjustment at h5
      rw [if_pos h] at h5
      cases h5
    have hR : Reach r |phaseDifference a.state.localGoal a.state.phase| := by
      by_contra hR
      have := (C124_out_of_reach a phaseOf now goal d1 d2 r hr.le hs hst hR act b h5).2
      exact h6 (by rw [this]; exact SameAngle.refl _)
    obtain ⟨rfl, g2, -, g4⟩ := (nudge_propose a phaseOf now goal d1 d2 r hr.le hs hst h1 act b).1 h5
    rw [if_pos hR] at g4
    rw [g4] at g2
    dsimp only at g2
    rw [hcost] at g2
    exact ⟨by linarith, by rw [hdd]; exact hR, g2⟩
  · rintro ⟨h1, hR, h3⟩
    rw [hdd] at hR
    refine ⟨0, ⟨0, 0, 0⟩, max 0 a.behavior.stubbornness, 0,
      ⟨"phase_nudge", phaseDifference a.state.localGoal a.state.phase * r,
            |phaseDifference a.state.localGoal a.state.phase * r| * 2.0,
            (1 - |phaseDifference a.state.localGoal a.state.phase| / Real.pi) * 1.5⟩, a,
      le_max_left _ _, max_lt (by norm_num) h1, le_rfl, by norm_num, ?_, ?_⟩
    · rw [nudge_propose a phaseOf _ _ _ _ r hr.le hs hst (not_lt.2 (le_max_right _ _)), if_pos hR]
      refine ⟨rfl, by rw [hcost]; exact h3, lt_of_lt_of_le (by norm_num) (le_max_left _ _), rfl⟩
    · have hok := (C36_outcome a ⟨"phase_nudge", phaseDifference a.state.localGoal a.state.phase * r,
            |phaseDifference a.state.localGoal a.state.phase * r| * 2.0,
            (1 - |phaseDifference a.state.localGoal a.state.phase| / Real.pi) * 1.5⟩).2.2
        (not_lt.2 (by dsimp only; rw [hcost]; exact h3)) (by simp [knownTypes])
      have hsame := ((C36_success a _ _ hok).2.2.2 (by dsimp only; decide)).1
      intro hcon
      obtain ⟨k, hk⟩ := hsame.symm.trans hcon
      dsimp only at hk
      have hv : |phaseDifference a.state.localGoal a.state.phase * r| = |((k : ℤ) : ℝ)| * (2 * Real.pi) := by
        rw [← abs_of_pos (by positivity : 0 < 2 * Real.pi), ← abs_mul]
        congr 1; linarith
      rw [abs_mul, abs_of_pos hr, ← hdd] at hv
      have hkz : k ≠ 0 := by
        rintro rfl
        simp at hv
        rcases hv with h | h <;> linarith
      have : (1 : ℝ) ≤ |(k : ℝ)| := by exact_mod_cast Int.one_le_abs hkz
      rw [← hdd] at hle
      nlinarith

/-- The condition is met by an agent 0.2 radians from its goal, and missed by the agent one radian away. -/
example : Reach 0.3 0.2 ∧ ¬ Reach 0.3 1 := by
  have hp := Real.pi_gt_three
  refine ⟨⟨?_, by linarith⟩, ?_⟩
  · have : 1.5 / Real.pi ≤ 0.5 := by rw [div_le_iff₀ Real.pi_pos]; norm_num; linarith
    norm_num at this ⊢
    linarith
  · rintro ⟨h, -⟩
    have : 0 < 1.5 / Real.pi := by positivity
    norm_num at h
    linarith

/-- An accepted nudge shrinks the rotation to the goal by the factor `1 - r`. -/
theorem C124_accepted_step (a : Agent ℝ) (phaseOf : ℕ → ℝ) (now : ℤ) (goal : State ℝ) (d1 d2 r d : ℝ) (h0 : 0 ≤ r)
    (h1 : r ≤ 1) (hs : a.strategy = .basic (.phaseNudge r)) (hsp : ¬ SpecialPair a.state.localGoal a.state.phase)
    (hd : ShortestRotation a.state.phase a.state.localGoal d) (act : Action ℝ) (b : Agent ℝ)
    (h : a.proposeAdjustment phaseOf now goal d1 d2 = .ok ((act, true), b)) :
    (b.applyAction act).2.state.localGoal = a.state.localGoal ∧
    (act.type = "maintain" ∧ (b.applyAction act).2.state.phase = a.state.phase ∨
      act.type = "phase_nudge" ∧
        ShortestRotation (b.applyAction act).2.state.phase a.state.localGoal ((1 - r) * d)) := by
  obtain ⟨-, p, conf, s, acc, e1, e2, e3, -⟩ :=
    (C38_acceptance a phaseOf now goal d1 d2 act).1 ⟨b, h⟩
  obtain ⟨act', ok, s', f1, f2, -⟩ := C38_accepted_applies a phaseOf now goal d1 d2
  rw [h] at f1
  simp only [Outcome.ok.injEq, Prod.mk.injEq] at f1
  obtain ⟨⟨rfl, rfl⟩, rfl⟩ := f1
  have hok := f2 rfl
  obtain ⟨-, hfr⟩ := C36_success_frame _ _ _ hok
  obtain ⟨-, -, g1, g2⟩ := C36_success _ _ _ hok
  refine ⟨by rw [hfr], ?_⟩
  have hmem := decide_mem { phase := a.state.phase, frequency := a.state.frequency, coherence := a.localCoherence phaseOf }
    [p, ⟨"maintain", 0, 0.1, a.context.stability⟩] (by simp)
  rw [e2] at hmem
  rw [hs] at e1
  simp only [AgentStrategy.propose, Strat.propose, Outcome.ok.injEq, Prod.mk.injEq] at e1
  have hp : p = (phaseNudgePropose r { phase := a.state.phase, frequency := a.state.frequency, coherence := a.localCoherence phaseOf }
    { phase := a.state.localGoal, frequency := a.state.frequency, coherence := goal.coherence } a.context).1 := by
    rw [e1.1]
  rcases List.mem_cons.1 hmem with e | e
  · right
    dsimp only at e
    have ht : act.type = "phase_nudge" := by rw [e, hp]; rfl
    refine ⟨ht, ?_⟩
    obtain ⟨q1, q2, q3⟩ := g2 (by rw [ht]; decide)
    have hv : act.value = d * r := by
      rw [e, hp]
      show phaseDifference a.state.localGoal a.state.phase * r = _
      rw [difference_eq hsp hd]
    rw [hv] at q1
    have hw : ({ a with strategy := s' }.applyAction act).2.state.phase = wrapPhase (a.state.phase + d * r) :=
      SameAngle.eq_of_Ico (q1.trans (wrapPhase_sameAngle _).symm) q2 q3 (wrapPhase_nonneg _) (wrapPhase_lt _)
    rw [hw]
    exact rotation_step hd h0 h1
  · left
    simp only [List.mem_singleton] at e
    have ht : act.type = "maintain" := by rw [e]
    exact ⟨ht, g1 ht⟩

/-! ## Networks -/

/-- Specification: nobody in the group is within reach of its goal, or of the goal it would see by looking around. -/
structure Spec.Stuck (S : Set ℕ) (h : ℕ → Agent ℝ) : Prop where
  closed : ∀ i ∈ S, ∀ j ∈ (h i).neighborList, j ∈ S
  still : ∀ i ∈ S, ∃ r, 0 ≤ r ∧ (h i).strategy = .basic (.phaseNudge r) ∧ (h i).context.stability = 1 / 2 ∧
    ¬ Reach r |phaseDifference (h i).state.localGoal (h i).state.phase| ∧
    ¬ Reach r |phaseDifference ((h i).updateContext fun j => (h j).state.phase).state.localGoal (h i).state.phase|

theorem perceived_congr (a b : Agent ℝ) (f g : ℕ → ℝ) (h1 : b.state.phase = a.state.phase)
    (h2 : b.neighborList = a.neighborList) (h3 : a.neighborList = [] → b.state.localGoal = a.state.localGoal)
    (h4 : ∀ j ∈ a.neighborList, g j = f j) :
    (b.updateContext g).state.localGoal = (a.updateContext f).state.localGoal := by
  unfold Agent.updateContext
  dsimp only
  rw [h2, h1, List.map_congr_left h4]
  by_cases hl : a.neighborList.length = 0
  · rw [if_pos hl, if_pos hl]; exact h3 (List.length_eq_zero_iff.1 hl)
  · rw [if_neg hl, if_neg hl]

theorem netCall_stuck (S : Set ℕ) (h : ℕ → Agent ℝ) (hg : Stuck S h) (e : NetCall ℝ) (h' : ℕ → Agent ℝ)
    (he : netCall h e = .ok h') : Stuck S h' ∧ ∀ i ∈ S, (h' i).state.phase = (h i).state.phase := by
  have put : ∀ (i : ℕ) (b : Agent ℝ),
      (i ∈ S → b.neighborList = (h i).neighborList ∧ b.strategy = (h i).strategy ∧ b.context.stability = 1 / 2 ∧
        b.state.phase = (h i).state.phase ∧ (b.state.localGoal = (h i).state.localGoal ∨
          b.state.localGoal = ((h i).updateContext fun j => (h j).state.phase).state.localGoal)) →
      Stuck S (putAgent h i b) ∧ ∀ j ∈ S, (putAgent h i b j).state.phase = (h j).state.phase := by
    intro i b hb
    have hph : ∀ j ∈ S, (putAgent h i b j).state.phase = (h j).state.phase := by
      intro j hj
      unfold putAgent
      split_ifs with hji
      · subst hji; exact (hb hj).2.2.2.1
      · rfl
    refine ⟨⟨?_, ?_⟩, hph⟩
    · intro j hj k hk
      unfold putAgent at hk
      split_ifs at hk with hji
      · subst hji; rw [(hb hj).1] at hk; exact hg.closed j hj k hk
      · exact hg.closed j hj k hk
    · intro j hj
      obtain ⟨r, r0, s1, s2, s3, s4⟩ := hg.still j hj
      by_cases hji : j = i
      · subst hji
        obtain ⟨b1, b2, b3, b4, b5⟩ := hb hj
        have e0 : putAgent h j b j = b := by simp [putAgent]
        have e1 : (b.updateContext fun k => (putAgent h j b k).state.phase).state.localGoal =
            ((h j).updateContext fun k => (h k).state.phase).state.localGoal := by
          apply perceived_congr _ _ _ _ b4 b1
          · intro hnil
            rcases b5 with h5 | h5
            · exact h5
            · rw [h5]; exact (updateContext_frame (h j) _).2.2.2 hnil
          · intro k hk; exact hph k (hg.closed j hj k hk)
        rw [e0]
        refine ⟨r, r0, by rw [b2]; exact s1, b3, ?_, by rw [e1, b4]; exact s4⟩
        rw [b4]
        rcases b5 with h5 | h5
        · rw [h5]; exact s3
        · rw [h5]; exact s4
      · have e0 : putAgent h i b j = h j := by simp [putAgent, hji]
        have e1 : ((h j).updateContext fun k => (putAgent h i b k).state.phase).state.localGoal =
            ((h j).updateContext fun k => (h k).state.phase).state.localGoal :=
          perceived_congr _ _ _ _ rfl rfl (fun _ => rfl) fun k hk => hph k (hg.closed j hj k hk)
        rw [e0, e1]
        exact ⟨r, r0, s1, s2, s3, s4⟩
  cases e with
  | perceive i =>
    cases he
    refine put i _ fun hi => ?_
    obtain ⟨f1, f2, f3, -⟩ := updateContext_frame (h i) fun j => (h j).state.phase
    exact ⟨f3, f2, (C124_context _ _).1, f1, Or.inr rfl⟩
  | act i now goal d1 d2 =>
    by_cases hi : i ∈ S
    · obtain ⟨r, r0, s1, s2, s3, -⟩ := hg.still i hi
      obtain ⟨act, ok, s, e1, e2, -⟩ := C38_accepted_applies (h i) (fun j => (h j).state.phase) now goal d1 d2
      have hs : s = (h i).strategy := by
        unfold Agent.proposeAdjustment at e1
        split_ifs at e1 with hd
        · simp only [Outcome.ok.injEq, Prod.mk.injEq] at e1
          have := congrArg Agent.strategy e1.2
          exact this.symm
        · rw [s1] at e1
          simp only [AgentStrategy.propose, Strat.propose, Outcome.ok.injEq, Prod.mk.injEq] at e1
          have := congrArg Agent.strategy e1.2
          rw [s1]; exact this.symm
      subst hs
      simp only [netCall, e1] at he
      cases ok with
      | true =>
        cases he
        obtain ⟨-, hfr⟩ := C36_success_frame _ _ _ (e2 rfl)
        have hph := (C124_out_of_reach (h i) _ now goal d1 d2 r r0 s1 s2 s3 act _ e1).2
        refine put i _ fun _ => ⟨?_, ?_, ?_, hph, Or.inl ?_⟩
        · rw [hfr]; rfl
        · rw [hfr]
        · rw [hfr]; exact s2
        · rw [hfr]
      | false =>
        cases he
        exact put i _ fun _ => ⟨rfl, rfl, s2, rfl, Or.inl rfl⟩
    · unfold netCall at he
      dsimp only at he
      split at he
      · cases he
      · cases he; exact put i _ fun hi' => absurd hi' hi
      · cases he; exact put i _ fun hi' => absurd hi' hi

theorem netCall_total (h : ℕ → Agent ℝ) (e : NetCall ℝ) : ∃ h', netCall h e = .ok h' := by
  cases e with
  | perceive i => exact ⟨_, rfl⟩
  | act i now goal d1 d2 =>
    obtain ⟨act, ok, s, e1, -, -⟩ := C38_accepted_applies (h i) (fun j => (h j).state.phase) now goal d1 d2
    unfold netCall
    dsimp only
    rw [e1]
    cases ok <;> exact ⟨_, rfl⟩

/-- **C124, frozen networks.** If nobody in a group of nudging agents is within reach of its goal, then nobody in the group
ever moves: after any history of looking around and acting, with any random numbers, every phase is what it was. -/
theorem C124_frozen (S : Set ℕ) (calls : List (NetCall ℝ)) (h : ℕ → Agent ℝ) (hg : Stuck S h) :
    ∃ h', netRun h calls = .ok h' ∧ ∀ i ∈ S, (h' i).state.phase = (h i).state.phase := by
  suffices ∃ h', netRun h calls = .ok h' ∧ Stuck S h' ∧ ∀ i ∈ S, (h' i).state.phase = (h i).state.phase by
    obtain ⟨h', a, -, b⟩ := this; exact ⟨h', a, b⟩
  induction calls generalizing h with
  | nil => exact ⟨h, rfl, hg, fun _ _ => rfl⟩
  | cons e es ih =>
    obtain ⟨h1, e1⟩ := netCall_total h e
    obtain ⟨g1, p1⟩ := netCall_stuck S h hg e h1 e1
    obtain ⟨h2, e2, g2, p2⟩ := ih h1 g1
    exact ⟨h2, by unfold netRun; rw [e1]; exact e2, g2, fun i hi => by rw [p2 i hi, p1 i hi]⟩

theorem not_reach_default {x : ℝ} (hx : 0.432 ≤ x) : ¬ Reach 0.3 x := by
  rintro ⟨h, -⟩
  have hp := Real.pi_lt_d4
  have hp0 := Real.pi_pos
  have h1 : (0.4774 : ℝ) ≤ 1.5 / Real.pi := by
    rw [le_div_iff₀ hp0]; norm_num at hp ⊢; linarith
  norm_num at *
  nlinarith

theorem far_difference {g p d : ℝ} (hd : IsCircDist g p d) (h : 0.432 ≤ d) : 0.432 ≤ |phaseDifference g p| := by
  by_cases hs : SpecialPair g p
  · have hp := Real.pi_gt_three
    have : |phaseDifference g p| = Real.pi / 2 := by
      rw [phaseDifference_eq]
      rcases hs with ⟨s1, s2⟩ | ⟨s1, s2⟩
      · rw [if_pos ⟨s1, s2⟩, abs_neg, abs_of_pos (by positivity)]
      · split_ifs with hh hh2
        · rw [abs_neg, abs_of_pos (by positivity)]
        · rw [abs_of_pos (by positivity)]
        · exact absurd ⟨s1, s2⟩ hh2
    rw [this]; norm_num; linarith
  · rw [← circDist_unique hd (isCircDist_phaseDifference hs)]; exact h

theorem circDist_congr {a a' b d : ℝ} (h : SameAngle a' a) (hd : IsCircDist a b d) : IsCircDist a' b d := by
  obtain ⟨k, rfl⟩ := h
  obtain ⟨⟨m, hm⟩, h2⟩ := hd
  refine ⟨⟨m - k, by rw [hm]; congr 1; push_cast; ring⟩, fun n => ?_⟩
  have := h2 (n + k)
  have e : a - b + ((n + k : ℤ) : ℝ) * (2 * Real.pi) = a + k * (2 * Real.pi) - b + n * (2 * Real.pi) := by push_cast; ring
  rwa [e] at this

theorem circDist_symm {a b d : ℝ} (hd : IsCircDist a b d) : IsCircDist b a d := by
  obtain ⟨⟨m, hm⟩, h2⟩ := hd
  have e : ∀ n : ℤ, |b - a + n * (2 * Real.pi)| = |a - b + ((-n : ℤ) : ℝ) * (2 * Real.pi)| := by
    intro n; rw [← abs_neg]; congr 1; push_cast; ring
  exact ⟨⟨-m, by rw [e, neg_neg]; exact hm⟩, fun n => by rw [e]; exact h2 _⟩

/-- **C124, two agents.** Two agents with the default nudge that know only each other and are at least 0.432 radians
apart never approach each other once they have looked: whatever happens, for ever, neither moves. -/
theorem C124_pair_never_meets (h : ℕ → Agent ℝ) (d : ℝ) (h0 : (h 0).neighborList = [1]) (h1 : (h 1).neighborList = [0])
    (s0 : (h 0).strategy = .basic (.phaseNudge 0.3)) (s1 : (h 1).strategy = .basic (.phaseNudge 0.3))
    (hd : IsCircDist (h 0).state.phase (h 1).state.phase d) (hfar : 0.432 ≤ d) (calls : List (NetCall ℝ)) :
    ∃ h', netRun h (.perceive 0 :: .perceive 1 :: calls) = .ok h' ∧
      (h' 0).state.phase = (h 0).state.phase ∧ (h' 1).state.phase = (h 1).state.phase := by
  set k1 := putAgent h 0 ((h 0).updateContext fun j => (h j).state.phase) with hk1
  set k2 := putAgent k1 1 ((k1 1).updateContext fun j => (k1 j).state.phase) with hk2
  have a0 : k1 0 = (h 0).updateContext fun j => (h j).state.phase := by simp [hk1, putAgent]
  have a1 : k1 1 = h 1 := by simp [hk1, putAgent]
  have b0 : k2 0 = k1 0 := by simp [hk2, putAgent]
  have b1 : k2 1 = (k1 1).updateContext fun j => (k1 j).state.phase := by simp [hk2, putAgent]
  obtain ⟨f1, f2, f3, -⟩ := updateContext_frame (h 0) fun j => (h j).state.phase
  obtain ⟨g1, g2, g3, -⟩ := updateContext_frame (k1 1) fun j => (k1 j).state.phase
  have p0 : (k2 0).state.phase = (h 0).state.phase := by rw [b0, a0, f1]
  have p1 : (k2 1).state.phase = (h 1).state.phase := by rw [b1, g1, a1]
  have n0 : (k2 0).neighborList = [1] := by rw [b0, a0, f3, h0]
  have n1 : (k2 1).neighborList = [0] := by rw [b1, g3, a1, h1]
  have hstuck : Stuck {0, 1} k2 := by
    constructor
    · rintro i (rfl | rfl) j hj
      · rw [n0] at hj; simp at hj; subst hj; exact Or.inr rfl
      · rw [n1] at hj; simp at hj; subst hj; exact Or.inl rfl
    · have far0 : ∀ g, SameAngle g (h 1).state.phase → ¬ Reach 0.3 |phaseDifference g (k2 0).state.phase| := by
        intro g hg
        rw [p0]
        exact not_reach_default (far_difference (circDist_congr hg (circDist_symm hd)) hfar)
      have far1 : ∀ g, SameAngle g (h 0).state.phase → ¬ Reach 0.3 |phaseDifference g (k2 1).state.phase| := by
        intro g hg
        rw [p1]
        exact not_reach_default (far_difference (circDist_congr hg hd) hfar)
      rintro i (rfl | rfl)
      · refine ⟨0.3, by norm_num, by rw [b0, a0, f2, s0], by rw [b0, a0]; exact (C124_context _ _).1, far0 _ ?_, far0 _ ?_⟩
        · rw [b0, a0]
          refine C39_unanimous_goal _ _ _ (by rw [h0]; simp) fun n hn => ?_
          rw [h0] at hn; simp at hn; subst hn; exact SameAngle.refl _
        · refine C39_unanimous_goal _ _ _ (by rw [n0]; simp) fun n hn => ?_
          rw [n0] at hn; simp at hn; subst hn; rw [p1]; exact SameAngle.refl _
      · refine ⟨0.3, by norm_num, by rw [b1, g2, a1, s1], by rw [b1]; exact (C124_context _ _).1, far1 _ ?_, far1 _ ?_⟩
        · rw [b1]
          refine C39_unanimous_goal _ _ _ (by rw [a1, h1]; simp) fun n hn => ?_
          rw [a1, h1] at hn; simp at hn; subst hn; rw [a0, f1]; exact SameAngle.refl _
        · refine C39_unanimous_goal _ _ _ (by rw [n1]; simp) fun n hn => ?_
          rw [n1] at hn; simp at hn; subst hn; rw [p0]; exact SameAngle.refl _
  obtain ⟨h', e', q⟩ := C124_frozen {0, 1} calls k2 hstuck
  exact ⟨h', e', by rw [q 0 (Or.inl rfl), p0], by rw [q 1 (Or.inr rfl), p1]⟩

/-- The two agents at 0 and 1 meet the hypotheses. -/
example : (twoAgents 0).neighborList = [1] ∧ (twoAgents 1).neighborList = [0] ∧
    (twoAgents 0).strategy = .basic (.phaseNudge 0.3) ∧ (twoAgents 1).strategy = .basic (.phaseNudge 0.3) ∧
    IsCircDist (twoAgents 0).state.phase (twoAgents 1).state.phase 1 ∧ (0.432 : ℝ) ≤ 1 := by
  refine ⟨twoAgents_lists.1, twoAgents_lists.2, rfl, rfl, ?_, by norm_num⟩
  have := isCircDist_of_le (a := 0) (b := 1) (m := -1) ⟨0, by norm_num⟩ (by have := Real.pi_gt_three; norm_num; linarith)
  simpa [twoAgents] using this

/-- The claim is false: an agent one radian from its goal. -/
theorem C124_refuted : ¬ C124_claim := fun hcl => by
  have hpi := Real.pi_gt_three
  have hd : IsCircDist (1 : ℝ) 0 1 := by
    simpa using isCircDist_of_le (a := 1) (b := 0) (m := 1) ⟨0, by norm_num⟩ (by norm_num; linarith)
  set a : Agent ℝ := { twoAgents 0 with context := ⟨1, 1, 1 / 2, 0, 1⟩ } with ha
  have hp : a.state.phase = 0 ∧ a.state.localGoal = 1 := by simp [ha, twoAgents]
  have hst : a.context.stability = 1 / 2 := rfl
  obtain ⟨now, goal, d1, d2, act, b, -, -, -, -, e1, e2⟩ := hcl a (fun _ => 1) rfl hst
    (by show (0.2 : ℝ) < 1; norm_num) (by show (2 : ℝ) ≤ 100.0; norm_num) (by
      rw [hp.1, hp.2]
      rintro ⟨k, hk⟩
      rcases le_or_gt k (-1) with h | h
      · have : (k : ℝ) ≤ -1 := by exact_mod_cast h
        nlinarith
      · have : (0 : ℝ) ≤ k := by exact_mod_cast (by omega : 0 ≤ k)
        nlinarith)
  have := (C124_out_of_reach a _ now goal d1 d2 0.3 (by norm_num) rfl hst
    (by rw [hp.1, hp.2]; exact not_reach_default (far_difference hd (by norm_num))) act b e1).2
  rw [this] at e2
  exact e2 (SameAngle.refl _)

end Verif
