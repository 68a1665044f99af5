import Verif.Props.LoadPanel
import Verif.Model.Demo

/-!
# C101, C102: gauges and panels of the demo
-/

set_option autoImplicit false
set_option linter.unusedSectionVars false

namespace Verif
open GoMath Spec

namespace Spec

/-- Coherence and target are in `[0, 1]`, and there are agents. -/
structure Sound (s : Shown ℝ) : Prop where
  coherence : 0 ≤ s.coherence ∧ s.coherence ≤ 1
  target : 0 ≤ s.targetCoherence ∧ s.targetCoherence ≤ 1
  agents : s.agents ≠ []

/-- The number of agents that are idle. -/
def quiet (s : Shown ℝ) : ℕ := (s.agents.filter fun a => a.activity = .quiet).length

/-- The number of agents that work in a burst or are active. -/
def busy (s : Shown ℝ) : ℕ := (s.agents.filter fun a => a.activity = .burst ∨ a.activity = .active).length

/-- The number of agents that do neither. -/
def steady (s : Shown ℝ) : ℕ := (s.agents.filter fun a => a.activity = .steady).length

end Spec

theorem rtrunc_floor (x : ℝ) (h : 0 ≤ x) : rtrunc x = ⌊x⌋ := by unfold rtrunc; rw [if_pos h]

theorem le_rtrunc (x : ℝ) (h : 0 ≤ x) (n : ℤ) : n ≤ rtrunc x ↔ (n : ℝ) ≤ x := by rw [rtrunc_floor x h, Int.le_floor]

theorem rtrunc_le_iff (x : ℝ) (h : 0 ≤ x) (n : ℤ) : rtrunc x ≤ n ↔ x < n + 1 := by
  rw [rtrunc_floor x h, ← Int.lt_add_one_iff, Int.floor_lt]; push_cast; rfl

theorem idleCount_eq (s : Shown ℝ) : idleCount s = quiet s := by unfold idleCount quiet; rw [List.countP_eq_length_filter]
theorem activeCount_eq (s : Shown ℝ) : activeCount s = busy s := by unfold activeCount busy; rw [List.countP_eq_length_filter]

theorem sharePercent_real (c n : ℕ) : (sharePercent c n : ℝ) = c / n * 100 := by
  unfold sharePercent
  simp only [GoMath.ofInt_real, Int.cast_natCast]
  norm_num

theorem share_bounds (c n : ℕ) (h : c ≤ n) : 0 ≤ (c : ℝ) / n * 100 ∧ (c : ℝ) / n * 100 ≤ 100 := by
  have : (c : ℝ) / n ≤ 1 := div_le_one_of_le₀ (by exact_mod_cast h) (by positivity)
  exact ⟨by positivity, by linarith⟩

theorem share_ge (c n : ℕ) (hn : 0 < n) (x : ℝ) : x ≤ (c : ℝ) / n * 100 ↔ x * n ≤ 100 * c := by
  have : (0 : ℝ) < n := by exact_mod_cast hn
  rw [div_mul_eq_mul_div, le_div_iff₀ this, mul_comm (c : ℝ) 100]

theorem share_lt (c n : ℕ) (hn : 0 < n) (x : ℝ) : (c : ℝ) / n * 100 < x ↔ 100 * (c : ℝ) < x * n := by
  rw [← not_le, share_ge c n hn, not_le]

theorem share_gt (c n : ℕ) (hn : 0 < n) (x : ℝ) : x < (c : ℝ) / n * 100 ↔ x * n < 100 * (c : ℝ) := by
  have : (0 : ℝ) < n := by exact_mod_cast hn
  rw [div_mul_eq_mul_div, lt_div_iff₀ this, mul_comm (c : ℝ) 100]

theorem Spec.Sound.pos {s : Shown ℝ} (h : Sound s) : 0 < s.agents.length := List.length_pos_of_ne_nil h.agents

theorem quiet_le (s : Shown ℝ) : quiet s ≤ s.agents.length := List.length_filter_le _ _
theorem busy_le (s : Shown ℝ) : busy s ≤ s.agents.length := List.length_filter_le _ _

theorem percent_bounds (x : ℝ) (h0 : 0 ≤ x) (h1 : x ≤ 1) : 0 ≤ rtrunc (x * 100.0) ∧ rtrunc (x * 100.0) ≤ 100 :=
  rtrunc_mem _ 0 100 (by push_cast; positivity) (by push_cast; norm_num; linarith)

/-- **C101** Both gauges always show a percentage between 0 and 100, for every goal (and every other number). -/
theorem C101_range (goal : GoalType) (s : Shown ℝ) (h : Sound s) :
    0 ≤ (gauges goal s).value ∧ (gauges goal s).value ≤ 100 ∧ 0 ≤ (gauges goal s).target ∧ (gauges goal s).target ≤ 100 := by
  obtain ⟨c1, c2⟩ := percent_bounds s.coherence h.coherence.1 h.coherence.2
  obtain ⟨t1, t2⟩ := percent_bounds s.targetCoherence h.target.1 h.target.2
  obtain ⟨d1, d2⟩ := percent_bounds (1 - s.coherence) (by linarith [h.coherence.2]) (by linarith [h.coherence.1])
  obtain ⟨e1, e2⟩ := percent_bounds (1 - s.targetCoherence) (by linarith [h.target.2]) (by linarith [h.target.1])
  have i := share_bounds (idleCount s) s.agents.length (by rw [idleCount_eq]; exact quiet_le s)
  have a := share_bounds (activeCount s) s.agents.length (by rw [activeCount_eq]; exact busy_le s)
  obtain ⟨i1, i2⟩ := rtrunc_mem _ 0 100 (by exact_mod_cast i.1) (by exact_mod_cast i.2)
  obtain ⟨a1, a2⟩ := rtrunc_mem _ 0 100 (by exact_mod_cast a.1) (by exact_mod_cast a.2)
  unfold gauges
  simp only [GoMath.toInt_real, sharePercent_real]
  split
  · exact ⟨d1, d2, e1, e2⟩
  · exact ⟨c1, c2, by norm_num, by norm_num⟩
  · exact ⟨c1, c2, t1, t2⟩
  · exact ⟨i1, i2, by norm_num, by norm_num⟩
  · exact ⟨c1, c2, t1, t2⟩
  · dsimp only
    split_ifs
    · rw [Int.tdiv_eq_ediv_of_nonneg c1]; exact ⟨by omega, by omega, by norm_num, by norm_num⟩
    · exact ⟨c1, c2, by norm_num, by norm_num⟩
  · exact ⟨a1, a2, by norm_num, by norm_num⟩
  · exact ⟨c1, c2, t1, t2⟩

/-- The colours agree with the target: a gauge is green exactly when the swarm has the coherence it is meant to have. -/
def C101_claim : Prop := ∀ (goal : GoalType) (s : Shown ℝ), 0 ≤ goal → goal ≤ 7 → Sound s →
  ((gauges goal s).color = .green ↔ s.targetCoherence ≤ s.coherence)

/-- When each gauge is green, goal by goal. For MinimizeAPICalls (0) and unknown goals this is the claim; for MinimizeLatency (3) and MaintainRhythm (5)
both sides are cut to whole per cents; all other goals do not look at the target. -/
structure Spec.GreenExactly (s : Shown ℝ) : Prop where
  api : (gauges 0 s).color = .green ↔ s.targetCoherence ≤ s.coherence
  load : (gauges 1 s).color = .green ↔ s.coherence ≤ 0.5
  consensus : (gauges 2 s).color = .green ↔ 0.95 ≤ s.coherence
  latency : (gauges 3 s).color = .green ↔ ⌊100 * s.targetCoherence⌋ ≤ ⌊100 * s.coherence⌋
  energy : (gauges 4 s).color = .green ↔ 7 * s.agents.length ≤ 10 * quiet s
  rhythm : (gauges 5 s).color = .green ↔ ⌊100 * s.targetCoherence⌋ ≤ ⌊100 * s.coherence⌋
  failure : (gauges 6 s).color = .green ↔ 0.8 ≤ s.coherence ∧ s.disrupted = false
  traffic : (gauges 7 s).color = .green ↔ 2 * s.agents.length ≤ 5 * busy s ∧ 100 * busy s < 81 * s.agents.length
  other : ∀ goal : GoalType, goal < 0 ∨ 7 < goal → ((gauges goal s).color = .green ↔ s.targetCoherence ≤ s.coherence)

theorem ite_green {p : Prop} [Decidable p] {c : Shade} (hc : c ≠ .green) : ((if p then Shade.green else c) = .green) ↔ p := by
  split_ifs with h <;> simp [h, hc]

/-- **C101** When each gauge is green; see `Spec.GreenExactly`. -/
theorem C101_green_partial (s : Shown ℝ) (h : Sound s) : GreenExactly s where
  api := by
    show (if _ then _ else _) = _ ↔ _
    exact ite_green (by decide)
  load := by
    show (if s.coherence > 0.5 then Shade.red else .green) = _ ↔ _
    split_ifs with hc
    · simp only [false_iff]; exact not_le.2 hc
    · simp only [true_iff]; exact not_lt.1 hc
  consensus := by
    show (if rtrunc (s.coherence * 100.0) ≥ 95 then Shade.green else if _ then _ else _) = _ ↔ _
    rw [ite_green (by split_ifs <;> decide), ge_iff_le, le_rtrunc _ (by have := h.coherence.1; positivity)]
    norm_num
    constructor <;> intro <;> linarith
  latency := by
    show (if rtrunc (s.coherence * 100.0) ≥ rtrunc (s.targetCoherence * 100.0) then Shade.green else _) = _ ↔ _
    rw [ite_green (by decide), ge_iff_le, rtrunc_floor (s.coherence * 100.0) (by have := h.coherence.1; positivity),
      rtrunc_floor (s.targetCoherence * 100.0) (by have := h.target.1; positivity)]
    rw [show s.coherence * 100.0 = 100 * s.coherence by norm_num; ring, show s.targetCoherence * 100.0 = 100 * s.targetCoherence by norm_num; ring]
  energy := by
    show (if rtrunc (sharePercent (idleCount s) s.agents.length) ≥ 70 then Shade.green else if _ then _ else _) = _ ↔ _
    rw [ite_green (by split_ifs <;> decide), ge_iff_le, idleCount_eq, sharePercent_real, le_rtrunc _ (by positivity), share_ge _ _ h.pos]
    push_cast
    constructor
    · intro hh
      have : (7 : ℝ) * s.agents.length ≤ 10 * quiet s := by linarith
      exact_mod_cast this
    · intro hh
      have : (7 : ℝ) * s.agents.length ≤ 10 * quiet s := by exact_mod_cast hh
      linarith
  rhythm := by
    show (if rtrunc (s.coherence * 100.0) ≥ rtrunc (s.targetCoherence * 100.0) then Shade.green else _) = _ ↔ _
    rw [ite_green (by decide), ge_iff_le, rtrunc_floor (s.coherence * 100.0) (by have := h.coherence.1; positivity),
      rtrunc_floor (s.targetCoherence * 100.0) (by have := h.target.1; positivity)]
    rw [show s.coherence * 100.0 = 100 * s.coherence by norm_num; ring, show s.targetCoherence * 100.0 = 100 * s.targetCoherence by norm_num; ring]
  failure := by
    show (if (if s.disrupted then _ else rtrunc (s.coherence * 100.0)) ≥ 80 ∧ s.disrupted = false then Shade.green else if _ then _ else _) = _ ↔ _
    rw [ite_green (by split_ifs <;> decide)]
    cases s.disrupted with
    | true => simp
    | false =>
      simp only [Bool.false_eq_true, if_false, and_true, ge_iff_le]
      rw [le_rtrunc _ (by have := h.coherence.1; positivity)]
      norm_num
      constructor <;> intro <;> linarith
  traffic := by
    show (if rtrunc (sharePercent (activeCount s) s.agents.length) ≥ 40 ∧ rtrunc (sharePercent (activeCount s) s.agents.length) ≤ 80 then Shade.green
      else if _ then _ else _) = _ ↔ _
    rw [ite_green (by split_ifs <;> decide), ge_iff_le, activeCount_eq, sharePercent_real, le_rtrunc _ (by positivity), rtrunc_le_iff _ (by positivity),
      share_ge _ _ h.pos, share_lt _ _ h.pos]
    push_cast
    refine and_congr ⟨fun hh => ?_, fun hh => ?_⟩ ⟨fun hh => ?_, fun hh => ?_⟩
    · have : (2 : ℝ) * s.agents.length ≤ 5 * busy s := by linarith
      exact_mod_cast this
    · have : (2 : ℝ) * s.agents.length ≤ 5 * busy s := by exact_mod_cast hh
      linarith
    · have : (100 : ℝ) * busy s < 81 * s.agents.length := by linarith
      exact_mod_cast this
    · have : (100 : ℝ) * busy s < 81 * s.agents.length := by exact_mod_cast hh
      linarith
  other := by
    intro goal hg
    unfold gauges
    split
    all_goals first | exact absurd hg (by decide) | skip
    show (if s.coherence ≥ s.targetCoherence then Shade.green else .red) = _ ↔ _
    exact ite_green (by decide)

/-- **C101** For the goals that compare whole per cents the gauge is green when the target is met, and green only if less than one per cent is missing. -/
theorem C101_percents (s : Shown ℝ) (h : Sound s) :
    (s.targetCoherence ≤ s.coherence → (gauges 3 s).color = .green ∧ (gauges 5 s).color = .green) ∧
    ((gauges 3 s).color = .green ∨ (gauges 5 s).color = .green → s.targetCoherence - 0.01 < s.coherence) := by
  have hg := C101_green_partial s h
  rw [hg.latency, hg.rhythm, and_self, or_self]
  constructor
  · intro hc
    exact Int.floor_le_floor (by linarith)
  · intro hc
    have h1 := Int.lt_floor_add_one (100 * s.targetCoherence)
    have h2 := Int.floor_le (100 * s.coherence)
    have h3 : (⌊100 * s.targetCoherence⌋ : ℝ) ≤ ⌊100 * s.coherence⌋ := by exact_mod_cast hc
    norm_num
    linarith

/-- A consensus swarm with the coherence 0.7 where 0.6 is asked for (`demoTarget`). -/
noncomputable def consensusShown70 : Shown ℝ := { coherence := 0.7, targetCoherence := 0.6, disrupted := false, agents := [⟨0, .steady⟩] }

theorem consensus70_sound : Sound consensusShown70 :=
  ⟨by unfold consensusShown70; norm_num, by unfold consensusShown70; norm_num, by simp [consensusShown70]⟩

/-- For goal 2 (`ReachConsensus`) the gauge is not green at coherence 0.7 with target 0.6. -/
theorem C101_refuted : ¬ C101_claim := by
  intro h
  have h1 := (h 2 consensusShown70 (by decide) (by decide) consensus70_sound).2 (by unfold consensusShown70; norm_num)
  rw [(C101_green_partial _ consensus70_sound).consensus] at h1
  unfold consensusShown70 at h1
  norm_num at h1

/-! ## C102 -/

/-- Gauge and metrics panel do not contradict each other: never is one green and the other red. -/
def C102_claim : Prop := ∀ (goal : GoalType) (size : Size) (s : Shown ℝ), 0 ≤ goal → goal ≤ 7 → Sound s → s.targetCoherence = demoTarget goal size →
  ¬ ((gauges goal s).color = .green ∧ metricsShade goal s = .red) ∧ ¬ ((gauges goal s).color = .red ∧ metricsShade goal s = .green)

/-- A swarm of size "large" that has reached its target of 0.65. -/
noncomputable def apiShown65 : Shown ℝ := { coherence := 0.65, targetCoherence := 0.65, disrupted := false, agents := [⟨0, .steady⟩] }

theorem api65_sound : Sound apiShown65 := ⟨by unfold apiShown65; norm_num, by unfold apiShown65; norm_num, by simp [apiShown65]⟩

/-- The claim is false: a large batching swarm that meets its target has a green gauge, and "Not synced" in red beside it. -/
theorem C102_refuted : ¬ C102_claim := by
  intro h
  refine (h 0 3 apiShown65 (by decide) (by decide) api65_sound ?_).1 ⟨?_, ?_⟩
  · show (0.65 : ℝ) = demoTarget 0 3
    simp [demoTarget, Size.defaultTargetCoherence]
  · exact (C101_green_partial _ api65_sound).api.2 le_rfl
  · show (if (0.65 : ℝ) ≥ 0.9 then Shade.green else if (0.65 : ℝ) ≥ 0.7 then .yellow else .red) = .red
    rw [if_neg (by norm_num), if_neg (by norm_num)]

theorem gauge6_color (s : Shown ℝ) : (gauges 6 s).color =
    if (if s.disrupted then (rtrunc (s.coherence * 100.0)).tdiv 2 else rtrunc (s.coherence * 100.0)) ≥ 80 ∧ s.disrupted = false then .green
    else if (if s.disrupted then (rtrunc (s.coherence * 100.0)).tdiv 2 else rtrunc (s.coherence * 100.0)) ≥ 60 then .yellow else .red := rfl

/-- **C102** Where the two do agree: for ReachConsensus always; for RecoverFromFailure unless disrupted, and then the gauge is red and the panel yellow;
for DistributeLoad they are red together; for SaveEnergy they agree unless exactly 70 % or exactly half of the agents are idle. The full claim is
`C102_claim`. -/
theorem C102_agree_partial (s : Shown ℝ) (h : Sound s) :
    (gauges 2 s).color = metricsShade 2 s ∧
    (s.disrupted = false → (gauges 6 s).color = metricsShade 6 s) ∧
    (s.disrupted = true → (gauges 6 s).color = .red ∧ metricsShade 6 s = .yellow) ∧
    ((gauges 1 s).color = .red ↔ metricsShade 1 s = .red) ∧
    ((gauges 4 s).color = metricsShade 4 s ↔ 10 * quiet s ≠ 7 * s.agents.length ∧ 2 * quiet s ≠ s.agents.length) := by
  have c0 : 0 ≤ s.coherence * 100.0 := by have := h.coherence.1; positivity
  refine ⟨?_, ?_, ?_, ?_, ?_⟩
  · show (if rtrunc (s.coherence * 100.0) ≥ 95 then Shade.green else if rtrunc (s.coherence * 100.0) ≥ 80 then .yellow else .red) =
      if s.coherence ≥ 0.95 then Shade.green else if s.coherence ≥ 0.8 then .yellow else .red
    simp only [ge_iff_le, le_rtrunc _ c0]
    congr 1
    · push_cast; norm_num; constructor <;> intro <;> linarith
    · congr 1
      push_cast; norm_num; constructor <;> intro <;> linarith
  · intro hd
    rw [gauge6_color]
    show _ = if s.disrupted then Shade.yellow else if s.coherence ≥ 0.8 then .green else if s.coherence ≥ 0.6 then .yellow else .red
    simp only [hd, Bool.false_eq_true, if_false, and_true, ge_iff_le, le_rtrunc _ c0]
    congr 1
    · push_cast; norm_num; constructor <;> intro <;> linarith
    · congr 1
      push_cast; norm_num; constructor <;> intro <;> linarith
  · intro hd
    obtain ⟨b1, b2⟩ := percent_bounds s.coherence h.coherence.1 h.coherence.2
    constructor
    · rw [gauge6_color]
      simp only [hd, if_true, Bool.true_eq_false, and_false, if_false]
      rw [Int.tdiv_eq_ediv_of_nonneg b1, if_neg (by omega)]
    · show (if s.disrupted then Shade.yellow else _) = _
      rw [hd]; rfl
  · show (if s.coherence > 0.5 then Shade.red else .green) = .red ↔ (if s.coherence > 0.5 then Shade.red else if s.coherence > 0.3 then .yellow else .green) = .red
    split_ifs <;> simp
  · have hn := h.pos
    show (if rtrunc (sharePercent (idleCount s) s.agents.length) ≥ 70 then Shade.green else if rtrunc (sharePercent (idleCount s) s.agents.length) ≥ 50
        then .yellow else .red) =
      (if (sharePercent (idleCount s) s.agents.length : ℝ) > 70.0 then Shade.green else if (sharePercent (idleCount s) s.agents.length : ℝ) > 50.0
        then .yellow else .red) ↔ _
    have e1 : rtrunc (sharePercent (idleCount s) s.agents.length) ≥ 70 ↔ 7 * s.agents.length ≤ 10 * quiet s := by
      rw [ge_iff_le, idleCount_eq, sharePercent_real, le_rtrunc _ (by positivity), share_ge _ _ hn]
      push_cast
      rw [← Nat.cast_le (α := ℝ)]; push_cast
      constructor <;> intro <;> linarith
    have e2 : rtrunc (sharePercent (idleCount s) s.agents.length) ≥ 50 ↔ s.agents.length ≤ 2 * quiet s := by
      rw [ge_iff_le, idleCount_eq, sharePercent_real, le_rtrunc _ (by positivity), share_ge _ _ hn]
      push_cast
      rw [← Nat.cast_le (α := ℝ)]; push_cast
      constructor <;> intro <;> linarith
    have e3 : (sharePercent (idleCount s) s.agents.length : ℝ) > 70.0 ↔ 7 * s.agents.length < 10 * quiet s := by
      rw [gt_iff_lt, idleCount_eq, sharePercent_real, share_gt _ _ hn, ← Nat.cast_lt (α := ℝ)]
      push_cast; norm_num
      constructor <;> intro <;> linarith
    have e4 : (sharePercent (idleCount s) s.agents.length : ℝ) > 50.0 ↔ s.agents.length < 2 * quiet s := by
      rw [gt_iff_lt, idleCount_eq, sharePercent_real, share_gt _ _ hn, ← Nat.cast_lt (α := ℝ)]
      push_cast; norm_num
      constructor <;> intro <;> linarith
    simp only [e1, e2, e3, e4]
    split_ifs <;> simp <;> omega

/-- **C102** The energy panel says EFFICIENT exactly when the metrics panel is green, which is when more than 70 % of the agents are idle; with exactly
70 % the gauge is green, and the panel says HIGH DRAIN. -/
theorem C102_energy (s : Shown ℝ) (h : Sound s) :
    (efficientShown s = true ↔ 7 * s.agents.length < 10 * quiet s) ∧ (efficientShown s = true ↔ metricsShade 4 s = .green) ∧
    ((gauges 4 s).color = .green ∧ efficientShown s = false ↔ 10 * quiet s = 7 * s.agents.length) := by
  have e : (sharePercent (idleCount s) s.agents.length : ℝ) > 70.0 ↔ 7 * s.agents.length < 10 * quiet s := by
    rw [gt_iff_lt, idleCount_eq, sharePercent_real, share_gt _ _ h.pos, ← Nat.cast_lt (α := ℝ)]
    push_cast; norm_num
    constructor <;> intro <;> linarith
  have e1 : efficientShown s = true ↔ 7 * s.agents.length < 10 * quiet s := by
    unfold efficientShown; rw [decide_eq_true_iff, e]
  have e2 : metricsShade 4 s = .green ↔ 7 * s.agents.length < 10 * quiet s := by
    show (if (sharePercent (idleCount s) s.agents.length : ℝ) > 70.0 then Shade.green else if _ then _ else _) = _ ↔ _
    rw [ite_green (by split_ifs <;> decide), e]
  refine ⟨e1, e1.trans e2.symm, ?_⟩
  rw [(C101_green_partial s h).energy, ← Bool.not_eq_true, e1]
  omega

theorem activity_sum (s : Shown ℝ) : quiet s + busy s + steady s = s.agents.length := by
  unfold quiet busy steady
  induction s.agents with
  | nil => rfl
  | cons a l ih =>
    simp only [List.filter_cons, List.length_cons]
    simp only [Bool.decide_or] at ih
    cases a.activity <;> simp <;> omega

theorem nonquiet_eq (s : Shown ℝ) : (s.agents.countP fun a => a.activity ≠ .quiet) = busy s + steady s := by
  have h := activity_sum s
  have := List.length_eq_countP_add_countP (fun a : ShownAgent ℝ => decide (a.activity ≠ .quiet)) (l := s.agents)
  have e : (s.agents.countP fun a => decide (¬ (decide (a.activity ≠ .quiet)) = true)) = quiet s := by
    unfold quiet; rw [List.countP_eq_length_filter]
    congr 1
    exact List.filter_congr fun a _ => by simp
  rw [e] at this
  omega

/-- **C102** The traffic panel advises to scale up exactly when less than a fifth of the agents are idle and down when more than seven tenths are; the gauge
beside it counts only agents that work in a burst or are active. Steady agents make the difference. -/
theorem C102_traffic (s : Shown ℝ) (h : Sound s) :
    (scalingShown s = .up ↔ 5 * quiet s < s.agents.length) ∧ (scalingShown s = .down ↔ 7 * s.agents.length < 10 * quiet s) ∧
    quiet s + busy s + steady s = s.agents.length := by
  have hs := activity_sum s
  have hs' : (quiet s : ℝ) + busy s + steady s = s.agents.length := by exact_mod_cast hs
  have u1 : (sharePercent (s.agents.countP fun a => a.activity ≠ .quiet) s.agents.length : ℝ) > 80.0 ↔ 5 * quiet s < s.agents.length := by
    rw [gt_iff_lt, nonquiet_eq, sharePercent_real, share_gt _ _ h.pos, ← Nat.cast_lt (α := ℝ)]
    push_cast; norm_num
    constructor <;> intro <;> linarith
  have u2 : (sharePercent (s.agents.countP fun a => a.activity ≠ .quiet) s.agents.length : ℝ) < 30.0 ↔ 7 * s.agents.length < 10 * quiet s := by
    rw [nonquiet_eq, sharePercent_real, share_lt _ _ h.pos, ← Nat.cast_lt (α := ℝ)]
    push_cast; norm_num
    constructor <;> intro <;> linarith
  have e : scalingShown s = if 5 * quiet s < s.agents.length then .up else if 7 * s.agents.length < 10 * quiet s then .down else .optimal := by
    unfold scalingShown
    dsimp only
    simp only [u1, u2]
  refine ⟨?_, ?_, hs⟩
  · rw [e]; split_ifs with h1 h2 <;> simp [h1]
  · rw [e]; split_ifs with h1 h2
    · simp; omega
    · simp [h2]
    · simp; omega

/-- **C102** A swarm of steady agents has a utilisation of 0 % on the gauge, and the panel advises to scale up. -/
theorem C102_steady (s : Shown ℝ) (h : Sound s) (hs : ∀ a ∈ s.agents, a.activity = .steady) :
    (gauges 7 s).value = 0 ∧ scalingShown s = .up := by
  have hb : busy s = 0 := by
    unfold busy; rw [List.length_eq_zero_iff, List.filter_eq_nil_iff]
    intro a ha; rw [hs a ha]; simp
  have hq : quiet s = 0 := by
    unfold quiet; rw [List.length_eq_zero_iff, List.filter_eq_nil_iff]
    intro a ha; rw [hs a ha]; simp
  constructor
  · show rtrunc (sharePercent (activeCount s) s.agents.length) = 0
    rw [activeCount_eq, hb, sharePercent_real]
    simp [rtrunc]
  · rw [(C102_traffic s h).1, hq]
    exact h.pos

/-- Ten agents, seven of them idle: the gauge is green, the panel says HIGH DRAIN. The hypotheses of the theorems are met. -/
example : let s : Shown ℝ := { coherence := 0.5, targetCoherence := 0.4, disrupted := false, agents := List.replicate 7 ⟨0, .quiet⟩ ++ List.replicate 3 ⟨1, .steady⟩ }
    Sound s ∧ (gauges 4 s).color = .green ∧ efficientShown s = false := by
  intro s
  have hs : Sound s := ⟨by simp only [s]; norm_num, by simp only [s]; norm_num, by simp [s]⟩
  exact ⟨hs, (C102_energy s hs).2.2.2 (by simp [s, quiet])⟩

/-- For C101 and C102: a swarm above its target with steady agents only. -/
example : let s : Shown ℝ := { coherence := 0.5, targetCoherence := 0.4, disrupted := false, agents := List.replicate 3 ⟨1, .steady⟩ }
    Sound s ∧ (gauges 3 s).color = .green ∧ (gauges 7 s).value = 0 ∧ scalingShown s = .up := by
  intro s
  have h : Sound s := ⟨by norm_num [s], by norm_num [s], by simp [s]⟩
  exact ⟨h, ((C101_percents s h).1 (by norm_num [s])).1, C102_steady s h (fun a ha => by rw [List.eq_of_mem_replicate ha])⟩

end Verif
