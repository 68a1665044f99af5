import Verif.Num.Real
import Verif.Model.Tables
import Mathlib.Tactic.IntervalCases
import Mathlib.Tactic.Linarith

/-!
# C18–C22, C72, C78: scales, identifiers, coherence limits, pattern modifiers
-/

set_option autoImplicit false

namespace Verif

/-! ## C18 Scales -/

/-- Every scale is the scale of its own default agent count. -/
theorem C18_scale_roundtrip (s : Size) (h0 : 0 ≤ s) (h1 : s ≤ 4) : fromCount s.defaultAgentCount = s := by
  interval_cases s <;> rfl

/-- Every count has one of the five scales; the scale is monotone in the count; up to 2000 agents the default count of
the scale is large enough for the count. -/
theorem C18_fromCount (n : ℤ) :
    0 ≤ fromCount n ∧ fromCount n ≤ 4 ∧ (∀ m, n ≤ m → fromCount n ≤ fromCount m) ∧
    (n ≤ 2000 → n ≤ (fromCount n).defaultAgentCount) := by
  refine ⟨?_, ?_, fun m h => ?_, fun h => ?_⟩
  · unfold fromCount; split_ifs <;> norm_num
  · unfold fromCount; split_ifs <;> norm_num
  · unfold fromCount
    split_ifs <;> first | (exfalso; omega) | norm_num
  · unfold fromCount
    split_ifs <;> simp only [Size.defaultAgentCount] <;> omega

/-- Larger scales have more agents, a lower (positive) default coherence, slower updates and a larger time factor. -/
theorem C18_scale_monotone (s t : ℤ) (h0 : 0 ≤ s) (hst : s < t) (h1 : t ≤ 4) :
    Size.defaultAgentCount s < Size.defaultAgentCount t ∧
    (Size.defaultTargetCoherence t : ℝ) < Size.defaultTargetCoherence s ∧ (0 : ℝ) < Size.defaultTargetCoherence t ∧
    (Size.defaultTargetCoherence s : ℝ) < 1 ∧
    Size.defaultUpdateIntervalMs s < Size.defaultUpdateIntervalMs t ∧
    (Size.defaultConvergenceTimeFactor s : ℝ) < Size.defaultConvergenceTimeFactor t := by
  have h2 : s ≤ 4 := by omega
  have h3 : 0 ≤ t := by omega
  interval_cases s <;> interval_cases t <;>
    first
    | omega
    | (simp only [Size.defaultAgentCount, Size.defaultTargetCoherence, Size.defaultUpdateIntervalMs,
        Size.defaultConvergenceTimeFactor]; norm_num)

/-- The default target of every scale is practically achievable by a swarm of its default size. -/
theorem C18_default_target_achievable (s : Size) :
    (s.defaultTargetCoherence : ℝ) ≤ (getCoherenceLimits s.defaultAgentCount).practical := by
  by_cases h : 0 ≤ s ∧ s ≤ 4
  · obtain ⟨h0, h1⟩ := h
    interval_cases s <;> simp only [Size.defaultTargetCoherence, Size.defaultAgentCount, getCoherenceLimits] <;> norm_num
  · have e1 : (s.defaultTargetCoherence : ℝ) = 0.75 := by
      unfold Size.defaultTargetCoherence
      split <;> first | rfl | (exfalso; apply h; norm_num)
    have e2 : s.defaultAgentCount = 50 := by
      unfold Size.defaultAgentCount
      split <;> first | rfl | (exfalso; apply h; norm_num)
    rw [e1, e2]; simp only [getCoherenceLimits]; norm_num

/-- An unknown scale is treated like Medium, except that it has the agents of Small, and a number of neighbours and an update interval of its own:
fewer neighbours and slower updates than any scale. -/
theorem C18_unknown (s : Size) (h : s < 0 ∨ 4 < s) :
    (s.defaultTargetCoherence : ℝ) = Size.defaultTargetCoherence 2 ∧ s.defaultUpdateIntervalMs = Size.defaultUpdateIntervalMs 2 ∧
    (s.defaultConvergenceTimeFactor : ℝ) = Size.defaultConvergenceTimeFactor 2 ∧ s.defaultAgentCount = Size.defaultAgentCount 1 ∧
    ∀ t : Size, 0 ≤ t → t ≤ 4 → 0 < s.maxNeighbors ∧ s.maxNeighbors < t.maxNeighbors ∧ t.updateInterval < s.updateInterval := by
  have hs : ¬ (0 ≤ s ∧ s ≤ 4) := by
    rintro ⟨h1, h2⟩
    rcases h with h | h
    · exact absurd h1 (not_le.2 h)
    · exact absurd h2 (not_le.2 h)
  refine ⟨?_, ?_, ?_, ?_, fun t t0 t1 => ?_⟩
  · unfold Size.defaultTargetCoherence
    split <;> first | rfl | (exfalso; apply hs; norm_num)
  · unfold Size.defaultUpdateIntervalMs
    split <;> first | rfl | (exfalso; apply hs; norm_num)
  · unfold Size.defaultConvergenceTimeFactor
    split <;> first | rfl | (exfalso; apply hs; norm_num)
  · unfold Size.defaultAgentCount
    split <;> first | rfl | (exfalso; apply hs; norm_num)
  · have e1 : s.maxNeighbors = 3 := by
      unfold Size.maxNeighbors
      split <;> first | rfl | (exfalso; apply hs; norm_num)
    have e2 : s.updateInterval = 250 := by
      unfold Size.updateInterval
      split <;> first | rfl | (exfalso; apply hs; norm_num)
    rw [e1, e2]
    interval_cases t <;> simp only [Size.maxNeighbors, Size.updateInterval] <;> norm_num

example : (Size.defaultTargetCoherence 7 : ℝ) = Size.defaultTargetCoherence 2 := (C18_unknown 7 (Or.inr (by norm_num))).1

/-- The two update intervals of a known scale agree, a swarm of the default size has room for the neighbours, and Medium has most of them. -/
theorem C18_neighbors (s : Size) (h0 : 0 ≤ s) (h1 : s ≤ 4) :
    s.updateInterval = s.defaultUpdateIntervalMs ∧ s.maxNeighbors < s.defaultAgentCount ∧ (s ≠ 2 → s.maxNeighbors < Size.maxNeighbors 2) := by
  interval_cases s <;> simp only [Size.maxNeighbors, Size.updateInterval, Size.defaultUpdateIntervalMs, Size.defaultAgentCount] <;> norm_num

/-! ## C19 Identifiers -/

/-- No other value has the name of a goal. -/
theorem C19_goal_names (g h : GoalType) (g0 : 0 ≤ g) (g1 : g ≤ 7) (e : g.name = GoalType.name h) : g = h := by
  by_cases hh : 0 ≤ h ∧ h ≤ 7
  · obtain ⟨h0, h1⟩ := hh
    interval_cases g <;> interval_cases h <;> first | rfl | (revert e; decide)
  · exfalso
    have : GoalType.name h = "Custom Goal" := by
      unfold GoalType.name
      split <;> first | rfl | (exfalso; apply hh; norm_num)
    rw [this] at e
    interval_cases g <;> revert e <;> decide

/-- No other value has the short key of a goal. -/
theorem C19_goal_keys (g h : GoalType) (g0 : 0 ≤ g) (g1 : g ≤ 7) (e : g.shortKey = GoalType.shortKey h) : g = h := by
  by_cases hh : 0 ≤ h ∧ h ≤ 7
  · obtain ⟨h0, h1⟩ := hh
    interval_cases g <;> interval_cases h <;> first | rfl | (revert e; decide)
  · exfalso
    have : GoalType.shortKey h = '?' := by
      unfold GoalType.shortKey
      split <;> first | rfl | (exfalso; apply hh; norm_num)
    rw [this] at e
    interval_cases g <;> revert e <;> decide

/-- No other value has the name of a trait. -/
theorem C19_trait_names (g h : ℤ) (g0 : 0 ≤ g) (g1 : g ≤ 5) (e : traitName g = traitName h) : g = h := by
  by_cases hh : 0 ≤ h ∧ h ≤ 5
  · obtain ⟨h0, h1⟩ := hh
    interval_cases g <;> interval_cases h <;> first | rfl | (revert e; decide)
  · exfalso
    have : traitName h = "unknown" := by
      unfold traitName
      split <;> first | rfl | (exfalso; apply hh; norm_num)
    rw [this] at e
    interval_cases g <;> revert e <;> decide

/-- No other value has the name of a scale. -/
theorem C19_scale_names (g h : Size) (g0 : 0 ≤ g) (g1 : g ≤ 4) (e : g.name = Size.name h) : g = h := by
  by_cases hh : 0 ≤ h ∧ h ≤ 4
  · obtain ⟨h0, h1⟩ := hh
    interval_cases g <;> interval_cases h <;> first | rfl | (revert e; decide)
  · exfalso
    have : Size.name h = "unknown" := by
      unfold Size.name
      split <;> first | rfl | (exfalso; apply hh; norm_num)
    rw [this] at e
    interval_cases g <;> revert e <;> decide

/-- No other value has the name of a pattern. -/
theorem C19_pattern_names (g h : PatternType) (g0 : 0 ≤ g) (g1 : g ≤ 5) (e : g.name = PatternType.name h) : g = h := by
  by_cases hh : 0 ≤ h ∧ h ≤ 5
  · obtain ⟨h0, h1⟩ := hh
    interval_cases g <;> interval_cases h <;> first | rfl | (revert e; decide)
  · exfalso
    have : PatternType.name h = "Unknown" := by
      unfold PatternType.name
      split <;> first | rfl | (exfalso; apply hh; norm_num)
    rw [this] at e
    interval_cases g <;> revert e <;> decide

/-- Every request pattern's shortcut key selects that pattern, in lower and upper case. -/
theorem C19_pattern_keys (p : PatternType) (h0 : 1 ≤ p) (h1 : p ≤ 5) :
    ∃ c, p.shortKey = some c ∧ processKey (.char c) = some (.pattern p) ∧
      processKey (.char c.toUpper) = some (.pattern p) := by
  interval_cases p
  · exact ⟨'h', rfl, by decide, by decide⟩
  · exact ⟨'u', rfl, by decide, by decide⟩
  · exact ⟨'y', rfl, by decide, by decide⟩
  · exact ⟨'x', rfl, by decide, by decide⟩
  · exact ⟨'z', rfl, by decide, by decide⟩

/-- The claim for goals: the advertised shortcut key of every goal selects that goal. -/
def C19_claim : Prop := ∀ g : GoalType, 0 ≤ g → g ≤ 7 → processKey (.char g.shortKey) = some (.goal g)

/-- It fails for MaintainRhythm: its key R resets the simulation. -/
theorem C19_refuted : ¬ C19_claim := by
  intro h
  have := h 5 (by norm_num) (by norm_num)
  revert this; decide

/-- What holds: all goals except MaintainRhythm (value 5) are selected by their key in either case; MaintainRhythm is
selected by M instead, and its advertised key resets. -/
theorem C19_goal_keys_partial (g : GoalType) (h0 : 0 ≤ g) (h1 : g ≤ 7) :
    (g ≠ 5 → processKey (.char g.shortKey) = some (.goal g) ∧ processKey (.char g.shortKey.toLower) = some (.goal g)) ∧
    (g = 5 → processKey (.char g.shortKey) = some .reset ∧ processKey (.char 'M') = some (.goal g)) := by
  interval_cases g <;> decide

/-- Every scale, goal, pattern and control event can be triggered by some key. -/
theorem C19_events_reachable :
    (∀ s : Size, 0 ≤ s → s ≤ 4 → ∃ k, processKey k = some (.scale s)) ∧
    (∀ g : GoalType, 0 ≤ g → g ≤ 7 → ∃ k, processKey k = some (.goal g)) ∧
    (∀ p : PatternType, 1 ≤ p → p ≤ 5 → ∃ k, processKey k = some (.pattern p)) ∧
    (∀ e ∈ [Event.quit, .reset, .disrupt, .pause, .resume], ∃ k, processKey k = some e) := by
  refine ⟨fun s h0 h1 => ?_, fun g h0 h1 => ?_, fun p h0 h1 => ?_, ?_⟩
  · interval_cases s
    · exact ⟨.char '1', rfl⟩
    · exact ⟨.char '2', rfl⟩
    · exact ⟨.char '3', rfl⟩
    · exact ⟨.char '4', rfl⟩
    · exact ⟨.char '5', rfl⟩
  · by_cases h5 : g = 5
    · subst h5; exact ⟨.char 'M', rfl⟩
    · exact ⟨_, ((C19_goal_keys_partial g h0 h1).1 h5).1⟩
  · obtain ⟨c, -, h, -⟩ := C19_pattern_keys p h0 h1
    exact ⟨_, h⟩
  · intro e he
    simp only [List.mem_cons, List.not_mem_nil, or_false] at he
    rcases he with rfl | rfl | rfl | rfl | rfl
    · exact ⟨.esc, rfl⟩
    · exact ⟨.char 'r', rfl⟩
    · exact ⟨.char 'd', rfl⟩
    · exact ⟨.char 'p', rfl⟩
    · exact ⟨.char ' ', rfl⟩

/-! ## C20 Coherence limits -/

/-- The limits are ordered and in `[0, 1]` at every size. -/
theorem C20_limits_ordered (n : ℤ) :
    let l : CoherenceLimits ℝ := getCoherenceLimits n
    0 ≤ l.recommended ∧ l.recommended ≤ l.practical ∧ l.practical ≤ l.theoretical ∧ l.theoretical ≤ 1 := by
  unfold getCoherenceLimits
  split_ifs <;> norm_num

set_option maxHeartbeats 1000000 in
/-- From two agents on, each limit is non-decreasing in the size, positive, and below 1. -/
theorem C20_limits_monotone (n m : ℤ) (hn : 2 ≤ n) (hm : n ≤ m) :
    let l : CoherenceLimits ℝ := getCoherenceLimits n
    let k : CoherenceLimits ℝ := getCoherenceLimits m
    l.theoretical ≤ k.theoretical ∧ l.practical ≤ k.practical ∧ l.recommended ≤ k.recommended ∧
    0 < l.recommended ∧ k.theoretical < 1 := by
  unfold getCoherenceLimits
  split_ifs <;> first | (exfalso; omega) | norm_num

/-- Without agents there is no coherence; a single agent is perfectly coherent. -/
theorem C20_limits_trivial (n : ℤ) :
    (n ≤ 0 ↔ (getCoherenceLimits n : CoherenceLimits ℝ).theoretical = 0) ∧
    (n = 1 ↔ (getCoherenceLimits n : CoherenceLimits ℝ).theoretical = 1) := by
  unfold getCoherenceLimits
  split_ifs <;> norm_num <;> omega

/-! ## C21 Minimum size -/

/-- The claim: every achievable-looking target is within the practical limit of its minimum size. -/
def C21_claim : Prop := ∀ t : ℝ, 0 ≤ t → t ≤ 1 → t ≤ (getCoherenceLimits (getMinimumSwarmSize t)).practical

/-- The minimum size suffices exactly for targets up to 0.98, and for 0.99 itself. -/
theorem C21_minimum_size_sufficient_iff (t : ℝ) :
    t ≤ (getCoherenceLimits (getMinimumSwarmSize t)).practical ↔ t ≤ 0.98 ∨ t = 0.99 := by
  unfold getMinimumSwarmSize
  split_ifs with h1 h2 h3 h4 h5 <;> norm_num at * <;> simp only [getCoherenceLimits] <;> norm_num
  · constructor
    · intro h; right; linarith
    · rintro (h | h) <;> linarith
  · intro h; linarith
  all_goals
    constructor
    · intro h; left; linarith
    · intro h; linarith

/-- The size recommended for a target of 0.985 does not suffice. -/
theorem C21_refuted : ¬ C21_claim := by
  intro h
  have := (C21_minimum_size_sufficient_iff 0.985).mp (h 0.985 (by norm_num) (by norm_num))
  norm_num at this

/-- What holds of C21: targets up to 0.98 (missing: (0.98, 0.99) and above 0.99, where it is false). -/
theorem C21_minimum_size_partial (t : ℝ) (h : t ≤ 0.98) :
    t ≤ (getCoherenceLimits (getMinimumSwarmSize t)).practical :=
  (C21_minimum_size_sufficient_iff t).mpr (Or.inl h)

/-- The minimum size is monotone in the target and is always one of six sizes. -/
theorem C21_minimum_size_monotone (s t : ℝ) (h : s ≤ t) :
    getMinimumSwarmSize s ≤ getMinimumSwarmSize t ∧ getMinimumSwarmSize t ∈ [2, 5, 10, 20, 50, (100 : ℤ)] := by
  unfold getMinimumSwarmSize
  constructor
  · split_ifs <;> first | (exfalso; linarith) | norm_num
  · split_ifs <;> simp

/-- It is not minimal: five agents can practically reach 0.91, but ten are asked for. -/
theorem C21_not_minimal :
    (0.91 : ℝ) ≤ (getCoherenceLimits 5).practical ∧ getMinimumSwarmSize (0.91 : ℝ) = 10 := by
  constructor
  · simp only [getCoherenceLimits]; norm_num
  · unfold getMinimumSwarmSize; norm_num

/-! ## C22 Target validation -/

/-- The adjusted target is the requested one, or the theoretical limit if that is smaller. -/
theorem C22_adjusted (n : ℤ) (r : ℝ) :
    let a := (validateCoherenceTarget n r).1
    a ≤ (getCoherenceLimits n).theoretical ∧ a ≤ r ∧
    (r ≤ (getCoherenceLimits n).theoretical → a = r) ∧
    ((getCoherenceLimits n).theoretical < r → a = (getCoherenceLimits n).theoretical) := by
  obtain ⟨h0, h1, h2, h3⟩ := C20_limits_ordered n
  unfold validateCoherenceTarget
  simp only [gt_iff_lt]
  generalize (getCoherenceLimits n : CoherenceLimits ℝ) = l at *
  split_ifs with ha hb hc
  · exact ⟨le_rfl, ha.le, fun h => by linarith, fun _ => rfl⟩
  · exact ⟨not_lt.mp ha, le_rfl, fun _ => rfl, fun h => absurd h ha⟩
  · exact ⟨not_lt.mp ha, le_rfl, fun _ => rfl, fun h => absurd h ha⟩
  · exact ⟨not_lt.mp ha, le_rfl, fun _ => rfl, fun h => absurd h ha⟩

/-- A warning is given exactly above the recommended limit. -/
theorem C22_warning_iff (n : ℤ) (r : ℝ) :
    (validateCoherenceTarget n r).2 ≠ "" ↔ (getCoherenceLimits n).recommended < r := by
  obtain ⟨h0, h1, h2, h3⟩ := C20_limits_ordered n
  unfold validateCoherenceTarget
  simp only [gt_iff_lt]
  generalize (getCoherenceLimits n : CoherenceLimits ℝ) = l at *
  split_ifs with ha hb hc
  · simp; linarith
  · simp; linarith
  · simp; linarith
  · simp; linarith

/-- The time factor is infinite exactly above the practical limit, otherwise one of 1, 2, 4, 8. -/
theorem C22_timeFactor_values (n : ℤ) (t : ℝ) :
    (getConvergenceTimeFactor n t = none ↔ (getCoherenceLimits n).practical < t) ∧
    ∀ f, getConvergenceTimeFactor n t = some f → f = 1 ∨ f = 2 ∨ f = 4 ∨ f = 8 := by
  unfold getConvergenceTimeFactor
  simp only [gt_iff_lt]
  generalize (getCoherenceLimits n : CoherenceLimits ℝ) = l at *
  split_ifs with h1 h2 h3 h4 h5
  · exact ⟨by simp [h1], fun f hf => by cases hf⟩
  all_goals
    refine ⟨by simp [h1], fun f hf => ?_⟩
    rw [← Option.some.inj hf]
    norm_num

/-- A more demanding (still finite-time) target never takes a smaller factor; utilisation thresholds are 80, 90 and 95
percent of the practical limit. -/
theorem C22_timeFactor_monotone (n : ℤ) (s t : ℝ) (hst : s ≤ t) (fs ft : ℝ)
    (hs : getConvergenceTimeFactor n s = some fs) (ht : getConvergenceTimeFactor n t = some ft) : fs ≤ ft := by
  unfold getConvergenceTimeFactor at hs ht
  simp only [gt_iff_lt] at hs ht
  generalize (getCoherenceLimits n : CoherenceLimits ℝ) = l at *
  by_cases hp : l.practical ≤ 0
  · simp only [hp, if_true] at hs ht
    split_ifs at hs ht
    rw [← Option.some.inj hs, ← Option.some.inj ht]
  · simp only [hp, if_false] at hs ht
    have hp' : 0 < l.practical := not_le.mp hp
    have hu : s / l.practical ≤ t / l.practical := div_le_div_of_nonneg_right hst hp'.le
    split_ifs at hs ht <;>
      (rw [← Option.some.inj hs, ← Option.some.inj ht]) <;> first | (exfalso; linarith) | norm_num

/-- The factor doubles at 80, 90 and 95 per cent of the practical limit. -/
theorem C22_timeFactor_thresholds (n : ℤ) (hn : 1 ≤ n) (t : ℝ) :
    let P := (getCoherenceLimits n : CoherenceLimits ℝ).practical
    (getConvergenceTimeFactor n t = some 1 ↔ t < 0.8 * P) ∧
    (getConvergenceTimeFactor n t = some 2 ↔ 0.8 * P ≤ t ∧ t < 0.9 * P) ∧
    (getConvergenceTimeFactor n t = some 4 ↔ 0.9 * P ≤ t ∧ t < 0.95 * P) ∧
    (getConvergenceTimeFactor n t = some 8 ↔ 0.95 * P ≤ t ∧ t ≤ P) := by
  have hP : 0 < (getCoherenceLimits n : CoherenceLimits ℝ).practical := by
    unfold getCoherenceLimits; split_ifs <;> first | (exfalso; omega) | norm_num
  unfold getConvergenceTimeFactor
  simp only [gt_iff_lt]
  generalize (getCoherenceLimits n : CoherenceLimits ℝ) = l at *
  rw [if_neg (not_le.mpr hP)]
  have hlt : ∀ q : ℝ, t / l.practical < q ↔ t < q * l.practical := fun q => div_lt_iff₀ hP
  simp only [hlt]
  have e2 : (2.0 : ℝ) = 2 := by norm_num
  have e4 : (4.0 : ℝ) = 4 := by norm_num
  have e8 : (8.0 : ℝ) = 8 := by norm_num
  rw [e2, e4, e8]
  have h12 : 0.8 * l.practical < 0.9 * l.practical := by norm_num; linarith
  have h23 : 0.9 * l.practical < 0.95 * l.practical := by norm_num; linarith
  have h34 : 0.95 * l.practical < l.practical := by norm_num; linarith
  split_ifs with h1 h2 h3 h4
  · refine ⟨?_, ?_, ?_, ?_⟩ <;> simp only [false_iff, not_lt, not_and] <;> intros <;> linarith
  all_goals
    simp only [Option.some.injEq]
    refine ⟨?_, ?_, ?_, ?_⟩ <;> norm_num <;> norm_num at * <;>
      first | linarith | (intros; linarith) | (constructor <;> linarith)

example : getConvergenceTimeFactor 50 (0.9 : ℝ) = some 4 :=
  (C22_timeFactor_thresholds 50 (by norm_num) 0.9).2.2.1.mpr (by simp only [getCoherenceLimits]; norm_num)

/-! ## C72 Pattern modifiers -/

theorem modifierTable_cases (g : ℤ) (p : PatternType) :
    (0.6 : ℝ) ≤ modifierTable g p ∧ (modifierTable g p : ℝ) ≤ 1.3 := by
  unfold modifierTable
  split <;> norm_num

/-- The documented range of the modifier. -/
def C72_claim : Prop :=
  ∀ (g n : ℤ) (p : PatternType), (0.5 : ℝ) ≤ getCoherenceModifier g n p ∧ (getCoherenceModifier g n p : ℝ) ≤ 1.5

/-- The sparse pattern at 50 agents has modifier 0.48. -/
theorem C72_refuted : ¬ C72_claim := by
  intro h
  have := (h 1 50 5).1
  simp only [getCoherenceModifier, modifierTable] at this
  norm_num at this

/-- The actual range of the modifier, for all arguments. -/
theorem C72_modifier_range (g n : ℤ) (p : PatternType) :
    (0.48 : ℝ) ≤ getCoherenceModifier g n p ∧ (getCoherenceModifier g n p : ℝ) ≤ 1.3 := by
  obtain ⟨h0, h1⟩ := modifierTable_cases g p
  unfold getCoherenceModifier
  generalize (modifierTable g p : ℝ) = m at *
  norm_num at h0 h1
  simp only
  split_ifs with ha hb hc
  · exfalso; have := ha.2; have := hb.2; omega
  all_goals constructor <;> norm_num <;> linarith

/-- What holds of the documented range: the upper bound always, the lower one except for the sparse pattern in swarms
of at most 50 agents (where the modifier can be 0.48). -/
theorem C72_modifier_partial (g n : ℤ) (p : PatternType) (h : 50 < n ∨ p ≠ 5) :
    (0.5 : ℝ) ≤ getCoherenceModifier g n p ∧ (getCoherenceModifier g n p : ℝ) ≤ 1.5 := by
  obtain ⟨h0, h1⟩ := modifierTable_cases g p
  unfold getCoherenceModifier
  generalize (modifierTable g p : ℝ) = m at *
  norm_num at h0 h1
  simp only
  rw [if_neg (by rintro ⟨a, b⟩; rcases h with h | h; exacts [by omega, h b])]
  split_ifs
  all_goals constructor <;> norm_num <;> linarith

/-! ## C78 Best pattern -/

/-- For swarms of 51 to 999 agents the recommended pattern of every goal has the greatest modifier of all patterns and is
rated optimal. -/
theorem C78_best_pattern_partial (g : GoalType) (h0 : 0 ≤ g) (h1 : g ≤ 7) (n : ℤ) (hn : 50 < n) (hn' : n < 1000)
    (p : PatternType) :
    (getCoherenceModifier g n p : ℝ) ≤ getCoherenceModifier g n (bestPatternForGoal g) ∧
    getQualifier (α := ℝ) g n (bestPatternForGoal g) = "optimal" ∧
    isRecommended (α := ℝ) g n (bestPatternForGoal g) = true := by
  have e : ∀ q, (getCoherenceModifier g n q : ℝ) = modifierTable g q := by
    intro q
    unfold getCoherenceModifier
    simp only
    rw [if_neg (by rintro ⟨a, b⟩; omega), if_neg (by rintro ⟨a, b⟩; omega)]
  have hb : (modifierTable g (bestPatternForGoal g) : ℝ) = 1.3 := by
    interval_cases g <;> simp only [bestPatternForGoal, modifierTable]
  refine ⟨?_, ?_, ?_⟩
  · rw [e, e, hb]; exact (modifierTable_cases g p).2
  · unfold getQualifier; simp only [e, hb]; rw [if_pos (le_refl _)]
  · unfold isRecommended; rw [e, hb]; norm_num

/-- The claim without size restriction. -/
def C78_claim : Prop := ∀ g : GoalType, 0 ≤ g → g ≤ 7 → ∀ (n : ℤ) (p : PatternType),
  (getCoherenceModifier g n p : ℝ) ≤ getCoherenceModifier g n (bestPatternForGoal g)

/-- It fails at both ends: with 1000 agents bursts suit batching better than the "best" high-frequency pattern, and with
50 agents bursts suit energy saving better than the "best" sparse pattern. -/
theorem C78_refuted : ¬ C78_claim ∧
    (getCoherenceModifier 0 1000 2 : ℝ) > getCoherenceModifier 0 1000 (bestPatternForGoal 0) ∧
    (getCoherenceModifier 4 50 2 : ℝ) > getCoherenceModifier 4 50 (bestPatternForGoal 4) := by
  have h1 : (getCoherenceModifier 0 1000 2 : ℝ) > getCoherenceModifier 0 1000 (bestPatternForGoal 0) := by
    simp only [getCoherenceModifier, modifierTable, bestPatternForGoal]; norm_num
  refine ⟨fun h => ?_, h1, ?_⟩
  · exact absurd (h 0 (by norm_num) (by norm_num) 1000 2) (not_le.mpr h1)
  · simp only [getCoherenceModifier, modifierTable, bestPatternForGoal]; norm_num

/-- Qualifiers are monotone in the modifier: a pattern with a greater modifier is never graded worse. -/
theorem C78_qualifier_monotone (g n g' n' : ℤ) (p p' : PatternType)
    (h : (getCoherenceModifier g n p : ℝ) ≤ getCoherenceModifier g' n' p') :
    ∃ i j : ℕ, i ≤ j ∧ ["poor", "fair", "good", "excellent", "optimal"][i]? = some (getQualifier (α := ℝ) g n p) ∧
      ["poor", "fair", "good", "excellent", "optimal"][j]? = some (getQualifier (α := ℝ) g' n' p') := by
  unfold getQualifier
  simp only [ge_iff_le]
  generalize (getCoherenceModifier g n p : ℝ) = a at *
  generalize (getCoherenceModifier g' n' p' : ℝ) = b at *
  by_cases a4 : 1.3 ≤ a
  · exact ⟨4, 4, le_rfl, by simp [a4], by simp [le_trans a4 h]⟩
  · by_cases a3 : 1.2 ≤ a
    · refine ⟨3, if 1.3 ≤ b then 4 else 3, by split_ifs <;> norm_num, by simp [a4, a3], ?_⟩
      have := le_trans a3 h
      split_ifs <;> simp
    · by_cases a2 : 1.0 ≤ a
      · refine ⟨2, if 1.3 ≤ b then 4 else if 1.2 ≤ b then 3 else 2, by split_ifs <;> norm_num, by simp [a4, a3, a2], ?_⟩
        have := le_trans a2 h
        split_ifs <;> simp
      · by_cases a1 : 0.8 ≤ a
        · refine ⟨1, if 1.3 ≤ b then 4 else if 1.2 ≤ b then 3 else if 1.0 ≤ b then 2 else 1,
            by split_ifs <;> norm_num, by simp [a4, a3, a2, a1], ?_⟩
          have := le_trans a1 h
          split_ifs <;> simp
        · refine ⟨0, if 1.3 ≤ b then 4 else if 1.2 ≤ b then 3 else if 1.0 ≤ b then 2 else if 0.8 ≤ b then 1 else 0,
            by split_ifs <;> norm_num, by simp [a4, a3, a2, a1], ?_⟩
          split_ifs <;> simp

/-- For C18: large swarms are updated more rarely than small ones and are asked for less coherence. -/
example : Size.defaultUpdateIntervalMs 1 < Size.defaultUpdateIntervalMs 3 ∧ (Size.defaultTargetCoherence 3 : ℝ) < Size.defaultTargetCoherence 1 ∧
    fromCount (Size.defaultAgentCount 3) = 3 ∧ Size.maxNeighbors 3 < Size.maxNeighbors 2 :=
  ⟨(C18_scale_monotone 1 3 (by norm_num) (by norm_num) (by norm_num)).2.2.2.2.1, (C18_scale_monotone 1 3 (by norm_num) (by norm_num) (by norm_num)).2.1,
    C18_scale_roundtrip 3 (by norm_num) (by norm_num), (C18_neighbors 3 (by norm_num) (by norm_num)).2.2 (by norm_num)⟩

/-- For C20: 37 agents can be asked for less than 1 and no less than 12 agents. -/
example : (getCoherenceLimits 12 : CoherenceLimits ℝ).practical ≤ (getCoherenceLimits 37).practical ∧ (getCoherenceLimits 37 : CoherenceLimits ℝ).theoretical < 1 :=
  ⟨(C20_limits_monotone 12 37 (by norm_num) (by norm_num)).2.1, (C20_limits_monotone 12 37 (by norm_num) (by norm_num)).2.2.2.2⟩

/-- For C21: the size named for 0.87 is enough for it, and no larger than that for 0.96. -/
example : (0.87 : ℝ) ≤ (getCoherenceLimits (getMinimumSwarmSize (0.87 : ℝ))).practical ∧ getMinimumSwarmSize (0.87 : ℝ) ≤ getMinimumSwarmSize (0.96 : ℝ) :=
  ⟨C21_minimum_size_partial 0.87 (by norm_num), (C21_minimum_size_monotone 0.87 0.96 (by norm_num)).1⟩

/-- For C22: two targets with factors, as the theorem on their order asks. -/
example : getConvergenceTimeFactor 50 (0.5 : ℝ) = some 1 ∧ getConvergenceTimeFactor 50 (0.9 : ℝ) = some 4 :=
  ⟨(C22_timeFactor_thresholds 50 (by norm_num) 0.5).1.mpr (by simp only [getCoherenceLimits]; norm_num),
    (C22_timeFactor_thresholds 50 (by norm_num) 0.9).2.2.1.mpr (by simp only [getCoherenceLimits]; norm_num)⟩

/-- For C72 and C78: seventy agents with goal 3. -/
example : (0.5 : ℝ) ≤ getCoherenceModifier 3 70 5 ∧ (getCoherenceModifier 3 70 5 : ℝ) ≤ getCoherenceModifier 3 70 (bestPatternForGoal 3) :=
  ⟨(C72_modifier_partial 3 70 5 (Or.inl (by norm_num))).1, (C78_best_pattern_partial 3 (by norm_num) (by norm_num) 70 (by norm_num) (by norm_num) 5).1⟩

end Verif
