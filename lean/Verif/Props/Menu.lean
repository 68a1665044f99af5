import Verif.Model.Menu
import Verif.Props.Tables

/-! # The menu and the assessment of the configuration (C129) -/

set_option autoImplicit false
set_option linter.unusedSectionVars false

namespace Verif
open GoMath

/-- The patterns that suit a goal in a swarm of `n` agents. -/
def Spec.favourable (n : ℤ) : GoalType → List PatternType
  | 0 => [1, 2, 3, 4]
  | 1 => [1, 3, 4]
  | 2 => if n < 1000 then [1, 3] else [3]
  | 3 => [1, 3]
  | 4 => [2, 5]
  | 5 => if n < 1000 then [1, 3] else [3]
  | 6 => [1, 2, 3, 4]
  | 7 => if n < 1000 then [1, 2, 4] else [2, 4]
  | _ => []

/-- Reasons that say a swarm is too small. -/
def Spec.tooFew : List String := [" (not enough workers)", " (too few voices for quorum)", " (no backup agents)", " (can't handle spikes)"]

/-- Reasons that say a swarm is too large. -/
def Spec.tooMany : List String :=
  [" (too many agents slows consensus)", " (more hops between agents)", " (too many agents drain power)", " (slow to adapt)"]

open Spec

/-- **C129 (keys).** The key that the menu shows for a goal, pattern, scale or action selects it, in upper and in lower case. Every goal, pattern
and scale is in the menu once, and no key is used twice. -/
theorem C129_keys :
    (∀ e ∈ goalMenu, processKey (.char e.1) = some (.goal e.2.2) ∧ processKey (.char e.1.toLower) = some (.goal e.2.2)) ∧
    (∀ e ∈ patternMenu, processKey (.char e.1) = some (.pattern e.2.2) ∧ processKey (.char e.1.toLower) = some (.pattern e.2.2)) ∧
    (∀ e ∈ scaleMenu, processKey (.char e.1) = some (.scale e.2.2.1) ∧ e.2.1.toLower = e.2.2.1.name) ∧
    (∀ e ∈ actionMenu, (e.2 = "Disrupt" ∧ processKey (.char e.1) = some .disrupt) ∨ (e.2 = "Reset" ∧ processKey (.char e.1) = some .reset) ∨
      (e.2 = "Pause" ∧ processKey (.char e.1) = some .pause) ∨ (e.2 = "Quit" ∧ processKey (.char e.1) = some .quit)) ∧
    goalMenu.map (fun e => e.2.2) = [0, 1, 2, 3, 4, 5, 6, 7] ∧ patternMenu.map (fun e => e.2.2) = [1, 2, 3, 4, 5] ∧
    scaleMenu.map (fun e => e.2.2.1) = [0, 1, 2, 3, 4] ∧ actionMenu.length = 4 ∧
    (goalMenu.map Prod.fst ++ patternMenu.map Prod.fst ++ scaleMenu.map Prod.fst ++ actionMenu.map Prod.fst).Nodup := by
  refine ⟨?_, ?_, ?_, ?_, ?_, ?_, ?_, ?_, ?_⟩ <;> decide +kernel

/-- The numbers of agents in the menu are those of the scales, but for the largest, for which the menu has 5000 instead of 2000. -/
theorem C129_counts (e : Char × String × Size × ℤ) (he : e ∈ scaleMenu) :
    (e.2.2.2 = e.2.2.1.defaultAgentCount ↔ e.2.2.1 ≠ 4) ∧ (e.2.2.1 = 4 → e.2.2.2 = 5000 ∧ e.2.2.1.defaultAgentCount = 2000) := by
  revert e
  decide +kernel

/-! ### Assessment of the pattern -/

theorem pattern_cases (p : ℤ) (h1 : 1 ≤ p) (h2 : p ≤ 5) : p = 1 ∨ p = 2 ∨ p = 3 ∨ p = 4 ∨ p = 5 := by omega

theorem scale_five (k : ℤ) (h1 : 0 ≤ k) (h2 : k ≤ 4) : k = 0 ∨ k = 1 ∨ k = 2 ∨ k = 3 ∨ k = 4 := by omega

theorem pattern_mem (p : ℤ) (h1 : 1 ≤ p) (h2 : p ≤ 5) : p ∈ ([1, 2, 3, 4, 5] : List ℤ) := by
  rcases pattern_cases p h1 h2 with rfl | rfl | rfl | rfl | rfl <;> simp

theorem goal_mem (g : ℤ) (h1 : 0 ≤ g) (h2 : g ≤ 7) : g ∈ ([0, 1, 2, 3, 4, 5, 6, 7] : List ℤ) := by
  have : g = 0 ∨ g = 1 ∨ g = 2 ∨ g = 3 ∨ g = 4 ∨ g = 5 ∨ g = 6 ∨ g = 7 := by omega
  rcases this with rfl | rfl | rfl | rfl | rfl | rfl | rfl | rfl <;> simp

theorem qualifier_cases (g n : ℤ) (p : PatternType) :
    ((1.3 : ℝ) ≤ getCoherenceModifier g n p ∧ getQualifier (α := ℝ) g n p = "optimal") ∨
    ((1.2 : ℝ) ≤ getCoherenceModifier g n p ∧ getCoherenceModifier g n p < (1.3 : ℝ) ∧ getQualifier (α := ℝ) g n p = "excellent") ∨
    ((1 : ℝ) ≤ getCoherenceModifier g n p ∧ getCoherenceModifier g n p < (1.2 : ℝ) ∧ getQualifier (α := ℝ) g n p = "good") ∨
    ((0.8 : ℝ) ≤ getCoherenceModifier g n p ∧ getCoherenceModifier g n p < (1 : ℝ) ∧ getQualifier (α := ℝ) g n p = "fair") ∨
    (getCoherenceModifier g n p < (0.8 : ℝ) ∧ getQualifier (α := ℝ) g n p = "poor") := by
  have e1 : (1.0 : ℝ) = 1 := by norm_num
  unfold getQualifier
  simp only [e1]
  split_ifs with h1 h2 h3 h4
  · exact .inl ⟨h1, rfl⟩
  · exact .inr (.inl ⟨h2, not_le.mp h1, rfl⟩)
  · exact .inr (.inr (.inl ⟨h3, not_le.mp h2, rfl⟩))
  · exact .inr (.inr (.inr (.inl ⟨h4, not_le.mp h3, rfl⟩)))
  · exact .inr (.inr (.inr (.inr ⟨not_le.mp h4, rfl⟩)))

theorem patternGood_iff (g n : ℤ) (p : PatternType) : patternGood ℝ g n p = true ↔ (1 : ℝ) ≤ getCoherenceModifier g n p := by
  unfold patternGood
  rcases qualifier_cases g n p with ⟨h, e⟩ | ⟨h, h', e⟩ | ⟨h, h', e⟩ | ⟨h, h', e⟩ | ⟨h', e⟩ <;> rw [e]
  · exact iff_of_true (by decide +kernel) (le_trans (by norm_num) h)
  · exact iff_of_true (by decide +kernel) (le_trans (by norm_num) h)
  · exact iff_of_true (by decide +kernel) h
  · exact iff_of_false (by decide +kernel) (not_le.mpr h')
  · exact iff_of_false (by decide +kernel) (not_le.mpr (lt_trans h' (by norm_num)))

/-- **C129 (good patterns).** For every goal and every number of agents the patterns called good are the ones that suit it. -/
theorem C129_good (g n : ℤ) (p : PatternType) (hg : 0 ≤ g ∧ g ≤ 7) (hp : 1 ≤ p ∧ p ≤ 5) : patternGood ℝ g n p = true ↔ p ∈ favourable n g := by
  rw [patternGood_iff]
  obtain ⟨g0, g1⟩ := hg
  obtain ⟨p0, p1⟩ := hp
  have e : ∀ x y : ℤ, ((x : PatternType) = (y : PatternType)) = (x = y) := fun _ _ => rfl
  by_cases h1 : n ≥ 1000
  · have h2 : ¬ n ≤ 50 := by omega
    have h3 : ¬ n < 1000 := by omega
    interval_cases g <;> interval_cases p <;> simp [getCoherenceModifier, modifierTable, favourable, h1, h2, h3] <;> norm_num
  · have h3 : n < 1000 := by omega
    by_cases h2 : n ≤ 50
    · interval_cases g <;> interval_cases p <;> simp [getCoherenceModifier, modifierTable, favourable, h1, h2, h3] <;> norm_num
    · interval_cases g <;> interval_cases p <;> simp [getCoherenceModifier, modifierTable, favourable, h1, h2, h3] <;> norm_num

/-- **C129 (marks).** The menu, the mark beside the pattern and the assessment agree: a pattern of the menu is white and bold exactly if it is
marked with a tick, and exactly if it is assessed as optimal or good, which is when it does not lower the coherence. It is crossed out exactly if it
is assessed as poor, which is when it lowers the coherence by more than a fifth. -/
theorem C129_marks (g : GoalType) (s : Size) (p : PatternType) :
    (patternMark ℝ g s p = "  ✓" ↔ (1 : ℝ) ≤ getCoherenceModifier g s.defaultAgentCount p) ∧
    (patternStatus ℝ g s p ∈ ["Optimal", "Good"] ↔ (1 : ℝ) ≤ getCoherenceModifier g s.defaultAgentCount p) ∧
    (patternMark ℝ g s p = "  ✗" ↔ getCoherenceModifier g s.defaultAgentCount p < (0.8 : ℝ)) ∧
    (patternStatus ℝ g s p = "Poor" ↔ getCoherenceModifier g s.defaultAgentCount p < (0.8 : ℝ)) ∧
    (patternStatus ℝ g s p = "Optimal" ↔ (1.3 : ℝ) ≤ getCoherenceModifier g s.defaultAgentCount p) ∧
    (patternMark ℝ g s p = "  ⚠" ↔ patternStatus ℝ g s p = "Fair") ∧ patternStatus ℝ g s p ≠ "Unknown" ∧
    (p ∈ boldPatterns ℝ g s ↔ (1 ≤ p ∧ p ≤ 5) ∧ (1 : ℝ) ≤ getCoherenceModifier g s.defaultAgentCount p) := by
  have hbold : p ∈ boldPatterns ℝ g s ↔ (1 ≤ p ∧ p ≤ 5) ∧ (1 : ℝ) ≤ getCoherenceModifier g s.defaultAgentCount p := by
    simp only [boldPatterns, List.mem_map, List.mem_filter, patternGood_iff]
    constructor
    · rintro ⟨e, ⟨he, hm⟩, rfl⟩
      refine ⟨?_, hm⟩
      clear hm
      revert e
      decide +kernel
    · rintro ⟨⟨h1, h2⟩, hm⟩
      have hp : p = 1 ∨ p = 2 ∨ p = 3 ∨ p = 4 ∨ p = 5 := pattern_cases p h1 h2
      have hex : ∃ e ∈ patternMenu, e.2.2 = p := by rcases hp with rfl | rfl | rfl | rfl | rfl <;> decide +kernel
      obtain ⟨e, he, rfl⟩ := hex
      exact ⟨e, ⟨he, hm⟩, rfl⟩
  have key : ∀ (q mark status : String) (c1 c2 c3 : Prop), getQualifier (α := ℝ) g s.defaultAgentCount p = q →
      patternMark ℝ g s p = mark → patternStatus ℝ g s p = status →
      ((1 : ℝ) ≤ getCoherenceModifier g s.defaultAgentCount p ↔ c1) → (getCoherenceModifier g s.defaultAgentCount p < (0.8 : ℝ) ↔ c2) →
      ((1.3 : ℝ) ≤ getCoherenceModifier g s.defaultAgentCount p ↔ c3) →
      ((mark = "  ✓" ↔ c1) ∧ (status ∈ ["Optimal", "Good"] ↔ c1) ∧ (mark = "  ✗" ↔ c2) ∧ (status = "Poor" ↔ c2) ∧ (status = "Optimal" ↔ c3) ∧
        (mark = "  ⚠" ↔ status = "Fair") ∧ status ≠ "Unknown") →
      (patternMark ℝ g s p = "  ✓" ↔ (1 : ℝ) ≤ getCoherenceModifier g s.defaultAgentCount p) ∧
      (patternStatus ℝ g s p ∈ ["Optimal", "Good"] ↔ (1 : ℝ) ≤ getCoherenceModifier g s.defaultAgentCount p) ∧
      (patternMark ℝ g s p = "  ✗" ↔ getCoherenceModifier g s.defaultAgentCount p < (0.8 : ℝ)) ∧
      (patternStatus ℝ g s p = "Poor" ↔ getCoherenceModifier g s.defaultAgentCount p < (0.8 : ℝ)) ∧
      (patternStatus ℝ g s p = "Optimal" ↔ (1.3 : ℝ) ≤ getCoherenceModifier g s.defaultAgentCount p) ∧
      (patternMark ℝ g s p = "  ⚠" ↔ patternStatus ℝ g s p = "Fair") ∧ patternStatus ℝ g s p ≠ "Unknown" ∧
      (p ∈ boldPatterns ℝ g s ↔ (1 ≤ p ∧ p ≤ 5) ∧ (1 : ℝ) ≤ getCoherenceModifier g s.defaultAgentCount p) := by
    intro q mark status c1 c2 c3 hq hm hst e1 e2 e3 ⟨k1, k2, k3, k4, k5, k6, k7⟩
    rw [hm, hst, e1, e2, e3]
    exact ⟨k1, k2, k3, k4, k5, k6, k7, by rw [hbold, e1]⟩
  rcases qualifier_cases g s.defaultAgentCount p with ⟨h, e⟩ | ⟨h, h', e⟩ | ⟨h, h', e⟩ | ⟨h, h', e⟩ | ⟨h', e⟩
  · exact key "optimal" "  ✓" "Optimal" True False True e (by simp [patternMark, e]) (by simp [patternStatus, e])
      (iff_of_true (le_trans (by norm_num) h) trivial) (iff_of_false (not_lt.mpr (le_trans (by norm_num) h)) id) (iff_of_true h trivial) (by decide +kernel)
  · exact key "excellent" "  ✓" "Good" True False False e (by simp [patternMark, e]) (by simp [patternStatus, e])
      (iff_of_true (le_trans (by norm_num) h) trivial) (iff_of_false (not_lt.mpr (le_trans (by norm_num) h)) id) (iff_of_false (not_le.mpr h') id) (by decide +kernel)
  · exact key "good" "  ✓" "Good" True False False e (by simp [patternMark, e]) (by simp [patternStatus, e])
      (iff_of_true h trivial) (iff_of_false (not_lt.mpr (le_trans (by norm_num) h)) id)
      (iff_of_false (not_le.mpr (lt_trans h' (by norm_num))) id) (by decide +kernel)
  · exact key "fair" "  ⚠" "Fair" False False False e (by simp [patternMark, e]) (by simp [patternStatus, e])
      (iff_of_false (not_le.mpr h') id) (iff_of_false (not_lt.mpr h) id) (iff_of_false (not_le.mpr (lt_trans h' (by norm_num))) id) (by decide +kernel)
  · exact key "poor" "  ✗" "Poor" False True False e (by simp [patternMark, e]) (by simp [patternStatus, e])
      (iff_of_false (not_le.mpr (lt_trans h' (by norm_num))) id) (iff_of_true h' trivial) (iff_of_false (not_le.mpr (lt_trans h' (by norm_num))) id) (by decide +kernel)

/-- Frequent requests are good for consensus among 200 agents, not among 1000. -/
example : patternStatus ℝ 2 2 1 = "Good" ∧ patternStatus ℝ 2 3 1 = "Fair" := by
  constructor
  · simp only [patternStatus, getQualifier, getCoherenceModifier, modifierTable, Size.defaultAgentCount]
    norm_num
    decide +kernel
  · simp only [patternStatus, getQualifier, getCoherenceModifier, modifierTable, Size.defaultAgentCount]
    norm_num
    decide +kernel

/-! ### Reasons -/

theorem reason_unknown {g : GoalType} {p : PatternType} (h : ¬ ((0 ≤ g ∧ g ≤ 7) ∧ 1 ≤ p ∧ p ≤ 5)) (good : Bool) : patternReasons.lookup (g, p, good) = none := by
  rw [List.lookup_eq_none_iff]
  have key : ∀ e ∈ patternReasons, (0 ≤ e.1.1 ∧ e.1.1 ≤ 7) ∧ 1 ≤ e.1.2.1 ∧ e.1.2.1 ≤ 5 := by decide +kernel
  intro e he
  have := key e he
  simp only [bne_iff_ne]
  intro e'
  rw [← e'] at this
  exact h this

/-- The full claim: what is said in favour of a pattern that is called good is not what would be said against it. -/
def C129_claim : Prop :=
  ∀ (g n : ℤ) (p : PatternType), 0 ≤ g ∧ g ≤ 7 → 1 ≤ p ∧ p ≤ 5 → patternGood ℝ g n p = true → getPatternReason g p true ≠ getPatternReason g p false

/-- It is false: mixed requests are optimal for fault recovery "(unpredictable recovery timing)". -/
theorem C129_refuted : ¬ C129_claim := by
  intro h
  exact h 6 200 4 (by norm_num) (by decide) ((C129_good 6 200 4 (by norm_num) (by decide)).mpr (by decide)) (by decide +kernel)

theorem lookup_mem_snd {κ β : Type} [BEq κ] {l : List (κ × β)} {k : κ} {v : β} (h : l.lookup k = some v) : ∃ x ∈ l, x.2 = v := by
  induction l with
  | nil => simp at h
  | cons a l ih =>
    obtain ⟨a1, a2⟩ := a
    rw [List.lookup_cons] at h
    split at h
    · cases h; exact ⟨_, List.mem_cons_self, rfl⟩
    · obtain ⟨x, hx, e⟩ := ih h; exact ⟨x, List.mem_cons_of_mem _ hx, e⟩

/-- **C129 (reasons).** Something is said about every pattern that is chosen, and nothing if none is. -/
theorem C129_reason_given (g : GoalType) (p : PatternType) (good : Bool) : getPatternReason g p good = "" ↔ p = 0 := by
  unfold getPatternReason
  by_cases hp : p = 0
  · simp [hp]
  · rw [if_neg hp]
    simp only [hp, iff_false]
    split
    · rename_i r hr
      obtain ⟨x, hx, e⟩ := lookup_mem_snd hr
      have : ∀ x ∈ patternReasons, x.2 ≠ "" := by decide +kernel
      exact e ▸ this x hx
    · split
      all_goals
        split <;> decide +kernel

/-- **C129 (the table of reasons).** No combination is listed twice, and exactly four of those of a known goal with a known pattern are missing: praise of mixed and
sparse requests for batching, and of frequent and bursty requests for spreading load. -/
theorem C129_table : (patternReasons.map Prod.fst).Nodup ∧
    ∀ k : GoalType × PatternType × Bool, k ∈ patternReasons.map Prod.fst ↔
      (k.1 ∈ ([0, 1, 2, 3, 4, 5, 6, 7] : List ℤ) ∧ k.2.1 ∈ ([1, 2, 3, 4, 5] : List ℤ)) ∧
      ¬ (k.2.2 = true ∧ ((k.1 = 0 ∧ (k.2.1 = 4 ∨ k.2.1 = 5)) ∨ (k.1 = 1 ∧ (k.2.1 = 1 ∨ k.2.1 = 2)))) := by
  refine ⟨by decide +kernel, ?_⟩
  intro k
  constructor
  · have key : ∀ k ∈ patternReasons.map Prod.fst, (k.1 ∈ ([0, 1, 2, 3, 4, 5, 6, 7] : List ℤ) ∧ k.2.1 ∈ ([1, 2, 3, 4, 5] : List ℤ)) ∧
      ¬ (k.2.2 = true ∧ ((k.1 = 0 ∧ (k.2.1 = 4 ∨ k.2.1 = 5)) ∨ (k.1 = 1 ∧ (k.2.1 = 1 ∨ k.2.1 = 2)))) := by decide +kernel
    exact key k
  · have key : ∀ g ∈ ([0, 1, 2, 3, 4, 5, 6, 7] : List ℤ), ∀ p ∈ ([1, 2, 3, 4, 5] : List ℤ), ∀ b : Bool,
        ¬ (b = true ∧ ((g = 0 ∧ (p = 4 ∨ p = 5)) ∨ (g = 1 ∧ (p = 1 ∨ p = 2)))) → ((g, p, b) : ℤ × ℤ × Bool) ∈ patternReasons.map Prod.fst := by
      decide +kernel
    rintro ⟨⟨hg, hp⟩, hn⟩
    exact key k.1 hg k.2.1 hp k.2.2 hn

/-- **C129 (reasons), proved part.** For every goal and pattern, known or not, other than mixed requests in fault recovery, a good pattern is praised
with other words than it would be criticised with. -/
theorem C129_reasons_partial (g n : ℤ) (p : PatternType) (hp : p ≠ 0) (h : ¬ (g = 6 ∧ p = 4)) (hgood : patternGood ℝ g n p = true) :
    getPatternReason g p true ≠ getPatternReason g p false := by
  by_cases hk : (0 ≤ g ∧ g ≤ 7) ∧ 1 ≤ p ∧ p ≤ 5
  · have hf := (C129_good g n p hk.1 hk.2).mp hgood
    obtain ⟨⟨g0, g1⟩, p0, p1⟩ := hk
    clear hgood
    have key : ∀ g ∈ ([0, 1, 2, 3, 4, 5, 6, 7] : List ℤ), ∀ p ∈ ([1, 2, 3, 4, 5] : List ℤ), ¬ (g = 6 ∧ p = 4) →
        (p ∈ favourable 0 g ∨ p ∈ favourable 1000 g) → getPatternReason g p true ≠ getPatternReason g p false := by decide +kernel
    refine key g (goal_mem g g0 g1) p (pattern_mem p p0 p1) h ?_
    have : favourable n g = favourable 0 g ∨ favourable n g = favourable 1000 g := by
      unfold favourable
      split <;> simp
      all_goals omega
    rcases this with e | e <;> rw [e] at hf
    · exact .inl hf
    · exact .inr hf
  · simp only [getPatternReason, if_neg hp, reason_unknown hk]
    simp only [if_true]
    split <;> decide +kernel

/-- **C129 (specific reasons).** The reason shown for a pattern is one written for the goal and the pattern, but for two of the good ones: mixed requests
for batching and frequent requests for load distribution. -/
theorem C129_specific (g n : ℤ) (p : PatternType) (hg : 0 ≤ g ∧ g ≤ 7) (hp : 1 ≤ p ∧ p ≤ 5) :
    patternReasons.lookup (g, p, patternGood ℝ g n p) = none ↔ (g = 0 ∧ p = 4) ∨ (g = 1 ∧ p = 1) := by
  have key : ∀ g ∈ ([0, 1, 2, 3, 4, 5, 6, 7] : List ℤ), ∀ p ∈ ([1, 2, 3, 4, 5] : List ℤ),
      ((patternReasons.lookup (g, p, decide (p ∈ favourable 0 g)) = none ↔ (g = 0 ∧ p = 4) ∨ (g = 1 ∧ p = 1))) ∧
      ((patternReasons.lookup (g, p, decide (p ∈ favourable 1000 g)) = none ↔ (g = 0 ∧ p = 4) ∨ (g = 1 ∧ p = 1))) := by decide +kernel
  have e : patternGood ℝ g n p = decide (p ∈ favourable n g) := by
    rw [Bool.eq_iff_iff, C129_good g n p hg hp]
    simp
  have : favourable n g = favourable 0 g ∨ favourable n g = favourable 1000 g := by
    unfold favourable
    split <;> simp
    all_goals omega
  obtain ⟨k1, k2⟩ := key g (goal_mem g hg.1 hg.2) p (pattern_mem p hp.1 hp.2)
  rw [e]
  rcases this with h | h <;> rw [h]
  · exact k1
  · exact k2

/-! ### Assessment of the scale -/

/-- **C129 (scale).** The scales white and bold in the menu are those assessed as good, although the menu has a wrong number of agents for the largest.
A scale is good exactly if it is recommended. If it is not, the reason says whether the swarm is too small or too large, and rightly so: then all smaller,
or all larger, swarms are not recommended either. The fallback texts are never shown. -/
theorem C129_scale (g : GoalType) (n : ℤ) (s : Size) (hs : 0 ≤ s ∧ s ≤ 4) :
    (s ∈ boldScales g ↔ (scaleAssessment g s.defaultAgentCount).1 = "Good") ∧
    ((scaleAssessment g n).1 = "Good" ↔ g.isRecommendedForSize n = true) ∧
    ((scaleAssessment g n).1 = "Good" ∨ (scaleAssessment g n).1 = "Poor") ∧
    ((scaleAssessment g n).1 = "Poor" →
      ((scaleAssessment g n).2 ∈ tooFew ∧ ∀ m ≤ n, g.isRecommendedForSize m = false) ∨
      ((scaleAssessment g n).2 ∈ tooMany ∧ ∀ m ≥ n, g.isRecommendedForSize m = false)) ∧
    ((scaleAssessment g n).1 = "Good" → (scaleAssessment g n).2 ∉ tooFew ++ tooMany) := by
  have hb : s ∈ boldScales g ↔ g.isRecommendedForSize s.defaultAgentCount = true := by
    have hs' : s ∈ ([0, 1, 2, 3, 4] : List ℤ) := by
      obtain ⟨h0, h1⟩ := hs
      rcases scale_five s h0 h1 with rfl | rfl | rfl | rfl | rfl <;> simp
    by_cases hg : g ∈ ([0, 1, 2, 3, 4, 5, 6, 7] : List ℤ)
    · have key : ∀ g ∈ ([0, 1, 2, 3, 4, 5, 6, 7] : List ℤ), ∀ s ∈ ([0, 1, 2, 3, 4] : List ℤ),
          (s ∈ boldScales g ↔ GoalType.isRecommendedForSize g (Size.defaultAgentCount s) = true) := by decide +kernel
      exact key g hg s hs'
    · have e : ∀ m, g.isRecommendedForSize m = true := by
        intro m
        unfold GoalType.isRecommendedForSize
        split <;> first | rfl | (exfalso; apply hg; decide)
      have e' : boldScales g = [0, 1, 2, 3, 4] := by
        simp only [boldScales, e]
        decide +kernel
      rw [e', e]
      simpa using hs'
  have hgood : ∀ m, (scaleAssessment g m).1 = "Good" ↔ g.isRecommendedForSize m = true := by
    intro m
    unfold scaleAssessment
    split_ifs with h <;> simp [h]
  refine ⟨by rw [hb, hgood], hgood n, ?_, ?_, ?_⟩
  · unfold scaleAssessment
    split_ifs <;> simp
  · intro h
    have hr : g.isRecommendedForSize n = false := by
      by_contra hc
      rw [(hgood n).mpr (by simpa using hc)] at h
      exact absurd h (by decide +kernel)
    unfold scaleAssessment
    rw [if_neg (by simp [hr])]
    unfold GoalType.isRecommendedForSize at hr ⊢
    split at hr
    · simp at hr
    · have hn : n < 20 := by simpa using hr
      left
      refine ⟨by simp [hn, tooFew], fun m hm => by simp; omega⟩
    · have hn : n < 50 ∨ 1000 < n := by simp at hr; omega
      rcases hn with hn | hn
      · left
        refine ⟨by simp [hn, tooFew], fun m hm => by simp; omega⟩
      · right
        have : ¬ n < 50 := by omega
        refine ⟨by simp [hn, this, tooMany], fun m hm => by simp; omega⟩
    · have hn : 200 < n := by simpa using hr
      right
      refine ⟨by simp [hn, tooMany], fun m hm => by simp; omega⟩
    · have hn : 200 < n := by simpa using hr
      right
      refine ⟨by simp [hn, tooMany], fun m hm => by simp; omega⟩
    · simp at hr
    · have hn : n < 20 := by simpa using hr
      left
      refine ⟨by simp [hn, tooFew], fun m hm => by simp; omega⟩
    · have hn : n < 20 ∨ 1000 < n := by simp at hr; omega
      rcases hn with hn | hn
      · left
        refine ⟨by simp [hn, tooFew], fun m hm => by simp; omega⟩
      · right
        have : ¬ n < 20 := by omega
        refine ⟨by simp [hn, this, tooMany], fun m hm => by simp; omega⟩
    · simp at hr
  · intro h
    have hr := (hgood n).mp h
    unfold scaleAssessment
    rw [if_pos hr]
    split <;> (try split_ifs) <;> decide +kernel

/-- For C129: the first goal with pattern 1 and seventy agents has a reason of its own. -/
example : patternReasons.lookup ((0 : GoalType), (1 : PatternType), patternGood ℝ 0 70 1) ≠ none ∧
    ((2 : Size) ∈ boldScales 0 ↔ (scaleAssessment 0 (Size.defaultAgentCount 2)).1 = "Good") := by
  refine ⟨fun h => ?_, (C129_scale 0 70 2 (by norm_num)).1⟩
  have := (C129_specific 0 70 1 (by norm_num) (by norm_num)).1 h
  norm_num at this

end Verif
