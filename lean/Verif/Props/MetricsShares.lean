import Verif.Props.MetricsPanel

/-! # C149: the percentages of the metrics panel -/

set_option autoImplicit false
set_option linter.unusedSectionVars false

namespace Verif
open GoMath Spec

theorem status1 (s : Shown ℝ) : metricsStatus 1 s = "IMBALANCED" ↔ 0.5 < s.coherence :=
  ite3_first (P := s.coherence > 0.5) (Q := s.coherence > 0.3) (by decide +kernel) (by decide +kernel)
theorem status1' (s : Shown ℝ) : metricsStatus 1 s = "BALANCED" ↔ s.coherence ≤ 0.3 :=
  (ite3_last (P := s.coherence > 0.5) (Q := s.coherence > 0.3) (by decide +kernel) (by decide +kernel)).trans
    ⟨fun h => not_lt.1 h.2, fun h => ⟨not_lt.2 (le_trans h (by norm_num)), not_lt.2 h⟩⟩

/-- **C149, spread.** The spread of the load panel is between 0 and 100 %, 0 exactly if all servers work in step and 100 exactly if they are evenly spread;
it falls when the coherence rises. Less than 50 % is "IMBALANCED" and 70 % or more is "BALANCED". -/
theorem C149_spread (s : Shown ℝ) (h : Sound s) : ∃ p, metricsPercent 1 s = some p ∧ 0 ≤ p ∧ p ≤ 100 ∧
    (p = 0 ↔ s.coherence = 1) ∧ (p = 100 ↔ s.coherence = 0) ∧
    (metricsStatus 1 s = "IMBALANCED" ↔ p < 50) ∧ (metricsStatus 1 s = "BALANCED" ↔ 70 ≤ p) ∧
    ∀ (s' : Shown ℝ) (p' : ℝ), metricsPercent 1 s' = some p' → (s.coherence < s'.coherence ↔ p' < p) := by
  obtain ⟨h0, h1⟩ := h.coherence
  refine ⟨(1 - s.coherence) * 100.0, rfl, ?_⟩
  rw [status1, status1']
  have e : (100.0 : ℝ) = 100 := by norm_num
  have e5 : (0.5 : ℝ) = 1 / 2 := by norm_num
  have e3 : (0.3 : ℝ) = 3 / 10 := by norm_num
  rw [e, e5, e3]
  refine ⟨by linarith, by linarith, ⟨fun h => by linarith, fun h => by linarith⟩, ⟨fun h => by linarith, fun h => by linarith⟩,
    ⟨fun h => by linarith, fun h => by linarith⟩, ⟨fun h => by linarith, fun h => by linarith⟩, ?_⟩
  intro s' p' hp
  have : (1 - s'.coherence) * 100.0 = p' := Option.some.inj hp
  rw [← this, e]
  exact ⟨fun h => by linarith, fun h => by linarith⟩

/-- **C149, shares.** The panels of energy and of traffic show the share of agents that are idle and that are busy: each agent counts equally, together they
are at most 100 %. The share is 100 % exactly if all agents are idle (busy) and 0 exactly if none is. More than 70 % idle is "EFFICIENT", at most 50 % is
"HIGH DRAIN", and "RESPONSIVE" says that more than 30 % are busy and the coherence is at least 0.8. -/
theorem C149_shares (s : Shown ℝ) (h : Sound s) : ∃ p q, metricsPercent 4 s = some p ∧ metricsPercent 7 s = some q ∧
    p * s.agents.length = 100 * quiet s ∧ q * s.agents.length = 100 * busy s ∧ 0 ≤ p ∧ 0 ≤ q ∧ p + q ≤ 100 ∧
    (p = 100 ↔ ∀ a ∈ s.agents, a.activity = .quiet) ∧ (p = 0 ↔ ∀ a ∈ s.agents, a.activity ≠ .quiet) ∧
    (q = 100 ↔ ∀ a ∈ s.agents, a.activity = .burst ∨ a.activity = .active) ∧
    (q = 0 ↔ ∀ a ∈ s.agents, a.activity ≠ .burst ∧ a.activity ≠ .active) ∧
    (metricsStatus 4 s = "EFFICIENT" ↔ 70 < p) ∧ (metricsStatus 4 s = "HIGH DRAIN" ↔ p ≤ 50) ∧
    (metricsStatus 7 s = "RESPONSIVE" ↔ 0.8 ≤ s.coherence ∧ 30 < q) := by
  have hn : (0 : ℝ) < s.agents.length := by exact_mod_cast h.pos
  have hp : (sharePercent (idleCount s) s.agents.length : ℝ) = (quiet s : ℝ) / s.agents.length * 100 := by
    rw [sharePercent_real, idleCount_eq]
  have hq : (sharePercent (activeCount s) s.agents.length : ℝ) = (busy s : ℝ) / s.agents.length * 100 := by
    rw [sharePercent_real, activeCount_eq]
  have hsum : quiet s + busy s ≤ s.agents.length := by
    unfold quiet busy
    generalize s.agents = l
    induction l with
    | nil => simp
    | cons a l ih => cases ha : a.activity <;> simp [ha] at ih ⊢ <;> omega
  have all : ∀ k : ℕ, ((k : ℝ) / s.agents.length * 100 = 100 ↔ k = s.agents.length) ∧ ((k : ℝ) / s.agents.length * 100 = 0 ↔ k = 0) := by
    intro k
    constructor
    · rw [← Nat.cast_inj (R := ℝ)]
      constructor
      · intro e; field_simp at e; linarith
      · intro e; rw [e]; field_simp
    · rw [← Nat.cast_inj (R := ℝ)]
      constructor
      · intro e; field_simp at e; simpa using e
      · intro e; rw [e]; simp
  refine ⟨_, _, rfl, rfl, ?_⟩
  have e1 := ite3_first (P := (sharePercent (idleCount s) s.agents.length : ℝ) > 70.0)
      (Q := (sharePercent (idleCount s) s.agents.length : ℝ) > 50.0) (a := "EFFICIENT") (b := "MODERATE") (c := "HIGH DRAIN")
      (by decide +kernel) (by decide +kernel)
  have e2 := ite3_last (P := (sharePercent (idleCount s) s.agents.length : ℝ) > 70.0)
      (Q := (sharePercent (idleCount s) s.agents.length : ℝ) > 50.0) (a := "EFFICIENT") (b := "MODERATE") (c := "HIGH DRAIN")
      (by decide +kernel) (by decide +kernel)
  have e3 := ite3_first (P := s.coherence ≥ 0.8 ∧ (sharePercent (activeCount s) s.agents.length : ℝ) > 30.0)
      (Q := s.coherence ≥ 0.6) (a := "RESPONSIVE") (b := "ADAPTING") (c := "SLOW") (by decide +kernel) (by decide +kernel)
  have hs : (quiet s : ℝ) + busy s ≤ s.agents.length := by exact_mod_cast hsum
  rw [hp] at e1 e2
  rw [hq] at e3
  refine ⟨?_, ?_, ?_, ?_, ?_, ?_, ?_, ?_, ?_, ?_, ?_, ?_⟩
  · rw [hp]; field_simp
  · rw [hq]; field_simp
  · rw [hp]; positivity
  · rw [hq]; positivity
  · rw [hp, hq, ← add_mul, ← add_div]
    have := (div_le_one hn).2 hs
    linarith
  · rw [hp, (all _).1]; unfold quiet; rw [List.length_filter_eq_length_iff]; simp
  · rw [hp, (all _).2]; unfold quiet; rw [List.length_eq_zero_iff, List.filter_eq_nil_iff]; simp
  · rw [hq, (all _).1]; unfold busy; rw [List.length_filter_eq_length_iff]; simp
  · rw [hq, (all _).2]; unfold busy; rw [List.length_eq_zero_iff, List.filter_eq_nil_iff]; simp
  · rw [hp]
    refine Iff.trans ?_ (e1.trans (by norm_num))
    change (if (sharePercent (idleCount s) s.agents.length : ℝ) > 70.0 then _ else if (sharePercent (idleCount s) s.agents.length : ℝ) > 50.0 then _
      else _) = _ ↔ _
    rw [hp]
  · rw [hp]
    refine Iff.trans ?_ (e2.trans ⟨fun h => by have := not_lt.1 h.2; norm_num at this; exact this,
      fun h => ⟨not_lt.2 (by norm_num; linarith), not_lt.2 (by norm_num; exact h)⟩⟩)
    change (if (sharePercent (idleCount s) s.agents.length : ℝ) > 70.0 then _ else if (sharePercent (idleCount s) s.agents.length : ℝ) > 50.0 then _
      else _) = _ ↔ _
    rw [hp]
  · rw [hq]
    refine Iff.trans ?_ (e3.trans (by norm_num))
    change (if s.coherence ≥ 0.8 ∧ (sharePercent (activeCount s) s.agents.length : ℝ) > 30.0 then _ else if s.coherence ≥ 0.6 then _
      else _) = _ ↔ _
    rw [hq]

/-- The hypotheses are met by a swarm of four agents, three of them idle: it is "EFFICIENT". -/
example : metricsStatus 4 (⟨0.4, 0.9, false, [⟨0, .quiet⟩, ⟨1, .quiet⟩, ⟨2, .quiet⟩, ⟨3, .burst⟩]⟩ : Shown ℝ) = "EFFICIENT" := by
  have hs : Sound (⟨0.4, 0.9, false, [⟨0, .quiet⟩, ⟨1, .quiet⟩, ⟨2, .quiet⟩, ⟨3, .burst⟩]⟩ : Shown ℝ) := ⟨by norm_num, by norm_num, by simp⟩
  obtain ⟨p, q, -, -, e, -, -, -, -, -, -, -, -, h, -⟩ := C149_shares _ hs
  refine h.2 ?_
  simp [quiet] at e
  linarith

end Verif
