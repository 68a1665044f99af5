import Verif.Props.SyncRun
import Verif.Props.TablesDouble
import Verif.Props.Grading
import Verif.Props.PhasePanelsDouble
import Verif.Props.ClientDouble

/-!
# C58 in doubles: an achieved goal stays achieved
-/

set_option autoImplicit false
set_option linter.unusedSectionVars false

namespace Verif
open GoMath Spec

variable [Rounding] [LibM]

theorem F64.add_mono_right (s : F64) {a b : Dbl} (h : a.1 ≤ b.1) (hs : s ≠ .nan) : s + F64.fin a ≤ s + F64.fin b := by
  match s, hs with
  | .pinf, _ => trivial
  | .ninf, _ => trivial
  | .fin x, _ => exact F64.ofReal_mono (by linarith)

/-- A sum with a double that is below something is no NaN. -/
theorem F64.ne_nan_of_lt (s : F64) {a : F64} {t : F64} (h : s + a < t) : s ≠ .nan := by
  rintro rfl
  exact h

/-- **C58, in doubles, what holds of the monotonicity.** A better phase convergence never un-achieves a goal, and neither does more coherence as long as it does not
exceed the target, whatever the rounding. Missing: coherence above the target (`C58_refuted`). -/
theorem C58_monotone_double_partial (cfg : GoalConfig F64) (n : ℤ) (t c : TargetPattern F64) (conv y : F64) (k x q : Dbl) (hc : c.coherence = .fin k)
    (ht : t.coherence = .fin q) (h1 : q.1 ≤ 1) (h0 : 0 ≤ k.1) (hx : k.1 ≤ x.1) (hx' : x.1 ≤ max k.1 q.1) (hy : conv ≤ y)
    (h : isPatternAchieved cfg n t c conv = true) : isPatternAchieved cfg n t { c with coherence := .fin x } y = true := by
  rw [C58_decision] at h ⊢
  obtain ⟨⟨tol, t1, t2⟩, t3, t4⟩ := h
  refine ⟨⟨tol, t1, ?_⟩, ?_, fun hh => F64.le_trans' (t4 hh) hy⟩
  · rw [hc] at t2
    exact F64.le_trans' t2 hx
  · rcases le_max_iff.1 hx' with hxk | hxq
    · have e : x = k := Subtype.ext (le_antisymm hxk hx)
      have : ({ c with coherence := .fin x } : TargetPattern F64) = c := by rw [e, ← hc]
      rw [this]; exact t3
    · refine F64.lt_of_le_lt ?_ t3
      unfold patternDistance at t3 ⊢
      dsimp only at t3 ⊢
      rw [ht, hc] at *
      have hs := F64.ne_nan_of_lt _ t3
      generalize (0.4 : F64) * _ + _ = s at *
      obtain ⟨u, eu, hu⟩ := tiny_err (x := q.1 - x.1) (by rw [abs_of_nonneg (by linarith)]; linarith)
      obtain ⟨v, ev, hv⟩ := tiny_err (x := q.1 - k.1) (by rw [abs_of_nonneg (by linarith)]; linarith)
      have huv : u.1 ≤ v.1 := by
        have := F64.ofReal_mono (show q.1 - x.1 ≤ q.1 - k.1 by linarith)
        rw [eu, ev] at this; exact this
      have u0 : 0 ≤ u.1 := by
        have := F64.ofReal_mono (show (0 : ℝ) ≤ q.1 - x.1 by linarith)
        rw [eu, F64.ofReal_of_isDouble isDouble_zero] at this; exact this
      obtain ⟨l, el, hl⟩ := lit_near (0.3 : ℝ) (by rw [abs_of_pos] <;> norm_num)
      obtain ⟨l1, l2⟩ := abs_le.1 hl
      norm_num at l1 l2
      obtain ⟨v1, v2⟩ := abs_le.1 hv
      norm_num at v1 v2
      have hv2 : v.1 ≤ 2 := by linarith
      rw [F64.sub_fin, F64.sub_fin, eu, ev, abs_fin_nonneg u u0, abs_fin_nonneg v (by linarith), show (0.3 : F64) = F64.ofReal 0.3 from rfl, el, F64.mul_fin, F64.mul_fin]
      have hlu : l.1 * u.1 ≤ l.1 * v.1 := mul_le_mul_of_nonneg_left huv (by linarith)
      obtain ⟨U, eU, -⟩ := tiny_err (x := l.1 * u.1) (by rw [abs_of_nonneg (by nlinarith)]; nlinarith)
      obtain ⟨V, eV, -⟩ := tiny_err (x := l.1 * v.1) (by rw [abs_of_nonneg (by nlinarith)]; nlinarith)
      rw [eU, eV]
      refine F64.add_mono_right s ?_ hs
      have := F64.ofReal_mono hlu
      rw [eU, eV] at this; exact this

/-- A quarter achieves one half within a tolerance of 1, and one half is better. -/
example (hz : ExactAtZero) : ∃ (cfg : GoalConfig F64) (n : ℤ) (t c : TargetPattern F64) (k x q : Dbl), c.coherence = .fin k ∧ t.coherence = .fin q ∧ q.1 ≤ 1 ∧
    0 ≤ k.1 ∧ k.1 < x.1 ∧ x.1 ≤ max k.1 q.1 ∧ isPatternAchieved cfg n t c 0 = true := by
  have hq : IsDouble (1 / 4 : ℝ) := ⟨1, -2, by norm_num, by norm_num, by norm_num, by rw [zpow_neg]; norm_num⟩
  have hh : IsDouble (1 / 2 : ℝ) := ⟨1, -1, by norm_num, by norm_num, by norm_num, by rw [zpow_neg]; norm_num⟩
  let t : TargetPattern F64 := ⟨0, 0, 0, .fin ⟨1 / 2, hh⟩, [], 0⟩
  let c : TargetPattern F64 := ⟨0, 0, 0, .fin ⟨1 / 4, hq⟩, [], 0⟩
  let cfg : GoalConfig F64 := { (minAPIConfig : GoalConfig F64) with toleranceSmall := .pinf, highCoherence := .pinf, patternDistanceThreshold := .pinf }
  refine ⟨cfg, 5, t, c, ⟨1 / 4, hq⟩, ⟨1 / 2, hh⟩, ⟨1 / 2, hh⟩, rfl, rfl, by norm_num, by norm_num, by norm_num, le_max_right _ _, ?_⟩
  rw [C58_decision]
  refine ⟨⟨_, (isTolerance_iff _ _ _ _).2 rfl, ?_⟩, ?_, fun h => h.elim⟩
  · have e : achievementTolerance cfg 5 t.coherence = .pinf := by
      unfold achievementTolerance
      dsimp only
      rw [if_pos (show (5 : ℤ) < 10 by norm_num)]
      split_ifs
      · obtain ⟨a, ea, ha⟩ := lit_near (2.0 : ℝ) (by rw [abs_of_pos] <;> norm_num)
        obtain ⟨a1, -⟩ := abs_le.1 ha
        norm_num at a1
        show F64.pinf * F64.ofReal 2.0 = _
        rw [ea]
        show F64.infSign a.1 = _
        unfold F64.infSign; rw [if_pos (by linarith)]
      · rfl
    rw [e]; trivial
  · obtain ⟨p, ep, p0⟩ := piDbl
    obtain ⟨a, ea, ha⟩ : App (0.3 : F64) 0.3 (1 / 10 ^ 13) := by lit
    obtain ⟨b, eb, -⟩ : App (0.4 : F64) 0.4 (1 / 10 ^ 13) := by lit
    obtain ⟨u, eu, hu⟩ := tiny_err (x := (1 / 2 : ℝ) - 1 / 4) (by rw [abs_of_pos] <;> norm_num)
    obtain ⟨w, ew, hw⟩ := abs_fin' u
    obtain ⟨a1, a2⟩ := abs_le.1 ha
    obtain ⟨u1, u2⟩ := abs_le.1 hu
    norm_num at a1 a2 u1 u2
    rw [abs_of_nonneg (by linarith)] at hw
    unfold patternDistance
    dsimp only [t, c]
    rw [difference_zero hz, absZero, ep, zeroDiv _ p0.ne', if_neg (by norm_num), ea, eb, mulZero, mulZero, show (0 + 0 : F64) = 0 from addZero _, F64.sub_fin, eu, ew, F64.mul_fin]
    obtain ⟨y, ey, -⟩ := tiny_err (x := a.1 * w.1) (by rw [hw, abs_of_nonneg (by nlinarith)]; nlinarith)
    rw [ey, zeroAdd]
    trivial

end Verif
