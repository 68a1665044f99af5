import Verif.Lemmas.F64
import Verif.Model.Strategy
import Mathlib.Tactic.Linarith
import Mathlib.Tactic.Positivity

/-!
# C11–C12: the decision maker
-/

set_option autoImplicit false

namespace Verif
open Rounding

/-- Specification: the benefit-to-cost ratio of an option, cost floored at 0.1. -/
noncomputable def Spec.ratio (a : Action ℝ) : ℝ := a.benefit / max a.cost (1 / 10)

/-- One pass over a list keeping the best score seen so far: either nothing beats the start value, or the result is the
first element of maximal score. -/
theorem foldl_best {A : Type} (f : A → ℝ) (l : List A) (b : A) (v : ℝ) :
    let r := l.foldl (fun (b : A × ℝ) a => if f a > b.2 then (a, f a) else b) (b, v)
    (r = (b, v) ∧ ∀ a ∈ l, f a ≤ v) ∨
    (∃ l1 l2, l = l1 ++ r.1 :: l2 ∧ r.2 = f r.1 ∧ v < f r.1 ∧ (∀ a ∈ l1, f a < f r.1) ∧ ∀ a ∈ l2, f a ≤ f r.1) := by
  induction l generalizing b v with
  | nil => left; simp
  | cons x xs ih =>
    simp only [List.foldl_cons]
    by_cases hx : f x > v
    · rw [if_pos hx]
      rcases ih x (f x) with ⟨h1, h2⟩ | ⟨l1, l2, h1, h2, h3, h4, h5⟩
      · right
        rw [h1]
        exact ⟨[], xs, rfl, rfl, hx, by simp, h2⟩
      · right
        refine ⟨x :: l1, l2, ?_, h2, hx.trans h3, ?_, h5⟩
        · nth_rewrite 1 [h1]; rfl
        · intro a ha
          rcases List.mem_cons.mp ha with rfl | ha
          · exact h3
          · exact h4 a ha
    · rw [if_neg hx]
      rcases ih b v with ⟨h1, h2⟩ | ⟨l1, l2, h1, h2, h3, h4, h5⟩
      · left
        refine ⟨h1, fun a ha => ?_⟩
        rcases List.mem_cons.mp ha with rfl | ha
        · exact not_lt.mp hx
        · exact h2 a ha
      · right
        refine ⟨x :: l1, l2, ?_, h2, h3, ?_, h5⟩
        · nth_rewrite 1 [h1]; rfl
        · intro a ha
          rcases List.mem_cons.mp ha with rfl | ha
          · exact lt_of_le_of_lt (not_lt.mp hx) h3
          · exact h4 a ha

theorem actionScore_real (a : Action ℝ) : actionScore a = Spec.ratio a := by
  unfold actionScore Spec.ratio
  rw [GoMath.fmax_real]
  norm_num

/-- With at least one option whose ratio is above `-MaxFloat64` (any realistic option), the chosen action is the first
one of maximal ratio, and the confidence is half that ratio clamped to `[0, 1]`. -/
theorem C11_decide_optimal (s : State ℝ) (options : List (Action ℝ))
    (h : ∃ a ∈ options, -maxDouble < Spec.ratio a) :
    let r := decide' s options
    (∃ l1 l2, options = l1 ++ r.1 :: l2 ∧ (∀ a ∈ l1, Spec.ratio a < Spec.ratio r.1) ∧
      ∀ a ∈ l2, Spec.ratio a ≤ Spec.ratio r.1) ∧
    r.1 ∈ options ∧ (∀ a ∈ options, Spec.ratio a ≤ Spec.ratio r.1) ∧
    r.2 = min (max (Spec.ratio r.1 / 2) 0) 1 := by
  obtain ⟨a0, ha0, hr0⟩ := h
  match options, ha0 with
  | o :: os, ha0 =>
    simp only [decide', actionScore_real, GoMath.maxFloat_real, GoMath.fmin_real, GoMath.fmax_real]
    have hb := foldl_best Spec.ratio (o :: os) o (-maxDouble)
    dsimp only at hb
    generalize List.foldl _ _ _ = r at hb ⊢
    rcases hb with ⟨h1, h2⟩ | ⟨l1, l2, h1, h2, h3, h4, h5⟩
    · exact absurd (h2 a0 ha0) (not_le.mpr hr0)
    · refine ⟨⟨l1, l2, h1, h4, h5⟩, ?_, ?_, ?_⟩
      · rw [h1]; simp
      · intro a ha
        rw [h1] at ha
        rcases List.mem_append.mp ha with ha | ha
        · exact (h4 a ha).le
        · rcases List.mem_cons.mp ha with rfl | ha
          · exact le_rfl
          · exact h5 a ha
      · rw [h2]; norm_num

/-- If every ratio is at or below `-MaxFloat64`, the first option is taken, with confidence 0. -/
theorem C11_decide_hopeless (s : State ℝ) (o : Action ℝ) (os : List (Action ℝ))
    (h : ∀ a ∈ o :: os, Spec.ratio a ≤ -maxDouble) : decide' s (o :: os) = (o, 0) := by
  simp only [decide', actionScore_real, GoMath.maxFloat_real, GoMath.fmin_real, GoMath.fmax_real]
  have hb := foldl_best Spec.ratio (o :: os) o (-maxDouble)
  dsimp only at hb
  generalize List.foldl _ _ _ = r at hb ⊢
  rcases hb with ⟨h1, h2⟩ | ⟨l1, l2, h1, h2, h3, h4, h5⟩
  · rw [h1]
    have := maxDouble_pos
    rw [max_eq_right (by norm_num; linarith), min_eq_left (by norm_num)]
  · exfalso
    have : Spec.ratio r.1 ≤ -maxDouble := h _ (by rw [h1]; simp)
    linarith

/-- Without options: the do-nothing action, and the state's own coherence as confidence. -/
theorem C11_decide_nil (s : State ℝ) :
    decide' s [] = (⟨"maintain", 0, 0, 0⟩, s.coherence) := rfl

/-- The confidence is always in `[0, 1]` when there are options. -/
theorem C11_decide_confidence (s : State ℝ) (options : List (Action ℝ)) (h : options ≠ []) :
    0 ≤ (decide' s options).2 ∧ (decide' s options).2 ≤ 1 := by
  match options, h with
  | o :: os, _ =>
    simp only [decide', GoMath.fmin_real, GoMath.fmax_real]
    exact ⟨le_min (le_max_right _ _) (by norm_num), min_le_right _ _⟩

example : ∃ a ∈ [(⟨"maintain", 0, 0, 0⟩ : Action ℝ), ⟨"phase_nudge", 1, 2, 3⟩], -maxDouble < Spec.ratio a :=
  ⟨⟨"maintain", 0, 0, 0⟩, by simp, by have := maxDouble_pos; simp only [Spec.ratio]; norm_num; linarith⟩

/-! ## C12 IEEE options -/

section
variable [Rounding] [LibM]
open F64

/-- Whatever the options contain, one of them is chosen and the confidence is an ordinary number in `[0, 1]`. -/
theorem C12_decide_total (s : State F64) (options : List (Action F64)) (h : options ≠ []) :
    (decide' s options).1 ∈ options ∧
    ∃ c : Dbl, (decide' s options).2 = fin c ∧ 0 ≤ c.1 ∧ c.1 ≤ 1 := by
  match options, h with
  | o :: os, _ =>
    simp only [decide']
    have inv : ∀ (l : List (Action F64)) (b : Action F64 × F64), b.1 ∈ o :: os → b.2 ≠ nan → (∀ a ∈ l, a ∈ o :: os) →
        let r := l.foldl (fun (b : Action F64 × F64) a => if actionScore a > b.2 then (a, actionScore a) else b) b
        r.1 ∈ o :: os ∧ r.2 ≠ nan := by
      intro l
      induction l with
      | nil => intro b h1 h2 _; exact ⟨h1, h2⟩
      | cons x xs ih =>
        intro b h1 h2 h3
        simp only [List.foldl_cons]
        apply ih _ _ _ (fun a ha => h3 a (by simp [ha]))
        · split_ifs
          · exact h3 x (by simp)
          · exact h1
        · split_ifs with hx
          · intro hc
            simp only at hc
            rw [hc] at hx
            exact lt_nan _ hx
          · exact h2
    obtain ⟨h1, h2⟩ := inv (o :: os) (o, -GoMath.maxFloat) (by simp) (by intro hc; cases hc) (fun a ha => ha)
    refine ⟨h1, ?_⟩
    generalize (List.foldl _ _ _ : Action F64 × F64).2 = v at h2
    have h20 : (2.0 : F64) = fin ⟨2, isDouble_ofNat 2 (by norm_num)⟩ := by
      change ofReal (2.0 : ℝ) = _
      rw [show (2.0 : ℝ) = 2 by norm_num, ofReal_of_isDouble]
    -- half of a non-NaN is not NaN
    have hhalf : v / (2.0 : F64) ≠ nan := by
      rw [h20]
      cases v with
      | nan => exact absurd rfl h2
      | pinf => change (if (2 : ℝ) < 0 then ninf else pinf) ≠ nan; split_ifs <;> simp
      | ninf => change (if (2 : ℝ) < 0 then pinf else ninf) ≠ nan; split_ifs <;> simp
      | fin a =>
        rw [div_fin (by norm_num)]
        unfold ofReal
        split_ifs <;> simp
    generalize v / (2.0 : F64) = w at hhalf
    have hmax : (GoMath.fmax w 0 = pinf) ∨ ∃ y : Dbl, GoMath.fmax w 0 = fin y ∧ 0 ≤ y.1 := by
      cases w with
      | nan => exact absurd rfl hhalf
      | pinf => left; rfl
      | ninf => right; exact ⟨_, rfl, le_rfl⟩
      | fin a =>
        right
        change ∃ y : Dbl, (if (0 : ℝ) < a.1 then fin a else fin ⟨0, isDouble_zero⟩) = fin y ∧ 0 ≤ y.1
        split_ifs with h
        · exact ⟨a, rfl, h.le⟩
        · exact ⟨_, rfl, le_rfl⟩
    rcases hmax with hm | ⟨y, hm, hy⟩
    · rw [hm]; exact ⟨⟨1, isDouble_one⟩, rfl, by norm_num, by norm_num⟩
    · rw [hm]
      change ∃ c : Dbl, (if y.1 < 1 then fin y else fin ⟨1, isDouble_one⟩) = fin c ∧ 0 ≤ c.1 ∧ c.1 ≤ 1
      split_ifs with h
      · exact ⟨y, rfl, hy, h.le⟩
      · exact ⟨_, rfl, by norm_num, by norm_num⟩

example : ∃ options : List (Action F64), options ≠ [] ∧ ∀ a ∈ options, a.benefit = nan :=
  ⟨[⟨"pulse", pinf, nan, nan⟩], by simp, by simp⟩

end
end Verif
