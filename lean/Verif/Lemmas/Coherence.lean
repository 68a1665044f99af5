import Verif.Lemmas.Phase
import Verif.Spec.Coherence
import Mathlib.Algebra.BigOperators.Group.List.Basic

/-! # Lemmas: coherence over ℝ -/

set_option autoImplicit false

namespace Verif
open Real Spec

theorem foldl_cos_sin (l : List ℝ) (a b : ℝ) :
    l.foldl (fun (s : ℝ × ℝ) p => (s.1 + Real.cos p, s.2 + Real.sin p)) (a, b) =
      (a + (l.map Real.cos).sum, b + (l.map Real.sin).sum) := by
  induction l generalizing a b with
  | nil => simp
  | cons x xs ih => simp only [List.foldl_cons, List.map_cons, List.sum_cons, ih]; ext <;> simp <;> ring

/-- Sum of cosines. -/
noncomputable abbrev cosSum (l : List ℝ) : ℝ := (l.map Real.cos).sum
/-- Sum of sines. -/
noncomputable abbrev sinSum (l : List ℝ) : ℝ := (l.map Real.sin).sum

theorem measureCoherence_eq (l : List ℝ) :
    measureCoherence l = if l.length = 0 then 0
      else Real.sqrt (cosSum l * cosSum l + sinSum l * sinSum l) / l.length := by
  unfold measureCoherence
  have := foldl_cos_sin l 0 0
  simp only [GoMath.cos_real, GoMath.sin_real, GoMath.sqrt_real, GoMath.ofInt_real, Int.cast_natCast]
  rw [this]; simp

theorem sum_exp (l : List ℝ) :
    (l.map fun p : ℝ => Complex.exp (p * Complex.I)).sum = ⟨cosSum l, sinSum l⟩ := by
  induction l with
  | nil => apply Complex.ext <;> simp [cosSum, sinSum]
  | cons x xs ih =>
    rw [List.map_cons, List.sum_cons, ih, Complex.exp_mul_I]
    apply Complex.ext
    · simp [cosSum, Complex.cos_ofReal_re]
    · simp [sinSum, Complex.sin_ofReal_re]

theorem measureCoherence_eq_orderParameter (l : List ℝ) : measureCoherence l = orderParameter l := by
  rw [measureCoherence_eq]
  unfold orderParameter
  rw [sum_exp]
  split_ifs with h
  · simp [h]
  · congr 1

theorem norm_sum_exp_le (l : List ℝ) :
    ‖(l.map fun p : ℝ => Complex.exp (p * Complex.I)).sum‖ ≤ l.length := by
  induction l with
  | nil => simp
  | cons x xs ih =>
    rw [List.map_cons, List.sum_cons]
    refine (norm_add_le _ _).trans ?_
    rw [Complex.norm_exp_ofReal_mul_I]
    push_cast [List.length_cons]; linarith

theorem orderParameter_nonneg (l : List ℝ) : 0 ≤ orderParameter l := by
  unfold orderParameter; positivity

theorem orderParameter_le_one (l : List ℝ) : orderParameter l ≤ 1 := by
  unfold orderParameter
  exact div_le_one_of_le₀ (norm_sum_exp_le l) (by positivity)

theorem sameAngle_of_cos_sin {a b : ℝ} (hc : cos a = cos b) (hs : sin a = sin b) : SameAngle a b := by
  have h : cos (a - b) = 1 := by
    rw [cos_sub, hc, hs]; have := sin_sq_add_cos_sq b; nlinarith
  obtain ⟨n, hn⟩ := (Real.cos_eq_one_iff _).mp h
  exact ⟨n, by linarith⟩

theorem list_sum_le {β : Type} (l : List β) (f : β → ℝ) (c : ℝ) (h : ∀ x ∈ l, f x ≤ c) :
    (l.map f).sum ≤ c * l.length := by
  induction l with
  | nil => simp
  | cons x xs ih =>
    have h1 := h x (by simp)
    have h2 := ih (fun y hy => h y (by simp [hy]))
    simp only [List.map_cons, List.sum_cons, List.length_cons]; push_cast; linarith

theorem list_sum_eq_forall {β : Type} (l : List β) (f : β → ℝ) (c : ℝ) (h : ∀ x ∈ l, f x ≤ c)
    (he : (l.map f).sum = c * l.length) : ∀ x ∈ l, f x = c := by
  induction l with
  | nil => simp
  | cons x xs ih =>
    have h1 := h x (by simp)
    have h2 := list_sum_le xs f c (fun y hy => h y (by simp [hy]))
    simp only [List.map_cons, List.sum_cons, List.length_cons] at he
    push_cast at he
    intro y hy
    rcases List.mem_cons.mp hy with rfl | hy
    · linarith
    · exact ih (fun y hy => h y (by simp [hy])) (by linarith) y hy

theorem sum_mul_cos_add (l : List ℝ) (C S : ℝ) :
    (l.map fun p => C * cos p + S * sin p).sum = C * cosSum l + S * sinSum l := by
  induction l with
  | nil => simp [cosSum, sinSum]
  | cons x xs ih => simp only [List.map_cons, List.sum_cons, ih, cosSum, sinSum]; ring

theorem measureCoherence_eq_one_iff (l : List ℝ) :
    measureCoherence l = 1 ↔ l ≠ [] ∧ ∀ a ∈ l, ∀ b ∈ l, SameAngle a b := by
  rw [measureCoherence_eq]
  constructor
  · intro h
    have hl : l.length ≠ 0 := by intro h0; simp [h0] at h
    rw [if_neg hl] at h
    have hn : (0 : ℝ) < l.length := by positivity
    rw [div_eq_one_iff_eq hn.ne'] at h
    refine ⟨by rintro rfl; simp at hl, ?_⟩
    set C := cosSum l
    set S := sinSum l
    obtain ⟨n, hnn⟩ : ∃ n : ℝ, n = (l.length : ℝ) := ⟨_, rfl⟩
    rw [← hnn] at h hn
    have hsq : C * C + S * S = n ^ 2 := by
      rw [← h, Real.sq_sqrt (add_nonneg (mul_self_nonneg _) (mul_self_nonneg _))]
    have hb : ∀ x ∈ l, C * cos x + S * sin x ≤ n := by
      intro x _
      have h1 := sin_sq_add_cos_sq x
      have h2 : (C * cos x + S * sin x) ^ 2 ≤ n ^ 2 := by
        have : (C * cos x + S * sin x) ^ 2 + (C * sin x - S * cos x) ^ 2
            = (C * C + S * S) * (sin x ^ 2 + cos x ^ 2) := by ring
        rw [h1, hsq] at this
        nlinarith [sq_nonneg (C * sin x - S * cos x)]
      exact abs_le_of_sq_le_sq' h2 hn.le |>.2
    have he : (l.map fun x => C * cos x + S * sin x).sum = n * l.length := by
      rw [sum_mul_cos_add, ← hnn]; change C * C + S * S = n * n; rw [hsq]; ring
    have hall := list_sum_eq_forall l _ n hb he
    have key : ∀ x ∈ l, cos x = C / n ∧ sin x = S / n := by
      intro x hx
      have h1 := hall x hx
      have h2 := sin_sq_add_cos_sq x
      have h3 : (C - n * cos x) ^ 2 + (S - n * sin x) ^ 2 = 0 := by
        have : (C - n * cos x) ^ 2 + (S - n * sin x) ^ 2 =
          (C * C + S * S) - 2 * n * (C * cos x + S * sin x) + n ^ 2 * (sin x ^ 2 + cos x ^ 2) := by ring
        rw [this, h1, h2, hsq]; ring
      have h4 : C - n * cos x = 0 := by nlinarith [sq_nonneg (C - n * cos x), sq_nonneg (S - n * sin x)]
      have h5 : S - n * sin x = 0 := by nlinarith [sq_nonneg (C - n * cos x), sq_nonneg (S - n * sin x)]
      constructor
      · rw [eq_div_iff hn.ne']; linarith
      · rw [eq_div_iff hn.ne']; linarith
    intro a ha b hb'
    exact sameAngle_of_cos_sin ((key a ha).1.trans (key b hb').1.symm) ((key a ha).2.trans (key b hb').2.symm)
  · rintro ⟨hne, hall⟩
    obtain ⟨x, hx⟩ := List.exists_mem_of_ne_nil l hne
    have hl : l.length ≠ 0 := by simpa using hne
    rw [if_neg hl]
    have hn : (0 : ℝ) < l.length := by positivity
    have hC : cosSum l = l.length * cos x := by
      have : l.map Real.cos = l.map (fun _ => cos x) :=
        List.map_congr_left fun y hy => (hall y hy x hx).cos_eq
      simp [cosSum, this]
    have hS : sinSum l = l.length * sin x := by
      have : l.map Real.sin = l.map (fun _ => sin x) :=
        List.map_congr_left fun y hy => (hall y hy x hx).sin_eq
      simp [sinSum, this]
    rw [hC, hS, div_eq_one_iff_eq hn.ne']
    have : (l.length : ℝ) * cos x * (l.length * cos x) + l.length * sin x * (l.length * sin x) = l.length ^ 2 := by
      have := sin_sq_add_cos_sq x
      linear_combination (l.length : ℝ) ^ 2 * this
    rw [this, Real.sqrt_sq hn.le]

end Verif
