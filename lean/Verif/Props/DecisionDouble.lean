import Verif.Props.Decision
import Verif.Props.Accuracy
import Verif.Props.PatternsDouble

/-! # C11 in doubles: how good the chosen option is -/

set_option autoImplicit false
set_option linter.unusedSectionVars false

namespace Verif
open GoMath Spec Rounding

section
variable [Rounding] [LibM]

/-- Benefit and cost of an action, with a benefit of at most 2^1000. -/
def Spec.Priced (a : Action F64) (benefit cost : ℝ) : Prop :=
  ∃ b c : Dbl, a.benefit = .fin b ∧ a.cost = .fin c ∧ b.1 = benefit ∧ c.1 = cost ∧ |benefit| ≤ 2 ^ 1000

theorem two1000_lt : (2 : ℝ) ^ 1000 * 16 < 2 ^ (1023 : ℤ) := by
  rw [show (16 : ℝ) = 2 ^ 4 by norm_num, ← pow_add, ← zpow_natCast]
  exact zpow_lt_zpow_right₀ (by norm_num) (by norm_num)

theorem two1023_lt_maxDouble : (2 : ℝ) ^ (1023 : ℤ) < maxDouble := by
  unfold maxDouble
  rw [show (1023 : ℤ) = ((52 + 971 : ℕ) : ℤ) by norm_num, zpow_natCast, pow_add]
  exact mul_lt_mul_of_pos_right (by norm_num) (by positivity)

/-- The computed score of a priced action is the exact ratio up to three roundings. -/
theorem score_near (a : Action F64) (b c : ℝ) (h : Priced a b c) :
    ∃ s : Dbl, actionScore a = .fin s ∧ |s.1 - b / max c (1 / 10)| ≤ 3 * ulp * |b / max c (1 / 10)| + eta ∧ |s.1| < 2 ^ (1023 : ℤ) := by
  obtain ⟨bd, cd, e1, e2, rfl, rfl, hb⟩ := h
  have hu := ulp_pos
  have he := eta_pos
  have hus : ulp ≤ 1 / 10000 := by unfold ulp; rw [zpow_neg]; norm_num
  have heu := eta_le_ulp
  have hbig := two1000_lt
  have hT1 : (1 : ℝ) ≤ 2 ^ 1000 := one_le_pow₀ (by norm_num)
  generalize (2 : ℝ) ^ 1000 = T at hb hbig hT1
  have hT : 0 ≤ T := (abs_nonneg _).trans hb
  obtain ⟨L, eL, hL⟩ := F64.ofReal_err (x := (0.1 : ℝ)) (by
    rw [abs_of_pos (by norm_num)]
    exact lt_of_lt_of_le (by norm_num : (0.1 : ℝ) < 2 ^ (0 : ℤ)) (zpow_le_zpow_right₀ (by norm_num) (by norm_num)))
  obtain ⟨m, em, hm⟩ := fmax_fin cd L
  have hL' : |L.1 - 1 / 10| ≤ 0.11 * ulp := by
    rw [abs_of_pos (by norm_num : (0 : ℝ) < 0.1)] at hL
    rw [show (1 / 10 : ℝ) = 0.1 by norm_num]
    nlinarith
  set M := max cd.1 (1 / 10) with hM
  have hM1 : 1 / 10 ≤ M := le_max_right _ _
  have hmM : |m.1 - M| ≤ 0.11 * ulp := by
    rw [hm, hM]
    exact (abs_max_sub_max_le_max _ _ _ _).trans (by rw [sub_self, abs_zero, max_eq_right (abs_nonneg _)]; exact hL')
  have hm1 : 0.0999 ≤ m.1 := by
    have := (abs_le.1 hmM).1
    have : 0.11 * ulp ≤ 0.0001 := by nlinarith
    norm_num at *; linarith
  have hmpos : 0 < m.1 := by linarith
  set ρ := bd.1 / M with hρ
  have hq : |bd.1 / m.1 - ρ| ≤ 1.2 * ulp * |ρ| := by
    have : bd.1 / m.1 - ρ = ρ * ((M - m.1) / m.1) := by
      rw [hρ]; field_simp
    rw [this, abs_mul, mul_comm]
    refine mul_le_mul_of_nonneg_right ?_ (abs_nonneg _)
    rw [abs_div, abs_of_pos hmpos, div_le_iff₀ hmpos, abs_sub_comm]
    nlinarith
  have hqabs : |bd.1 / m.1| ≤ 1.001 * |ρ| := by
    have := abs_sub_abs_le_abs_sub (bd.1 / m.1) ρ
    have h0 := abs_nonneg ρ
    nlinarith
  have hqT : |bd.1 / m.1| ≤ 11 * T := by
    rw [abs_div, abs_of_pos hmpos, div_le_iff₀ hmpos]
    nlinarith
  have hscore : actionScore a = F64.ofReal (bd.1 / m.1) := by
    unfold actionScore
    rw [e1, e2]
    change F64.fin bd / fmax (F64.fin cd) (F64.ofReal 0.1) = _
    rw [eL, em, F64.div_fin hmpos.ne']
  have hov : |bd.1 / m.1| < 2 ^ (1023 : ℤ) := lt_of_le_of_lt (hqT.trans (by linarith)) hbig
  obtain ⟨s, es, hs⟩ := F64.ofReal_err hov
  refine ⟨s, hscore.trans es, ?_, ?_⟩
  · have := abs_sub_le s.1 (bd.1 / m.1) ρ
    have h0 := abs_nonneg ρ
    have h1 : ulp * |bd.1 / m.1| ≤ 1.001 * ulp * |ρ| := by
      calc ulp * |bd.1 / m.1| ≤ ulp * (1.001 * |ρ|) := mul_le_mul_of_nonneg_left hqabs hu.le
        _ = _ := by ring
    have h2 : 0 ≤ ulp * |ρ| := by positivity
    linarith
  · have h3 := abs_sub_abs_le_abs_sub s.1 (bd.1 / m.1)
    have h4 : ulp * |bd.1 / m.1| ≤ T := by nlinarith [abs_nonneg (bd.1 / m.1)]
    refine lt_of_le_of_lt ?_ hbig
    have : eta ≤ 1 := by linarith
    linarith

theorem fmin_fin (a b : Dbl) : ∃ m : Dbl, (fmin (F64.fin a) (F64.fin b) : F64) = .fin m ∧ m.1 = min a.1 b.1 := by
  change ∃ m : Dbl, (if a.1 < b.1 then F64.fin a else F64.fin b) = .fin m ∧ m.1 = min a.1 b.1
  split_ifs with h
  · exact ⟨a, rfl, (min_eq_left h.le).symm⟩
  · exact ⟨b, rfl, (min_eq_right (not_lt.1 h)).symm⟩

/-- Both passes over the options, the one with doubles and the one with their values, choose the same. -/
theorem best_fin (f : Action F64 → F64) (g : Action F64 → ℝ) (l : List (Action F64)) (hl : ∀ a ∈ l, ∃ s : Dbl, f a = .fin s ∧ s.1 = g a) (b : Action F64)
    (v : Dbl) :
    let r := l.foldl (fun (b : Action F64 × F64) a => if f a > b.2 then (a, f a) else b) (b, F64.fin v)
    let q := l.foldl (fun (b : Action F64 × ℝ) a => if g a > b.2 then (a, g a) else b) (b, v.1)
    r.1 = q.1 ∧ ∃ d : Dbl, r.2 = .fin d ∧ d.1 = q.2 := by
  induction l generalizing b v with
  | nil => exact ⟨rfl, v, rfl, rfl⟩
  | cons a l ih =>
    obtain ⟨s, e, hs⟩ := hl a List.mem_cons_self
    simp only [List.foldl_cons]
    by_cases h : g a > v.1
    · rw [if_pos h, if_pos (by rw [e]; change v.1 < s.1; rw [hs]; exact h), e, ← hs]
      exact ih (fun x hx => hl x (List.mem_cons_of_mem _ hx)) a s
    · rw [if_neg h, if_neg (by rw [e]; change ¬ v.1 < s.1; rw [hs]; exact h)]
      exact ih (fun x hx => hl x (List.mem_cons_of_mem _ hx)) b v

/-- **C11 in doubles.** The chosen option is one of the options, no other has a better ratio of benefit and cost (floored at 0.1) but for a few roundings, and
the confidence is half that ratio clamped to `[0, 1]`, up to the same error. -/
theorem C11_double (s : State F64) (options : List (Action F64)) (hne : options ≠ []) (b c : Action F64 → ℝ) (h : ∀ a ∈ options, Priced a (b a) (c a)) :
    let ρ (a : Action F64) := b a / max (c a) (1 / 10)
    let r := decide' s options
    r.1 ∈ options ∧ (∀ a ∈ options, ρ a ≤ ρ r.1 + 3 * ulp * (|ρ a| + |ρ r.1|) + 2 * eta) ∧
    ∃ p : Dbl, r.2 = .fin p ∧ 0 ≤ p.1 ∧ p.1 ≤ 1 ∧ |p.1 - min (max (ρ r.1 / 2) 0) 1| ≤ 3 * ulp * |ρ r.1| + 2 * eta := by
  intro ρ r
  have hu := ulp_pos
  have he := eta_pos
  have hus : ulp ≤ 1 / 10000 := by unfold ulp; rw [zpow_neg]; norm_num
  have hsc : ∀ a ∈ options, ∃ s : Dbl, actionScore a = .fin s ∧ |s.1 - ρ a| ≤ 3 * ulp * |ρ a| + eta ∧ |s.1| < 2 ^ (1023 : ℤ) :=
    fun a ha => score_near a (b a) (c a) (h a ha)
  set g : Action F64 → ℝ := fun a => match actionScore a with | .fin s => s.1 | _ => 0 with hg
  have hg1 : ∀ a ∈ options, ∃ s : Dbl, actionScore a = .fin s ∧ s.1 = g a := by
    intro a ha
    obtain ⟨s, e, -, -⟩ := hsc a ha
    exact ⟨s, e, by rw [hg]; simp only [e]⟩
  have hg2 : ∀ a ∈ options, |g a - ρ a| ≤ 3 * ulp * |ρ a| + eta ∧ |g a| < 2 ^ (1023 : ℤ) := by
    intro a ha
    obtain ⟨s, e, h1, h2⟩ := hsc a ha
    have : g a = s.1 := by rw [hg]; simp only [e]
    rw [this]; exact ⟨h1, h2⟩
  have hmax := two1023_lt_maxDouble
  obtain ⟨o, os, rfl⟩ : ∃ o os, options = o :: os := List.exists_cons_of_ne_nil hne
  have hneg : (-maxFloat : F64) = .fin ⟨-maxDouble, isDouble_maxDouble.neg⟩ := rfl
  have hf := best_fin actionScore g (o :: os) hg1 o ⟨-maxDouble, isDouble_maxDouble.neg⟩
  have hb := foldl_best g (o :: os) o (-maxDouble)
  dsimp only at hf hb
  have hr1 : r.1 = (List.foldl (fun (b : Action F64 × ℝ) a => if g a > b.2 then (a, g a) else b) (o, -maxDouble) (o :: os)).1 := by
    rw [← hf.1]; rfl
  obtain ⟨d, hd1, hd2⟩ := hf.2
  have hr2 : r.2 = fmin (fmax (F64.fin d / 2.0) 0) 1 := by
    rw [← hd1]; rfl
  generalize List.foldl (fun (b : Action F64 × ℝ) a => if g a > b.2 then (a, g a) else b) (o, -maxDouble) (o :: os) = q at hb hr1 hd2
  rcases hb with ⟨-, h2⟩ | ⟨l1, l2, h1, h2, h3, h4, h5⟩
  · exfalso
    have k1 := h2 o List.mem_cons_self
    have k2 := (abs_lt.1 (hg2 o List.mem_cons_self).2).1
    linarith
  have hmem : q.1 ∈ o :: os := by rw [h1]; simp
  have hbest : ∀ a ∈ o :: os, g a ≤ g q.1 := by
    intro a ha
    rw [h1] at ha
    rcases List.mem_append.1 ha with ha | ha
    · exact (h4 a ha).le
    · rcases List.mem_cons.1 ha with rfl | ha
      · exact le_rfl
      · exact h5 a ha
  rw [hr1]
  refine ⟨hmem, ?_, ?_⟩
  · intro a ha
    have k1 := (abs_le.1 (hg2 a ha).1).1
    have k2 := (abs_le.1 (hg2 _ hmem).1).2
    have k3 := hbest a ha
    linarith
  · rw [hr2]
    have hdq : d.1 = g q.1 := by rw [hd2, h2]
    have e2 : (2.0 : F64) = .fin ⟨2, isDouble_ofNat 2 (by norm_num)⟩ := by
      change F64.ofReal (2.0 : ℝ) = _
      rw [show (2.0 : ℝ) = 2 by norm_num, F64.ofReal_of_isDouble]
    have hov : |d.1 / 2| < 2 ^ (1023 : ℤ) := by
      have := (hg2 _ hmem).2
      rw [abs_div, abs_of_pos (by norm_num : (0 : ℝ) < 2), hdq]
      have h0 := abs_nonneg (g q.1)
      exact lt_of_le_of_lt (by linarith) this
    obtain ⟨x, ex, hx⟩ := F64.ofReal_err hov
    obtain ⟨y, ey, hy⟩ := fmax_fin x ⟨0, isDouble_zero⟩
    obtain ⟨z, ez, hz⟩ := fmin_fin y ⟨1, isDouble_one⟩
    refine ⟨z, ?_, ?_, ?_, ?_⟩
    · rw [e2, F64.div_fin (by norm_num), ex]
      change fmin (fmax (F64.fin x) (F64.fin ⟨0, isDouble_zero⟩)) (F64.fin ⟨1, isDouble_one⟩) = _
      rw [ey, ez]
    · rw [hz, hy]; exact le_min (le_max_right _ _) (by norm_num)
    · rw [hz]; exact min_le_right _ _
    · have hclamp : |z.1 - min (max (ρ q.1 / 2) 0) 1| ≤ |x.1 - ρ q.1 / 2| := by
        rw [hz, hy]
        refine (abs_min_sub_min_le_max _ _ _ _).trans ?_
        rw [sub_self, abs_zero, max_eq_left (abs_nonneg _)]
        refine (abs_max_sub_max_le_max _ _ _ _).trans ?_
        rw [sub_self, abs_zero, max_eq_left (abs_nonneg _)]
      refine hclamp.trans ?_
      have k2 := (hg2 _ hmem).1
      rw [← hdq] at k2
      have k4 := abs_sub_abs_le_abs_sub d.1 (ρ q.1)
      have k5 : |d.1 / 2 - ρ q.1 / 2| = |d.1 - ρ q.1| / 2 := by
        rw [← sub_div, abs_div, abs_of_pos (by norm_num : (0 : ℝ) < 2)]
      have k6 : |d.1 / 2| = |d.1| / 2 := by rw [abs_div, abs_of_pos (by norm_num : (0 : ℝ) < 2)]
      have k7 := abs_sub_le x.1 (d.1 / 2) (ρ q.1 / 2)
      rw [k6] at hx
      rw [k5] at k7
      have h0 := abs_nonneg (ρ q.1)
      have k8 : |d.1| ≤ 1.1 * |ρ q.1| + eta := by nlinarith
      have k9 : ulp * (|d.1| / 2) ≤ ulp * ((1.1 * |ρ q.1| + eta) / 2) := mul_le_mul_of_nonneg_left (by linarith) hu.le
      have k10 : ulp * eta ≤ 1 / 10000 * eta := mul_le_mul_of_nonneg_right hus he.le
      have k11 : 0 ≤ ulp * |ρ q.1| := by positivity
      nlinarith

/-- Actions with prices. -/
example : Priced (⟨"maintain", 0, 1, 0⟩ : Action F64) 0 1 :=
  ⟨⟨0, isDouble_zero⟩, ⟨1, isDouble_one⟩, rfl, rfl, rfl, rfl, by rw [abs_zero]; positivity⟩

end
end Verif
