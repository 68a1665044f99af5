import Verif.Props.Tables2
import Verif.Props.Accuracy
import Verif.Props.Bars

set_option autoImplicit false
set_option linter.unusedSectionVars false

namespace Verif
open GoMath Spec

variable [Rounding] [LibM]

theorem piDouble_near : |piDouble - Real.pi| ≤ 2 * ulp := by
  have h1 := Real.pi_gt_d20
  have h2 := Real.pi_lt_d20
  unfold piDouble ulp
  rw [zpow_neg, abs_le]
  constructor <;> norm_num at h1 h2 ⊢ <;> linarith

/-- The argument of the `i`th sample. -/
theorem sample_double (n i : ℕ) (hn : n < 2 ^ 52) (hi : i < n) :
    ∃ d : Dbl, (ofInt (i : ℤ) * 2.0 * piMul 1 / ofInt (n : ℤ) : F64) = .fin d ∧ |d.1 - 2 * Real.pi * (i / n)| ≤ 20 * ulp := by
  have hu := ulp_pos
  have hη := eta_pos
  have hηu := eta_le_ulp
  have hu1 : ulp ≤ 1 / 10000 := by unfold ulp; rw [zpow_neg]; norm_num
  obtain ⟨a, ea, ha⟩ := fin_nat i (by omega)
  obtain ⟨b, eb, hb⟩ := fin_nat n (by omega)
  obtain ⟨c, ec, hc⟩ := fin_nat (i * 2) (by omega)
  have e2 : (2.0 : F64) = .fin ⟨2, isDouble_ofNat 2 (by norm_num)⟩ := by
    change F64.ofReal 2.0 = _
    rw [show (2.0 : ℝ) = 2 by norm_num]; exact F64.ofReal_of_isDouble _
  have e1 : (ofInt (i : ℤ) * 2.0 : F64) = .fin c := by
    rw [ea, e2, F64.mul_fin, ha]
    rw [show (i : ℝ) * ((2 : ℝ)) = c.1 by rw [hc]; push_cast; ring]
    exact F64.ofReal_of_isDouble c.2
  rw [e1, F64.piMul_one, F64.mul_fin, eb]
  have hn0 : (0 : ℝ) < n := by exact_mod_cast (by omega : 0 < n)
  have hin : (i : ℝ) < n := by exact_mod_cast hi
  have i0 : (0 : ℝ) ≤ i := by positivity
  have hp : (3 : ℝ) < piDouble ∧ piDouble < 3.2 := by unfold piDouble; constructor <;> norm_num
  have hcv : c.1 = 2 * i := by rw [hc]; push_cast; ring
  have hx0 : 0 ≤ c.1 * piDouble := by rw [hcv]; have := hp.1; positivity
  have hxle : c.1 * piDouble ≤ 6.4 * n := by rw [hcv]; have := hp.2; norm_num at this ⊢; nlinarith [hp.1]
  have hnb : (n : ℝ) ≤ 2 ^ (52 : ℕ) := by exact_mod_cast hn.le
  have hbig : ∀ x : ℝ, 0 ≤ x → x ≤ 10 * 2 ^ (52 : ℕ) → |x| < (2 : ℝ) ^ (1023 : ℤ) := by
    intro x x0 x1
    rw [abs_of_nonneg x0]
    refine lt_of_le_of_lt (x1.trans (?_ : _ ≤ (2 : ℝ) ^ (60 : ℤ))) (zpow_lt_zpow_right₀ (by norm_num) (by norm_num))
    norm_num
  obtain ⟨y, ey, hy⟩ := F64.ofReal_err (hbig _ hx0 (by norm_num at hxle; linarith))
  rw [abs_of_nonneg hx0] at hy
  dsimp only
  rw [ey, F64.div_fin (by rw [hb]; exact hn0.ne'), hb]
  obtain ⟨y1, y2⟩ := abs_le.1 hy
  have hq : |y.1 / n - 2 * piDouble * (i / n)| ≤ 8 * ulp := by
    rw [show y.1 / n - 2 * piDouble * (i / n) = (y.1 - c.1 * piDouble) / n by rw [hcv]; field_simp, abs_div, abs_of_pos hn0, div_le_iff₀ hn0]
    have n1 : (1 : ℝ) ≤ n := by exact_mod_cast (by omega : 1 ≤ n)
    refine hy.trans ?_
    nlinarith
  have hfrac : (i : ℝ) / n ≤ 1 := (div_le_one hn0).2 hin.le
  have hfr0 : 0 ≤ (i : ℝ) / n := by positivity
  have hpi2 : |2 * piDouble * ((i : ℝ) / n) - 2 * Real.pi * (i / n)| ≤ 4 * ulp := by
    rw [show 2 * piDouble * ((i : ℝ) / n) - 2 * Real.pi * (i / n) = (piDouble - Real.pi) * (2 * (i / n)) by ring, abs_mul,
      abs_of_nonneg (show 0 ≤ 2 * ((i : ℝ) / n) by positivity)]
    have := piDouble_near
    nlinarith [abs_nonneg (piDouble - Real.pi)]
  have hqb : |y.1 / n| ≤ 7 := by
    have h6 : 2 * piDouble * ((i : ℝ) / n) ≤ 6.4 := by have := hp.2; norm_num at this ⊢; nlinarith [hp.1]
    have h60 : 0 ≤ 2 * piDouble * ((i : ℝ) / n) := by have := hp.1; positivity
    rw [abs_le] at hq ⊢
    norm_num at h6
    constructor <;> linarith [hq.1, hq.2]
  obtain ⟨z, ez, hz⟩ := F64.ofReal_err (x := y.1 / n) (lt_of_le_of_lt (hqb.trans (show (7 : ℝ) ≤ 2 ^ (3 : ℤ) by norm_num))
    (zpow_lt_zpow_right₀ (by norm_num) (by norm_num)))
  refine ⟨z, ez, ?_⟩
  have hz' : |z.1 - y.1 / n| ≤ 8 * ulp := hz.trans (by nlinarith)
  rw [abs_le] at *
  constructor <;> linarith [hq.1, hq.2, hz'.1, hz'.2, hpi2.1, hpi2.2]

/-- **C113 in doubles.** A sampled wave has the given length and values in `[-1, 1]`, and each value is the sine of its place in the period, up to
the accuracy `ε` of the library and twenty roundings. -/
theorem C113_double (ε : ℝ) (hε : ∀ d : Dbl, TrigWithin ε d) (n : ℕ) (hn : n < 2 ^ 52) :
    ∃ l : List Dbl, generateSineWave (n : ℤ) = .ok (l.map F64.fin) ∧ l.length = n ∧
      ∀ i (h : i < l.length), |l[i].1| ≤ 1 ∧ |l[i].1 - Real.sin (2 * Real.pi * (i / n))| ≤ ε + 20 * 2 ^ (-53 : ℤ) := by
  have key : ∀ i : ℕ, ∃ s : Dbl, i < n → (GoMath.sin (ofInt (i : ℤ) * 2.0 * piMul 1 / ofInt (n : ℤ) : F64) = .fin s ∧
      |s.1| ≤ 1 ∧ |s.1 - Real.sin (2 * Real.pi * (i / n))| ≤ ε + 20 * 2 ^ (-53 : ℤ)) := by
    intro i
    by_cases hi : i < n
    · obtain ⟨d, ed, hd⟩ := sample_double n i hn hi
      refine ⟨LibM.sin d, fun _ => ⟨by rw [ed]; rfl, LibM.sin_le d, ?_⟩⟩
      have h1 := (hε d).1
      have h2 : |Real.sin d.1 - Real.sin (2 * Real.pi * (i / n))| ≤ |d.1 - 2 * Real.pi * (i / n)| := Real.abs_sin_sub_sin_le _ _
      have h3 : |(LibM.sin d).1 - Real.sin (2 * Real.pi * (i / n))| ≤
          |(LibM.sin d).1 - Real.sin d.1| + |Real.sin d.1 - Real.sin (2 * Real.pi * (i / n))| := abs_sub_le _ _ _
      have hu : ulp = 2 ^ (-53 : ℤ) := rfl
      rw [hu] at hd
      linarith
    · exact ⟨⟨0, isDouble_zero⟩, fun h => absurd h hi⟩
  choose f hf using key
  refine ⟨(List.range n).map f, ?_, by simp, fun i h => ?_⟩
  · unfold generateSineWave
    rw [if_neg (by omega), Int.toNat_natCast, List.map_map]
    congr 1
    refine List.map_congr_left fun i hi => ?_
    rw [List.mem_range] at hi
    exact (hf i hi).1
  · simp only [List.length_map, List.length_range] at h
    simp only [List.getElem_map, List.getElem_range]
    exact (hf i h).2

/-- Non-vacuity: the default wave of 100 samples with a correctly rounded library. -/
example : letI := LibM.rounded
    ∃ l : List Dbl, generateSineWave 100 = .ok (l.map F64.fin) ∧ l.length = 100 := by
  let := LibM.rounded
  obtain ⟨l, h1, h2, -⟩ := C113_double ((2 : ℝ) ^ (-52 : ℤ)) trigWithin_rounded 100 (by norm_num)
  exact ⟨l, h1, h2⟩

end Verif
