import Verif.Props.PatternsDouble
import Verif.Props.Strategy
import Verif.Props.Accuracy
import Verif.Props.StrategyDouble

/-!
# C02, C05, C06 and C17 in doubles

Ranges that survive every rounding, and one that does not.
-/

set_option autoImplicit false
set_option linter.unusedSectionVars false

namespace Verif
variable [Rounding] [LibM]
open Rounding GoMath Spec

/-- **C02 in doubles.** The difference of two finite phases is a finite double of size at most the double below π, whatever
the rounding and the library, unless the subtraction overflows. -/
theorem C02_range_double (a b : Dbl) (h : ∃ d, F64.fin a - F64.fin b = .fin d) :
    ∃ d : Dbl, phaseDifference (F64.fin a) (F64.fin b) = .fin d ∧ |d.1| < Real.pi := by
  obtain ⟨d, e, hd⟩ := F64.phaseDifference_pi a b h
  exact ⟨d, e, hd.trans_lt piDouble_lt_pi⟩

omit [LibM] in
/-- What lies less than half a unit in the last place above 1 is rounded to at most 1. -/
theorem rnd_le_one {x : ℝ} (h : x < 1 + ulp) : rnd x ≤ 1 := by
  by_cases h1 : x ≤ 1
  · exact rnd_le isDouble_one h1
  · have h1 := not_le.1 h1
    have hn := nearest x 1 isDouble_one
    rw [abs_of_neg (by linarith : 1 - x < 0)] at hn
    have hle : rnd x ≤ 2 * x - 1 := by linarith [(abs_le.1 hn).2]
    have hge : 1 ≤ rnd x := le_rnd isDouble_one h1.le
    obtain ⟨j, hj⟩ := isDouble_multiple (isDouble x) 0 (by rw [abs_of_nonneg (by linarith)]; simpa using hge)
    have e : (2 : ℝ) ^ ((0 : ℤ) - 52) = 1 / 2 ^ 52 := by
      rw [show (0 : ℤ) - 52 = -52 by norm_num, zpow_neg]; norm_num
    have u : ulp = 1 / 2 ^ 53 := by unfold ulp; rw [zpow_neg]; norm_num
    rw [e] at hj
    rw [u] at h
    rw [hj] at hle ⊢
    have : (j : ℝ) < 2 ^ 52 + 1 := by
      have : (j : ℝ) * (1 / 2 ^ 52) < 1 + 1 / 2 ^ 52 := by linarith
      rw [mul_one_div, div_lt_iff₀ (by positivity)] at this
      linarith
    have : j ≤ 2 ^ 52 := by
      have : j < 2 ^ 52 + 1 := by exact_mod_cast this
      omega
    have : (j : ℝ) ≤ 2 ^ 52 := by exact_mod_cast this
    rw [mul_one_div, div_le_one (by positivity)]
    exact this

omit [LibM] in
theorem ofReal_in01 {x : ℝ} (h0 : 0 ≤ x) (h : x < 1 + ulp) : F64.In01 (F64.ofReal x) := by
  have u1 : ulp < 1 := by unfold ulp; rw [zpow_neg]; norm_num
  have hov : |x| < overflow := by
    have := (isDouble_ofNat 2 (by norm_num)).abs_lt_overflow
    rw [abs_of_nonneg h0]
    rw [abs_of_nonneg (by norm_num)] at this
    linarith
  have e' : F64.ofReal x = .fin ⟨rnd x, isDouble x⟩ := if_pos hov
  rw [e']
  exact ⟨rnd x, isDouble x, rfl, le_rnd isDouble_zero h0, rnd_le_one h⟩

theorem mul_le_left {p : Dbl} (hp : 0 ≤ p.1) {a : F64} (ha : F64.In01 a) :
    ∃ y : Dbl, F64.fin p * a = .fin y ∧ 0 ≤ y.1 ∧ y.1 ≤ p.1 := by
  obtain ⟨x, hx, rfl, x0, x1⟩ := ha
  rw [F64.mul_fin]
  obtain ⟨y, hy, e, h0, h1⟩ := F64.ofReal_between (x := p.1 * x) isDouble_zero p.2 (mul_nonneg hp x0)
    (mul_le_of_le_one_right hp x1)
  exact ⟨⟨y, hy⟩, e, h0, h1⟩

/-- The double nearest to a literal between 0 and 1. -/
theorem lit_double (q : ℝ) (h0 : 0 ≤ q) (h1 : q ≤ 1) :
    ∃ p : Dbl, F64.ofReal q = .fin p ∧ 0 ≤ p.1 ∧ p.1 ≤ q + (ulp * q + eta) := by
  obtain ⟨y, hy, e, y0, -⟩ := F64.in01_ofReal h0 h1
  have hov : |q| < overflow := by
    have := isDouble_one.abs_lt_overflow
    rw [abs_of_nonneg h0]
    rw [abs_of_nonneg (by norm_num)] at this
    linarith
  have e' : F64.ofReal q = .fin ⟨rnd q, isDouble q⟩ := if_pos hov
  have hr := rnd_err (x := q) (small_lt_1023 (by rw [abs_of_nonneg h0]; linarith))
  rw [abs_of_nonneg h0] at hr
  exact ⟨_, e', le_rnd isDouble_zero h0, by linarith [(abs_le.1 hr).2]⟩

theorem weighted_sum_in01 {a b c : F64} (ha : F64.In01 a) (hb : F64.In01 b) (hc : F64.In01 c) :
    F64.In01 ((0.4 : F64) * a + (0.3 : F64) * b + (0.3 : F64) * c) := by
  have u : ulp = 1 / 2 ^ 53 := by unfold ulp; rw [zpow_neg]; norm_num
  have t : eta ≤ 1 / 2 ^ 100 := by
    unfold eta
    calc (2 : ℝ) ^ (-1075 : ℤ) ≤ 2 ^ (-100 : ℤ) := zpow_le_zpow_right₀ (by norm_num) (by norm_num)
      _ = 1 / 2 ^ 100 := by rw [zpow_neg]; norm_num
  have t0 := eta_pos
  obtain ⟨p4, e4, p40, -⟩ := lit_double 0.4 (by norm_num) (by norm_num)
  have d4 : IsDouble (7205759403792794 / 2 ^ 54 : ℝ) :=
    ⟨7205759403792794, -54, by norm_num, by norm_num, by norm_num, by rw [zpow_neg]; norm_num⟩
  have p4le : p4.1 ≤ 7205759403792794 / 2 ^ 54 := by
    obtain ⟨y, hy, e, -, h⟩ := F64.ofReal_between (x := 0.4) isDouble_zero d4 (by norm_num) (by norm_num)
    rw [e4] at e
    cases e
    exact h
  obtain ⟨p3, e3, p30, p3le⟩ := lit_double 0.3 (by norm_num) (by norm_num)
  obtain ⟨x, ex, x0, x1⟩ := mul_le_left p40 ha
  obtain ⟨y, ey, y0, y1⟩ := mul_le_left p30 hb
  obtain ⟨z, ez, z0, z1⟩ := mul_le_left p30 hc
  have f4 : (0.4 : F64) = .fin p4 := e4
  have f3 : (0.3 : F64) = .fin p3 := e3
  rw [f4, f3, ex, ey, ez, F64.add_fin]
  have d7 : IsDouble (6305039478318695 / 2 ^ 53 : ℝ) :=
    ⟨6305039478318695, -53, by norm_num, by norm_num, by norm_num, by rw [zpow_neg]; norm_num⟩
  obtain ⟨s, hs, es, s0, s1⟩ := F64.ofReal_between (x := x.1 + y.1) isDouble_zero d7 (by linarith) (by
    rw [u] at p3le
    have : p4.1 + p3.1 ≤ 6305039478318695 / 2 ^ 53 := by norm_num at *; linarith
    linarith)
  rw [es, F64.add_fin]
  have z2 : z.1 ≤ 0.3 + (1 / 2 ^ 53 * 0.3 + eta) := by rw [u] at p3le; exact (show z.1 ≤ p3.1 from z1).trans p3le
  refine ofReal_in01 (by dsimp only; linarith) ?_
  rw [u]
  change s + z.1 < _
  clear x1 y1 z1 es ex ey ez f4 f3 e4 e3
  norm_num at s1 z2 t ⊢
  linarith

/-- **C06 in doubles.** The pattern distance is a number in [0, 1] also in doubles, whatever the rounding and the library,
although it is a sum of three rounded products with rounded weights: coherences in [0, 1], phases whose difference is finite
and any frequencies a duration can hold. -/
theorem C06_range_double (c t : TargetPattern F64) (a b : Dbl) (ha : t.phase = .fin a) (hb : c.phase = .fin b)
    (hab : ∃ d, F64.fin a - F64.fin b = .fin d) (hc : F64.In01 c.coherence) (ht : F64.In01 t.coherence)
    (hf : t.frequency < 2 ^ 63) :
    F64.In01 (patternDistance (some c) (some t)) := by
  have hp := piDouble_bounds
  unfold patternDistance
  refine weighted_sum_in01 ?_ ?_ ?_
  · obtain ⟨d, e, hd⟩ := F64.phaseDifference_pi a b hab
    obtain ⟨v, ev, hv⟩ := F64.abs_fin d
    rw [ha, hb, e, ev, F64.piMul_one, F64.div_fin (by dsimp only; linarith)]
    refine F64.in01_ofReal ?_ ?_
    · rw [hv]; exact div_nonneg (abs_nonneg _) (by dsimp only; linarith)
    · rw [hv]; exact (div_le_one (by dsimp only; linarith)).2 hd
  · split_ifs with h
    · have h63 : IsDouble ((2 : ℝ) ^ 63) := ⟨1, 63, by norm_num, by norm_num, by norm_num, by norm_num⟩
      have h1 : (1 : ℝ) ≤ (t.frequency : ℝ) := by exact_mod_cast h
      have h2 : (t.frequency : ℝ) ≤ 2 ^ 63 := by exact_mod_cast hf.le
      obtain ⟨m, hm, em, m1, -⟩ := F64.ofReal_between isDouble_one h63 h1 h2
      have hn : F64.NN (GoMath.abs (GoMath.ofInt (c.frequency - t.frequency) : F64) / GoMath.ofInt t.frequency) := by
        change F64.NN (GoMath.abs (F64.ofReal _) / F64.ofReal _)
        rw [em]
        exact (F64.nn_abs_ofReal _).div _ (by dsimp only; linarith)
      rcases hn with e | ⟨d, e, h0⟩
      · rw [e]
        exact ⟨1, isDouble_one, rfl, zero_le_one, le_rfl⟩
      · rw [e]
        change F64.In01 (if d.1 < 1 then F64.fin d else F64.fin ⟨1, isDouble_one⟩)
        split_ifs with h
        · exact ⟨d.1, d.2, rfl, h0, h.le⟩
        · exact ⟨1, isDouble_one, rfl, zero_le_one, le_rfl⟩
    · exact ⟨0, isDouble_zero, rfl, le_rfl, zero_le_one⟩
  · obtain ⟨x, hx, ex, x0, x1⟩ := ht
    obtain ⟨y, hy, ey, y0, y1⟩ := hc
    rw [ex, ey, F64.sub_fin]
    obtain ⟨z, hz, e, z1, z2⟩ := F64.ofReal_between (x := x - y) isDouble_one.neg isDouble_one (by linarith) (by linarith)
    obtain ⟨v, ev, hv⟩ := F64.abs_fin ⟨z, hz⟩
    dsimp only
    rw [e, ev]
    exact ⟨v.1, v.2, rfl, by rw [hv]; exact abs_nonneg _, by rw [hv]; exact abs_le.2 ⟨z1, z2⟩⟩

/-- **C17 in doubles.** A blend of two states in range is in range, whatever the rounding and the library: the phase is below
the double nearest to 2π, the coherence in [0, 1] although the two influences need not add up to 1 after rounding. -/
theorem C17_range_double (l g : State F64) (a b : Dbl) (w : F64) (ha : g.phase = .fin a) (hb : l.phase = .fin b)
    (hab : ∃ d, F64.fin a - F64.fin b = .fin d) (hb0 : |b.1| ≤ 2 ^ 53) (hl : F64.In01 l.coherence) (hg : F64.In01 g.coherence)
    (hw : w ≠ .nan) :
    (∃ r : Dbl, (blend l g w).phase = .fin r ∧ 0 ≤ r.1 ∧ r.1 < F64.tau.1) ∧ F64.In01 (blend l g w).coherence := by
  have hp := piDouble_bounds
  have hW : F64.In01 (if w < 0 then 0 else if w > 1 then 1 else w : F64) := by
    cases w with
    | nan => exact absurd rfl hw
    | pinf =>
      rw [if_neg (show ¬ F64.pinf < (0 : F64) from id), if_pos (show (F64.pinf : F64) > (1 : F64) from trivial)]
      exact ⟨1, isDouble_one, rfl, zero_le_one, le_rfl⟩
    | ninf =>
      rw [if_pos (show F64.ninf < (0 : F64) from trivial)]
      exact ⟨0, isDouble_zero, rfl, le_rfl, zero_le_one⟩
    | fin d =>
      change F64.In01 (if d.1 < 0 then F64.fin ⟨0, isDouble_zero⟩ else if 1 < d.1 then F64.fin ⟨1, isDouble_one⟩ else .fin d)
      split_ifs with h1 h2
      · exact ⟨0, isDouble_zero, rfl, le_rfl, zero_le_one⟩
      · exact ⟨1, isDouble_one, rfl, zero_le_one, le_rfl⟩
      · exact ⟨d.1, d.2, rfl, not_lt.1 h1, not_lt.1 h2⟩
  unfold blend
  generalize (if w < 0 then 0 else if w > 1 then 1 else w : F64) = W at hW
  constructor
  · obtain ⟨d, e, hd⟩ := F64.phaseDifference_pi a b hab
    obtain ⟨v, ev, hv⟩ := value_double d hd W hW
    dsimp only
    rw [ha, hb, e, ev, F64.add_fin]
    have h54 : IsDouble ((2 : ℝ) ^ 54) := ⟨1, 54, by norm_num, by norm_num, by norm_num, by norm_num⟩
    obtain ⟨b1, b2⟩ := abs_le.1 hb0
    obtain ⟨v1, v2⟩ := abs_le.1 hv
    obtain ⟨y, hy, ey, -, -⟩ := F64.ofReal_between (x := b.1 + v.1) h54.neg h54 (by norm_num at *; linarith)
      (by norm_num at *; linarith)
    rw [ey]
    exact C01_wrapPhase_double (.fin ⟨y, hy⟩)
  · obtain ⟨x, hx, ex, x0, x1⟩ := hl
    obtain ⟨y, hy, ey, y0, y1⟩ := hg
    obtain ⟨q, hq, rfl, q0, q1⟩ := hW
    obtain ⟨p, ep, p0, pe⟩ := lit_double (1 - q) (by linarith) (by linarith)
    have p1 : p.1 ≤ 1 := by
      obtain ⟨r, hr, er, -, r1⟩ := F64.in01_ofReal (x := 1 - q) (by linarith) (by linarith)
      rw [ep] at er
      cases er
      exact r1
    dsimp only
    rw [ex, ey, F64.one_def, F64.sub_fin, show F64.ofReal ((⟨1, isDouble_one⟩ : Dbl).1 - (⟨q, hq⟩ : Dbl).1) = .fin p from ep,
      F64.mul_fin, F64.mul_fin]
    obtain ⟨s, hs, es, s0, s1⟩ := F64.ofReal_between (x := x * p.1) isDouble_zero p.2 (mul_nonneg x0 p0)
      (mul_le_of_le_one_left p0 x1)
    obtain ⟨t, ht, et, t0, t1⟩ := F64.ofReal_between (x := y * q) isDouble_zero hq (mul_nonneg y0 q0)
      (mul_le_of_le_one_left q0 y1)
    dsimp only
    rw [es, et, F64.add_fin]
    refine ofReal_in01 (by dsimp only; linarith) ?_
    change s + t < _
    have u : ulp = 1 / 2 ^ 53 := by unfold ulp; rw [zpow_neg]; norm_num
    by_cases hq2 : q ≤ 1 / 2 ^ 60
    · rw [u]
      have : (1 : ℝ) / 2 ^ 60 < 1 / 2 ^ 53 := by norm_num
      linarith
    · have hq2 := not_le.1 hq2
      have te : eta ≤ 1 / 2 ^ 114 := by
        unfold eta
        calc (2 : ℝ) ^ (-1075 : ℤ) ≤ 2 ^ (-114 : ℤ) := zpow_le_zpow_right₀ (by norm_num) (by norm_num)
          _ = 1 / 2 ^ 114 := by rw [zpow_neg]; norm_num
      have : ulp * (1 / 2 ^ 60) < ulp * q := mul_lt_mul_of_pos_left hq2 ulp_pos
      have h113 : ulp * (1 / 2 ^ 60) = 1 / 2 ^ 113 := by rw [u]; norm_num
      have h3 : (1 : ℝ) / 2 ^ 114 < 1 / 2 ^ 113 := by norm_num
      nlinarith [ulp_pos]

/-- **C05 fails in doubles for large weights.** One agent at phase 0 with a weight of `2^512` or more is perfectly coherent,
but the square of its weight overflows and the weighted coherence is +Inf, for every library that gets 0 right. -/
theorem C05_overflow_double (w : Dbl) (hw : 2 ^ 512 ≤ w.1) (hc : (LibM.cos ⟨0, isDouble_zero⟩).1 = 1)
    (hs : (LibM.sin ⟨0, isDouble_zero⟩).1 = 0) :
    measureCoherenceWeighted [F64.fin ⟨0, isDouble_zero⟩] [F64.fin w] = F64.pinf := by
  have w0 : 0 < w.1 := lt_of_lt_of_le (by positivity) hw
  have ec : GoMath.cos (F64.fin ⟨0, isDouble_zero⟩) = F64.fin ⟨1, isDouble_one⟩ := by
    change F64.fin (LibM.cos ⟨0, isDouble_zero⟩) = _
    rw [show LibM.cos ⟨0, isDouble_zero⟩ = (⟨1, isDouble_one⟩ : Dbl) from Subtype.ext hc]
  have es : GoMath.sin (F64.fin ⟨0, isDouble_zero⟩) = F64.fin ⟨0, isDouble_zero⟩ := by
    change F64.fin (LibM.sin ⟨0, isDouble_zero⟩) = _
    rw [show LibM.sin ⟨0, isDouble_zero⟩ = (⟨0, isDouble_zero⟩ : Dbl) from Subtype.ext hs]
  have h1 : ∀ x : Dbl, F64.ofReal x.1 = .fin x := fun x => F64.ofReal_of_isDouble x.2
  have m1 : F64.fin w * F64.fin ⟨1, isDouble_one⟩ = .fin w := by rw [F64.mul_fin]; simpa using h1 w
  have m0 : F64.fin w * F64.fin ⟨0, isDouble_zero⟩ = .fin ⟨0, isDouble_zero⟩ := by
    rw [F64.mul_fin]; simpa using h1 ⟨0, isDouble_zero⟩
  have a1 : (0 : F64) + .fin w = .fin w := by rw [F64.zero_def, F64.add_fin]; simpa using h1 w
  have a0 : (0 : F64) + .fin ⟨0, isDouble_zero⟩ = .fin ⟨0, isDouble_zero⟩ := by
    rw [F64.zero_def, F64.add_fin]; simpa using h1 ⟨0, isDouble_zero⟩
  have mm : F64.fin w * F64.fin w = .pinf := by
    rw [F64.mul_fin]
    have hsq : (2 : ℝ) ^ 1024 ≤ w.1 * w.1 := by
      calc (2 : ℝ) ^ 1024 = 2 ^ 512 * 2 ^ 512 := by rw [← pow_add]
        _ ≤ w.1 * w.1 := mul_le_mul hw hw (by positivity) w0.le
    have hov : overflow ≤ w.1 * w.1 := by
      unfold overflow
      have : (0 : ℝ) < 2 ^ 970 := by positivity
      generalize (2 : ℝ) ^ 1024 = A at *
      generalize (2 : ℝ) ^ 970 = B at *
      linarith
    unfold F64.ofReal
    rw [if_neg (by rw [abs_of_pos (mul_pos w0 w0)]; exact not_lt.2 hov), if_pos (mul_pos w0 w0)]
  have z0 : (F64.fin ⟨0, isDouble_zero⟩ * F64.fin ⟨0, isDouble_zero⟩ : F64) = .fin ⟨0, isDouble_zero⟩ := by
    rw [F64.mul_fin]; simpa using h1 ⟨0, isDouble_zero⟩
  have hne : ((F64.fin w == (0 : F64)) = true) ↔ w.1 = 0 := by
    change (decide (w.1 = 0) = true) ↔ _
    exact decide_eq_true_iff
  unfold measureCoherenceWeighted
  simp only [List.length_cons, List.length_nil, List.zip_cons_cons, List.zip_nil_right, List.foldl_cons, List.foldl_nil, ec, es,
    m1, m0, a1, a0, mm, z0]
  rw [if_neg (by simp), if_neg (by rw [hne]; exact w0.ne')]
  change (if w.1 < 0 then F64.ninf else F64.pinf) = _
  rw [if_neg (not_lt.2 w0.le)]

omit [LibM] in
/-- Non-vacuity: the correctly rounded library and a weight of `2^600`. -/
example : letI := LibM.rounded
    measureCoherenceWeighted [F64.fin ⟨0, isDouble_zero⟩]
      [F64.fin ⟨2 ^ 600, ⟨1, 600, by norm_num, by norm_num, by norm_num, by norm_num⟩⟩] = F64.pinf := by
  let := LibM.rounded
  refine C05_overflow_double _ (pow_le_pow_right₀ (by norm_num) (by norm_num)) ?_ ?_
  · change rnd (Real.cos 0) = 1
    rw [Real.cos_zero]; exact rnd_eq_self isDouble_one
  · change rnd (Real.sin 0) = 0
    rw [Real.sin_zero]; exact rnd_eq_self isDouble_zero

/-- Non-vacuity of C06: a swarm at a quarter of the coherence and half the frequency of its target, one radian away. -/
example : ∃ (c t : TargetPattern F64) (a b : Dbl), t.phase = .fin a ∧ c.phase = .fin b ∧ (∃ d, F64.fin a - F64.fin b = .fin d)
    ∧ F64.In01 c.coherence ∧ F64.In01 t.coherence ∧ t.frequency < 2 ^ 63 ∧ c.frequency ≠ t.frequency ∧ a ≠ b := by
  obtain ⟨z, hz, e, -, -⟩ := F64.ofReal_between (x := 1 - 0) isDouble_zero isDouble_one (by norm_num) (by norm_num)
  refine ⟨⟨.fin ⟨0, isDouble_zero⟩, 100, 1, F64.ofReal 0.25, [], 0⟩, ⟨.fin ⟨1, isDouble_one⟩, 200, 1, 1, [], 0⟩,
    ⟨1, isDouble_one⟩, ⟨0, isDouble_zero⟩, rfl, rfl, ⟨⟨z, hz⟩, by rw [F64.sub_fin]; exact e⟩,
    F64.in01_ofReal (by norm_num) (by norm_num), ⟨1, isDouble_one, rfl, zero_le_one, le_rfl⟩, by norm_num, by norm_num,
    fun e => by simpa using congrArg Subtype.val e⟩

end Verif
