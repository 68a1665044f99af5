import Verif.Lemmas.RoundErr
import Verif.Props.AgentRange
import Verif.Lemmas.Coherence
import Verif.Lemmas.Pi

/-!
# C133: how accurate the computed coherence is

The coherence that the program computes in doubles, compared with the exact order parameter of the same phases. The only
thing assumed of the mathematical library is how close its sine and cosine are (`TrigWithin ε`); rounding is to nearest with
any tie rule.
-/

set_option autoImplicit false
set_option linter.unusedSectionVars false

namespace Verif
variable [Rounding] [LibM]
open Rounding GoMath Spec

namespace Spec

/-- The library's sine and cosine of the double `d` are within `ε` of the mathematical ones (Go's are within about one
unit in the last place, `ε = 2^-52`). -/
def TrigWithin (ε : ℝ) (d : Dbl) : Prop :=
  |(LibM.sin d).1 - Real.sin d.1| ≤ ε ∧ |(LibM.cos d).1 - Real.cos d.1| ≤ ε

/-- How far the computed coherence of `n` phases may be from the exact one. -/
noncomputable def coherenceError (ε : ℝ) (n : ℕ) : ℝ := 3 / 2 * ε + (3 / 4 * n + 8) * (2 : ℝ) ^ (-53 : ℤ)

end Spec

omit [Rounding] [LibM] in
theorem small_lt_1023 {x : ℝ} (h : |x| ≤ 2 ^ (200 : ℤ)) : |x| < 2 ^ (1023 : ℤ) :=
  h.trans_lt (zpow_lt_zpow_right₀ (by norm_num) (by norm_num))

theorem sum_step (a : Dbl) (A : ℝ) (k : ℕ) (hk : k + 1 < 2 ^ 53) (ha : |a.1| ≤ k) (v : Dbl) (V ε : ℝ) (hv : |v.1| ≤ 1)
    (hV : |v.1 - V| ≤ ε) :
    ∃ c : Dbl, F64.fin a + F64.fin v = .fin c ∧ |c.1| ≤ (k + 1 : ℕ) ∧
      |c.1 - (A + V)| ≤ |a.1 - A| + ε + ulp * (k + 1) + eta := by
  rw [F64.add_fin]
  have hx : |a.1 + v.1| ≤ (k + 1 : ℕ) := by
    refine (abs_add_le _ _).trans ?_
    push_cast; linarith
  obtain ⟨c, ec, hc⟩ := F64.ofReal_abs_le (k + 1) hk hx
  have hlim : |a.1 + v.1| < 2 ^ (1023 : ℤ) := by
    refine small_lt_1023 (hx.trans ?_)
    have h1 : ((k + 1 : ℕ) : ℝ) ≤ 2 ^ 53 := by exact_mod_cast hk.le
    exact h1.trans (by norm_num)
  obtain ⟨c', ec', hc'⟩ := F64.ofReal_err hlim
  have hcc : c = c' := by rw [ec] at ec'; exact F64.fin.inj ec'
  subst hcc
  refine ⟨c, ec, hc, ?_⟩
  have : c.1 - (A + V) = (c.1 - (a.1 + v.1)) + (a.1 - A) + (v.1 - V) := by ring
  rw [this]
  have h3 : ulp * |a.1 + v.1| ≤ ulp * (k + 1) := by
    refine mul_le_mul_of_nonneg_left ?_ ulp_pos.le
    exact_mod_cast hx
  have := abs_add_le (c.1 - (a.1 + v.1) + (a.1 - A)) (v.1 - V)
  have := abs_add_le (c.1 - (a.1 + v.1)) (a.1 - A)
  linarith

/-- The two running sums of the loop, in doubles and exactly. -/
theorem sums_accurate (ε : ℝ) (ds : List Dbl) (hε : ∀ d ∈ ds, TrigWithin ε d) (k : ℕ) (hk : k + ds.length < 2 ^ 53)
    (a b : Dbl) (A B E : ℝ) (ha : |a.1| ≤ k) (hb : |b.1| ≤ k) (hA : |a.1 - A| ≤ E) (hB : |b.1 - B| ≤ E) :
    ∃ c d : Dbl, (ds.map F64.fin).foldl (fun (s : F64 × F64) p => (s.1 + cos p, s.2 + sin p)) (.fin a, .fin b) =
        (.fin c, .fin d) ∧ |c.1| ≤ (k + ds.length : ℕ) ∧ |d.1| ≤ (k + ds.length : ℕ) ∧
      |c.1 - (A + ((ds.map Subtype.val).map Real.cos).sum)| ≤
        E + ds.length * (ε + eta) + ulp * (ds.length * k + ds.length * (ds.length + 1) / 2) ∧
      |d.1 - (B + ((ds.map Subtype.val).map Real.sin).sum)| ≤
        E + ds.length * (ε + eta) + ulp * (ds.length * k + ds.length * (ds.length + 1) / 2) := by
  induction ds generalizing k a b A B E with
  | nil => exact ⟨a, b, rfl, by simpa using ha, by simpa using hb, by simpa using hA, by simpa using hB⟩
  | cons p ps ih =>
    simp only [List.length_cons] at hk
    obtain ⟨hs, hc⟩ := hε p List.mem_cons_self
    obtain ⟨c, ec, c1, c2⟩ := sum_step a A k (by omega) ha (LibM.cos p) (Real.cos p.1) ε (LibM.cos_le p) hc
    obtain ⟨d, ed, d1, d2⟩ := sum_step b B k (by omega) hb (LibM.sin p) (Real.sin p.1) ε (LibM.sin_le p) hs
    obtain ⟨c', d', e, h1, h2, h3, h4⟩ := ih (fun x hx => hε x (List.mem_cons_of_mem _ hx)) (k + 1) (by omega) c d
      (A + Real.cos p.1) (B + Real.sin p.1) (E + ε + ulp * (k + 1) + eta) c1 d1 (by linarith) (by linarith)
    refine ⟨c', d', ?_, ?_, ?_, ?_, ?_⟩
    · rw [List.map_cons, List.foldl_cons, ← e, ← ec, ← ed]; rfl
    · rw [List.length_cons, show k + (ps.length + 1) = k + 1 + ps.length by omega]; exact h1
    · rw [List.length_cons, show k + (ps.length + 1) = k + 1 + ps.length by omega]; exact h2
    · simp only [List.map_cons, List.sum_cons, List.length_cons, ← add_assoc]
      refine h3.trans (le_of_eq ?_)
      push_cast; ring
    · simp only [List.map_cons, List.sum_cons, List.length_cons, ← add_assoc]
      refine h4.trans (le_of_eq ?_)
      push_cast; ring

omit [Rounding] [LibM] in
/-- The square root of a slightly wrong square. -/
theorem sqrt_close {w R A t : ℝ} (hR : 0 ≤ R) (hA : 0 ≤ A) (hA1 : A ≤ 1) (ht : 0 ≤ t)
    (h : |w - R ^ 2| ≤ A * R ^ 2 + t ^ 2) : |Real.sqrt w - R| ≤ A * R + t := by
  obtain ⟨h1, h2⟩ := abs_le.1 h
  have hAR := mul_nonneg hA hR
  rw [abs_le]
  constructor
  · by_cases hc : R * (1 - A) - t ≤ 0
    · have := Real.sqrt_nonneg w
      linarith
    · have hc := (not_le.1 hc)
      have : R * (1 - A) - t ≤ Real.sqrt w := by
        apply Real.le_sqrt_of_sq_le
        have h3 : t * t ≤ t * (R * (1 - A)) := mul_le_mul_of_nonneg_left (by linarith) ht
        have h4 : 0 ≤ R ^ 2 * (1 - A) * A := mul_nonneg (mul_nonneg (sq_nonneg _) (by linarith)) hA
        nlinarith
      linarith
  · have : Real.sqrt w ≤ R + A * R + t := by
      refine Real.sqrt_le_iff.2 ⟨by linarith, ?_⟩
      nlinarith [mul_nonneg hAR ht, mul_nonneg hR ht, mul_nonneg hR hAR]
    linarith

omit [Rounding] [LibM] in
/-- Two vectors with nearby components have nearby lengths. -/
theorem length_close {a b c d E : ℝ} (h1 : |c - a| ≤ E) (h2 : |d - b| ≤ E) :
    |Real.sqrt (c ^ 2 + d ^ 2) - Real.sqrt (a ^ 2 + b ^ 2)| ≤ 3 / 2 * E := by
  have hE : 0 ≤ E := (abs_nonneg _).trans h1
  have e : ∀ x y : ℝ, Real.sqrt (x ^ 2 + y ^ 2) = ‖(⟨x, y⟩ : ℂ)‖ := by
    intro x y; rw [Complex.norm_def, Complex.normSq_mk]; ring_nf
  have h3 := abs_norm_sub_norm_le (⟨c, d⟩ : ℂ) ⟨a, b⟩
  rw [e, e]
  refine h3.trans ?_
  have : (⟨c, d⟩ : ℂ) - ⟨a, b⟩ = ⟨c - a, d - b⟩ := by apply Complex.ext <;> simp
  rw [this, ← e]
  refine Real.sqrt_le_iff.2 ⟨by linarith, ?_⟩
  have q1 : (c - a) ^ 2 ≤ E ^ 2 := sq_le_sq' (by linarith [(abs_le.1 h1).1]) (abs_le.1 h1).2
  have q2 : (d - b) ^ 2 ≤ E ^ 2 := sq_le_sq' (by linarith [(abs_le.1 h2).1]) (abs_le.1 h2).2
  nlinarith

omit [Rounding] [LibM] in
theorem eta_small : 4 * eta ≤ (ulp ^ 2) ^ 2 := by
  unfold eta ulp
  rw [← pow_mul, ← zpow_natCast, ← zpow_mul, show (4 : ℝ) = 2 ^ (2 : ℤ) by norm_num, ← zpow_add₀ (by norm_num)]
  exact zpow_le_zpow_right₀ (by norm_num) (by norm_num)

omit [Rounding] [LibM] in
theorem eta_le_ulp : eta ≤ ulp * (1 / 1000000) := by
  have h1 : eta ≤ ulp * 2 ^ (-20 : ℤ) := by
    unfold eta ulp
    rw [← zpow_add₀ (by norm_num)]
    exact zpow_le_zpow_right₀ (by norm_num) (by norm_num)
  exact h1.trans (mul_le_mul_of_nonneg_left (by norm_num) ulp_pos.le)

omit [Rounding] [LibM] in
theorem ulp_small : ulp ≤ 1 / 1000000 := by
  unfold ulp; norm_num

/-- Square root of the sum of two squares, divided by the count: the last line of the function, in doubles. -/
theorem finish_accurate (c d : Dbl) (n : ℕ) (n1 : 1 ≤ n) (hn : n < 2 ^ 53) (hc : |c.1| ≤ n) (hd : |d.1| ≤ n) :
    ∃ z : Dbl, sqrt (F64.fin c * F64.fin c + F64.fin d * F64.fin d) / (ofInt (n : ℤ) : F64) = .fin z ∧ 0 ≤ z.1 ∧
      |z.1 - Real.sqrt (c.1 ^ 2 + d.1 ^ 2) / n| ≤ 633 / 100 * ulp := by
  have nR : (1 : ℝ) ≤ n := by exact_mod_cast n1
  have nB : (n : ℝ) ≤ 2 ^ 53 := by exact_mod_cast hn.le
  have u0 := ulp_pos
  have us := ulp_small
  have e0 := eta_pos
  have es := eta_small
  have uu : ulp ^ 2 ≤ ulp * (1 / 1000000) := by rw [sq]; exact mul_le_mul_of_nonneg_left us u0.le
  have uu0 : 0 ≤ ulp ^ 2 := sq_nonneg _
  have eu := eta_le_ulp
  have hc2 : c.1 ^ 2 ≤ (n : ℝ) ^ 2 := sq_le_sq' (by linarith [(abs_le.1 hc).1]) (abs_le.1 hc).2
  have hd2 : d.1 ^ 2 ≤ (n : ℝ) ^ 2 := sq_le_sq' (by linarith [(abs_le.1 hd).1]) (abs_le.1 hd).2
  have n2 : (n : ℝ) ^ 2 ≤ 2 ^ 106 := by
    calc (n : ℝ) ^ 2 ≤ (2 ^ 53) ^ 2 := pow_le_pow_left₀ (by linarith) nB 2
      _ = 2 ^ 106 := by norm_num
  have big : (2 : ℝ) ^ (200 : ℤ) = 2 ^ 200 := by norm_cast
  have lim : ∀ x : ℝ, 0 ≤ x → x ≤ 2 ^ 110 → |x| < 2 ^ (1023 : ℤ) := fun x h0 h => small_lt_1023 (by
    rw [abs_of_nonneg h0, big]; exact h.trans (by norm_num))
  -- the squares
  have sq : ∀ x : Dbl, x.1 ^ 2 ≤ (n : ℝ) ^ 2 → ∃ y : Dbl, F64.fin x * F64.fin x = .fin y ∧ 0 ≤ y.1 ∧
      |y.1 - x.1 ^ 2| ≤ ulp * x.1 ^ 2 + eta := by
    intro x hx
    have h0 : 0 ≤ x.1 ^ 2 := sq_nonneg _
    obtain ⟨y, ey, hy⟩ := F64.ofReal_err (lim (x.1 ^ 2) h0 (hx.trans (n2.trans (by norm_num))))
    rw [abs_of_nonneg h0] at hy
    refine ⟨y, by rw [F64.mul_fin, ← ey]; ring_nf, ?_, hy⟩
    rcases F64.ofReal_nonneg_of_nonneg h0 with h | ⟨_, _, h, h'⟩
    · rw [ey] at h; cases h
    · rw [ey] at h; cases h; exact h'
  obtain ⟨x, ex, x0, hx⟩ := sq c hc2
  obtain ⟨y, ey, y0, hy⟩ := sq d hd2
  set R := Real.sqrt (c.1 ^ 2 + d.1 ^ 2) with hRdef
  have R0 : 0 ≤ R := Real.sqrt_nonneg _
  have R2 : R ^ 2 = c.1 ^ 2 + d.1 ^ 2 := Real.sq_sqrt (by positivity)
  have Rn : R ≤ 3 / 2 * n := by
    refine Real.sqrt_le_iff.2 ⟨by positivity, ?_⟩
    linarith [sq_nonneg (n : ℝ)]
  rw [ex, ey, F64.add_fin]
  obtain ⟨hx1, hx2⟩ := abs_le.1 hx
  obtain ⟨hy1, hy2⟩ := abs_le.1 hy
  have ux : ulp * c.1 ^ 2 ≤ 1 / 1000000 * (n : ℝ) ^ 2 := mul_le_mul us hc2 (sq_nonneg _) (by norm_num)
  have uy : ulp * d.1 ^ 2 ≤ 1 / 1000000 * (n : ℝ) ^ 2 := mul_le_mul us hd2 (sq_nonneg _) (by norm_num)
  have hxy : x.1 + y.1 ≤ 4 * 2 ^ 106 := by linarith
  obtain ⟨w, ew, hw⟩ := F64.ofReal_err (lim (x.1 + y.1) (by linarith) (hxy.trans (by norm_num)))
  have w0 : 0 ≤ w.1 := by
    rcases F64.ofReal_nonneg_of_nonneg (x := x.1 + y.1) (by linarith) with h | ⟨_, _, h, h'⟩
    · rw [ew] at h; cases h
    · rw [ew] at h; cases h; exact h'
  rw [abs_of_nonneg (by linarith : 0 ≤ x.1 + y.1)] at hw
  rw [ew]
  -- the sum of squares
  have hxR : |x.1 + y.1 - R ^ 2| ≤ ulp * R ^ 2 + 2 * eta := by
    rw [R2, abs_le]; constructor <;> linarith
  have hwR : |w.1 - R ^ 2| ≤ (201 / 100 * ulp) * R ^ 2 + (ulp ^ 2) ^ 2 := by
    have h1 := abs_sub_le w.1 (x.1 + y.1) (R ^ 2)
    have h2 : ulp * (x.1 + y.1) ≤ ulp * (R ^ 2 + ulp * R ^ 2 + 2 * eta) :=
      mul_le_mul_of_nonneg_left (by linarith [(abs_le.1 hxR).2]) u0.le
    have h3 : ulp * ulp * R ^ 2 ≤ ulp * (1 / 1000000) * R ^ 2 :=
      mul_le_mul_of_nonneg_right (mul_le_mul_of_nonneg_left us u0.le) (sq_nonneg _)
    have h4 : ulp * (2 * eta) ≤ 1 / 1000000 * (2 * eta) := mul_le_mul_of_nonneg_right us (by linarith)
    have h5 : 0 ≤ ulp * R ^ 2 := mul_nonneg u0.le (sq_nonneg _)
    linarith
  have hq := sqrt_close R0 (by linarith : 0 ≤ 201 / 100 * ulp) (by linarith) uu0 hwR
  change ∃ z : Dbl, (if w.1 < 0 then F64.nan else F64.ofReal (Real.sqrt w.1)) / _ = F64.fin z ∧ _
  rw [if_neg (not_lt.2 w0)]
  set S := Real.sqrt w.1 with hS
  have S0 : 0 ≤ S := Real.sqrt_nonneg _
  obtain ⟨hq1, hq2⟩ := abs_le.1 hq
  have uR : ulp * R ≤ ulp * (3 / 2 * n) := mul_le_mul_of_nonneg_left Rn u0.le
  have un : ulp * n ≤ 1 / 1000000 * n := mul_le_mul_of_nonneg_right us (by linarith)
  have Sn : S ≤ 8 / 5 * n := by linarith
  obtain ⟨q, eq, hq3⟩ := F64.ofReal_err (lim S S0 (by
    have : (8 / 5 * n : ℝ) ≤ 2 ^ 110 := by linarith [(by norm_num : (8 / 5 * 2 ^ 53 : ℝ) ≤ 2 ^ 110)]
    linarith))
  have q0 : 0 ≤ q.1 := by
    rcases F64.ofReal_nonneg_of_nonneg S0 with h | ⟨_, _, h, h'⟩
    · rw [eq] at h; cases h
    · rw [eq] at h; cases h; exact h'
  rw [abs_of_nonneg S0] at hq3
  obtain ⟨hq4, hq5⟩ := abs_le.1 hq3
  have uS : ulp * S ≤ ulp * (8 / 5 * n) := mul_le_mul_of_nonneg_left Sn u0.le
  have qn : q.1 ≤ 17 / 10 * n := by linarith
  have dn : IsDouble ((n : ℤ) : ℝ) := isDouble_int (by rw [abs_of_nonneg (by positivity)]; exact_mod_cast hn)
  have en : (ofInt (n : ℤ) : F64) = .fin ⟨_, dn⟩ := F64.ofReal_of_isDouble dn
  have n0 : ((n : ℤ) : ℝ) ≠ 0 := by push_cast; linarith
  rw [eq, en, F64.div_fin n0]
  have hdiv0 : 0 ≤ q.1 / ((n : ℤ) : ℝ) := div_nonneg q0 (by push_cast; linarith)
  have hdiv : q.1 / ((n : ℤ) : ℝ) ≤ 17 / 10 := by
    rw [div_le_iff₀ (by push_cast; linarith)]; push_cast; exact qn
  obtain ⟨z, ez, hz⟩ := F64.ofReal_err (lim _ hdiv0 (hdiv.trans (by norm_num)))
  have z0 : 0 ≤ z.1 := by
    rcases F64.ofReal_nonneg_of_nonneg hdiv0 with h | ⟨_, _, h, h'⟩
    · rw [ez] at h; cases h
    · rw [ez] at h; cases h; exact h'
  refine ⟨z, ez, z0, ?_⟩
  rw [abs_of_nonneg hdiv0] at hz
  push_cast at hz hdiv
  have h1 := abs_sub_le z.1 (q.1 / n) (R / n)
  have h2 : |q.1 / n - R / n| ≤ 462 / 100 * ulp := by
    rw [← sub_div, abs_div, abs_of_pos (by linarith : (0 : ℝ) < n), div_le_iff₀ (by linarith)]
    have h3 := abs_sub_le q.1 S R
    have h5 : ulp * 1 ≤ ulp * n := mul_le_mul_of_nonneg_left nR u0.le
    linarith
  have h4 : ulp * (q.1 / n) ≤ ulp * (17 / 10) := mul_le_mul_of_nonneg_left hdiv u0.le
  linarith

/-- **C133.** In double arithmetic the measured coherence of `n` finite phases is within `3/2·ε + (3/4·n + 8)·2^-53` of
the exact length of the mean vector, where `ε` is the error of the library's sine and cosine; the bound holds for every
number of phases below `2^53`. -/
theorem C133_accurate (ε : ℝ) (ds : List Dbl) (hε : ∀ d ∈ ds, TrigWithin ε d) (hn : ds.length < 2 ^ 53) (h0 : ds ≠ []) :
    ∃ z : Dbl, measureCoherence (ds.map F64.fin) = .fin z ∧ 0 ≤ z.1 ∧
      |z.1 - orderParameter (ds.map Subtype.val)| ≤ coherenceError ε ds.length := by
  have hl : ds.length ≠ 0 := fun h => h0 (List.length_eq_zero_iff.1 h)
  obtain ⟨c, d, e, hc, hd, hcE, hdE⟩ := sums_accurate ε ds hε 0 (by omega) ⟨0, isDouble_zero⟩ ⟨0, isDouble_zero⟩ 0 0 0
    (by simp) (by simp) (by simp) (by simp)
  obtain ⟨z, ez, z0, hz⟩ := finish_accurate c d ds.length (Nat.one_le_iff_ne_zero.2 hl) hn (by simpa using hc)
    (by simpa using hd)
  refine ⟨z, ?_, z0, ?_⟩
  · unfold measureCoherence
    rw [List.length_map, if_neg hl]
    dsimp only
    rw [F64.zero_def, e]
    exact ez
  · rw [zero_add] at hcE hdE
    have hLR := length_close hcE hdE
    have hop : orderParameter (ds.map Subtype.val) = Real.sqrt (((ds.map Subtype.val).map Real.cos).sum ^ 2 +
        ((ds.map Subtype.val).map Real.sin).sum ^ 2) / ds.length := by
      rw [← measureCoherence_eq_orderParameter, measureCoherence_eq, List.length_map, if_neg hl]
      simp only [sq]
    rw [hop]
    unfold coherenceError
    change |z.1 - _| ≤ 3 / 2 * ε + (3 / 4 * (ds.length : ℝ) + 8) * ulp
    have nR : (1 : ℝ) ≤ ds.length := by exact_mod_cast Nat.one_le_iff_ne_zero.2 hl
    have h1 := abs_sub_le z.1 (Real.sqrt (c.1 ^ 2 + d.1 ^ 2) / ds.length)
      (Real.sqrt (((ds.map Subtype.val).map Real.cos).sum ^ 2 + ((ds.map Subtype.val).map Real.sin).sum ^ 2) / ds.length)
    rw [← sub_div (Real.sqrt (c.1 ^ 2 + d.1 ^ 2)), abs_div, abs_of_pos (by linarith : (0 : ℝ) < ds.length)] at h1
    have h2 : |Real.sqrt (c.1 ^ 2 + d.1 ^ 2) -
        Real.sqrt (((ds.map Subtype.val).map Real.cos).sum ^ 2 + ((ds.map Subtype.val).map Real.sin).sum ^ 2)| /
          ds.length ≤ 3 / 2 * (ε + eta) + ulp * (3 / 4 * (ds.length + 1)) := by
      rw [div_le_iff₀ (by linarith)]
      refine hLR.trans (le_of_eq ?_)
      push_cast; ring
    have eu := eta_le_ulp
    have u0 := ulp_pos
    linarith

/-- **C133** Consequently the measured coherence is a number between 0 and 1, up to the error. -/
theorem C133_range (ε : ℝ) (ds : List Dbl) (hε : ∀ d ∈ ds, TrigWithin ε d) (hn : ds.length < 2 ^ 53) (h0 : ds ≠ []) :
    ∃ z : Dbl, measureCoherence (ds.map F64.fin) = .fin z ∧ 0 ≤ z.1 ∧ z.1 ≤ 1 + coherenceError ε ds.length := by
  obtain ⟨z, ez, z0, hz⟩ := C133_accurate ε ds hε hn h0
  exact ⟨z, ez, z0, by linarith [(abs_le.1 hz).2, orderParameter_le_one (ds.map Subtype.val)]⟩

/-- **C133** The order in which the agents are visited changes the measured coherence by at most twice the error (the
agents of a swarm are kept in a map, whose order is random). -/
theorem C133_order (ε : ℝ) (ds ds' : List Dbl) (hp : ds.Perm ds') (hε : ∀ d ∈ ds, TrigWithin ε d)
    (hn : ds.length < 2 ^ 53) (h0 : ds ≠ []) :
    ∃ z z' : Dbl, measureCoherence (ds.map F64.fin) = .fin z ∧ measureCoherence (ds'.map F64.fin) = .fin z' ∧
      |z.1 - z'.1| ≤ 2 * coherenceError ε ds.length := by
  obtain ⟨z, ez, _, hz⟩ := C133_accurate ε ds hε hn h0
  obtain ⟨z', ez', _, hz'⟩ := C133_accurate ε ds' (fun d hd => hε d (hp.mem_iff.2 hd)) (hp.length_eq ▸ hn)
    (fun h => h0 (by rw [h] at hp; exact hp.eq_nil))
  refine ⟨z, z', ez, ez', ?_⟩
  have : orderParameter (ds.map Subtype.val) = orderParameter (ds'.map Subtype.val) := by
    unfold orderParameter
    rw [((hp.map Subtype.val).map _).sum_eq, List.length_map, List.length_map, hp.length_eq]
  rw [this] at hz
  rw [← hp.length_eq] at hz'
  have := abs_sub_le z.1 (orderParameter (ds'.map Subtype.val)) z'.1
  rw [abs_sub_comm (orderParameter _) z'.1] at this
  linarith

/-- **C133** A comparison with a threshold `t` comes out as for the exact coherence, unless the exact coherence is
within the error of `t`. -/
theorem C133_decision (ε : ℝ) (ds : List Dbl) (hε : ∀ d ∈ ds, TrigWithin ε d) (hn : ds.length < 2 ^ 53) (h0 : ds ≠ [])
    (t : Dbl) (hfar : coherenceError ε ds.length < |orderParameter (ds.map Subtype.val) - t.1|) :
    (F64.fin t ≤ measureCoherence (ds.map F64.fin) ↔ t.1 ≤ orderParameter (ds.map Subtype.val)) ∧
    (F64.fin t < measureCoherence (ds.map F64.fin) ↔ t.1 < orderParameter (ds.map Subtype.val)) := by
  obtain ⟨z, ez, _, hz⟩ := C133_accurate ε ds hε hn h0
  rw [ez, F64.le_fin, F64.lt_fin]
  obtain ⟨h1, h2⟩ := abs_le.1 hz
  rcases lt_abs.1 hfar with h | h
  · exact ⟨⟨fun _ => by linarith, fun _ => by linarith⟩, ⟨fun _ => by linarith, fun _ => by linarith⟩⟩
  · exact ⟨⟨fun _ => by linarith, fun _ => by linarith⟩, ⟨fun _ => by linarith, fun _ => by linarith⟩⟩

omit [LibM] in
/-- Rounding of the magnitude, keeping the sign. -/
noncomputable def signedRnd (x : ℝ) : ℝ := if 0 ≤ x then rnd x else -rnd (-x)

omit [LibM] in
theorem signedRnd_isDouble (x : ℝ) : IsDouble (signedRnd x) := by
  unfold signedRnd
  split_ifs
  · exact isDouble _
  · exact (isDouble _).neg

omit [LibM] in
theorem signedRnd_err {x : ℝ} (hx : |x| < 2 ^ (1023 : ℤ)) : |signedRnd x - x| ≤ ulp * |x| + eta := by
  unfold signedRnd
  split_ifs
  · exact rnd_err hx
  · have := rnd_err (x := -x) (by rwa [abs_neg])
    rw [abs_neg] at this
    rwa [show -rnd (-x) - x = -(rnd (-x) - -x) by ring, abs_neg]

omit [LibM] in
/-- A library whose sine, cosine and arc tangent are the exact values, rounded. -/
@[instance_reducible] noncomputable def LibM.rounded : LibM where
  __ := LibM.some
  sin x := ⟨rnd (Real.sin x.1), isDouble _⟩
  cos x := ⟨rnd (Real.cos x.1), isDouble _⟩
  sin_le _ := abs_le.2 ⟨le_rnd isDouble_one.neg (Real.neg_one_le_sin _), rnd_le isDouble_one (Real.sin_le_one _)⟩
  cos_le _ := abs_le.2 ⟨le_rnd isDouble_one.neg (Real.neg_one_le_cos _), rnd_le isDouble_one (Real.cos_le_one _)⟩
  atan2 y x := .fin ⟨signedRnd (Complex.arg ⟨x.1, y.1⟩), signedRnd_isDouble _⟩
  atan2_le y x := ⟨_, rfl, by
    have h := abs_le.1 (Complex.abs_arg_le_pi ⟨x.1, y.1⟩)
    have key : ∀ v : ℝ, 0 ≤ v → v ≤ Real.pi → |rnd v| ≤ Real.pi := by
      intro v v0 v1
      rw [abs_of_nonneg (le_rnd isDouble_zero v0)]
      exact (rnd_mono v1).trans (by rw [rnd_pi]; exact piDouble_lt_pi.le)
    unfold signedRnd
    split_ifs with hc
    · exact key _ hc h.2
    · rw [abs_neg]; exact key _ (by linarith) (by linarith)⟩

omit [LibM] in
/-- Such a library is accurate to `2^-52` at every double. -/
theorem trigWithin_rounded (d : Dbl) : @TrigWithin LibM.rounded ((2 : ℝ) ^ (-52 : ℤ)) d := by
  have key : ∀ x : ℝ, |x| ≤ 1 → |rnd x - x| ≤ (2 : ℝ) ^ (-52 : ℤ) := by
    intro x hx
    refine (rnd_err (small_lt_1023 (hx.trans (by norm_num)))).trans ?_
    have h1 : ulp * |x| ≤ ulp * 1 := mul_le_mul_of_nonneg_left hx ulp_pos.le
    have h2 : eta ≤ ulp := by unfold eta ulp; exact zpow_le_zpow_right₀ (by norm_num) (by norm_num)
    have h3 : (2 : ℝ) ^ (-52 : ℤ) = 2 * ulp := by
      unfold ulp; rw [show (-52 : ℤ) = 1 + -53 by norm_num, zpow_add₀ (by norm_num), zpow_one]
    rw [h3]; linarith
  exact ⟨key _ (Real.abs_sin_le_one _), key _ (Real.abs_cos_le_one _)⟩

omit [LibM] in
/-- Three agents at 0, 1 and 2 radians, with an accurate library: the reported coherence is right to fourteen digits. -/
example : letI := LibM.rounded
    ∃ z : Dbl, measureCoherence ([⟨0, isDouble_zero⟩, ⟨1, isDouble_one⟩, ⟨2, isDouble_ofNat 2 (by norm_num)⟩].map F64.fin) =
      .fin z ∧ |z.1 - orderParameter [0, 1, 2]| ≤ 1e-14 := by
  let := LibM.rounded
  obtain ⟨z, ez, _, hz⟩ := C133_accurate ((2 : ℝ) ^ (-52 : ℤ))
    [⟨0, isDouble_zero⟩, ⟨1, isDouble_one⟩, ⟨2, isDouble_ofNat 2 (by norm_num)⟩] (fun d _ => trigWithin_rounded d)
    (by norm_num) (by simp)
  refine ⟨z, ez, hz.trans ?_⟩
  unfold coherenceError
  norm_num

end Verif
