import Verif.Props.Patterns
import Verif.Props.PresetDouble
import Verif.Props.SyncSafe

/-!
# C64 in doubles, and the pattern library
-/

set_option autoImplicit false
set_option linter.unusedSectionVars false

namespace Verif
open GoMath Rounding

section
variable [Rounding] [LibM]

/-! ### The weights -/

/-- A double close to a number of size at least 1/4 is the nearest one. -/
theorem rnd_quarter (x : ℝ) (n : ℤ) (h1 : 0.26 < x) (hn : |n| < 2 ^ 53) (hx : |(n : ℝ) / 2 ^ 54 - x| < 1 / 2 ^ 55) :
    rnd x = n / 2 ^ 54 := by
  have hd : IsDouble ((n : ℝ) / 2 ^ 54) := dyadic n 54 hn (by norm_num)
  have hr := abs_lt.1 ((nearest x _ hd).trans_lt hx)
  have hx' := abs_lt.1 hx
  have hge : (2 : ℝ) ^ (-2 : ℤ) ≤ |rnd x| := by
    rw [abs_of_pos (by norm_num at hr ⊢; linarith [hr.1])]; norm_num at hr ⊢; linarith [hr.1]
  obtain ⟨j, hj⟩ := isDouble_multiple (isDouble x) (-2) hge
  have e : (2 : ℝ) ^ ((-2 : ℤ) - 52) = 1 / 2 ^ 54 := by
    rw [show (-2 : ℤ) - 52 = -54 by norm_num, zpow_neg]; norm_num
  rw [e] at hj
  rw [hj] at hr ⊢
  have a1 : (j : ℝ) < n + 1 := by
    have := hr.2; have := hx'.1
    norm_num at *; linarith
  have a2 : (n : ℝ) < j + 1 := by
    have := hr.1; have := hx'.2
    norm_num at *; linarith
  have b1 : j < n + 1 := by exact_mod_cast a1
  have b2 : n < j + 1 := by exact_mod_cast a2
  obtain rfl : j = n := by omega
  ring

theorem w3_isDouble : IsDouble ((5404319552844595 : ℝ) / 2 ^ 54) := by
  have := dyadic 5404319552844595 54 (by norm_num) (by norm_num); push_cast at this; exact this

theorem w4_isDouble : IsDouble ((7205759403792794 : ℝ) / 2 ^ 54) := by
  have := dyadic 7205759403792794 54 (by norm_num) (by norm_num); push_cast at this; exact this

theorem w6_isDouble : IsDouble ((5404319552844595 : ℝ) / 2 ^ 53) := by
  have := dyadic 5404319552844595 53 (by norm_num) (by norm_num); push_cast at this; exact this

theorem weight3 : (0.3 : F64) = .fin ⟨5404319552844595 / 2 ^ 54, w3_isDouble⟩ := by
  change F64.ofReal (0.3 : ℝ) = _
  obtain ⟨y, hy, e, -, -⟩ := F64.ofReal_between isDouble_zero isDouble_one (by norm_num : (0 : ℝ) ≤ 0.3) (by norm_num)
  have hr := rnd_quarter 0.3 5404319552844595 (by norm_num) (by norm_num) (by norm_num [abs_lt])
  unfold F64.ofReal at e ⊢
  rw [if_pos (by
    by_contra hc
    rw [if_neg hc, if_pos (by norm_num)] at e
    cases e)]
  congr 1
  ext1
  push_cast at hr
  exact hr

theorem weight4 : (0.4 : F64) = .fin ⟨7205759403792794 / 2 ^ 54, w4_isDouble⟩ := by
  change F64.ofReal (0.4 : ℝ) = _
  obtain ⟨y, hy, e, -, -⟩ := F64.ofReal_between isDouble_zero isDouble_one (by norm_num : (0 : ℝ) ≤ 0.4) (by norm_num)
  have hr := rnd_quarter 0.4 7205759403792794 (by norm_num) (by norm_num) (by norm_num [abs_lt])
  unfold F64.ofReal at e ⊢
  rw [if_pos (by
    by_contra hc
    rw [if_neg hc, if_pos (by norm_num)] at e
    cases e)]
  congr 1
  ext1
  push_cast at hr
  exact hr

/-- The weighted sum of three doubles in `[0, 1]` is in `[0, 1]`, whatever the roundings. -/
theorem weighted_in01 {a b c : F64} (ha : F64.In01 a) (hb : F64.In01 b) (hc : F64.In01 c) :
    F64.In01 (a * 0.3 + b * 0.3 + c * 0.4) := by
  obtain ⟨a, da, rfl, a0, a1⟩ := ha
  obtain ⟨b, db, rfl, b0, b1⟩ := hb
  obtain ⟨c, dc, rfl, c0, c1⟩ := hc
  rw [weight3, weight4, F64.mul_fin, F64.mul_fin, F64.mul_fin]
  obtain ⟨x, dx, ex, x0, x1⟩ := F64.ofReal_between isDouble_zero w3_isDouble (x := a * (5404319552844595 / 2 ^ 54)) (by positivity)
    (mul_le_of_le_one_left (by positivity) a1)
  obtain ⟨y, dy, ey, y0, y1⟩ := F64.ofReal_between isDouble_zero w3_isDouble (x := b * (5404319552844595 / 2 ^ 54)) (by positivity)
    (mul_le_of_le_one_left (by positivity) b1)
  obtain ⟨z, dz, ez, z0, z1⟩ := F64.ofReal_between isDouble_zero w4_isDouble (x := c * (7205759403792794 / 2 ^ 54)) (by positivity)
    (mul_le_of_le_one_left (by positivity) c1)
  rw [ex, ey, ez, F64.add_fin]
  obtain ⟨w, dw, ew, w0, w1⟩ := F64.ofReal_between isDouble_zero w6_isDouble (x := x + y) (by linarith)
    (by norm_num at x1 y1 ⊢; linarith)
  rw [ew, F64.add_fin]
  exact F64.in01_ofReal (by linarith) (by norm_num at w1 z1 ⊢; linarith)

theorem weighted_one : (1 : F64) * 0.3 + 1 * 0.3 + 1 * 0.4 = 1 := by
  rw [weight3, weight4, F64.one_def, F64.mul_fin, F64.mul_fin]
  simp only [one_mul]
  rw [F64.ofReal_of_isDouble w3_isDouble, F64.ofReal_of_isDouble w4_isDouble, F64.add_fin]
  have e : (5404319552844595 / 2 ^ 54 + 5404319552844595 / 2 ^ 54 : ℝ) = 5404319552844595 / 2 ^ 53 := by norm_num
  dsimp only
  rw [e, F64.ofReal_of_isDouble w6_isDouble, F64.add_fin]
  have e : (5404319552844595 / 2 ^ 53 + 7205759403792794 / 2 ^ 54 : ℝ) = 1 := by norm_num
  dsimp only
  rw [e, F64.ofReal_of_isDouble isDouble_one]

/-! ### Range -/

/-- A number that is not negative, possibly infinite. -/
def F64.NN (x : F64) : Prop := x = .pinf ∨ ∃ d : Dbl, x = .fin d ∧ 0 ≤ d.1

theorem F64.nn_ofReal {x : ℝ} (h : 0 ≤ x) : F64.NN (F64.ofReal x) := by
  unfold F64.ofReal
  split_ifs with h1 h2
  · exact .inr ⟨_, rfl, le_rnd isDouble_zero h⟩
  · exact .inl rfl
  · have hx : x = 0 := le_antisymm (not_lt.1 h2) h
    subst hx
    exact absurd isDouble_zero.abs_lt_overflow h1

theorem F64.nn_abs_ofReal (x : ℝ) : F64.NN (GoMath.abs (F64.ofReal x)) := by
  unfold F64.ofReal
  split_ifs
  · obtain ⟨v, e, hv⟩ := F64.abs_fin ⟨rnd x, isDouble x⟩
    rw [e]
    exact .inr ⟨v, rfl, by rw [hv]; exact abs_nonneg _⟩
  · exact .inl rfl
  · exact .inl rfl

theorem F64.NN.div {x : F64} (h : F64.NN x) (m : Dbl) (hm : 0 < m.1) : F64.NN (x / .fin m) := by
  rcases h with rfl | ⟨d, rfl, h0⟩
  · refine .inl ?_
    change (if m.1 < 0 then F64.ninf else F64.pinf) = _
    rw [if_neg (not_lt.2 hm.le)]
  · rw [F64.div_fin hm.ne']
    exact F64.nn_ofReal (div_nonneg h0 hm.le)

theorem one_sub_in01 {x : F64} (h : F64.In01 x) : F64.In01 (1 - x) := by
  obtain ⟨y, dy, rfl, h0, h1⟩ := h
  rw [F64.one_def, F64.sub_fin]
  exact F64.in01_ofReal (by dsimp only; linarith) (by dsimp only; linarith)

theorem F64.NN.sim {x : F64} (h : F64.NN x) : F64.In01 (1 - fmin x 1) := by
  apply one_sub_in01
  rcases h with rfl | ⟨d, rfl, h0⟩
  · exact ⟨1, isDouble_one, rfl, zero_le_one, le_rfl⟩
  · change F64.In01 (if d.1 < 1 then F64.fin d else F64.fin ⟨1, isDouble_one⟩)
    split_ifs with h
    · exact ⟨d.1, d.2, rfl, h0, h.le⟩
    · exact ⟨1, isDouble_one, rfl, zero_le_one, le_rfl⟩

theorem fmax_fin (a b : Dbl) : ∃ m : Dbl, (fmax (F64.fin a) (F64.fin b) : F64) = .fin m ∧ m.1 = max a.1 b.1 := by
  change ∃ m : Dbl, (if b.1 < a.1 then F64.fin a else F64.fin b) = .fin m ∧ _
  split_ifs with h
  · exact ⟨a, rfl, (max_eq_left h.le).symm⟩
  · exact ⟨b, rfl, (max_eq_right (not_lt.1 h)).symm⟩

/-- The difference of two phases in doubles is at most the double nearest to π. -/
theorem F64.phaseDifference_pi (a b : Dbl) (h : ∃ d, F64.fin a - F64.fin b = .fin d) :
    ∃ d : Dbl, phaseDifference (F64.fin a) (F64.fin b) = .fin d ∧ |d.1| ≤ piDouble := by
  have hp := Real.pi_lt_d2
  have hp3 := Real.pi_gt_three
  have hpd := piDouble_bounds
  obtain ⟨x, hx⟩ := h
  unfold phaseDifference
  simp only [hx]
  have hdn : IsDouble (-piDouble) := piDouble_isDouble.neg
  split_ifs
  · obtain ⟨y, hy, e, h1, h2⟩ := F64.ofReal_between hdn piDouble_isDouble (x := ((-1 / 2 : ℚ) : ℝ) * Real.pi)
      (by push_cast; linarith) (by push_cast; linarith)
    exact ⟨⟨y, hy⟩, e, abs_le.2 ⟨h1, h2⟩⟩
  · obtain ⟨y, hy, e, h1, h2⟩ := F64.ofReal_between hdn piDouble_isDouble (x := ((1 / 2 : ℚ) : ℝ) * Real.pi)
      (by push_cast; linarith) (by push_cast; linarith)
    exact ⟨⟨y, hy⟩, e, abs_le.2 ⟨h1, h2⟩⟩
  · obtain ⟨d, hd, hle⟩ := LibM.atan2_le (LibM.sin x) (LibM.cos x)
    refine ⟨d, hd, ?_⟩
    rw [← rnd_pi]
    obtain ⟨h1, h2⟩ := abs_le.1 hle
    refine abs_le.2 ⟨?_, le_rnd d.2 h2⟩
    have := le_rnd (x := Real.pi) d.2.neg (by linarith)
    linarith

theorem corr_term_double (a b : Dbl) (h : ∃ d, F64.fin a - F64.fin b = .fin d) :
    F64.In01 (1 - GoMath.abs (phaseDifference (F64.fin a) (F64.fin b)) / piMul 1) := by
  obtain ⟨d, e, hd⟩ := F64.phaseDifference_pi a b h
  obtain ⟨v, ev, hv⟩ := F64.abs_fin d
  have hp := piDouble_bounds
  rw [e, ev, F64.piMul_one, F64.div_fin (by dsimp only; linarith)]
  apply one_sub_in01
  refine F64.in01_ofReal ?_ ?_
  · rw [hv]; exact div_nonneg (abs_nonneg _) (by dsimp only; linarith)
  · rw [hv]; exact (div_le_one (by dsimp only; linarith)).2 hd

/-- Finite phases with finite differences. -/
def Spec.FinitePhases (l k : List F64) : Prop :=
  ∀ a ∈ l, ∀ b ∈ k, F64.IsFinite a ∧ F64.IsFinite b ∧ F64.IsFinite (a - b)

theorem isFinite_iff (x : F64) : F64.IsFinite x ↔ ∃ d, x = .fin d := by
  cases x <;> simp [F64.IsFinite]

theorem correlation_double (l k : List F64) (h : Spec.FinitePhases l k) (hn : l.length < 2 ^ 53) : F64.In01 (phaseCorrelation l k) := by
  unfold phaseCorrelation
  split_ifs with h1 h2
  · exact ⟨0, isDouble_zero, rfl, le_rfl, zero_le_one⟩
  · exact ⟨0, isDouble_zero, rfl, le_rfl, zero_le_one⟩
  · have hz : ((l.zip k).map fun x : F64 × F64 => 1 - GoMath.abs (phaseDifference x.1 x.2) / piMul 1).length = l.length := by
      rw [List.length_map, List.length_zip, ← not_not.1 h1, min_self]
    have := mean01_double ((l.zip k).map fun x : F64 × F64 => 1 - GoMath.abs (phaseDifference x.1 x.2) / piMul 1) ?_
      (by rw [hz]; exact hn) (by rw [hz]; exact h2)
    · rw [hz, List.foldl_map] at this
      exact this
    · intro x hx
      obtain ⟨⟨a, b⟩, hab, rfl⟩ := List.mem_map.1 hx
      obtain ⟨h3, h4, h5⟩ := h a (List.of_mem_zip hab).1 b (List.of_mem_zip hab).2
      obtain ⟨a, rfl⟩ := (isFinite_iff _).1 h3
      obtain ⟨b, rfl⟩ := (isFinite_iff _).1 h4
      exact corr_term_double a b ((isFinite_iff _).1 h5)

theorem foldl_fmax_double (l : List F64) (h : ∀ x ∈ l, F64.IsFinite x) :
    ∃ m : Dbl, l.foldl (fun m x => fmax m (GoMath.abs x)) (0 : F64) = .fin m ∧ 0 ≤ m.1 := by
  have key : ∀ (l : List F64) (s : Dbl), (∀ x ∈ l, F64.IsFinite x) → 0 ≤ s.1 →
      ∃ m : Dbl, l.foldl (fun m x => fmax m (GoMath.abs x)) (F64.fin s) = .fin m ∧ 0 ≤ m.1 := by
    intro l
    induction l with
    | nil => intro s _ h; exact ⟨s, rfl, h⟩
    | cons x xs ih =>
      intro s h hs
      obtain ⟨x, rfl⟩ := (isFinite_iff _).1 (h x (by simp))
      rw [List.foldl_cons]
      obtain ⟨v, ev, -⟩ := F64.abs_fin x
      obtain ⟨m, em, hm⟩ := fmax_fin s v
      rw [ev, em]
      exact ih m (fun y hy => h y (by simp [hy])) (by rw [hm]; exact hs.trans (le_max_left _ _))
  exact key l ⟨0, isDouble_zero⟩ h le_rfl

theorem F64.NN.fmax {x y : F64} (h : F64.NN x) (k : F64.NN y) : F64.NN (GoMath.fmax x y) := by
  rcases h with rfl | ⟨a, rfl, ha⟩
  · exact .inl (by cases y <;> rfl)
  · rcases k with rfl | ⟨b, rfl, hb⟩
    · exact .inl rfl
    · obtain ⟨m, e, hm⟩ := fmax_fin a b
      exact .inr ⟨m, e, by rw [hm]; exact ha.trans (le_max_left _ _)⟩

theorem scaleFactor_double (l k : List F64) (hl : ∀ x ∈ l, F64.IsFinite x) (hk : ∀ x ∈ k, F64.IsFinite x) :
    F64.In01 (scaleFactor l k) := by
  have h1 : F64.In01 1 := ⟨1, isDouble_one, rfl, zero_le_one, le_rfl⟩
  unfold scaleFactor
  by_cases h0 : l.length = k.length ∧ l.length > 0
  · rw [if_pos h0]
    obtain ⟨m, em, m0⟩ := foldl_fmax_double l hl
    obtain ⟨n, en, n0⟩ := foldl_fmax_double k hk
    dsimp only
    rw [em, en]
    by_cases h2 : (F64.fin m) > 0 ∧ (F64.fin n) > 0
    · rw [if_pos h2]
      have p : (0 : ℝ) < m.1 := (F64.lt_fin _ _).1 h2.1
      have q : (0 : ℝ) < n.1 := (F64.lt_fin _ _).1 h2.2
      have hr : F64.NN (fmax (F64.fin m / F64.fin n) (F64.fin n / F64.fin m)) :=
        (F64.NN.div (.inr ⟨m, rfl, m0⟩) n q).fmax (F64.NN.div (.inr ⟨n, rfl, n0⟩) m p)
      generalize fmax (F64.fin m / F64.fin n) (F64.fin n / F64.fin m) = r at hr
      by_cases h3 : r > (100.0 : F64)
      · rw [if_pos h3]
        have d100 : IsDouble ((100 : ℤ) : ℝ) := isDouble_int (by norm_num)
        have d10 : IsDouble ((10 : ℤ) : ℝ) := isDouble_int (by norm_num)
        have e100 : (100.0 : F64) = .fin ⟨((100 : ℤ) : ℝ), d100⟩ := by
          change F64.ofReal (100.0 : ℝ) = _
          rw [← F64.ofReal_of_isDouble d100]; norm_num
        have e10 : (10.0 : F64) = .fin ⟨((10 : ℤ) : ℝ), d10⟩ := by
          change F64.ofReal (10.0 : ℝ) = _
          rw [← F64.ofReal_of_isDouble d10]; norm_num
        have hmin : ∃ v : Dbl, fmin (r / 100.0) (10.0 : F64) = .fin v ∧ 1 ≤ v.1 := by
          rw [e100, e10]
          rcases hr with rfl | ⟨d, rfl, d0⟩
          · refine ⟨⟨((10 : ℤ) : ℝ), d10⟩, ?_, by norm_num⟩
            change F64.min (if ((100 : ℤ) : ℝ) < 0 then F64.ninf else F64.pinf) _ = _
            rw [if_neg (by norm_num)]
            rfl
          · rw [e100] at h3
            have h3' : ((100 : ℤ) : ℝ) < d.1 := (F64.lt_fin _ _).1 h3
            push_cast at h3'
            rw [F64.div_fin (by norm_num)]
            obtain ⟨y, hy, ey, y0, -⟩ := F64.ofReal_between isDouble_one d.2 (x := d.1 / ((100 : ℤ) : ℝ))
              (by rw [le_div_iff₀ (by norm_num)]; push_cast; linarith) (by rw [div_le_iff₀ (by norm_num)]; push_cast; linarith)
            dsimp only
            rw [ey]
            change ∃ v : Dbl, (if y < ((10 : ℤ) : ℝ) then F64.fin ⟨y, hy⟩ else F64.fin ⟨_, d10⟩) = .fin v ∧ _
            split_ifs
            · exact ⟨_, rfl, y0⟩
            · exact ⟨_, rfl, by norm_num⟩
        obtain ⟨v, ev, hv⟩ := hmin
        rw [ev, F64.one_def, F64.div_fin (by linarith)]
        exact F64.in01_ofReal (div_nonneg zero_le_one (by linarith)) ((div_le_one (by linarith)).2 hv)
      · rw [if_neg h3]; exact h1
    · rw [if_neg h2]; exact h1
  · rw [if_neg h0]; exact h1

theorem mul_in01 {x y : F64} (h : F64.In01 x) (k : F64.In01 y) : F64.In01 (x * y) := by
  obtain ⟨a, da, rfl, a0, a1⟩ := h
  obtain ⟨b, db, rfl, b0, b1⟩ := k
  rw [F64.mul_fin]
  exact F64.in01_ofReal (mul_nonneg a0 b0) (mul_le_one₀ a1 b0 b1)

/-- **C64 in doubles.** For finite amplitudes, of which one is positive, periods of which one is positive, and finite phases, the
similarity is a number in `[0, 1]`, whatever the roundings. -/
theorem C64_range_double (p o : Temporal F64) (a b : Dbl) (ha : p.amplitude = .fin a) (hb : o.amplitude = .fin b)
    (hab : 0 < max a.1 b.1) (hd : 0 < max p.period o.period) (hd' : max p.period o.period < 2 ^ 63)
    (hp : p.phases ≠ []) (ho : o.phases ≠ []) (hf : Spec.FinitePhases p.phases o.phases) (hn : p.phases.length < 2 ^ 53) :
    F64.In01 (p.similarity (some o)) := by
  have n1 : p.phases.length ≠ 0 := fun h => hp (List.length_eq_zero_iff.1 h)
  have n2 : o.phases.length ≠ 0 := fun h => ho (List.length_eq_zero_iff.1 h)
  obtain ⟨x0, hx0⟩ := List.exists_mem_of_ne_nil _ hp
  obtain ⟨y0, hy0⟩ := List.exists_mem_of_ne_nil _ ho
  unfold Temporal.similarity
  dsimp only
  rw [if_neg (not_or.2 ⟨n1, n2⟩)]
  refine weighted_in01 ?_ ?_ (mul_in01 (correlation_double _ _ hf hn)
    (scaleFactor_double _ _ (fun x hx => (hf x hx y0 hy0).1) (fun y hy => (hf x0 hx0 y hy).2.1)))
  · rw [ha, hb]
    obtain ⟨m, em, hm⟩ := fmax_fin a b
    rw [em, F64.sub_fin]
    exact (F64.NN.div (F64.nn_abs_ofReal _) m (by rw [hm]; exact hab)).sim
  · have d63 : IsDouble (2 ^ 63) := ⟨1, 63, by norm_num, by norm_num, by norm_num, by norm_num⟩
    obtain ⟨d, hd, ed, h1, -⟩ := F64.ofReal_between isDouble_one d63 (x := ((max p.period o.period : ℤ) : ℝ))
      (by exact_mod_cast hd) (by exact_mod_cast hd'.le)
    change F64.In01 (1 - fmin (GoMath.abs (F64.ofReal ((p.period - o.period : ℤ) : ℝ)) / F64.ofReal ((max p.period o.period : ℤ) : ℝ)) 1)
    rw [ed]
    exact (F64.NN.div (F64.nn_abs_ofReal _) ⟨d, hd⟩ (by dsimp only; linarith)).sim

/-! ### Identical patterns -/

/-- Three exact values of Go's `math` package: `Sin(0) = 0`, `Cos(0) = 1` and `Atan2(0, 1) = 0`. -/
structure LibM.Exact : Prop where
  sin_zero : LibM.sin ⟨0, isDouble_zero⟩ = ⟨0, isDouble_zero⟩
  cos_zero : LibM.cos ⟨0, isDouble_zero⟩ = ⟨1, isDouble_one⟩
  atan2_zero : LibM.atan2 ⟨0, isDouble_zero⟩ ⟨1, isDouble_one⟩ = .fin ⟨0, isDouble_zero⟩

theorem sub_self_double (a : Dbl) : F64.fin a - F64.fin a = .fin ⟨0, isDouble_zero⟩ := by
  rw [F64.sub_fin, sub_self, F64.ofReal_of_isDouble isDouble_zero]

theorem phaseDifference_self (hm : LibM.Exact) (a : Dbl) : phaseDifference (F64.fin a) (F64.fin a) = 0 := by
  have hp := Real.pi_gt_three
  have hp' := Real.pi_lt_d2
  have key : ¬ (GoMath.abs (F64.fin a) < (1e-10 : F64) ∧ GoMath.abs (F64.fin a - piMul (3 / 2)) < (1e-10 : F64)) := by
    rintro ⟨h1, h2⟩
    obtain ⟨e, de, ee, -, e1⟩ := F64.ofReal_between isDouble_zero isDouble_one (x := (1e-10 : ℝ)) (by norm_num) (by norm_num)
    obtain ⟨v, ev, hv⟩ := F64.abs_fin a
    obtain ⟨q, eq, q4, q5⟩ := F64.ofReal_int_between 4 5 (by norm_num) (by norm_num) (x := ((3 / 2 : ℚ) : ℝ) * Real.pi)
      (by push_cast; linarith) (by push_cast; linarith)
    have l1 : v.1 < 1 := by
      rw [ev, show (1e-10 : F64) = F64.ofReal (1e-10 : ℝ) from rfl, ee, F64.lt_fin] at h1
      linarith
    rw [hv] at l1
    obtain ⟨g1, g2⟩ := abs_lt.1 l1
    obtain ⟨w, ew, w1, w2⟩ := F64.ofReal_int_between (-6) (-3) (by norm_num) (by norm_num) (x := a.1 - q.1)
      (by push_cast at q4 q5 ⊢; linarith) (by push_cast at q4 q5 ⊢; linarith)
    obtain ⟨u, eu, hu⟩ := F64.abs_fin w
    rw [show (piMul (3 / 2) : F64) = F64.ofReal (((3 / 2 : ℚ) : ℝ) * Real.pi) from rfl, eq, F64.sub_fin, ew, eu,
      show (1e-10 : F64) = F64.ofReal (1e-10 : ℝ) from rfl, ee, F64.lt_fin, hu] at h2
    push_cast at w2
    rw [abs_of_neg (by linarith)] at h2
    linarith
  unfold phaseDifference
  dsimp only
  rw [if_neg key, if_neg (fun h => key ⟨h.2, h.1⟩), sub_self_double]
  change LibM.atan2 (LibM.sin _) (LibM.cos _) = _
  rw [hm.sin_zero, hm.cos_zero, hm.atan2_zero]
  rfl

theorem sim_one_double : (1 : F64) - fmin 0 1 = 1 := by
  have : (fmin 0 1 : F64) = 0 := by
    change (if (0 : ℝ) < 1 then F64.fin ⟨0, isDouble_zero⟩ else _) = _
    rw [if_pos one_pos]; rfl
  rw [this, F64.one_def, F64.zero_def, F64.sub_fin]
  dsimp only
  rw [sub_zero, F64.ofReal_of_isDouble isDouble_one]

theorem zero_div_double (m : Dbl) (hm : m.1 ≠ 0) : (0 : F64) / .fin m = 0 := by
  rw [F64.zero_def, F64.div_fin hm]
  dsimp only
  rw [zero_div, F64.ofReal_of_isDouble isDouble_zero]

theorem abs_zero_double : GoMath.abs (0 : F64) = 0 := by
  change (if (0 : ℝ) < 0 then _ else F64.fin ⟨0, isDouble_zero⟩) = _
  rw [if_neg (lt_irrefl _)]; rfl

theorem correlation_self (hm : LibM.Exact) (l : List F64) (hf : ∀ x ∈ l, F64.IsFinite x) (h0 : l ≠ []) (hn : l.length < 2 ^ 53) :
    phaseCorrelation l l = 1 := by
  have hlen : l.length ≠ 0 := fun h => h0 (List.length_eq_zero_iff.1 h)
  unfold phaseCorrelation
  rw [if_neg (by simp), if_neg hlen]
  have key : ∀ (l : List F64) (k : ℕ) (dk : IsDouble (k : ℝ)), (∀ x ∈ l, F64.IsFinite x) → k + l.length < 2 ^ 53 →
      ∃ d : Dbl, (l.zip l).foldl (fun s (x : F64 × F64) => s + (1 - GoMath.abs (phaseDifference x.1 x.2) / piMul 1)) (F64.fin ⟨k, dk⟩) =
        .fin d ∧ d.1 = k + l.length := by
    intro l
    induction l with
    | nil => intro k dk _ _; exact ⟨⟨k, dk⟩, rfl, by simp⟩
    | cons x xs ih =>
      intro k dk hf hk
      obtain ⟨x, rfl⟩ := (isFinite_iff _).1 (hf x (by simp))
      rw [List.length_cons] at hk
      have dk' : IsDouble ((k + 1 : ℕ) : ℝ) := by
        have := isDouble_int (n := ((k + 1 : ℕ) : ℤ)) (by rw [abs_of_nonneg (by positivity)]; omega)
        exact_mod_cast this
      obtain ⟨d, e, hd⟩ := ih (k + 1) dk' (fun y hy => hf y (by simp [hy])) (by omega)
      refine ⟨d, ?_, by rw [hd, List.length_cons]; push_cast; ring⟩
      rw [List.zip_cons_cons, List.foldl_cons]
      dsimp only
      have hp := piDouble_bounds
      rw [phaseDifference_self hm, abs_zero_double, F64.piMul_one, zero_div_double _ (by dsimp only; linarith)]
      rw [show (1 : F64) - 0 = 1 by
        rw [F64.one_def, F64.zero_def, F64.sub_fin]; dsimp only; rw [sub_zero, F64.ofReal_of_isDouble isDouble_one]]
      rw [F64.one_def, F64.add_fin]
      dsimp only
      rw [show ((k : ℝ) + 1) = ((k + 1 : ℕ) : ℝ) by push_cast; ring, F64.ofReal_of_isDouble dk', ← F64.piMul_one]
      exact e
  obtain ⟨d, e, hd⟩ := key l 0 (by simpa using isDouble_zero) hf (by omega)
  rw [show (0 : F64) = .fin ⟨((0 : ℕ) : ℝ), by simpa using isDouble_zero⟩ by
    rw [F64.zero_def]; congr 1; ext1; simp, e]
  have dn : IsDouble ((l.length : ℤ) : ℝ) := isDouble_int (by rw [abs_of_nonneg (by positivity)]; omega)
  have hp : ((l.length : ℤ) : ℝ) ≠ 0 := by push_cast; exact_mod_cast hlen
  rw [show (ofInt (l.length : ℤ) : F64) = .fin ⟨_, dn⟩ from F64.ofReal_of_isDouble dn, F64.div_fin hp]
  dsimp only
  rw [hd]
  push_cast at hp ⊢
  rw [zero_add, div_self hp, F64.ofReal_of_isDouble isDouble_one]
  rfl

theorem scaleFactor_self (l : List F64) (hf : ∀ x ∈ l, F64.IsFinite x) : scaleFactor l l = 1 := by
  unfold scaleFactor
  obtain ⟨m, em, m0⟩ := foldl_fmax_double l hf
  split_ifs with h0
  · dsimp only
    rw [em]
    split_ifs with h1 h2
    · exfalso
      have p : (0 : ℝ) < m.1 := (F64.lt_fin _ _).1 h1.1
      rw [F64.div_fin p.ne', div_self p.ne', F64.ofReal_of_isDouble isDouble_one] at h2
      obtain ⟨v, ev, hv⟩ := fmax_fin ⟨1, isDouble_one⟩ ⟨1, isDouble_one⟩
      obtain ⟨w, ew, w1, -⟩ := F64.ofReal_int_between 100 100 (by norm_num) (by norm_num) (x := (100.0 : ℝ)) (by norm_num) (by norm_num)
      rw [ev, show (100.0 : F64) = F64.ofReal (100.0 : ℝ) from rfl, ew] at h2
      have h3 := (F64.lt_fin _ _).1 h2
      rw [hv, max_self] at h3
      push_cast at w1
      linarith
    · rfl
    · rfl
  · rfl

/-- **C64 in doubles, identical patterns.** A pattern with a positive amplitude, a positive period and finite phases is exactly 1 similar
to itself: all roundings cancel. -/
theorem C64_self_double (hm : LibM.Exact) (p : Temporal F64) (a : Dbl) (ha : p.amplitude = .fin a) (h0 : 0 < a.1) (hd : 0 < p.period)
    (hd' : p.period < 2 ^ 63) (hp : p.phases ≠ []) (hf : ∀ x ∈ p.phases, F64.IsFinite x) (hn : p.phases.length < 2 ^ 53) :
    p.similarity (some p) = 1 := by
  have n1 : p.phases.length ≠ 0 := fun h => hp (List.length_eq_zero_iff.1 h)
  have d63 : IsDouble (2 ^ 63) := ⟨1, 63, by norm_num, by norm_num, by norm_num, by norm_num⟩
  obtain ⟨d, hdd, ed, h1, -⟩ := F64.ofReal_between isDouble_one d63 (x := (p.period : ℝ)) (by exact_mod_cast hd) (by exact_mod_cast hd'.le)
  unfold Temporal.similarity
  dsimp only
  rw [if_neg (not_or.2 ⟨n1, n1⟩), correlation_self hm _ hf hp hn, scaleFactor_self _ hf, ha, sub_self_double, sub_self, max_self]
  obtain ⟨v, ev, hv⟩ := fmax_fin a a
  rw [max_self] at hv
  rw [show (ofInt (0 : ℤ) : F64) = 0 by
    change F64.ofReal ((0 : ℤ) : ℝ) = _; rw [Int.cast_zero, F64.ofReal_of_isDouble isDouble_zero]; rfl,
    show (ofInt p.period : F64) = .fin ⟨d, hdd⟩ from ed, ← F64.zero_def, abs_zero_double, ev,
    zero_div_double v (by rw [hv]; exact h0.ne'), zero_div_double ⟨d, hdd⟩ (by dsimp only; linarith), sim_one_double]
  rw [show (1 : F64) * 1 = 1 by rw [F64.one_def, F64.mul_fin]; dsimp only; rw [mul_one, F64.ofReal_of_isDouble isDouble_one]]
  exact weighted_one

/-! ### Degenerate patterns -/

theorem zero_div_zero : (0 : F64) / 0 = .nan := by
  change (if (0 : ℝ) = 0 then F64.infSign 0 else _) = _
  rw [if_pos rfl]
  unfold F64.infSign
  rw [if_neg (lt_irrefl _), if_neg (lt_irrefl _)]

theorem sim_nan : (1 : F64) - fmin (.nan) 1 = .nan := rfl

theorem nan_add (x : F64) : F64.nan + x = .nan := by cases x <;> rfl
theorem add_nan (x : F64) : x + F64.nan = .nan := by cases x <;> rfl
theorem nan_mul (x : F64) : F64.nan * x = .nan := by cases x <;> rfl

theorem abs_sub_zero : GoMath.abs ((0 : F64) - 0) = 0 := by
  rw [F64.zero_def, sub_self_double, ← F64.zero_def, abs_zero_double]

theorem fmax_zero : (fmax 0 0 : F64) = 0 := by
  change (if (0 : ℝ) < 0 then _ else F64.fin ⟨0, isDouble_zero⟩) = _
  rw [if_neg (lt_irrefl _)]; rfl

/-- **C64, no amplitude or no period.** Two patterns with phases that both have amplitude 0, or both have period 0, have similarity NaN,
also when they are identical. -/
theorem C64_nan (p o : Temporal F64) (hp : p.phases ≠ []) (ho : o.phases ≠ [])
    (h : (p.amplitude = 0 ∧ o.amplitude = 0) ∨ (p.period = 0 ∧ o.period = 0)) : p.similarity (some o) = .nan := by
  have n1 : p.phases.length ≠ 0 := fun h => hp (List.length_eq_zero_iff.1 h)
  have n2 : o.phases.length ≠ 0 := fun h => ho (List.length_eq_zero_iff.1 h)
  unfold Temporal.similarity
  dsimp only
  rw [if_neg (not_or.2 ⟨n1, n2⟩)]
  rcases h with ⟨h1, h2⟩ | ⟨h1, h2⟩
  · rw [h1, h2, abs_sub_zero, fmax_zero, zero_div_zero, sim_nan, nan_mul, nan_add, nan_add]
  · have e : (ofInt (0 : ℤ) : F64) = 0 := by
      change F64.ofReal ((0 : ℤ) : ℝ) = _; rw [Int.cast_zero, F64.ofReal_of_isDouble isDouble_zero]; rfl
    rw [h1, h2, sub_self, max_self, e, abs_zero_double, zero_div_zero, sim_nan, nan_mul, add_nan, nan_add]

/-- **C64.** Patterns made from finite phases and positive frequencies have a similarity in `[0, 1]`, and 1 with themselves. -/
def C64_claim : Prop :=
  ∀ (l k : List F64) (f g : List ℤ), l ≠ [] → k ≠ [] → f ≠ [] → g ≠ [] → (∀ x ∈ l, F64.IsFinite x) → (∀ x ∈ k, F64.IsFinite x) →
    (∀ x ∈ f, 0 < x) → (∀ x ∈ g, 0 < x) →
    F64.In01 ((Temporal.new l f).similarity (some (Temporal.new k g))) ∧ (Temporal.new l f).similarity (some (Temporal.new l f)) = 1

/-- Any pattern with one phase has amplitude 0, and so has similarity NaN with itself. -/
theorem C64_refuted : ¬ C64_claim := by
  intro h
  have h1 := (h [0] [0] [1] [1] (by simp) (by simp) (by simp) (by simp) (by simp [isFinite_iff, F64.zero_def, isDouble_zero])
    (by simp [isFinite_iff, F64.zero_def, isDouble_zero])
    (by simp) (by simp)).2
  rw [C64_nan _ _ (by simp [Temporal.new]) (by simp [Temporal.new]) (.inl ⟨rfl, rfl⟩)] at h1
  cases h1

/-- A template made of one phase does not match its own pattern, however large the tolerance, and a library holding only such templates
does not identify it. -/
theorem C64_library_blind (p : Temporal F64) (hp : p.phases ≠ []) (h : p.amplitude = 0 ∨ p.period = 0) (tol : F64) (name : String) :
    (Template.mk p [p] tol).isMatch (some p) = false ∧ identify [(name, Template.mk p [p] tol)] (some p) = ("", 0) := by
  have e : p.similarity (some p) = .nan := C64_nan p p hp hp (h.imp (fun h => ⟨h, h⟩) fun h => ⟨h, h⟩)
  have hle : ¬ (F64.nan ≥ 1 - tol) := by
    intro h
    have h : (1 - tol : F64) ≤ F64.nan := h
    revert h
    cases (1 - tol : F64) <;> exact id
  have hlt : ¬ (F64.nan > 0) := id
  constructor
  · unfold Template.isMatch
    dsimp only
    rw [e, if_neg hle]
    simp [e]
  · unfold identify identifyStep
    dsimp only [List.foldl]
    rw [e, if_neg hlt]

example : ∃ p : Temporal F64, p.phases ≠ [] ∧ p.amplitude = 0 ∧ 0 < p.period :=
  ⟨Temporal.new [1] [1000], by simp [Temporal.new], rfl, by norm_num [Temporal.new, calculatePeriod]⟩

end

example : let _ : Rounding := Rounding.some; let _ : LibM := LibM.some
    LibM.Exact ∧ ∃ p : Temporal F64, (∃ a : Dbl, p.amplitude = .fin a ∧ 0 < a.1) ∧ 0 < p.period ∧ p.period < 2 ^ 63 ∧
      p.phases ≠ [] ∧ (∀ x ∈ p.phases, F64.IsFinite x) ∧ p.phases.length < 2 ^ 53 ∧ Spec.FinitePhases p.phases p.phases := by
  intro _ _
  refine ⟨⟨rfl, rfl, rfl⟩, ⟨[0, 1], [5, 6], 1, 5, 1⟩, ⟨_, rfl, one_pos⟩, by norm_num, by norm_num, by simp, ?_, by norm_num, ?_⟩
  · intro x hx
    rcases List.mem_cons.1 hx with rfl | hx
    · exact (isFinite_iff _).2 ⟨_, rfl⟩
    · rw [List.mem_singleton.1 hx]; exact (isFinite_iff _).2 ⟨_, rfl⟩
  · have key : ∀ x ∈ ([0, 1] : List F64), ∃ d : Dbl, x = .fin d ∧ 0 ≤ d.1 ∧ d.1 ≤ 1 := by
      intro x hx
      rcases List.mem_cons.1 hx with rfl | hx
      · exact ⟨_, rfl, le_rfl, zero_le_one⟩
      · rw [List.mem_singleton.1 hx]; exact ⟨_, rfl, zero_le_one, le_rfl⟩
    intro x hx y hy
    obtain ⟨a, rfl, a0, a1⟩ := key x hx
    obtain ⟨b, rfl, b0, b1⟩ := key y hy
    refine ⟨(isFinite_iff _).2 ⟨_, rfl⟩, (isFinite_iff _).2 ⟨_, rfl⟩, (isFinite_iff _).2 ?_⟩
    rw [F64.sub_fin]
    obtain ⟨d, e, -⟩ := F64.ofReal_int_between (-1) 1 (by norm_num) (by norm_num) (x := a.1 - b.1) (by push_cast; linarith) (by push_cast; linarith)
    exact ⟨d, e⟩

/-! ### The library -/

section
variable {α : Type} [Zero α] [One α] [Add α] [Sub α] [Mul α] [Div α] [Neg α] [LT α] [LE α]
  [DecidableLT α] [DecidableLE α] [BEq α] [OfScientific α] [GoMath α]

/-- **C64, the library.** Whatever the order of the map, the similarity returned is that of the template returned, it is above 0 and no
template is above it; or nothing is returned because no template is above 0. -/
theorem C64_identify [IsStrictOrder α (· < ·)] (templates : List (String × Template α)) (pattern : Option (Temporal α)) :
    (∀ t ∈ templates, ¬ t.2.base.similarity pattern > (identify templates pattern).2) ∧
    (identify templates pattern = ("", 0) ∨
      (identify templates pattern).2 > 0 ∧
      ∃ t ∈ templates, identify templates pattern = (t.1, t.2.base.similarity pattern)) := by
  have key : ∀ (ts : List (String × Template α)) (b : String × α),
      (∀ x : α, ¬ x > b.2 → ¬ x > (ts.foldl (identifyStep pattern) b).2) ∧
      (∀ t ∈ ts, ¬ t.2.base.similarity pattern > (ts.foldl (identifyStep pattern) b).2) ∧
      (ts.foldl (identifyStep pattern) b = b ∨ (ts.foldl (identifyStep pattern) b).2 > b.2 ∧
        ∃ t ∈ ts, ts.foldl (identifyStep pattern) b = (t.1, t.2.base.similarity pattern)) := by
    intro ts
    induction ts with
    | nil => intro b; exact ⟨fun _ h => h, by simp, .inl rfl⟩
    | cons t ts ih =>
      intro b
      rw [List.foldl_cons]
      by_cases h : t.2.base.similarity pattern > b.2
      · have e : identifyStep pattern b t = (t.1, t.2.base.similarity pattern) := by unfold identifyStep; rw [if_pos h]
        rw [e]
        obtain ⟨h1, h2, h3⟩ := ih (t.1, t.2.base.similarity pattern)
        refine ⟨fun x hx => h1 x fun k => hx (trans_of (· < ·) h k), ?_, .inr ?_⟩
        · intro u hu
          rcases List.mem_cons.1 hu with rfl | hu
          · exact h1 _ (irrefl_of (· < ·) _)
          · exact h2 u hu
        · rcases h3 with h3 | ⟨h3, u, hu, h4⟩
          · rw [h3]; exact ⟨h, t, by simp, rfl⟩
          · exact ⟨trans_of (· < ·) h h3, u, by simp [hu], h4⟩
      · have e : identifyStep pattern b t = b := by unfold identifyStep; rw [if_neg h]
        rw [e]
        obtain ⟨h1, h2, h3⟩ := ih b
        refine ⟨h1, ?_, h3.imp_right fun ⟨h4, u, hu, h5⟩ => ⟨h4, u, by simp [hu], h5⟩⟩
        intro u hu
        rcases List.mem_cons.1 hu with rfl | hu
        · exact h1 _ h
        · exact h2 u hu
  obtain ⟨-, h2, h3⟩ := key templates ("", 0)
  exact ⟨h2, h3⟩

example [Rounding] [LibM] : IsStrictOrder F64 (· < ·) := inferInstance

end
end Verif
