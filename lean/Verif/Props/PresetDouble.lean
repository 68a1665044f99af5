import Verif.Props.SyncBudget

/-!
# C23 and C24 in doubles: the presets, tuned and sized, with rounding
-/

set_option autoImplicit false
set_option linter.unusedSectionVars false
set_option linter.unusedTactic false

namespace Verif

open Rounding

variable [Rounding] [LibM]

/-- A finite number between two bounds. -/
def FIn (l u : ℝ) (x : F64) : Prop := ∃ d : Dbl, x = .fin d ∧ l ≤ d.1 ∧ d.1 ≤ u

/-- Two finite numbers in order, between 0 and a bound. -/
def FPair (b : ℕ) (x y : F64) : Prop := ∃ c d : Dbl, x = .fin c ∧ y = .fin d ∧ 0 ≤ c.1 ∧ c.1 ≤ d.1 ∧ d.1 ≤ b

theorem FIn.lit {l u x : ℝ} (hl : IsDouble l) (hu : IsDouble u) (h1 : l ≤ x) (h2 : x ≤ u) : FIn l u (F64.ofReal x) := by
  obtain ⟨y, hy, e, a, b⟩ := F64.ofReal_between hl hu h1 h2
  exact ⟨⟨y, hy⟩, e, a, b⟩

theorem FIn.weaken {l u l' u' : ℝ} {x : F64} (h : FIn l u x) (h1 : l' ≤ l) (h2 : u ≤ u') : FIn l' u' x := by
  obtain ⟨d, e, a, b⟩ := h
  exact ⟨d, e, h1.trans a, b.trans h2⟩

theorem FIn.mul {l u x l' u' y : ℝ} {a b : F64} (ha : FIn l u a) (hb : FIn l' u' b) (h0 : 0 ≤ l) (h0' : 0 ≤ l')
    (hx : IsDouble x) (hy : IsDouble y) (h1 : x ≤ l * l') (h2 : u * u' ≤ y) : FIn x y (a * b) := by
  obtain ⟨c, rfl, c1, c2⟩ := ha
  obtain ⟨d, rfl, d1, d2⟩ := hb
  rw [F64.mul_fin]
  exact FIn.lit hx hy (h1.trans (mul_le_mul c1 d1 h0' (h0.trans c1)))
    ((mul_le_mul c2 d2 (h0'.trans d1) ((h0.trans c1).trans c2)).trans h2)

theorem ofReal_pair {x y : ℝ} (b : ℕ) (hb : b < 2 ^ 53) (h0 : 0 ≤ x) (h1 : x ≤ y) (h2 : y ≤ b) :
    FPair b (F64.ofReal x) (F64.ofReal y) := by
  have hd : IsDouble (b : ℝ) := by
    have := isDouble_int (n := (b : ℤ)) (by rw [abs_of_nonneg (by positivity)]; exact_mod_cast hb)
    simpa using this
  have key : ∀ z : ℝ, 0 ≤ z → z ≤ b → ∃ h, F64.ofReal z = .fin ⟨rnd z, h⟩ := by
    intro z z0 z1
    obtain ⟨w, hw, e, -, -⟩ := F64.ofReal_between isDouble_zero hd z0 z1
    unfold F64.ofReal at e ⊢
    split_ifs at e ⊢ with c1 c2
    · exact ⟨isDouble z, rfl⟩
  obtain ⟨k1, e1⟩ := key x h0 (h1.trans h2)
  obtain ⟨k2, e2⟩ := key y (h0.trans h1) h2
  exact ⟨_, _, e1, e2, le_rnd isDouble_zero h0, rnd_mono h1, rnd_le hd h2⟩

theorem FPair.mul {b b' : ℕ} {x y x' y' : F64} (h : FPair b x y) (h' : FPair b' x' y') (hb : b * b' < 2 ^ 53) :
    FPair (b * b') (x * x') (y * y') := by
  obtain ⟨c, d, rfl, rfl, c0, c1, c2⟩ := h
  obtain ⟨c', d', rfl, rfl, c0', c1', c2'⟩ := h'
  rw [F64.mul_fin, F64.mul_fin]
  refine ofReal_pair _ hb (mul_nonneg c0 c0') (mul_le_mul c1 c1' c0' (c0.trans c1)) ?_
  push_cast
  exact mul_le_mul c2 c2' (c0'.trans c1') (by positivity)

theorem FPair.weaken {b b' : ℕ} {x y : F64} (h : FPair b x y) (hb : b ≤ b') : FPair b' x y := by
  obtain ⟨c, d, e1, e2, h1, h2, h3⟩ := h
  exact ⟨c, d, e1, e2, h1, h2, h3.trans (by exact_mod_cast hb)⟩

theorem dyadic (n : ℤ) (k : ℕ) (hn : |n| < 2 ^ 53) (hk : k ≤ 1074) : IsDouble ((n : ℝ) / 2 ^ k) :=
  ⟨n, -k, hn, by omega, by omega, by rw [zpow_neg, zpow_natCast]; rfl⟩

theorem FIn.not_lt_zero {u : ℝ} {x : F64} (h : FIn 0 u x) : ¬ x < 0 := by
  obtain ⟨d, rfl, h1, -⟩ := h
  rw [F64.zero_def, F64.lt_fin]
  exact not_lt.2 h1

theorem FIn.not_one_lt {l : ℝ} {x : F64} (h : FIn l 1 x) : ¬ 1 < x := by
  obtain ⟨d, rfl, -, h1⟩ := h
  rw [F64.one_def, F64.lt_fin]
  exact not_lt.2 h1

theorem FPair.not_lt {b : ℕ} {x y : F64} (h : FPair b x y) : ¬ y < x := by
  obtain ⟨c, d, rfl, rfl, -, h1, -⟩ := h
  rw [F64.lt_fin]
  exact _root_.not_lt.2 h1

theorem FPair.left {b : ℕ} {x y : F64} (h : FPair b x y) : FIn 0 b x := by
  obtain ⟨c, d, rfl, rfl, h0, h1, h2⟩ := h
  exact ⟨c, rfl, h0, h1.trans h2⟩

theorem FPair.right {b : ℕ} {x y : F64} (h : FPair b x y) : FIn 0 b y := by
  obtain ⟨c, d, rfl, rfl, h0, h1, h2⟩ := h
  exact ⟨d, rfl, h0.trans h1, h2⟩

/-- What makes a configuration acceptable, with finite numbers. The first two numbers bound the adjustment scale and the fractions, the
last the variation. -/
structure GoalFin (b : ℕ) (c : GoalConfig F64) : Prop where
  phase : FIn 0 1 c.phaseConvergenceGoal
  mod : FPair 1 c.moderateCoherence c.highCoherence
  high : FPair 1 c.highCoherence c.veryHighCoherence
  var : FPair b c.variationMin c.variationMax
  chance : FIn 0 1 c.perturbationChance
  interval : millisecond ≤ c.updateInterval
  window : 0 < c.explorationTimeWindow
  affected : FIn 0 1 c.affectedAgents
  activation : FIn 0 1 c.activationRate

theorem GoalFin.validate {b : ℕ} {c : GoalConfig F64} (h : GoalFin b c) (h0 : FIn 0 1 c.baseAdjustmentScale) : c.validate = none := by
  unfold GoalConfig.validate
  have := h.interval
  have := h.window
  have hm : (0 : ℤ) < millisecond := by unfold millisecond; norm_num
  rw [if_neg (not_or.2 ⟨h0.not_lt_zero, h0.not_one_lt⟩), if_neg (not_or.2 ⟨h.phase.not_lt_zero, h.phase.not_one_lt⟩),
    if_neg h.mod.not_lt, if_neg h.high.not_lt, if_neg (not_or.2 ⟨h.var.left.not_lt_zero, h.var.right.not_lt_zero⟩),
    if_neg h.var.not_lt, if_neg (not_or.2 ⟨h.chance.not_lt_zero, h.chance.not_one_lt⟩), if_neg (by omega), if_neg (by omega),
    if_neg (not_or.2 ⟨h.affected.not_lt_zero, h.affected.not_one_lt⟩),
    if_neg (not_or.2 ⟨h.activation.not_lt_zero, h.activation.not_one_lt⟩)]

theorem lit01 (x : ℝ) (h0 : 0 ≤ x) (h1 : x ≤ 1) : FIn 0 1 (F64.ofReal x) := FIn.lit isDouble_zero isDouble_one h0 h1

theorem litPair (x y : ℝ) (h0 : 0 ≤ x) (h1 : x ≤ y) (h2 : y ≤ 1) : FPair 1 (F64.ofReal x) (F64.ofReal y) :=
  ofReal_pair 1 (by norm_num) h0 h1 (by simpa using h2)

/-- The presets in doubles. -/
theorem configFor_fin (g : GoalType) : GoalFin 1 (configFor g : GoalConfig F64) ∧
    25 * millisecond ≤ (configFor g : GoalConfig F64).updateInterval ∧
    (configFor g : GoalConfig F64).updateInterval ≤ 250 * millisecond ∧
    FIn 0 (1 / 2) (configFor g : GoalConfig F64).affectedAgents ∧ FIn 0 (1 / 2) (configFor g : GoalConfig F64).activationRate ∧
    (g ≠ 3 → FIn 0 (13 / 16) (configFor g : GoalConfig F64).baseAdjustmentScale) ∧
    (g = 3 → FIn (27 / 32) 1 (configFor g : GoalConfig F64).baseAdjustmentScale) := by
  have hh : IsDouble (1 / 2 : ℝ) := by simpa using dyadic 1 1 (by norm_num) (by norm_num)
  have h13 : IsDouble (13 / 16 : ℝ) := by have := dyadic 13 4 (by norm_num) (by norm_num); norm_num at this ⊢; exact this
  have h27 : IsDouble (27 / 32 : ℝ) := by have := dyadic 27 5 (by norm_num) (by norm_num); norm_num at this ⊢; exact this
  unfold configFor
  split <;> refine ⟨⟨lit01 _ ?_ ?_, litPair _ _ ?_ ?_ ?_, litPair _ _ ?_ ?_ ?_, litPair _ _ ?_ ?_ ?_, lit01 _ ?_ ?_, ?_, ?_,
    lit01 _ ?_ ?_, lit01 _ ?_ ?_⟩, ?_, ?_, FIn.lit isDouble_zero hh ?_ ?_, FIn.lit isDouble_zero hh ?_ ?_, ?_, ?_⟩ <;>
    first
    | (intro hg; exact absurd rfl hg)
    | (intro hg; refine absurd hg ?_; first | assumption | (decide; done))
    | (intro _; refine FIn.lit isDouble_zero h13 ?_ ?_ <;> (norm_num; done))
    | (intro _; refine FIn.lit h27 isDouble_one ?_ ?_ <;> (norm_num; done))
    | (norm_num; done)
    | (simp only [minAPIConfig, distLoadConfig, consensusConfig, latencyConfig, energyConfig, rhythmConfig,
      recoveryConfig, trafficConfig, defaultConfig, millisecond, second]; norm_num; done)

/-- Scaling a duration of at most a second by a factor between a half and two. -/
theorem scaleDuration_fin (d : ℤ) (h0 : 0 ≤ d) (h1 : d ≤ 1000000000) (x : ℝ) (hx1 : 1 / 2 ≤ x) (hx2 : x ≤ 2) :
    d / 2 ≤ scaleDuration d (F64.ofReal x) := by
  have hh : IsDouble (1 / 2 : ℝ) := by simpa using dyadic 1 1 (by norm_num) (by norm_num)
  have h2 : IsDouble (2 : ℝ) := by simpa using isDouble_int (n := 2) (by norm_num)
  obtain ⟨f, e, f1, f2⟩ := FIn.lit hh h2 hx1 hx2
  have hd : IsDouble (d : ℝ) := isDouble_int (by rw [abs_of_nonneg h0]; omega)
  have e1 : (GoMath.ofInt d : F64) = .fin ⟨d, hd⟩ := F64.ofReal_of_isDouble hd
  unfold scaleDuration
  rw [e, e1, F64.mul_fin]
  have hd0 : (0 : ℝ) ≤ d := by exact_mod_cast h0
  have hd1 : (d : ℝ) ≤ 1000000000 := by exact_mod_cast h1
  have hq : ((d / 2 : ℤ) : ℝ) ≤ (d : ℝ) * f.1 := by
    have : ((d / 2 : ℤ) : ℝ) ≤ (d : ℝ) / 2 := by
      rw [le_div_iff₀ (by norm_num)]
      have := Int.ediv_mul_le d (b := 2) (by norm_num)
      exact_mod_cast this
    nlinarith
  obtain ⟨r, er, r1, r2⟩ := F64.ofReal_int_between (x := (d : ℝ) * f.1) (d / 2) 2000000000 (by rw [abs_of_nonneg (by omega)]; omega)
    (by norm_num) hq (by push_cast; nlinarith)
  rw [er]
  show d / 2 ≤ F64.toInt (.fin r)
  have hr0 : 0 ≤ r.1 := le_trans (by exact_mod_cast (by omega : (0 : ℤ) ≤ d / 2)) r1
  have ht : rtrunc r.1 = ⌊r.1⌋ := by unfold rtrunc; rw [if_pos hr0]
  have hf0 : (0 : ℤ) ≤ ⌊r.1⌋ := Int.floor_nonneg.2 hr0
  have hf1 : ⌊r.1⌋ ≤ 2000000000 := by
    have := Int.floor_le r.1
    exact_mod_cast this.trans r2
  unfold F64.toInt
  dsimp only
  rw [ht, if_pos ⟨by omega, by omega⟩]
  exact Int.le_floor.2 r1

theorem min_in {x : F64} {u v : ℝ} (hu : IsDouble u) (h0 : 0 ≤ u) (hx : FIn 0 v x) : FIn 0 u (minFloat (.fin ⟨u, hu⟩) x) := by
  unfold minFloat
  split_ifs with h
  · exact ⟨_, rfl, h0, le_rfl⟩
  · obtain ⟨d, rfl, h1, h2⟩ := hx
    rw [F64.lt_fin] at h
    exact ⟨d, rfl, h1, not_lt.1 h⟩

theorem fin_two {x : ℝ} (h0 : 0 ≤ x) (h1 : x ≤ 2) : FIn 0 2 (F64.ofReal x) :=
  FIn.lit isDouble_zero (by simpa using isDouble_int (n := 2) (by norm_num)) h0 h1

/-- Tuning keeps everything acceptable but, in one case, the adjustment scale. -/
theorem tuneFor_fin (g : GoalType) (t : ℤ) : GoalFin 2 ((configFor g : GoalConfig F64).tuneFor t) := by
  obtain ⟨⟨h1, h2, h3, h4, h5, h6, h7, h8, h9⟩, i1, i2, a1, a2, -, -⟩ := configFor_fin g
  have sd := fun x => scaleDuration_fin (configFor g : GoalConfig F64).updateInterval (by unfold millisecond at i1; omega)
    (by unfold millisecond at i2; omega) x
  have p1 := fun x y a b c => h4.mul (ofReal_pair (x := x) (y := y) 2 (by norm_num) a b c) (by norm_num)
  have w := h4.weaken (b' := 2) (by norm_num)
  have m : ∀ {z : F64}, FIn 0 1 z → ∀ x : ℝ, 0 ≤ x → x ≤ 1 → FIn 0 1 (z * F64.ofReal x) := fun hz x a b =>
    hz.mul (lit01 x a b) le_rfl le_rfl isDouble_zero isDouble_one (by norm_num) (by norm_num)
  have n : ∀ {z : F64}, FIn 0 (1 / 2) z → ∀ x : ℝ, 0 ≤ x → x ≤ 2 → FIn 0 1 (z * F64.ofReal x) := fun hz x a b =>
    hz.mul (fin_two a b) le_rfl le_rfl isDouble_zero isDouble_one (by norm_num) (by norm_num)
  unfold GoalConfig.tuneFor
  generalize (configFor g : GoalConfig F64) = c at *
  have hc : FIn 0 2 (c.phaseConvergenceGoal * F64.ofReal 1.1) :=
    h1.mul (fin_two (by norm_num) (by norm_num)) le_rfl le_rfl isDouble_zero (by simpa using isDouble_int (n := 2) (by norm_num))
      (by norm_num) (by norm_num)
  have hi : ∀ x : ℝ, 1 / 2 ≤ x → x ≤ 2 → millisecond ≤ scaleDuration c.updateInterval (F64.ofReal x) := by
    intro x a b
    have := sd x a b
    unfold millisecond at *
    omega
  split
  · exact ⟨h1, h2, h3, p1 _ _ (by norm_num) (by norm_num) (by norm_num), h5, hi _ (by norm_num) (by norm_num), h7, h8, h9⟩
  · exact ⟨h1, h2, h3, w, h5, hi _ (by norm_num) (by norm_num), h7, h8, h9⟩
  · exact ⟨h1, h2, h3, w, m h5 _ (by norm_num) (by norm_num), hi _ (by norm_num) (by norm_num), h7, m h8 _ (by norm_num) (by norm_num), h9⟩
  · exact ⟨h1, h2, h3, w, h5, hi _ (by norm_num) (by norm_num), h7, h8, h9⟩
  · exact ⟨h1, h2, h3, p1 _ _ (by norm_num) (by norm_num) (by norm_num), h5, h6, h7, n a1 _ (by norm_num) (by norm_num),
      n a2 _ (by norm_num) (by norm_num)⟩
  · refine ⟨?_, h2, h3, w, h5, h6, h7, h8, h9⟩
    obtain ⟨y, hy, e, y0, y1⟩ := F64.in01_ofReal (x := (0.98 : ℝ)) (by norm_num) (by norm_num)
    have := min_in hy y0 hc
    rw [← e] at this
    exact FIn.weaken this le_rfl y1
  · exact ⟨h1, h2, h3, w, h5, h6, h7, h8, h9⟩

/-- Fitting to a size keeps everything acceptable. -/
theorem withSize_fin {c : GoalConfig F64} (h : GoalFin 2 c) (n : ℤ) : GoalFin 4 (c.withSize n) := by
  obtain ⟨h1, h2, h3, h4, h5, h6, h7, h8, h9⟩ := h
  have hd : 1 ≤ c.updateInterval.tdiv millisecond := by
    rw [Int.tdiv_eq_ediv_of_nonneg (by unfold millisecond at h6; omega)]
    unfold millisecond at *
    omega
  have p1 := fun x y a b c => h4.mul (ofReal_pair (x := x) (y := y) 2 (by norm_num) a b c) (by norm_num)
  have w := h4.weaken (b' := 4) (by norm_num)
  unfold GoalConfig.withSize
  split_ifs
  · exact ⟨h1, h2, h3, (litPair _ _ (by norm_num) (by norm_num) (by norm_num)).weaken (by norm_num), h5,
      by show millisecond ≤ 20 * millisecond; unfold millisecond; norm_num, h7, h8, h9⟩
  · refine ⟨h1, h2, h3, p1 _ _ (by norm_num) (by norm_num) (by norm_num), h5, ?_, h7, h8, h9⟩
    show millisecond ≤ minInt 50 _ * millisecond
    unfold minInt
    unfold millisecond at *
    split_ifs <;> omega
  · exact ⟨h1, h2, h3, w, h5, h6, h7, h8, h9⟩
  · refine ⟨h1, h2, h3, p1 _ _ (by norm_num) (by norm_num) (by norm_num), h5, ?_, h7, h8, h9⟩
    show millisecond ≤ maxInt 150 _ * millisecond
    unfold maxInt
    unfold millisecond at *
    split_ifs <;> omega
  · refine ⟨h1, h2, h3, p1 _ _ (by norm_num) (by norm_num) (by norm_num), h5, ?_, h7, ?_, h9⟩
    · show millisecond ≤ maxInt 200 _ * millisecond
      unfold maxInt
      unfold millisecond at *
      split_ifs <;> omega
    · obtain ⟨y, hy, e, y0, y1⟩ := F64.in01_ofReal (x := (0.05 : ℝ)) (by norm_num) (by norm_num)
      have := min_in hy y0 h8
      rw [← e] at this
      exact FIn.weaken this le_rfl y1

theorem withSize_base (c : GoalConfig F64) (n : ℤ) : (c.withSize n).baseAdjustmentScale = c.baseAdjustmentScale := by
  unfold GoalConfig.withSize; split_ifs <;> rfl

/-- The adjustment scale after tuning, in the cases that are accepted. -/
theorem tuneFor_base (g : GoalType) (t : ℤ) (h : ¬ (g = 3 ∧ t = 3)) :
    FIn 0 1 ((configFor g : GoalConfig F64).tuneFor t).baseAdjustmentScale := by
  obtain ⟨-, -, -, -, -, b1, b2⟩ := configFor_fin g
  have hb : FIn 0 1 (configFor g : GoalConfig F64).baseAdjustmentScale := by
    by_cases hg : g = 3
    · exact (b2 hg).weaken (by norm_num) le_rfl
    · exact (b1 hg).weaken le_rfl (by norm_num)
  have h39 : IsDouble (39 / 32 : ℝ) := by have := dyadic 39 5 (by norm_num) (by norm_num); norm_num at this ⊢; exact this
  have h2 : IsDouble (2 : ℝ) := by simpa using isDouble_int (n := 2) (by norm_num)
  unfold GoalConfig.tuneFor
  split
  · exact hb.mul (lit01 _ (by norm_num) (by norm_num)) le_rfl le_rfl isDouble_zero isDouble_one (by norm_num) (by norm_num)
  · exact min_in isDouble_one (by norm_num)
      (hb.mul (fin_two (x := 1.3) (by norm_num) (by norm_num)) le_rfl le_rfl isDouble_zero h2 (by norm_num) (by norm_num))
  · exact hb
  · have hg : g ≠ 3 := fun e => h ⟨e, rfl⟩
    exact (b1 hg).mul (FIn.lit (x := 1.2) isDouble_zero h39 (by norm_num) (by norm_num)) le_rfl le_rfl isDouble_zero isDouble_one
      (by norm_num) (by norm_num)
  · exact hb
  · exact hb
  · exact hb

/-- **C24 in doubles.** A preset tuned for any trait and fitted to any size is accepted except in one combination: minimising latency (3)
tuned for throughput (3). Rounding changes nothing of what holds over the reals. -/
theorem C24_tune_withSize_double_partial (g : GoalType) (t n : ℤ) :
    (((configFor g : GoalConfig F64).tuneFor t).withSize n).validate = none ↔ ¬ (g = 3 ∧ t = 3) := by
  by_cases h : g = 3 ∧ t = 3
  · refine iff_of_false ?_ (not_not.2 h)
    obtain ⟨rfl, rfl⟩ := h
    obtain ⟨-, -, -, -, -, -, b2⟩ := configFor_fin 3
    have h19 : IsDouble (19 / 16 : ℝ) := by have := dyadic 19 4 (by norm_num) (by norm_num); norm_num at this ⊢; exact this
    have h513 : IsDouble (513 / 512 : ℝ) := by have := dyadic 513 9 (by norm_num) (by norm_num); norm_num at this ⊢; exact this
    have h2 : IsDouble (2 : ℝ) := by simpa using isDouble_int (n := 2) (by norm_num)
    have k : FIn (513 / 512) 2 ((configFor 3 : GoalConfig F64).baseAdjustmentScale * F64.ofReal 1.2) :=
      (b2 rfl).mul (FIn.lit h19 h2 (by norm_num) (by norm_num)) (by norm_num) (by norm_num) h513 h2 (by norm_num) (by norm_num)
    obtain ⟨d, e, d1, d2⟩ := k
    unfold GoalConfig.validate
    rw [withSize_base, show ((configFor 3 : GoalConfig F64).tuneFor 3).baseAdjustmentScale =
      (configFor 3 : GoalConfig F64).baseAdjustmentScale * F64.ofReal 1.2 from rfl, e, if_pos (.inr (by
        rw [F64.one_def, F64.lt_fin]; show (1 : ℝ) < d.1; linarith))]
    simp
  · refine iff_of_true ((withSize_fin (tuneFor_fin g t) n).validate ?_) h
    rw [withSize_base]
    exact tuneFor_base g t h

/-- **C23 in doubles.** Every preset fitted to any swarm size is accepted. -/
theorem C23_preset_withSize_double (g : GoalType) (n : ℤ) : ((configFor g : GoalConfig F64).withSize n).validate = none := by
  have := (C24_tune_withSize_double_partial g 6 n).2 (by omega)
  exact this

/-- Non-trivial case: the traffic preset for 5000 agents, tuned for resilience, is accepted in doubles. -/
example : (((configFor 7 : GoalConfig F64).tuneFor 4).withSize 5000).validate = none :=
  (C24_tune_withSize_double_partial 7 4 5000).2 (by decide)

end Verif
