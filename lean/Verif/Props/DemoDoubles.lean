import Verif.Props.PhasePanelsDouble
import Verif.Props.SwarmPicture
import Verif.Props.SimSmall
import Verif.Props.Monitoring
import Verif.Props.DecisionDouble
import Verif.Props.AgentDouble

/-!
# C79, C106, C107, C120, C122 in doubles
-/

set_option autoImplicit false
set_option linter.unusedSectionVars false

namespace Verif
open GoMath Spec

variable [Rounding] [LibM]

local notation "π" => Real.pi

/-- Rounding keeps a number on its side of a double. -/
theorem ofReal_side {a t : ℝ} {d : Dbl} (ha : IsDouble a) (e : F64.ofReal t = .fin d) : (a ≤ t → a ≤ d.1) ∧ (t ≤ a → d.1 ≤ a) := by
  have ea := F64.ofReal_of_isDouble ha
  constructor
  · intro h; have := F64.ofReal_mono h; rw [e, ea] at this; exact this
  · intro h; have := F64.ofReal_mono h; rw [e, ea] at this; exact this

/-! ### Predictions -/

/-- **C79, in doubles, what holds.** If the remaining coherence takes at most `9 * 10^10` periods at the current rate (285 years), the prediction is not
negative. Missing: slower rates, where the conversion overflows (`C79_refuted`). -/
theorem C79_predict_double_partial (m : Tracker F64) (r R : Dbl) (hr : m.convergenceRate = .fin r) (hR : m.convergenceAt - m.currentCoherence = .fin R)
    (h : R.1 ≤ 9 * 10 ^ 10 * r.1) : 0 ≤ m.predictConvergenceTime ∧ m.predictConvergenceTime < 2 ^ 63 := by
  unfold Tracker.predictConvergenceTime
  dsimp only
  rw [hr, hR]
  split_ifs with h1 h2 h3
  · norm_num
  · norm_num
  · norm_num
  · have r0 : 0 < r.1 := not_le.1 (show ¬ r.1 ≤ 0 from h2)
    have R0 : 0 < R.1 := not_le.1 (show ¬ R.1 ≤ 0 from h3)
    have dA : IsDouble (9 * 10 ^ 10 : ℝ) := by
      have := isDouble_int (n := 9 * 10 ^ 10) (by norm_num)
      norm_num at this ⊢; exact this
    have dB : IsDouble (9 * 10 ^ 18 : ℝ) := ⟨9 * 5 ^ 18, 18, by norm_num, by norm_num, by norm_num, by norm_num⟩
    obtain ⟨q, hq, eq, q0, q1⟩ := F64.ofReal_between (x := R.1 / r.1) isDouble_zero dA (by positivity) ((div_le_iff₀ r0).2 h)
    obtain ⟨M, eM, hM⟩ := fin_int 100000000 (by norm_num)
    rw [F64.div_fin r0.ne', eq, eM, F64.mul_fin]
    obtain ⟨v, hv, ev, v0, v1⟩ := F64.ofReal_between (x := q * M.1) isDouble_zero dB (by rw [hM]; push_cast; positivity) (by rw [hM]; push_cast; linarith)
    rw [show F64.ofReal ((⟨q, hq⟩ : Dbl).1 * M.1) = _ from ev]
    have b := F64.toInt_between ⟨v, hv⟩ 0 (9 * 10 ^ 18) le_rfl (by norm_num) (by simpa using v0) (by push_cast; show v < _; linarith)
    exact ⟨b.1, lt_of_le_of_lt b.2 (by norm_num)⟩

/-! ### The picture of the swarm -/

/-- **C107, in doubles.** No agent is drawn outside the grid, whatever sine and cosine return within [-1, 1]. -/
theorem C107_bounds_double (c : Dbl) (h1 : c.1 ≤ 1) (i : ℕ) (p : F64) (d : Dbl) (hd : p + GoMath.ofInt (i : ℤ) * piMul 1 / 10.0 = .fin d) :
    let o := cellOffset (F64.fin c) i p
    |o.1| ≤ 5 ∧ |o.2| ≤ 2 ∧ (cellDrawn o = true ↔ o ≠ (0, 0)) := by
  intro o
  have l2 : (2.0 : F64) = .fin ⟨2, isDouble_ofNat 2 (by norm_num)⟩ := lit_fin _ _ _ (by norm_num)
  have l3 : (3.0 : F64) = .fin ⟨3, isDouble_ofNat 3 (by norm_num)⟩ := lit_fin _ _ _ (by norm_num)
  have l5 : (5.0 : F64) = .fin ⟨5, isDouble_ofNat 5 (by norm_num)⟩ := lit_fin _ _ _ (by norm_num)
  obtain ⟨hh, half⟩ : ∃ h : IsDouble (0.5 : ℝ), (0.5 : F64) = .fin ⟨0.5, h⟩ :=
    ⟨⟨1, -1, by norm_num, by norm_num, by norm_num, by rw [zpow_neg]; norm_num⟩, F64.ofReal_of_isDouble _⟩
  have hR : ∃ R : Dbl, (if F64.fin c > 0.5 then 2.0 + 3.0 * (1 - F64.fin c) else 5.0 : F64) = .fin R ∧ 0 ≤ R.1 ∧ R.1 ≤ 5 := by
    split_ifs with hc
    · have hc' : 0.5 < c.1 := by rw [half] at hc; exact hc
      obtain ⟨x, hx, ex, x0, x1⟩ := F64.ofReal_between (x := 1 - c.1) isDouble_zero isDouble_one (by linarith) (by norm_num at hc'; linarith)
      obtain ⟨y, hy, ey, y0, y1⟩ := F64.ofReal_between (x := 3 * x) isDouble_zero (isDouble_ofNat 3 (by norm_num)) (by linarith) (by norm_num; linarith)
      obtain ⟨z, hz, ez, z0, z1⟩ := F64.ofReal_between (x := 2 + y) isDouble_zero (isDouble_ofNat 5 (by norm_num)) (by linarith) (by norm_num at y1 ⊢; linarith)
      refine ⟨⟨z, hz⟩, ?_, z0, by simpa using z1⟩
      rw [F64.one_def, F64.sub_fin, ex, l3, F64.mul_fin, show F64.ofReal ((⟨3, _⟩ : Dbl).1 * (⟨x, hx⟩ : Dbl).1) = _ from ey, l2, F64.add_fin]
      exact ez
    · exact ⟨_, l5, by norm_num, by norm_num⟩
  obtain ⟨R, eR, R0, R5⟩ := hR
  have prod : ∀ t : Dbl, |t.1| ≤ 1 → ∃ x : Dbl, F64.fin R * F64.fin t = .fin x ∧ |x.1| ≤ 5 := by
    intro t ht
    obtain ⟨t1, t2⟩ := abs_le.1 ht
    obtain ⟨x, hx, ex, x0, x1⟩ := F64.ofReal_between (x := R.1 * t.1) (isDouble_ofNat 5 (by norm_num)).neg (isDouble_ofNat 5 (by norm_num))
      (by nlinarith) (by nlinarith)
    exact ⟨⟨x, hx⟩, ex, abs_le.2 ⟨by simpa using x0, by simpa using x1⟩⟩
  obtain ⟨x, ex, hx⟩ := prod _ (LibM.cos_le d)
  obtain ⟨y, ey, hy⟩ := prod _ (LibM.sin_le d)
  obtain ⟨y1, y2⟩ := abs_le.1 hy
  have d52 : IsDouble (5 / 2 : ℝ) := ⟨5, -1, by norm_num, by norm_num, by norm_num, by rw [zpow_neg]; norm_num⟩
  obtain ⟨z, hz, ez, z0, z1⟩ := F64.ofReal_between (x := y.1 / 2) d52.neg d52 (by linarith) (by linarith)
  have ho : o = (toInt (F64.fin x), toInt (F64.fin ⟨z, hz⟩)) := by
    show cellOffset (F64.fin c) i p = _
    unfold cellOffset
    dsimp only
    rw [eR, hd, show GoMath.cos (F64.fin d) = F64.fin (LibM.cos d) from rfl, show GoMath.sin (F64.fin d) = F64.fin (LibM.sin d) from rfl, ex, ey, l2,
      F64.div_fin (by norm_num), show F64.ofReal (y.1 / (⟨2, _⟩ : Dbl).1) = _ from ez]
  have bx := toInt_abs x 5 (by norm_num) (by norm_num) (by push_cast; linarith)
  have bz := toInt_abs ⟨z, hz⟩ 2 (by norm_num) (by norm_num) (by push_cast; show |z| < _; rw [abs_lt]; constructor <;> linarith)
  have hx5 : |o.1| ≤ 5 := by rw [ho]; show |toInt (F64.fin x)| ≤ 5; rw [bx.1]; exact bx.2
  have hy2 : |o.2| ≤ 2 := by rw [ho]; show |toInt (F64.fin ⟨z, hz⟩)| ≤ 2; rw [bz.1]; exact bz.2
  refine ⟨hx5, hy2, ?_⟩
  obtain ⟨a1, a2⟩ := abs_le.1 hx5
  obtain ⟨b1, b2⟩ := abs_le.1 hy2
  unfold cellDrawn
  rw [decide_eq_true_iff, show (o ≠ (0, 0)) ↔ ¬ (o.1 = 0 ∧ o.2 = 0) from not_congr Prod.ext_iff]
  omega

example : ∃ (c d : Dbl) (p : F64), c.1 ≤ 1 ∧ p + GoMath.ofInt ((0 : ℕ) : ℤ) * piMul 1 / 10.0 = .fin d ∧ 0 < d.1 := by
  have l10 : (10.0 : F64) = .fin ⟨10, isDouble_ofNat 10 (by norm_num)⟩ := lit_fin _ _ _ (by norm_num)
  obtain ⟨Z, eZ, hZ⟩ := fin_nat 0 (by norm_num)
  obtain ⟨P, eP, hP⟩ := lit_near (((1 : ℚ) : ℝ) * π) (by push_cast; have := Real.pi_lt_d2; have := Real.pi_pos; rw [abs_of_pos (by linarith)]; linarith)
  refine ⟨⟨1, isDouble_one⟩, ⟨2, isDouble_ofNat 2 (by norm_num)⟩, .fin ⟨2, isDouble_ofNat 2 (by norm_num)⟩, le_rfl, ?_, by norm_num⟩
  rw [eZ, show (piMul 1 : F64) = F64.ofReal (((1 : ℚ) : ℝ) * π) from rfl, eP, F64.mul_fin, hZ, l10]
  push_cast
  rw [zero_mul, F64.ofReal_of_isDouble isDouble_zero, F64.div_fin (by norm_num), zero_div, F64.ofReal_of_isDouble isDouble_zero, F64.add_fin]
  exact lit_fin _ _ _ (by norm_num)

/-! ### When a workload sends its batch -/

/-- **C120, in doubles.** A workload with pending requests sends them exactly within a tenth of a radian of phase 0, apart from `10^-12` before the full turn. -/
theorem C120_near_double (pending : ℕ) (p : Dbl) (h1 : p.1 < 2 * π) :
    (shouldBatch pending (F64.fin p) = true → 0 < pending ∧ (p.1 < 0.1 ∨ 2 * π - p.1 < 0.1 + 1 / 10 ^ 12)) ∧
    (0 < pending → p.1 < 0.1 ∨ 2 * π - p.1 < 0.1 - 1 / 10 ^ 12 → shouldBatch pending (F64.fin p) = true) := by
  have hp3 := Real.pi_gt_three
  have hp4 := Real.pi_lt_d2
  obtain ⟨T, eT, hT⟩ := lit_near (((2 : ℚ) : ℝ) * π) (by push_cast; rw [abs_of_pos (by linarith)]; linarith)
  obtain ⟨t, et, ht⟩ := lit_near 0.1 (by rw [abs_of_pos] <;> norm_num)
  obtain ⟨T1, T2⟩ := abs_le.1 hT
  obtain ⟨t1, t2⟩ := abs_le.1 ht
  push_cast at T1 T2
  norm_num at T1 T2 t1 t2
  have := h1
  obtain ⟨u, eu, hu⟩ := tiny_err (x := T.1 - t.1) (by rw [abs_le]; constructor <;> linarith)
  obtain ⟨u1, u2⟩ := abs_le.1 hu
  norm_num at u1 u2
  have e : (piMul 2 - 0.1 : F64) = .fin u := by
    rw [show (piMul 2 : F64) = F64.ofReal (((2 : ℚ) : ℝ) * π) from rfl, show (0.1 : F64) = F64.ofReal 0.1 from rfl, eT, et, F64.sub_fin, eu]
  unfold shouldBatch
  rw [e]
  constructor
  · intro h
    split_ifs at h with hz
    refine ⟨Nat.pos_of_ne_zero hz, ?_⟩
    rw [Bool.or_eq_true, decide_eq_true_iff, decide_eq_true_iff, lt_tenth] at h
    refine h.imp id fun h => ?_
    have h' : u.1 < p.1 := h
    norm_num; linarith
  · intro hz h
    rw [if_neg (by omega), Bool.or_eq_true, decide_eq_true_iff, decide_eq_true_iff, lt_tenth]
    refine h.imp id fun h => ?_
    show u.1 < p.1
    norm_num at h; linarith

/-! ### Test doubles -/

/-- **C122, energy, in doubles.** The mock and the token manager agree as long as the energy suffices, and then only. -/
theorem C122_request_double (t : TokenManager F64) (e a : Dbl) (ht : t.tokens = .fin e) (ha : 0 < a.1) (h0 : 0 < e.1) :
    (a.1 ≤ e.1 → mockRequest t.tokens (.fin a) = ((t.request (.fin a)).1, (t.request (.fin a)).2.tokens)) ∧
    (e.1 < a.1 → mockRequest t.tokens (.fin a) = (0, t.tokens) ∧ (t.request (.fin a)).1 = t.tokens ∧ (t.request (.fin a)).2.tokens = 0) := by
  have na : ¬ F64.fin a ≤ 0 := fun h => absurd (show a.1 ≤ 0 from h) (not_le.2 ha)
  have ne : ¬ F64.fin e ≤ 0 := fun h => absurd (show e.1 ≤ 0 from h) (not_le.2 h0)
  unfold mockRequest TokenManager.request
  dsimp only
  rw [ht, if_neg na, if_neg ne]
  have fm : (fmin (F64.fin a) (F64.fin e) : F64) = if a.1 < e.1 then F64.fin a else F64.fin e := rfl
  constructor
  · intro h
    rw [if_pos (show F64.fin e ≥ F64.fin a from h), fm]
    rcases h.lt_or_eq with h | h
    · rw [if_pos h]
    · rw [if_neg (by linarith), show a = e from Subtype.ext h]
  · intro h
    rw [if_neg (show ¬ F64.fin e ≥ F64.fin a from fun h' => absurd (show a.1 ≤ e.1 from h') (not_le.2 h)), fm, if_neg (by linarith)]
    refine ⟨rfl, rfl, ?_⟩
    show F64.fin e - F64.fin e = 0
    rw [F64.sub_fin, sub_self, F64.ofReal_of_isDouble isDouble_zero]; rfl

/-- **C122, energy, in doubles.** Returned energy is the same exactly if the rounded sum does not exceed the maximum. -/
theorem C122_release_double (t : TokenManager F64) (s a M : Dbl) (ha : 0 < a.1) (hs : t.tokens + .fin a = .fin s) (hM : t.maxTokens = .fin M) :
    mockRelease t.tokens (.fin a) = (t.release (.fin a)).tokens ↔ t.tokens + .fin a ≤ t.maxTokens := by
  have na : ¬ F64.fin a ≤ 0 := fun h => absurd (show a.1 ≤ 0 from h) (not_le.2 ha)
  unfold mockRelease TokenManager.release
  rw [if_neg na]
  dsimp only
  rw [hs, hM]
  have fm : (fmin (F64.fin s) (F64.fin M) : F64) = if s.1 < M.1 then F64.fin s else F64.fin M := rfl
  rw [fm]
  show _ ↔ s.1 ≤ M.1
  split_ifs with h
  · exact ⟨fun _ => h.le, fun _ => rfl⟩
  · constructor
    · intro e; injection e with e; rw [e]
    · intro h'; rw [show s = M from Subtype.ext (le_antisymm h' (not_lt.1 h))]

example : ∃ (t : TokenManager F64) (e a s M : Dbl), t.tokens = .fin e ∧ 0 < a.1 ∧ 0 < e.1 ∧ e.1 < a.1 ∧ t.tokens + .fin a = .fin s ∧ t.maxTokens = .fin M := by
  refine ⟨⟨.fin ⟨1, isDouble_one⟩, .fin ⟨2, isDouble_ofNat 2 (by norm_num)⟩⟩, ⟨1, isDouble_one⟩, ⟨2, isDouble_ofNat 2 (by norm_num)⟩,
    ⟨3, isDouble_ofNat 3 (by norm_num)⟩, ⟨2, isDouble_ofNat 2 (by norm_num)⟩, ?_⟩
  refine ⟨rfl, by norm_num, by norm_num, by norm_num, ?_, rfl⟩
  show F64.fin _ + F64.fin _ = _
  rw [F64.add_fin]
  exact lit_fin _ _ _ (by norm_num)

/-! ### Colours of scattered agents -/

/-- **C106, in doubles.** In a scattered swarm the colour only depends on the phase; phases from 0 on are never red, and each third has its own colour apart
from `10^-12` at the borders. -/
theorem C106_scattered_double (p : Dbl) (m c : F64) (h0 : 0 ≤ p.1) (h1 : p.1 ≤ 7) (hc : c < 0.3) :
    agentShade (F64.fin p) m c ≠ .red ∧ agentShade (F64.fin p) m c ≠ .green ∧
    (p.1 + 1 / 10 ^ 12 < π / 3 → agentShade (F64.fin p) m c = .yellow) ∧
    (π / 3 + 1 / 10 ^ 12 < p.1 → p.1 + 1 / 10 ^ 12 < π → agentShade (F64.fin p) m c = .cyan) ∧
    (π + 1 / 10 ^ 12 < p.1 → agentShade (F64.fin p) m c = .magenta) := by
  have hp3 := Real.pi_gt_three
  have hp4 := Real.pi_lt_d2
  have l3 : (3.0 : F64) = .fin ⟨3, isDouble_ofNat 3 (by norm_num)⟩ := lit_fin _ _ _ (by norm_num)
  obtain ⟨P, eP, hP⟩ := lit_near (((1 : ℚ) : ℝ) * π) (by push_cast; rw [abs_of_pos (by linarith)]; linarith)
  obtain ⟨T, eT, hT⟩ := lit_near (((2 : ℚ) : ℝ) * π) (by push_cast; rw [abs_of_pos (by linarith)]; linarith)
  obtain ⟨P1, P2⟩ := abs_le.1 hP
  obtain ⟨T1, T2⟩ := abs_le.1 hT
  push_cast at T1 T2 P1 P2
  norm_num at T1 T2 P1 P2
  obtain ⟨x, ex, hx⟩ := tiny_err (x := p.1 + P.1) (by rw [abs_le]; constructor <;> linarith)
  obtain ⟨x1, x2⟩ := abs_le.1 hx
  norm_num at x1 x2
  obtain ⟨y, ey, hy⟩ := tiny_err (x := x.1 * 3) (by rw [abs_le]; constructor <;> linarith)
  obtain ⟨y1, y2⟩ := abs_le.1 hy
  norm_num at y1 y2
  have T0 : 0 < T.1 := by linarith
  have q0 : 0 ≤ y.1 / T.1 := div_nonneg (by linarith) T0.le
  have q1 : y.1 / T.1 ≤ 100 := by rw [div_le_iff₀ T0]; linarith
  obtain ⟨z, ez, hz⟩ := tiny_err (x := y.1 / T.1) (by rw [abs_of_nonneg q0]; exact q1)
  have side : ∀ n : ℕ, n < 2 ^ 53 → (n * T.1 ≤ y.1 → (n : ℤ) ≤ ⌊z.1⌋) := by
    intro n hn h
    have dn : IsDouble (n : ℝ) := by
      have := isDouble_int (n := (n : ℤ)) (by rw [abs_of_nonneg (by positivity)]; exact_mod_cast hn)
      simpa using this
    exact Int.le_floor.2 (by simpa using (ofReal_side dn ez).1 ((le_div_iff₀ T0).2 h))
  obtain ⟨z1, z2⟩ := abs_le.1 hz
  norm_num at z1 z2
  have below : ∀ n : ℝ, y.1 + 7 / 10 ^ 13 < n * T.1 → z.1 < n := by
    intro n h
    have : y.1 / T.1 < n - 1 / 10 ^ 13 := by
      rw [div_lt_iff₀ T0]; norm_num at h ⊢; nlinarith
    norm_num at this; linarith
  have z0 : 0 ≤ z.1 := (ofReal_side isDouble_zero ez).1 q0
  have z100 : z.1 ≤ 100 := (ofReal_side (isDouble_ofNat 100 (by norm_num)) ez).2 (by simpa using q1)
  have e : agentShade (F64.fin p) m c =
      if ⌊z.1⌋ = 0 then .red else if ⌊z.1⌋ = 1 then .yellow else if ⌊z.1⌋ = 2 then .cyan else .magenta := by
    unfold agentShade
    rw [if_pos hc, show (piMul 1 : F64) = F64.ofReal (((1 : ℚ) : ℝ) * π) from rfl, show (piMul 2 : F64) = F64.ofReal (((2 : ℚ) : ℝ) * π) from rfl, eP, eT,
      F64.add_fin, ex, l3, F64.mul_fin, ey, F64.div_fin T0.ne', ez, toInt_floor z z0 z100]
    split
    next h => rw [if_pos h]
    next h => rw [h]; rfl
    next h => rw [h]; rfl
    next a b c => rw [if_neg a, if_neg b, if_neg c]
  have f1 : 1 ≤ ⌊z.1⌋ := by
    have := side 1 (by norm_num) (by push_cast; linarith)
    exact_mod_cast this
  rw [e]
  refine ⟨?_, ?_, ?_, ?_, ?_⟩
  · rw [if_neg (by omega)]; split_ifs <;> simp
  · split_ifs <;> simp
  · intro h
    have : ⌊z.1⌋ < 2 := Int.floor_lt.2 (by push_cast; exact below 2 (by norm_num at h ⊢; linarith))
    rw [if_neg (by omega), if_pos (by omega)]
  · intro h h'
    have a : 2 ≤ ⌊z.1⌋ := by
      have := side 2 (by norm_num) (by push_cast; norm_num at h; linarith)
      exact_mod_cast this
    have b : ⌊z.1⌋ < 3 := Int.floor_lt.2 (by push_cast; exact below 3 (by norm_num at h' ⊢; linarith))
    rw [if_neg (by omega), if_neg (by omega), if_pos (by omega)]
  · intro h
    have a : 3 ≤ ⌊z.1⌋ := by
      have := side 3 (by norm_num) (by push_cast; norm_num at h; linarith)
      exact_mod_cast this
    rw [if_neg (by omega), if_neg (by omega), if_neg (by omega)]

example : ∃ p : Dbl, 0 ≤ p.1 ∧ p.1 ≤ 7 ∧ π / 3 + 1 / 10 ^ 12 < p.1 ∧ p.1 + 1 / 10 ^ 12 < π ∧ (0 : F64) < 0.3 := by
  have := Real.pi_gt_d2
  have := Real.pi_lt_d2
  refine ⟨⟨2, isDouble_ofNat 2 (by norm_num)⟩, by norm_num, by norm_num, by norm_num; linarith, by norm_num; linarith, ?_⟩
  obtain ⟨t, et, ht⟩ := lit_near 0.3 (by rw [abs_of_pos] <;> norm_num)
  rw [show (0.3 : F64) = F64.ofReal 0.3 from rfl, et]
  show (0 : ℝ) < t.1
  obtain ⟨t1, t2⟩ := abs_le.1 ht
  norm_num at t1; linarith

end Verif
