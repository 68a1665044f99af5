import Verif.Props.Accuracy
import Verif.Props.Phase
import Verif.Props.Strategy
import Verif.Props.PhaseConv
import Verif.Lemmas.Pi

/-!
# C134-C137: how accurate wrapping, differences and nudges are

Phases in doubles compared with exact angles on the circle, up to whole swarms that are nudged again and again.
-/

set_option autoImplicit false
set_option linter.unusedSectionVars false

namespace Verif
variable [Rounding] [LibM]
open Rounding GoMath Spec

namespace Spec

/-- The angles `a` and `b` are at most `e` apart on the circle. -/
def Near (a b e : ℝ) : Prop := ∃ k : ℤ, |a - b + k * (2 * Real.pi)| ≤ e

/-- The library's arc tangent of the doubles `y`, `x` is within `ε` of the angle of the point `(x, y)`. -/
def AtanWithin (ε : ℝ) (y x : Dbl) : Prop :=
  ∃ d : Dbl, LibM.atan2 y x = .fin d ∧ Near d.1 (Complex.arg ⟨x.1, y.1⟩) ε

/-- The library is accurate to `ε`: sine and cosine everywhere, the arc tangent at the sine and cosine of an angle. -/
structure Accurate (ε : ℝ) : Prop where
  trig : ∀ d : Dbl, TrigWithin ε d
  atan : ∀ d : Dbl, AtanWithin ε (LibM.sin d) (LibM.cos d)

end Spec

omit [Rounding] [LibM] in
theorem Spec.Near.trans {a b c e f : ℝ} (h : Near a b e) (h' : Near b c f) : Near a c (e + f) := by
  obtain ⟨k, hk⟩ := h
  obtain ⟨l, hl⟩ := h'
  refine ⟨k + l, ?_⟩
  have : a - c + ((k + l : ℤ) : ℝ) * (2 * Real.pi) = (a - b + k * (2 * Real.pi)) + (b - c + l * (2 * Real.pi)) := by
    push_cast; ring
  rw [this]
  exact (abs_add_le _ _).trans (add_le_add hk hl)

omit [Rounding] [LibM] in
theorem Spec.Near.mono {a b e f : ℝ} (h : Near a b e) (hef : e ≤ f) : Near a b f := by
  obtain ⟨k, hk⟩ := h
  exact ⟨k, hk.trans hef⟩

omit [Rounding] [LibM] in
theorem Spec.Near.symm {a b e : ℝ} (h : Near a b e) : Near b a e := by
  obtain ⟨k, hk⟩ := h
  refine ⟨-k, ?_⟩
  rw [← abs_neg]
  refine le_trans (le_of_eq ?_) hk
  congr 1; push_cast; ring

omit [Rounding] [LibM] in
theorem Spec.Near.of_abs {a b e : ℝ} (h : |a - b| ≤ e) : Near a b e := ⟨0, by simpa using h⟩

omit [Rounding] [LibM] in
/-- Within `e` on the circle means that the distance on the circle is at most `e`. -/
theorem near_iff {a b e d : ℝ} (h : IsCircDist a b d) : Near a b e ↔ d ≤ e := by
  constructor
  · rintro ⟨k, hk⟩; exact (h.2 k).trans hk
  · intro hd
    obtain ⟨k, hk⟩ := h.1
    exact ⟨k, hk ▸ hd⟩

omit [LibM] in
theorem tau_near : |2 * Real.pi - F64.tau.1| ≤ 7 * ulp := by
  have hp := Real.pi_lt_d2
  have hp0 := Real.pi_pos
  have h : |rnd (2 * Real.pi) - 2 * Real.pi| ≤ ulp * |2 * Real.pi| + eta := rnd_err (small_lt_1023 (by
    rw [abs_of_pos (by linarith)]
    have : (8 : ℝ) ≤ 2 ^ (200 : ℤ) := by norm_num
    linarith))
  rw [abs_sub_comm] at h
  change |2 * Real.pi - rnd (2 * Real.pi)| ≤ _
  rw [abs_of_pos (by linarith : 0 < 2 * Real.pi)] at h
  have := eta_le_ulp
  have u0 := ulp_pos
  nlinarith

/-- A double within `e` of the exact sum of whole turns of the code's `2π`. -/
theorem wrap_turns (x : Dbl) : ∃ (r : Dbl) (k : ℤ), wrapPhase (F64.fin x) = .fin r ∧ 0 ≤ r.1 ∧ r.1 < F64.tau.1 ∧
    |(k : ℝ)| ≤ |x.1| / 6 + 1 ∧ |r.1 - (x.1 + k * F64.tau.1)| ≤ 15 * ulp := by
  have ht := F64.tau_bounds
  have ht0 : F64.tau.1 ≠ 0 := by linarith [ht.1] |> fun h : 0 < F64.tau.1 => h.ne'
  obtain ⟨r, er, r0, r1⟩ := C01_wrapPhase_double (F64.fin x)
  refine ⟨r, ?_⟩
  rw [er]
  have hm := (isDouble_mod x.2 F64.tau.2 ht0).2
  rw [abs_of_pos (by linarith [ht.1] : 0 < F64.tau.1), abs_lt] at hm
  set j := rtrunc (x.1 / F64.tau.1) with hj
  set s := x.1 - F64.tau.1 * j + F64.tau.1 with hs
  have s0 : 0 ≤ s := by linarith [hm.1]
  have s1 : s ≤ 2 * F64.tau.1 := by linarith [hm.2]
  obtain ⟨y, ey, hy⟩ := F64.ofReal_err (x := s) (small_lt_1023 (by
    rw [abs_of_nonneg s0]
    have : (14 : ℝ) ≤ 2 ^ (200 : ℤ) := by norm_num
    linarith))
  obtain ⟨y', hy', e', y0, y1⟩ := F64.ofReal_between (x := s) isDouble_zero
    (show IsDouble (2 * F64.tau.1) from
      ⟨884279719003555, -46, by norm_num, by norm_num, by norm_num, by rw [F64.tau_eq]; unfold piDouble; norm_num⟩) s0 s1
  rw [ey] at e'
  have yy : y.1 = y' := by rw [F64.fin.inj e']
  rw [abs_of_nonneg s0] at hy
  unfold wrapPhase at er
  rw [F64.piMul_two, F64.mod_fin _ _ ht0, F64.add_fin] at er
  dsimp only at er
  rw [← hj, ← hs, ey, F64.mod_fin _ _ ht0] at er
  have er' := F64.fin.inj er
  have rv : r.1 = y.1 - F64.tau.1 * rtrunc (y.1 / F64.tau.1) := by rw [← er']
  set i := rtrunc (y.1 / F64.tau.1) with hi
  have tp : 0 < F64.tau.1 := by linarith [ht.1]
  have hjabs : |(j : ℝ)| ≤ |x.1| / 6 := by
    have h1 : |(j : ℝ)| ≤ |x.1 / F64.tau.1| := by
      rw [hj]; unfold rtrunc
      split_ifs with h
      · have := Int.floor_nonneg.2 h
        rw [abs_of_nonneg (by exact_mod_cast this), abs_of_nonneg h]
        exact Int.floor_le _
      · have h := (not_le.1 h).le
        have h2 : ⌈x.1 / F64.tau.1⌉ ≤ 0 := Int.ceil_le.2 (by simpa using h)
        rw [abs_of_nonpos (by exact_mod_cast h2), abs_of_nonpos h]
        linarith [Int.le_ceil (x.1 / F64.tau.1)]
    refine h1.trans ?_
    rw [abs_div, abs_of_pos tp]
    exact div_le_div_of_nonneg_left (abs_nonneg _) (by norm_num) ht.1
  have i0 : 0 ≤ i := by
    rw [hi]; unfold rtrunc
    rw [if_pos (div_nonneg (by rw [yy]; exact y0) tp.le)]
    exact Int.floor_nonneg.2 (div_nonneg (by rw [yy]; exact y0) tp.le)
  have i2 : i ≤ 2 := by
    by_contra hc
    have : (3 : ℝ) ≤ i := by exact_mod_cast (by omega : 3 ≤ i)
    have : F64.tau.1 * 3 ≤ F64.tau.1 * i := mul_le_mul_of_nonneg_left this tp.le
    linarith [yy ▸ y1]
  refine ⟨1 - j - i, rfl, r0, r1, ?_, ?_⟩
  · have h1 : |((1 - i : ℤ) : ℝ)| ≤ 1 := by
      rw [abs_le]; constructor
      · exact_mod_cast (by omega : (-1 : ℤ) ≤ 1 - i)
      · exact_mod_cast (by omega : (1 - i : ℤ) ≤ 1)
    have : ((1 - j - i : ℤ) : ℝ) = ((1 - i : ℤ) : ℝ) - (j : ℝ) := by push_cast; ring
    rw [this]
    have := abs_sub ((1 - i : ℤ) : ℝ) (j : ℝ)
    linarith
  · have : r.1 - (x.1 + ((1 - j - i : ℤ) : ℝ) * F64.tau.1) = y.1 - s := by rw [rv, hs]; push_cast; ring
    rw [this]
    have h3 : ulp * s ≤ ulp * 14 := mul_le_mul_of_nonneg_left (by linarith) ulp_pos.le
    have := eta_le_ulp
    have := ulp_pos
    linarith

/-- **C134.** Wrapping a finite double gives a double in `[0, 2π)` that is the same angle up to `(2|x| + 22)·2^-53`: at
most `4·10^-15` for a phase within two turns. The error grows with `|x|` because the code's `2π` is not exactly `2π`. -/
theorem C134_wrap (x : Dbl) : ∃ r : Dbl, wrapPhase (F64.fin x) = .fin r ∧ 0 ≤ r.1 ∧ r.1 < 2 * Real.pi ∧
    Near r.1 x.1 ((2 * |x.1| + 22) * 2 ^ (-53 : ℤ)) := by
  obtain ⟨r, k, er, r0, r1, hk, h⟩ := wrap_turns x
  refine ⟨r, er, r0, ?_, -k, ?_⟩
  · have := piDouble_lt_pi
    rw [F64.tau_eq] at r1
    linarith
  · change _ ≤ (2 * |x.1| + 22) * ulp
    have e : r.1 - x.1 + ((-k : ℤ) : ℝ) * (2 * Real.pi) = (r.1 - (x.1 + k * F64.tau.1)) - k * (2 * Real.pi - F64.tau.1) := by
      push_cast; ring
    rw [e]
    refine (abs_sub _ _).trans ?_
    rw [abs_mul]
    have h1 : |(k : ℝ)| * |2 * Real.pi - F64.tau.1| ≤ (|x.1| / 6 + 1) * (7 * ulp) :=
      mul_le_mul hk tau_near (abs_nonneg _) (by positivity)
    have h2 : 0 ≤ |x.1| * ulp := mul_nonneg (abs_nonneg _) ulp_pos.le
    nlinarith

omit [Rounding] [LibM] in
/-- Nearby points of the unit circle have nearby angles. -/
theorem near_of_chord {a b c : ℝ} (h : ‖Complex.exp (a * Complex.I) - Complex.exp (b * Complex.I)‖ ≤ c) :
    Near a b (Real.pi / 2 * c) := by
  have hp := Real.pi_pos
  obtain ⟨k, hk⟩ : ∃ k : ℤ, |a - b + k * (2 * Real.pi)| ≤ Real.pi := by
    refine ⟨-round ((a - b) / (2 * Real.pi)), ?_⟩
    have h1 := abs_sub_round ((a - b) / (2 * Real.pi))
    have e : a - b + ((-round ((a - b) / (2 * Real.pi)) : ℤ) : ℝ) * (2 * Real.pi) =
        ((a - b) / (2 * Real.pi) - round ((a - b) / (2 * Real.pi))) * (2 * Real.pi) := by
      push_cast; field_simp; ring
    rw [e, abs_mul, abs_of_pos (by linarith : 0 < 2 * Real.pi)]
    nlinarith
  refine ⟨k, ?_⟩
  set x := a - b + k * (2 * Real.pi) with hx
  have e1 : Complex.exp (a * Complex.I) - Complex.exp (b * Complex.I) =
      Complex.exp (b * Complex.I) * (Complex.exp (Complex.I * x) - 1) := by
    rw [mul_sub, mul_one, ← Complex.exp_add]
    congr 1
    have : (b : ℂ) * Complex.I + Complex.I * x = a * Complex.I + k * (2 * Real.pi * Complex.I) := by
      rw [hx]; push_cast; ring
    rw [this, Complex.exp_add, Complex.exp_int_mul_two_pi_mul_I, mul_one]
  rw [e1, norm_mul, Complex.norm_exp_ofReal_mul_I, one_mul, Complex.norm_exp_I_mul_ofReal_sub_one, Real.norm_eq_abs,
    abs_mul, abs_two] at h
  have h2 := Real.mul_abs_le_abs_sin (x := x / 2) (by rw [abs_div, abs_two]; linarith)
  rw [abs_div, abs_two] at h2
  have h3 : 2 / Real.pi * |x| ≤ c := by linarith
  have h4 : |x| = Real.pi / 2 * (2 / Real.pi * |x|) := by field_simp
  rw [h4]
  exact mul_le_mul_of_nonneg_left h3 (by linarith)

omit [Rounding] [LibM] in
/-- The angle of a point near the point at angle `t` of the unit circle. -/
theorem arg_near {x y t ε : ℝ} (hx : |x - Real.cos t| ≤ ε) (hy : |y - Real.sin t| ≤ ε) :
    Near (Complex.arg ⟨x, y⟩) t (5 * ε) := by
  have hE : 0 ≤ ε := (abs_nonneg _).trans hx
  set z : ℂ := ⟨x, y⟩ with hz
  set w : ℂ := Complex.exp (t * Complex.I) with hw
  have hw' : w = ⟨Real.cos t, Real.sin t⟩ := by
    rw [hw, Complex.exp_mul_I]
    apply Complex.ext
    · simp [Complex.cos_ofReal_re]
    · simp [Complex.sin_ofReal_re]
  have wn : ‖w‖ = 1 := Complex.norm_exp_ofReal_mul_I t
  have hzw : ‖z - w‖ ≤ 3 / 2 * ε := by
    have : z - w = ⟨x - Real.cos t, y - Real.sin t⟩ := by rw [hz, hw']; apply Complex.ext <;> simp
    rw [this, Complex.norm_def, Complex.normSq_mk]
    refine Real.sqrt_le_iff.2 ⟨by linarith, ?_⟩
    have q1 := mul_self_le_mul_self (abs_nonneg _) hx
    have q2 := mul_self_le_mul_self (abs_nonneg _) hy
    rw [abs_mul_abs_self] at q1 q2
    nlinarith
  have hn : |‖z‖ - 1| ≤ 3 / 2 * ε := by rw [← wn]; exact (abs_norm_sub_norm_le z w).trans hzw
  have e : z = ‖z‖ * Complex.exp (Complex.arg z * Complex.I) := (Complex.norm_mul_exp_arg_mul_I z).symm
  have h1 : ‖Complex.exp (Complex.arg z * Complex.I) - w‖ ≤ 3 * ε := by
    have h2 : ‖Complex.exp (Complex.arg z * Complex.I) - z‖ = |‖z‖ - 1| := by
      nth_rw 2 [e]
      rw [show Complex.exp (Complex.arg z * Complex.I) - ‖z‖ * Complex.exp (Complex.arg z * Complex.I) =
        ((1 - ‖z‖ : ℝ) : ℂ) * Complex.exp (Complex.arg z * Complex.I) by push_cast; ring, norm_mul,
        Complex.norm_exp_ofReal_mul_I, mul_one, Complex.norm_real, Real.norm_eq_abs, abs_sub_comm]
    have h3 := norm_sub_le_norm_sub_add_norm_sub (Complex.exp (Complex.arg z * Complex.I)) z w
    linarith
  refine (near_of_chord h1).mono ?_
  have := Real.pi_lt_d2
  nlinarith

/-- **C135.** In doubles, away from the two hard-wired pairs, the phase difference of two phases within two turns is a
number of magnitude at most π that is the exact difference of the angles up to `6ε + 29·2^-53`, where `ε` is the
accuracy of the library. -/
theorem C135_difference (ε : ℝ) (hl : Accurate ε) (t p : Dbl) (ht : |t.1| ≤ 14) (hp : |p.1| ≤ 14)
    (hs : ¬ (GoMath.abs (F64.fin t) < (1e-10 : F64) ∧ GoMath.abs (F64.fin p - piMul (3 / 2)) < (1e-10 : F64)) ∧
      ¬ (GoMath.abs (F64.fin t - piMul (3 / 2)) < (1e-10 : F64) ∧ GoMath.abs (F64.fin p) < (1e-10 : F64))) :
    ∃ D : Dbl, phaseDifference (F64.fin t) (.fin p) = .fin D ∧ |D.1| ≤ Real.pi ∧
      Near D.1 (t.1 - p.1) (6 * ε + 29 * 2 ^ (-53 : ℤ)) := by
  have hb : |t.1 - p.1| ≤ 28 := (abs_sub _ _).trans (by linarith)
  obtain ⟨d, ed, hd⟩ := F64.ofReal_err (x := t.1 - p.1) (small_lt_1023 (by
    have : (28 : ℝ) ≤ 2 ^ (200 : ℤ) := by norm_num
    linarith))
  obtain ⟨D, eD, hD⟩ := hl.atan d
  obtain ⟨D', eD', hD'⟩ := LibM.atan2_le (LibM.sin d) (LibM.cos d)
  have : D = D' := by rw [eD] at eD'; exact F64.fin.inj eD'
  subst this
  refine ⟨D, ?_, hD', ?_⟩
  · unfold phaseDifference
    dsimp only
    rw [if_neg hs.1, if_neg hs.2, F64.sub_fin, ed]
    exact eD
  · obtain ⟨h1, h2⟩ := hl.trig d
    have h3 := arg_near h2 h1
    have h4 : Near d.1 (t.1 - p.1) (29 * 2 ^ (-53 : ℤ)) := by
      refine Near.of_abs (hd.trans ?_)
      change _ ≤ 29 * ulp
      have := mul_le_mul_of_nonneg_left hb ulp_pos.le
      have := eta_le_ulp
      have := ulp_pos
      linarith
    exact ((hD.trans h3).trans h4).mono (by linarith)

/-- The phase after one phase nudge in doubles (as `nudgeStep`, the phase-changing branch of `ApplyAction`,
emerge/agent/agent.go:451-462). -/
noncomputable def nudgeDouble (rate : F64) (tgt : State F64) (ctx : Context F64) (p : F64) : F64 :=
  wrapPhase (p + (phaseNudgePropose rate ⟨p, 0, 0⟩ tgt ctx).1.value)

/-- It is what a successful `ApplyAction` of the proposal does to the agent. -/
theorem nudgeDouble_apply (rate : F64) (a : Agent F64) (tgt : State F64) (ctx : Context F64) (f : ℤ) (c : F64)
    (he : ¬ (phaseNudgePropose rate ⟨a.state.phase, f, c⟩ tgt ctx).1.cost > a.state.energy) :
    (a.applyAction (phaseNudgePropose rate ⟨a.state.phase, f, c⟩ tgt ctx).1).2.state.phase =
      nudgeDouble rate tgt ctx a.state.phase := by
  unfold Agent.applyAction
  rw [if_neg he]
  rfl

/-- The error of one nudge. -/
noncomputable def Spec.nudgeError (ε : ℝ) : ℝ := 12 * ε + 145 * 2 ^ (-53 : ℤ)

omit [Rounding] [LibM] in
/-- A number of magnitude at most π is no further from 0 than any number at the same angle. -/
theorem abs_le_of_near {D x e d : ℝ} (hD : |D| ≤ Real.pi) (h : Near D x e) (hx : Near x 0 d) : |D| ≤ d + e := by
  obtain ⟨k, hk⟩ := h.trans hx
  rw [sub_zero] at hk
  have hp := Real.pi_pos
  obtain ⟨d1, d2⟩ := abs_le.1 hD
  rcases eq_or_ne k 0 with rfl | h0
  · have : |D| ≤ e + d := by simpa using hk
    linarith
  · rcases lt_or_gt_of_ne h0 with h1 | h1
    · have : (k : ℝ) ≤ -1 := by exact_mod_cast (by omega : k ≤ -1)
      have h2 := (abs_le.1 hk).1
      have : |D| ≤ Real.pi := hD
      nlinarith
    · have : (1 : ℝ) ≤ k := by exact_mod_cast (by omega : 1 ≤ k)
      have h2 := (abs_le.1 hk).2
      nlinarith

/-- **C136.** One phase nudge in doubles: an agent at most `e` away from its target is afterwards at most
`(1-r)·e + 12ε + 145·2^-53` away from it. -/
theorem C136_nudge (ε : ℝ) (hl : Accurate ε) (r t p : Dbl) (r0 : 0 ≤ r.1) (r1 : r.1 ≤ 1)
    (ht : |t.1| ≤ 14) (hp : |p.1| ≤ 14) (f : ℤ) (c : F64) (ctx : Context F64)
    (hs : ¬ (GoMath.abs (F64.fin t) < (1e-10 : F64) ∧ GoMath.abs (F64.fin p - piMul (3 / 2)) < (1e-10 : F64)) ∧
      ¬ (GoMath.abs (F64.fin t - piMul (3 / 2)) < (1e-10 : F64) ∧ GoMath.abs (F64.fin p) < (1e-10 : F64)))
    (e : ℝ) (he : Near t.1 p.1 e) :
    ∃ q : Dbl, nudgeDouble (.fin r) ⟨.fin t, f, c⟩ ctx (.fin p) = .fin q ∧ 0 ≤ q.1 ∧ q.1 < 2 * Real.pi ∧
      Near t.1 q.1 ((1 - r.1) * e + nudgeError ε) := by
  obtain ⟨D, eD, hD, hDn⟩ := C135_difference ε hl t p ht hp hs
  have hpi := Real.pi_lt_d2
  have u0 := ulp_pos
  have eu := eta_le_ulp
  have hm : |D.1 * r.1| ≤ 4 := by
    rw [abs_mul, abs_of_nonneg r0]
    nlinarith [abs_nonneg D.1]
  obtain ⟨m, em, hme⟩ := F64.ofReal_err (x := D.1 * r.1) (small_lt_1023 (by
    have : (4 : ℝ) ≤ 2 ^ (200 : ℤ) := by norm_num
    linarith))
  have hmu := mul_le_mul_of_nonneg_left hm u0.le
  have us := ulp_small
  have hm5 : |m.1| ≤ 5 := by
    have : |m.1| ≤ |m.1 - D.1 * r.1| + |D.1 * r.1| := by
      have := abs_add_le (m.1 - D.1 * r.1) (D.1 * r.1); rwa [sub_add_cancel] at this
    linarith
  have hs19 : |p.1 + m.1| ≤ 19 := (abs_add_le _ _).trans (by linarith)
  obtain ⟨s, es, hse⟩ := F64.ofReal_err (x := p.1 + m.1) (small_lt_1023 (by
    have : (19 : ℝ) ≤ 2 ^ (200 : ℤ) := by norm_num
    linarith))
  have hsu := mul_le_mul_of_nonneg_left hs19 u0.le
  have hs20 : |s.1| ≤ 20 := by
    have : |s.1| ≤ |s.1 - (p.1 + m.1)| + |p.1 + m.1| := by
      have := abs_add_le (s.1 - (p.1 + m.1)) (p.1 + m.1); rwa [sub_add_cancel] at this
    linarith
  obtain ⟨q, eq, q0, q1, hq⟩ := C134_wrap s
  refine ⟨q, ?_, q0, q1, ?_⟩
  · unfold nudgeDouble phaseNudgePropose
    dsimp only
    rw [eD, F64.mul_fin, em, F64.add_fin, es, eq]
  · have hDe : |D.1| ≤ e + (6 * ε + 29 * 2 ^ (-53 : ℤ)) := by
      refine abs_le_of_near hD hDn ?_
      obtain ⟨k, hk⟩ := he
      exact ⟨k, by rw [sub_zero]; exact hk⟩
    change |D.1| ≤ e + (6 * ε + 29 * ulp) at hDe
    change Near D.1 (t.1 - p.1) (6 * ε + 29 * ulp) at hDn
    change Near q.1 s.1 ((2 * |s.1| + 22) * ulp) at hq
    -- from the target to the exact new position
    have h1 : Near t.1 (p.1 + D.1 * r.1) ((1 - r.1) * |D.1| + (6 * ε + 29 * ulp)) := by
      have a1 : Near t.1 (p.1 + D.1) (6 * ε + 29 * ulp) := by
        obtain ⟨k, hk⟩ := hDn.symm
        exact ⟨k, by rwa [show t.1 - (p.1 + D.1) = t.1 - p.1 - D.1 by ring]⟩
      have a2 : Near (p.1 + D.1) (p.1 + D.1 * r.1) ((1 - r.1) * |D.1|) := by
        refine Near.of_abs (le_of_eq ?_)
        rw [show p.1 + D.1 - (p.1 + D.1 * r.1) = (1 - r.1) * D.1 by ring, abs_mul, abs_of_nonneg (by linarith)]
      exact (a1.trans a2).mono (by linarith)
    have h2 : Near (p.1 + D.1 * r.1) (p.1 + m.1) (5 * ulp) := by
      refine Near.of_abs ?_
      rw [show p.1 + D.1 * r.1 - (p.1 + m.1) = -(m.1 - D.1 * r.1) by ring, abs_neg]
      linarith
    have h3 : Near (p.1 + m.1) s.1 (20 * ulp) := by
      refine Near.of_abs ?_
      rw [abs_sub_comm]; linarith
    have h4 : Near s.1 q.1 (62 * ulp) := hq.symm.mono (by nlinarith)
    refine (((h1.trans h2).trans h3).trans h4).mono ?_
    unfold nudgeError
    change _ ≤ (1 - r.1) * e + (12 * ε + 145 * ulp)
    have h5 : (1 - r.1) * |D.1| ≤ (1 - r.1) * (e + (6 * ε + 29 * ulp)) := mul_le_mul_of_nonneg_left hDe (by linarith)
    have hE : 0 ≤ ε := (abs_nonneg _).trans (hl.trig r).1
    have h6 : 0 ≤ r.1 * (6 * ε + 29 * ulp) := mul_nonneg r0 (by linarith)
    nlinarith

theorem nudge_run (ε : ℝ) (hl : Accurate ε) (r t p : Dbl) (r0 : 0 < r.1) (r1 : r.1 ≤ 1)
    (ht : |t.1| ≤ 14) (hp : |p.1| ≤ 14) (f : ℤ) (c : F64) (ctx : Context F64)
    (hs0 : ¬ GoMath.abs (F64.fin t) < (1e-10 : F64)) (hs1 : ¬ GoMath.abs (F64.fin t - piMul (3 / 2)) < (1e-10 : F64))
    (e : ℝ) (he : Near t.1 p.1 e) (n : ℕ) :
    ∃ q : Dbl, (nudgeDouble (.fin r) ⟨.fin t, f, c⟩ ctx)^[n] (.fin p) = .fin q ∧ |q.1| ≤ 14 ∧
      Near t.1 q.1 ((1 - r.1) ^ n * e + nudgeError ε * ((1 - (1 - r.1) ^ n) / r.1)) := by
  induction n generalizing p e with
  | zero => exact ⟨p, rfl, hp, he.mono (by simp)⟩
  | succ n ih =>
    obtain ⟨q, eq, q0, q1, hq⟩ := C136_nudge ε hl r t p r0.le r1 ht hp f c ctx
      ⟨fun h => hs0 h.1, fun h => hs1 h.1⟩ e he
    have hpi := Real.pi_lt_d2
    have q14 : |q.1| ≤ 14 := by rw [abs_of_nonneg q0]; linarith
    obtain ⟨q', eq', h14, hq'⟩ := ih q q14 _ hq
    refine ⟨q', by rw [Function.iterate_succ_apply, eq]; exact eq', h14, hq'.mono (le_of_eq ?_)⟩
    have := r0.ne'
    field_simp
    ring

/-- **C136** Repeated nudges in doubles: after `n` of them the agent is within `(1-r)^n·e + (12ε + 145·2^-53)/r` of its
target. The target is away from the two hard-wired pairs. -/
theorem C136_converges (ε : ℝ) (hl : Accurate ε) (r t p : Dbl) (r0 : 0 < r.1) (r1 : r.1 ≤ 1)
    (ht : |t.1| ≤ 14) (hp : |p.1| ≤ 14) (f : ℤ) (c : F64) (ctx : Context F64)
    (hs0 : ¬ GoMath.abs (F64.fin t) < (1e-10 : F64)) (hs1 : ¬ GoMath.abs (F64.fin t - piMul (3 / 2)) < (1e-10 : F64))
    (e : ℝ) (he : Near t.1 p.1 e) (n : ℕ) :
    ∃ q : Dbl, (nudgeDouble (.fin r) ⟨.fin t, f, c⟩ ctx)^[n] (.fin p) = .fin q ∧
      Near t.1 q.1 ((1 - r.1) ^ n * e + nudgeError ε / r.1) := by
  obtain ⟨q, eq, -, hq⟩ := nudge_run ε hl r t p r0 r1 ht hp f c ctx hs0 hs1 e he n
  refine ⟨q, eq, hq.mono ?_⟩
  have hE : 0 ≤ ε := (abs_nonneg _).trans (hl.trig r).1
  have hN : 0 ≤ nudgeError ε := by unfold nudgeError; positivity
  have h1 : (1 - (1 - r.1) ^ n) / r.1 ≤ 1 / r.1 :=
    div_le_div_of_nonneg_right (by linarith [pow_nonneg (by linarith : 0 ≤ 1 - r.1) n]) r0.le
  have := mul_le_mul_of_nonneg_left h1 hN
  rw [mul_one_div] at this
  linarith

/-- **C136** The nudges end near the target: for every margin beyond the error there is a number of nudges after which
the agent stays within it, from wherever it started. -/
theorem C136_eventually (ε : ℝ) (hl : Accurate ε) (r t : Dbl) (r0 : 0 < r.1) (r1 : r.1 ≤ 1)
    (ht : |t.1| ≤ 14) (hs0 : ¬ GoMath.abs (F64.fin t) < (1e-10 : F64))
    (hs1 : ¬ GoMath.abs (F64.fin t - piMul (3 / 2)) < (1e-10 : F64)) (δ : ℝ) (hδ : 0 < δ) :
    ∃ N : ℕ, ∀ n ≥ N, ∀ (p : Dbl) (f : ℤ) (c : F64) (ctx : Context F64), |p.1| ≤ 14 →
      ∃ q : Dbl, (nudgeDouble (.fin r) ⟨.fin t, f, c⟩ ctx)^[n] (.fin p) = .fin q ∧
        Near t.1 q.1 (nudgeError ε / r.1 + δ) := by
  obtain ⟨N, hN⟩ := exists_pow_lt_of_lt_one (y := 1 - r.1) (by positivity : 0 < δ / 28) (by linarith)
  refine ⟨N, fun n hn p f c ctx hp => ?_⟩
  have he : Near t.1 p.1 28 := Near.of_abs ((abs_sub _ _).trans (by linarith))
  obtain ⟨q, eq, hq⟩ := C136_converges ε hl r t p r0 r1 ht hp f c ctx hs0 hs1 28 he n
  refine ⟨q, eq, hq.mono ?_⟩
  have h1 : (1 - r.1) ^ n ≤ (1 - r.1) ^ N := pow_le_pow_of_le_one (by linarith) (by linarith) hn
  linarith

omit [Rounding] [LibM] in
/-- Angles within `δ` of a common one are coherent: the order parameter is at least `1 - δ²/2`. -/
theorem orderParameter_of_near (ps : List ℝ) (h0 : ps ≠ []) (t δ : ℝ) (h : ∀ p ∈ ps, Near t p δ) :
    1 - δ ^ 2 / 2 ≤ orderParameter ps := by
  have hn : (0 : ℝ) < ps.length := by
    have : ps.length ≠ 0 := fun h => h0 (List.length_eq_zero_iff.1 h)
    exact_mod_cast Nat.pos_of_ne_zero this
  unfold orderParameter
  rw [le_div_iff₀ hn]
  have key : ∀ l : List ℝ, (∀ p ∈ l, Near t p δ) →
      (1 - δ ^ 2 / 2) * l.length ≤ ((l.map fun p : ℝ => Complex.exp (p * Complex.I)).sum * Complex.exp (-t * Complex.I)).re := by
    intro l
    induction l with
    | nil => simp
    | cons p l ih =>
      intro hl
      have h1 := ih fun q hq => hl q (List.mem_cons_of_mem _ hq)
      have h2 : 1 - δ ^ 2 / 2 ≤ (Complex.exp (p * Complex.I) * Complex.exp (-t * Complex.I)).re := by
        rw [← Complex.exp_add, show (p : ℂ) * Complex.I + -t * Complex.I = ((p - t : ℝ) : ℂ) * Complex.I by push_cast; ring,
          Complex.exp_ofReal_mul_I_re]
        obtain ⟨k, hk⟩ := hl p List.mem_cons_self
        have e : Real.cos (p - t) = Real.cos (t - p + k * (2 * Real.pi)) := by
          rw [Real.cos_add_int_mul_two_pi, ← Real.cos_neg]; congr 1; ring
        rw [e]
        have h3 := Real.one_sub_sq_div_two_le_cos (x := t - p + k * (2 * Real.pi))
        have h4 : (t - p + k * (2 * Real.pi)) ^ 2 ≤ δ ^ 2 := sq_le_sq' (by linarith [(abs_le.1 hk).1]) (abs_le.1 hk).2
        linarith
      rw [List.map_cons, List.sum_cons, add_mul, Complex.add_re, List.length_cons]
      push_cast
      linarith
  refine (key ps h).trans ((Complex.re_le_norm _).trans ?_)
  rw [norm_mul, show (-t : ℂ) = ((-t : ℝ) : ℂ) by push_cast; ring, Complex.norm_exp_ofReal_mul_I, mul_one]

/-- **C137.** Agents within `δ` of a common angle: the coherence computed in doubles is at least `1 - δ²/2` minus the
error of the computation. -/
theorem C137_measured (ε : ℝ) (ds : List Dbl) (hε : ∀ d ∈ ds, TrigWithin ε d) (hn : ds.length < 2 ^ 53) (h0 : ds ≠ [])
    (t δ : ℝ) (h : ∀ d ∈ ds, Near t d.1 δ) :
    ∃ z : Dbl, measureCoherence (ds.map F64.fin) = .fin z ∧ 1 - δ ^ 2 / 2 - coherenceError ε ds.length ≤ z.1 := by
  obtain ⟨z, ez, -, hz⟩ := C133_accurate ε ds hε hn h0
  have h1 := orderParameter_of_near (ds.map Subtype.val) (fun hc => h0 (List.map_eq_nil_iff.1 hc)) t δ
    (fun p hp => by obtain ⟨d, hd, rfl⟩ := List.mem_map.1 hp; exact h d hd)
  exact ⟨z, ez, by linarith [(abs_le.1 hz).1]⟩

/-- **C137** A whole swarm in doubles: every agent, wherever it starts, is nudged `n` times towards the same target; the
coherence measured afterwards is at least `1 - δ²/2` minus the error of the measurement, with
`δ = 28·(1-r)^n + (12ε + 145·2^-53)/r`. -/
theorem C137_swarm (ε : ℝ) (hl : Accurate ε) (r t : Dbl) (r0 : 0 < r.1) (r1 : r.1 ≤ 1) (ht : |t.1| ≤ 14)
    (hs0 : ¬ GoMath.abs (F64.fin t) < (1e-10 : F64)) (hs1 : ¬ GoMath.abs (F64.fin t - piMul (3 / 2)) < (1e-10 : F64))
    (f : ℤ) (c : F64) (ctx : Context F64) (ps : List Dbl) (hp : ∀ p ∈ ps, |p.1| ≤ 14) (hn : ps.length < 2 ^ 53)
    (h0 : ps ≠ []) (n : ℕ) :
    ∃ z : Dbl, measureCoherence (ps.map fun p => (nudgeDouble (.fin r) ⟨.fin t, f, c⟩ ctx)^[n] (.fin p)) = .fin z ∧
      1 - (28 * (1 - r.1) ^ n + nudgeError ε / r.1) ^ 2 / 2 - coherenceError ε ps.length ≤ z.1 := by
  have step : ∀ l : List Dbl, (∀ p ∈ l, |p.1| ≤ 14) → ∃ qs : List Dbl,
      (l.map fun p => (nudgeDouble (.fin r) ⟨.fin t, f, c⟩ ctx)^[n] (.fin p)) = qs.map F64.fin ∧ qs.length = l.length ∧
      ∀ q ∈ qs, Near t.1 q.1 (28 * (1 - r.1) ^ n + nudgeError ε / r.1) := by
    intro l
    induction l with
    | nil => exact fun _ => ⟨[], rfl, rfl, by simp⟩
    | cons p l ih =>
      intro h
      obtain ⟨qs, e, el, hq⟩ := ih fun x hx => h x (List.mem_cons_of_mem _ hx)
      obtain ⟨q, eq, hq'⟩ := C136_converges ε hl r t p r0 r1 ht (h p List.mem_cons_self) f c ctx hs0 hs1 28
        (Near.of_abs ((abs_sub _ _).trans (by linarith [h p List.mem_cons_self]))) n
      refine ⟨q :: qs, by rw [List.map_cons, eq, e, List.map_cons], by simp [el], ?_⟩
      intro x hx
      rcases List.mem_cons.1 hx with rfl | hx
      · exact hq'.mono (by linarith)
      · exact hq x hx
  obtain ⟨qs, e, el, hq⟩ := step ps hp
  rw [e, ← el]
  exact C137_measured ε qs (fun d _ => hl.trig d) (el ▸ hn) (fun h => h0 (by rw [h] at el; exact List.length_eq_zero_iff.1 el.symm)) t.1 _ hq

omit [LibM] in
/-- The correctly rounded library is accurate to `2^-51`. -/
theorem accurate_rounded : @Accurate LibM.rounded ((2 : ℝ) ^ (-51 : ℤ)) := by
  let := LibM.rounded
  have h3 : (2 : ℝ) ^ (-51 : ℤ) = 4 * ulp := by
    unfold ulp; rw [show (-51 : ℤ) = 2 + -53 by norm_num, zpow_add₀ (by norm_num)]; norm_num
  have u0 := ulp_pos
  refine ⟨fun d => ?_, fun d => ?_⟩
  · have h := trigWithin_rounded d
    have h4 : (2 : ℝ) ^ (-52 : ℤ) ≤ 2 ^ (-51 : ℤ) := zpow_le_zpow_right₀ (by norm_num) (by norm_num)
    exact ⟨h.1.trans h4, h.2.trans h4⟩
  · refine ⟨_, rfl, Near.of_abs ?_⟩
    set a := Complex.arg ⟨(LibM.cos d).1, (LibM.sin d).1⟩ with ha
    have h1 : |a| ≤ Real.pi := Complex.abs_arg_le_pi _
    have hp := Real.pi_lt_d2
    have h2 := signedRnd_err (x := a) (small_lt_1023 (by
      have : (4 : ℝ) ≤ 2 ^ (200 : ℤ) := by norm_num
      linarith))
    have h5 := mul_le_mul_of_nonneg_left h1 u0.le
    have := eta_le_ulp
    rw [h3]
    refine h2.trans ?_
    nlinarith

/-- One radian is away from the two hard-wired pairs. -/
theorem one_not_special : ¬ GoMath.abs (F64.fin ⟨1, isDouble_one⟩) < (1e-10 : F64) ∧
    ¬ GoMath.abs (F64.fin ⟨1, isDouble_one⟩ - piMul (3 / 2)) < (1e-10 : F64) := by
  have tiny : ∀ x : Dbl, 1 ≤ x.1 → ¬ F64.fin x < (1e-10 : F64) := by
    intro x hx hc
    change F64.lt _ (F64.ofReal _) at hc
    obtain ⟨y, hy, ey, -, y1⟩ := F64.ofReal_between (x := (OfScientific.ofScientific 1 true 10 : ℝ)) isDouble_zero isDouble_one
      (by norm_num) (by norm_num)
    rw [ey] at hc
    have : x.1 < y := hc
    linarith
  have hs0 : ¬ GoMath.abs (F64.fin ⟨1, isDouble_one⟩) < (1e-10 : F64) := by
    have : GoMath.abs (F64.fin ⟨1, isDouble_one⟩) = F64.fin ⟨1, isDouble_one⟩ := if_neg (by norm_num)
    rw [this]
    exact tiny _ le_rfl
  have hs1 : ¬ GoMath.abs (F64.fin ⟨1, isDouble_one⟩ - piMul (3 / 2)) < (1e-10 : F64) := by
    have hpi := Real.pi_lt_d2
    have hpi' := Real.pi_gt_three
    obtain ⟨P, hP, eP, p0, p1⟩ := F64.ofReal_between (x := (((3 / 2 : ℚ) : ℝ) * Real.pi)) (isDouble_ofNat 4 (by norm_num))
      (isDouble_ofNat 5 (by norm_num)) (by push_cast; norm_num; linarith) (by push_cast; norm_num; linarith)
    change (4 : ℝ) ≤ P at p0
    change P ≤ (5 : ℝ) at p1
    change ¬ GoMath.abs (F64.fin ⟨1, isDouble_one⟩ - F64.ofReal (((3 / 2 : ℚ) : ℝ) * Real.pi)) < _
    rw [eP, F64.sub_fin]
    obtain ⟨w, ew, w0, w1⟩ := F64.ofReal_int_between (x := 1 - P) (-4) (-3) (by norm_num) (by norm_num)
      (by push_cast; linarith) (by push_cast; linarith)
    dsimp only
    rw [ew]
    push_cast at w0 w1
    have : GoMath.abs (F64.fin w) = F64.fin ⟨-w.1, w.2.neg⟩ := if_pos (by linarith)
    rw [this]
    exact tiny _ (by dsimp only; linarith)
  exact ⟨hs0, hs1⟩

omit [LibM] in
/-- Non-vacuity: an accurate library, the target at one radian and an agent at three radians; after fifty nudges of one
half the agent is within `5·10^-14` of the target. -/
example : letI := LibM.rounded
    ∃ q : Dbl, (nudgeDouble (.fin ⟨1 / 2, ⟨1, -1, by norm_num, by norm_num, by norm_num, by norm_num⟩⟩)
        ⟨.fin ⟨1, isDouble_one⟩, 0, 0⟩ Context.zero)^[50] (.fin ⟨3, isDouble_ofNat 3 (by norm_num)⟩) = .fin q ∧
      Near 1 q.1 5e-14 := by
  let := LibM.rounded
  have h3 : IsDouble (3 : ℝ) := isDouble_ofNat 3 (by norm_num)
  obtain ⟨hs0, hs1⟩ := one_not_special
  obtain ⟨q, eq, hq⟩ := C136_converges ((2 : ℝ) ^ (-51 : ℤ)) accurate_rounded
    ⟨1 / 2, ⟨1, -1, by norm_num, by norm_num, by norm_num, by norm_num⟩⟩ ⟨1, isDouble_one⟩ ⟨3, h3⟩ (by norm_num) (by norm_num)
    (by norm_num) (by norm_num) 0 0 Context.zero hs0 hs1 2 (Near.of_abs (by norm_num)) 50
  refine ⟨q, eq, hq.mono ?_⟩
  unfold nudgeError
  norm_num

omit [LibM] in
/-- Non-vacuity: two agents at opposite angles, nudged fifty times by one half: the computed coherence is 1 to thirteen
digits. -/
example : letI := LibM.rounded
    ∃ z : Dbl, measureCoherence (([⟨0, isDouble_zero⟩, ⟨3, isDouble_ofNat 3 (by norm_num)⟩] : List Dbl).map fun p =>
        (nudgeDouble (.fin ⟨1 / 2, ⟨1, -1, by norm_num, by norm_num, by norm_num, by norm_num⟩⟩)
          ⟨.fin ⟨1, isDouble_one⟩, 0, 0⟩ Context.zero)^[50] (.fin p)) = .fin z ∧ 1 - 1e-13 ≤ z.1 := by
  let := LibM.rounded
  obtain ⟨hs0, hs1⟩ := one_not_special
  obtain ⟨z, ez, hz⟩ := C137_swarm ((2 : ℝ) ^ (-51 : ℤ)) accurate_rounded
    ⟨1 / 2, ⟨1, -1, by norm_num, by norm_num, by norm_num, by norm_num⟩⟩ ⟨1, isDouble_one⟩ (by norm_num) (by norm_num)
    (by norm_num) hs0 hs1 0 0 Context.zero [⟨0, isDouble_zero⟩, ⟨3, isDouble_ofNat 3 (by norm_num)⟩]
    (by simp; norm_num) (by norm_num) (by simp) 50
  refine ⟨z, ez, le_trans ?_ hz⟩
  unfold nudgeError coherenceError
  norm_num

end Verif
