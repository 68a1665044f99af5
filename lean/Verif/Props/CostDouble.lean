import Verif.Props.TravelDouble
import Verif.Props.StrategyCost

/-! # C118 in doubles: what the strategies propose and charge -/

set_option autoImplicit false
set_option linter.unusedSectionVars false

namespace Verif
open GoMath Spec Rounding

section
variable [Rounding] [LibM]

/-- A finite number close to a given one. -/
def Spec.Close (x : F64) (y ε : ℝ) : Prop := ∃ d : Dbl, x = .fin d ∧ |d.1 - y| ≤ ε

/-- What a strategy charges for a change: `k` times its size. -/
theorem charge (V k : Dbl) (hk : 0 ≤ k.1) (hk4 : k.1 ≤ 4) (hV : |V.1| ≤ 4) : Close (GoMath.abs (F64.fin V) * F64.fin k) (k.1 * |V.1|) (1 / 10 ^ 13) := by
  obtain ⟨A, eA, hA⟩ := F64.abs_fin V
  have h0 := abs_nonneg V.1
  have hm : k.1 * |V.1| ≤ 4 * 4 := mul_le_mul hk4 hV h0 (by norm_num)
  obtain ⟨C, eC, hC⟩ := tiny_err (x := k.1 * |V.1|) (by rw [abs_of_nonneg (by positivity)]; linarith)
  exact ⟨C, by rw [eA, F64.mul_fin, hA, mul_comm]; exact eC, hC⟩

/-- **C118, in doubles.** For phases up to 14 (and no special pair) and rates in [0, 1], with a library accurate to ε: there is one finite rotation `D`, at most π
and right up to 6ε + 29·2⁻⁵³, such that every plain strategy proposes its rate times `D`, up to 1e-13, and charges 2 (nudging), 3 (locking) or 4 (pulsing) units per
radian of what it proposes, up to 1e-13; nudging promises 3/2·(1 − |D|/π), up to 1e-12, pulsing 2. -/
theorem C118_rates_double (ε : ℝ) (hl : Accurate ε) (r : Dbl) (h0 : 0 ≤ r.1) (h1 : r.1 ≤ 1) (cur tgt : State F64) (ctx : Context F64) (t p : Dbl)
    (et : tgt.phase = .fin t) (ep : cur.phase = .fin p) (ht : |t.1| ≤ 14) (hp : |p.1| ≤ 14)
    (hs : ¬ (GoMath.abs (F64.fin t) < (1e-10 : F64) ∧ GoMath.abs (F64.fin p - piMul (3 / 2)) < (1e-10 : F64)) ∧
      ¬ (GoMath.abs (F64.fin t - piMul (3 / 2)) < (1e-10 : F64) ∧ GoMath.abs (F64.fin p) < (1e-10 : F64))) :
    ∃ D V : Dbl, |D.1| ≤ Real.pi ∧ Near D.1 (t.1 - p.1) (6 * ε + 29 * 2 ^ (-53 : ℤ)) ∧ |V.1 - D.1 * r.1| ≤ 1 / 10 ^ 13 ∧
      ((phaseNudgePropose (.fin r) cur tgt ctx).1.value = .fin V ∧ Close (phaseNudgePropose (.fin r) cur tgt ctx).1.cost (2 * |V.1|) (1 / 10 ^ 13) ∧
        Close (phaseNudgePropose (.fin r) cur tgt ctx).1.benefit (3 / 2 * (1 - |D.1| / Real.pi)) (1 / 10 ^ 12)) ∧
      ((frequencyLockPropose (.fin r) cur tgt ctx).1.value = .fin V ∧ Close (frequencyLockPropose (.fin r) cur tgt ctx).1.cost (3 * |V.1|) (1 / 10 ^ 13)) ∧
      ∀ (s : Pulse F64) (now : ℤ), s.amplitude = .fin r → s.lastPulse + s.period ≤ now → (s.propose now cur tgt ctx).1.1.value = .fin V ∧
        Close (s.propose now cur tgt ctx).1.1.cost (4 * |V.1|) (1 / 10 ^ 13) ∧ (s.propose now cur tgt ctx).1.1.benefit = .fin ⟨2, isDouble_ofNat 2 (by norm_num)⟩ := by
  obtain ⟨D, eD, hD, hN⟩ := C135_difference ε hl t p ht hp hs
  have hpi1 := Real.pi_gt_d2
  have hpi2 := Real.pi_lt_d2
  norm_num at hpi1 hpi2
  have two : (2.0 : F64) = .fin ⟨2, isDouble_ofNat 2 (by norm_num)⟩ := by
    change F64.ofReal (2.0 : ℝ) = _
    rw [show (2.0 : ℝ) = 2 by norm_num, F64.ofReal_of_isDouble]
  have three : (3.0 : F64) = .fin ⟨3, isDouble_ofNat 3 (by norm_num)⟩ := by
    change F64.ofReal (3.0 : ℝ) = _
    rw [show (3.0 : ℝ) = 3 by norm_num, F64.ofReal_of_isDouble]
  have four : (4.0 : F64) = .fin ⟨4, isDouble_ofNat 4 (by norm_num)⟩ := by
    change F64.ofReal (4.0 : ℝ) = _
    rw [show (4.0 : ℝ) = 4 by norm_num, F64.ofReal_of_isDouble]
  have hDr : |D.1 * r.1| ≤ 315 / 100 := by
    rw [abs_mul, abs_of_nonneg h0]
    have := mul_le_mul hD h1 h0 (by linarith)
    linarith
  obtain ⟨V, eV, hV⟩ := tiny_err (x := D.1 * r.1) (by linarith)
  have hV4 : |V.1| ≤ 4 := by
    have := abs_sub_abs_le_abs_sub V.1 (D.1 * r.1)
    norm_num at hV
    linarith
  have ev : phaseDifference tgt.phase cur.phase * F64.fin r = .fin V := by rw [et, ep, eD, F64.mul_fin, eV]
  have e' : phaseDifference tgt.phase cur.phase = .fin D := by rw [et, ep, eD]
  refine ⟨D, V, hD, hN, hV, ⟨ev, ?_, ?_⟩, ⟨ev, ?_⟩, ?_⟩
  · simp only [phaseNudgePropose, ev, two]
    exact charge V ⟨2, isDouble_ofNat 2 (by norm_num)⟩ (by norm_num) (by norm_num) hV4
  · simp only [phaseNudgePropose, e']
    obtain ⟨E, eE, hE⟩ := F64.abs_fin D
    obtain ⟨P, eP, hP⟩ := tiny_err (x := Real.pi) (by rw [abs_of_pos Real.pi_pos]; linarith)
    have hP' := abs_le.1 hP
    norm_num at hP'
    have hq0 : 0 ≤ |D.1| / P.1 := div_nonneg (abs_nonneg _) (by linarith)
    have hq2 : |D.1| / P.1 ≤ 2 := by rw [div_le_iff₀ (by linarith)]; linarith
    have hqe : |(|D.1|) / P.1 - |D.1| / Real.pi| ≤ 1 / 10 ^ 13 := by
      rw [div_sub_div _ _ (by linarith) Real.pi_pos.ne', abs_div, abs_of_pos (show 0 < P.1 * Real.pi from mul_pos (by linarith) Real.pi_pos),
        div_le_iff₀ (mul_pos (by linarith) Real.pi_pos), show |D.1| * Real.pi - P.1 * |D.1| = |D.1| * (Real.pi - P.1) by ring, abs_mul, abs_abs, abs_sub_comm]
      calc |D.1| * |P.1 - Real.pi| ≤ Real.pi * (1 / 10 ^ 13) := mul_le_mul hD hP (abs_nonneg _) Real.pi_pos.le
        _ ≤ 1 / 10 ^ 13 * (P.1 * Real.pi) := by
          have : Real.pi * 1 ≤ Real.pi * P.1 := mul_le_mul_of_nonneg_left (by linarith) Real.pi_pos.le
          linarith
    obtain ⟨Q, eQ, hQ⟩ := tiny_err (x := |D.1| / P.1) (by rw [abs_of_nonneg hq0]; linarith)
    obtain ⟨q1, q2⟩ := abs_le.1 hQ
    obtain ⟨qe1, qe2⟩ := abs_le.1 hqe
    norm_num at q1 q2 qe1 qe2
    obtain ⟨X, eX, hX⟩ := tiny_err (x := 1 - Q.1) (by rw [abs_le]; constructor <;> linarith)
    obtain ⟨x1, x2⟩ := abs_le.1 hX
    norm_num at x1 x2
    have d15 : IsDouble (3 / 2 : ℝ) := ⟨3, -1, by norm_num, by norm_num, by norm_num, by norm_num⟩
    have e15 : (1.5 : F64) = .fin ⟨3 / 2, d15⟩ := by
      change F64.ofReal (1.5 : ℝ) = _
      rw [show (1.5 : ℝ) = 3 / 2 by norm_num, F64.ofReal_of_isDouble]
    obtain ⟨B, eB, hB⟩ := tiny_err (x := X.1 * (3 / 2)) (by rw [abs_le]; constructor <;> linarith)
    obtain ⟨b1, b2⟩ := abs_le.1 hB
    norm_num at b1 b2
    refine ⟨B, ?_, ?_⟩
    · change (1 - GoMath.abs (F64.fin D) / F64.ofReal (((1 : ℚ) : ℝ) * Real.pi)) * (1.5 : F64) = _
      rw [eE, show (((1 : ℚ) : ℝ) * Real.pi) = Real.pi by norm_num, eP, F64.div_fin (by linarith), hE, eQ]
      change (F64.fin ⟨1, isDouble_one⟩ - F64.fin Q) * (1.5 : F64) = _
      rw [F64.sub_fin]
      change F64.ofReal (1 - Q.1) * _ = _
      rw [eX, e15, F64.mul_fin, eB]
    · rw [abs_le]
      norm_num
      constructor <;> linarith
  · simp only [frequencyLockPropose, ev, three]
    exact charge V ⟨3, isDouble_ofNat 3 (by norm_num)⟩ (by norm_num) (by norm_num) hV4
  · intro s now ha hn
    have hn' : ¬ now - s.lastPulse < s.period := by omega
    simp only [Pulse.propose, if_neg hn', ha, ev, four]
    exact ⟨trivial, charge V ⟨4, isDouble_ofNat 4 (by norm_num)⟩ (by norm_num) (by norm_num) hV4, two⟩

/-- **C118, in doubles, saving energy.** The energy-aware strategy stays within a tenth of a radian (of the doubles) for a tenth of a unit, and otherwise proposes a
tenth of the rotation, up to 1e-12, for exactly half a unit, whatever the distance. -/
theorem C118_energy_double (ε : ℝ) (hl : Accurate ε) (cur tgt : State F64) (ctx : Context F64) (t p : Dbl)
    (et : tgt.phase = .fin t) (ep : cur.phase = .fin p) (ht : |t.1| ≤ 14) (hp : |p.1| ≤ 14)
    (hs : ¬ (GoMath.abs (F64.fin t) < (1e-10 : F64) ∧ GoMath.abs (F64.fin p - piMul (3 / 2)) < (1e-10 : F64)) ∧
      ¬ (GoMath.abs (F64.fin t - piMul (3 / 2)) < (1e-10 : F64) ∧ GoMath.abs (F64.fin p) < (1e-10 : F64))) :
    ∃ D : Dbl, |D.1| ≤ Real.pi ∧ Near D.1 (t.1 - p.1) (6 * ε + 29 * 2 ^ (-53 : ℤ)) ∧
      (|D.1| < 0.1 - 1 / 10 ^ 13 → (energyAwarePropose cur tgt ctx).1.value = 0 ∧ (energyAwarePropose cur tgt ctx).1.cost = 0.1) ∧
      (0.1 + 1 / 10 ^ 13 < |D.1| → Close (energyAwarePropose cur tgt ctx).1.value (D.1 / 10) (1 / 10 ^ 12) ∧ (energyAwarePropose cur tgt ctx).1.cost = 0.5) := by
  obtain ⟨D, eD, hD, hN⟩ := C135_difference ε hl t p ht hp hs
  have hpi2 := Real.pi_lt_d2
  norm_num at hpi2
  obtain ⟨L, eL, hL⟩ := tiny_err (x := (0.1 : ℝ)) (by rw [abs_of_pos (by norm_num)]; norm_num)
  obtain ⟨L1, L2⟩ := abs_le.1 hL
  norm_num at L1 L2
  obtain ⟨E, eE, hE⟩ := F64.abs_fin D
  refine ⟨D, hD, hN, fun h => ?_, fun h => ?_⟩
  · have hlt : GoMath.abs (phaseDifference tgt.phase cur.phase) < (0.1 : F64) := by
      rw [et, ep, eD, eE, show (0.1 : F64) = F64.ofReal 0.1 from rfl, eL]
      refine (show E.1 < L.1 from ?_)
      rw [hE]
      norm_num at h
      linarith
    unfold energyAwarePropose
    dsimp only
    rw [if_pos hlt]
    exact ⟨rfl, rfl⟩
  · have hlt : ¬ GoMath.abs (phaseDifference tgt.phase cur.phase) < (0.1 : F64) := by
      rw [et, ep, eD, eE, show (0.1 : F64) = F64.ofReal 0.1 from rfl, eL]
      refine fun hh => ?_
      have hh : E.1 < L.1 := hh
      rw [hE] at hh
      norm_num at h
      linarith
    unfold energyAwarePropose
    dsimp only
    rw [if_neg hlt, et, ep, eD, show (0.1 : F64) = F64.ofReal 0.1 from rfl, eL, F64.mul_fin]
    have hm : |D.1 * L.1 - D.1 / 10| ≤ 4 / 10 ^ 13 := by
      rw [show D.1 * L.1 - D.1 / 10 = D.1 * (L.1 - 0.1) by norm_num; ring, abs_mul]
      have := mul_le_mul (show |D.1| ≤ 4 by linarith) hL (abs_nonneg _) (by norm_num)
      norm_num at this ⊢
      linarith
    have hDL : |D.1 * L.1| ≤ 33 / 100 := by
      have t1 := abs_sub_abs_le_abs_sub (D.1 * L.1) (D.1 / 10)
      have t2 : |D.1 / 10| = |D.1| / 10 := by rw [abs_div]; norm_num
      norm_num at hm
      linarith
    obtain ⟨V, eV, hV⟩ := tiny_err (x := D.1 * L.1) (by linarith)
    obtain ⟨A, eA, hA⟩ := F64.abs_fin V
    have dh : IsDouble (1 / 2 : ℝ) := ⟨1, -1, by norm_num, by norm_num, by norm_num, by norm_num⟩
    have eh : (0.5 : F64) = .fin ⟨1 / 2, dh⟩ := by
      change F64.ofReal (0.5 : ℝ) = _
      rw [show (0.5 : ℝ) = 1 / 2 by norm_num, F64.ofReal_of_isDouble]
    obtain ⟨m, em, hmm⟩ := fmax_fin ⟨1 / 2, dh⟩ A
    have hVa : |V.1| ≤ 1 / 2 := by
      have := abs_sub_abs_le_abs_sub V.1 (D.1 * L.1)
      norm_num at hV
      linarith
    refine ⟨⟨V, eV, ?_⟩, ?_⟩
    · have := abs_add_le (V.1 - D.1 * L.1) (D.1 * L.1 - D.1 / 10)
      rw [show V.1 - D.1 * L.1 + (D.1 * L.1 - D.1 / 10) = V.1 - D.1 / 10 by ring] at this
      norm_num at hV hm ⊢
      linarith
    · rw [eV, eA, eh, em]
      show F64.fin m = _
      congr 1
      apply Subtype.ext
      rw [hmm, hA]
      exact max_eq_left hVa

/-- Phases of at least 1 are not taken for 0. -/
theorem not_tiny {d : Dbl} (hd : 1 ≤ d.1) : ¬ GoMath.abs (F64.fin d) < (1e-10 : F64) := by
  intro h
  obtain ⟨E, eE, hE⟩ := F64.abs_fin d
  obtain ⟨L, eL, hL⟩ := tiny_err (x := (1e-10 : ℝ)) (by rw [abs_of_pos (by norm_num)]; norm_num)
  rw [eE, show (1e-10 : F64) = F64.ofReal 1e-10 from rfl, eL] at h
  have h : E.1 < L.1 := h
  rw [hE, abs_of_nonneg (by linarith)] at h
  have := (abs_le.1 hL).2
  norm_num at this
  linarith

/-- The phases 1 and 2 meet the hypotheses, as 1 and 2 are far from the special angle 0. -/
example : ∃ t p : Dbl, |t.1| ≤ 14 ∧ |p.1| ≤ 14 ∧ t.1 ≠ p.1 ∧
    ¬ (GoMath.abs (F64.fin t) < (1e-10 : F64) ∧ GoMath.abs (F64.fin p - piMul (3 / 2)) < (1e-10 : F64)) ∧
      ¬ (GoMath.abs (F64.fin t - piMul (3 / 2)) < (1e-10 : F64) ∧ GoMath.abs (F64.fin p) < (1e-10 : F64)) := by
  refine ⟨⟨1, isDouble_one⟩, ⟨2, isDouble_ofNat 2 (by norm_num)⟩, by norm_num, by norm_num, by norm_num, fun h => not_tiny (by norm_num) h.1, fun h => not_tiny (by norm_num) h.2⟩

end
end Verif
