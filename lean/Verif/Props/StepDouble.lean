import Verif.Props.StuckDouble
import Verif.Props.AgentSteps
import Verif.Props.AgentDouble

/-! # C125 in doubles: how far an agent moves in one step -/

set_option autoImplicit false
set_option linter.unusedSectionVars false

namespace Verif
open GoMath Spec Rounding

section
variable [Rounding] [LibM]

/-- Small numbers are rounded with a very small error. -/
theorem tiny_err {x : ℝ} (h : |x| ≤ 100) : ∃ d : Dbl, F64.ofReal x = .fin d ∧ |d.1 - x| ≤ 1 / 10 ^ 13 := by
  have hu := ulp_pos
  have hus : ulp * 101 ≤ 1 / 10 ^ 13 := by unfold ulp; rw [zpow_neg]; norm_num
  have heu := eta_le_ulp
  obtain ⟨d, e, hd⟩ := F64.ofReal_err (x := x) (small_lt_1023 (by
    have : (100 : ℝ) ≤ 2 ^ (200 : ℤ) := by norm_num
    linarith))
  refine ⟨d, e, hd.trans ?_⟩
  have : ulp * |x| ≤ ulp * 100 := mul_le_mul_of_nonneg_left h hu.le
  linarith

/-- A score of at least 4 means certainty. -/
theorem certain_score (x : F64) (M : Dbl) (hM : 4 ≤ M.1) (h : F64.fin M ≤ x) : fmin (fmax (x / 2.0) 0) 1 = (1 : F64) := by
  have two : (2.0 : F64) = .fin ⟨2, isDouble_ofNat 2 (by norm_num)⟩ := by
    change F64.ofReal (2.0 : ℝ) = _
    rw [show (2.0 : ℝ) = 2 by norm_num, F64.ofReal_of_isDouble]
  have top : fmin (fmax F64.pinf 0) 1 = (1 : F64) := rfl
  rw [two]
  cases x with
  | nan => exact absurd h (fun h => h)
  | ninf => exact absurd h (fun h => h)
  | pinf =>
    have : F64.pinf / F64.fin ⟨2, isDouble_ofNat 2 (by norm_num)⟩ = .pinf := by
      change F64.div _ _ = _
      unfold F64.div; dsimp only; rw [if_neg (by norm_num)]
    rw [this, top]
  | fin d =>
    have h : M.1 ≤ d.1 := h
    rw [F64.div_fin (by norm_num)]
    have d2 : IsDouble (2 : ℝ) := isDouble_ofNat 2 (by norm_num)
    have h2 := F64.ofReal_mono (show (2 : ℝ) ≤ d.1 / 2 by linarith)
    rw [F64.ofReal_of_isDouble d2] at h2
    change fmin (fmax (F64.ofReal (d.1 / 2)) 0) 1 = _
    cases e : F64.ofReal (d.1 / 2) with
    | nan => rw [e] at h2; exact absurd h2 (fun h => h)
    | ninf => rw [e] at h2; exact absurd h2 (fun h => h)
    | pinf => exact top
    | fin y =>
      rw [e] at h2
      have h2 : 2 ≤ y.1 := h2
      rw [F64.zero_def, F64.one_def]
      change F64.min (if (0 : ℝ) < y.1 then F64.fin y else _) _ = _
      rw [if_pos (by linarith)]
      change (if y.1 < 1 then _ else _) = _
      rw [if_neg (by linarith)]

/-- Who is chosen of two: the second, or the first with a score that is a number and not smaller. -/
theorem chosen_of_two (s : State F64) (p m : Action F64) (M : Dbl) (hm : actionScore m = .fin M) (hM : 4 ≤ M.1) (act : Action F64) (acc : F64)
    (h : decide' s [p, m] = (act, acc)) : (act = m ∨ (act = p ∧ F64.fin M ≤ actionScore p)) ∧ acc = 1 := by
  have hmax : (-maxFloat : F64) < F64.fin M := by
    change F64.neg (F64.fin ⟨maxDouble, isDouble_maxDouble⟩) < _
    show -maxDouble < M.1
    have := maxDouble_pos
    linarith
  unfold decide' at h
  simp only [List.foldl_cons, List.foldl_nil, Prod.mk.injEq] at h
  rw [hm] at h
  obtain ⟨h, h'⟩ := h
  by_cases h1 : actionScore p > -maxFloat
  · rw [if_pos h1] at h h'
    dsimp only at h h'
    by_cases h2 : F64.fin M > actionScore p
    · rw [if_pos h2] at h h'; exact ⟨.inl h.symm, by rw [← h']; exact certain_score _ M hM (le_refl M.1)⟩
    · rw [if_neg h2] at h h'
      suffices hle : F64.fin M ≤ actionScore p from ⟨.inr ⟨h.symm, hle⟩, by rw [← h']; exact certain_score _ M hM hle⟩
      clear h h'
      generalize actionScore p = x at h1 h2
      cases x with
      | nan => exact absurd h1 (fun h => h)
      | pinf => trivial
      | ninf => exact absurd trivial h2
      | fin d => exact not_lt.1 (show ¬ d.1 < M.1 from h2)
  · rw [if_neg h1] at h h'
    dsimp only at h h'
    rw [if_pos hmax] at h h'
    exact ⟨.inl h.symm, by rw [← h']; exact certain_score _ M hM (le_refl M.1)⟩

/-- Staying put scores 5, up to a rounding. -/
theorem maintain_score (b : F64) (hb : b = 0.5) :
    ∃ M : Dbl, actionScore (⟨"maintain", 0, 0.1, b⟩ : Action F64) = .fin M ∧ 5 - 1 / 10 ^ 11 ≤ M.1 := by
  subst hb
  have dh : IsDouble (1 / 2 : ℝ) := ⟨1, -1, by norm_num, by norm_num, by norm_num, by norm_num⟩
  have eh : (0.5 : F64) = .fin ⟨1 / 2, dh⟩ := by
    change F64.ofReal (0.5 : ℝ) = _
    rw [show (0.5 : ℝ) = 1 / 2 by norm_num, F64.ofReal_of_isDouble]
  obtain ⟨L, eL, hL⟩ := tiny_err (x := (0.1 : ℝ)) (by rw [abs_of_pos (by norm_num)]; norm_num)
  have hL' := abs_le.1 hL
  norm_num at hL'
  obtain ⟨m, em, hm⟩ := fmax_fin L L
  rw [max_self] at hm
  have hp : 0 < L.1 := by linarith
  have r1 : 5 - 9 / 10 ^ 12 ≤ 1 / 2 / L.1 := by rw [le_div_iff₀ hp]; norm_num; linarith
  have r2 : 1 / 2 / L.1 ≤ 6 := by rw [div_le_iff₀ hp]; linarith
  obtain ⟨S, eS, hS⟩ := tiny_err (x := 1 / 2 / L.1) (by rw [abs_of_nonneg (by linarith)]; linarith)
  refine ⟨S, ?_, ?_⟩
  · unfold actionScore
    rw [eh, show (0.1 : F64) = F64.ofReal 0.1 from rfl, eL, em, F64.div_fin (by rw [hm]; exact hp.ne'), hm, eS]
  · have := (abs_le.1 hS).1
    norm_num at this r1 ⊢
    linarith

/-- An option whose cost is a multiple of what it does and that scores almost 5 does little. -/
theorem score_value (b v : F64) (B k M : Dbl) (hb : b = .fin B) (hB : |B.1| ≤ 8) (hk : 1 ≤ k.1) (hM : 5 - 1 / 10 ^ 11 ≤ M.1)
    (h : F64.fin M ≤ b / fmax (GoMath.abs v * F64.fin k) 0.1) : ∃ V : Dbl, v = .fin V ∧ k.1 * |V.1| ≤ B.1 / 5 + 1 / 10 ^ 10 := by
  subst hb
  obtain ⟨L, eL, hL⟩ := tiny_err (x := (0.1 : ℝ)) (by rw [abs_of_pos (by norm_num)]; norm_num)
  have hL' := abs_le.1 hL
  norm_num at hL'
  rw [show (0.1 : F64) = F64.ofReal 0.1 from rfl, eL] at h
  have hinf : ¬ F64.fin M ≤ F64.fin B / fmax (F64.pinf) (F64.fin L) := by
    intro hc
    have : M.1 ≤ 0 := hc
    norm_num at hM
    linarith
  have hk0 : 0 < k.1 := by linarith
  have hpk : F64.mul .pinf (F64.fin k) = .pinf := by
    unfold F64.mul
    dsimp only
    unfold F64.infSign
    rw [if_pos hk0]
  cases v with
  | nan => exact absurd h (fun h => h)
  | pinf => exact absurd (by rw [← hpk]; exact h) hinf
  | ninf => exact absurd (by rw [← hpk]; exact h) hinf
  | fin V =>
    refine ⟨V, rfl, ?_⟩
    obtain ⟨A, eA, hA⟩ := F64.abs_fin V
    rw [eA, F64.mul_fin, hA] at h
    have key : ∀ C : Dbl, F64.ofReal (|V.1| * k.1) = .fin C → (max C.1 L.1) * (5 - 2 / 10 ^ 11) ≤ B.1 := by
      intro C eC
      obtain ⟨m, em, hm⟩ := fmax_fin C L
      rw [eC, em] at h
      have hmL : L.1 ≤ m.1 := by rw [hm]; exact le_max_right _ _
      have hm0 : 99 / 1000 ≤ m.1 := by linarith
      have hmp : 0 < m.1 := by linarith
      rw [F64.div_fin hmp.ne'] at h
      obtain ⟨S, eS, hS⟩ := tiny_err (x := B.1 / m.1) (by
        rw [abs_div, abs_of_pos hmp, div_le_iff₀ hmp]; linarith)
      rw [eS] at h
      have h : M.1 ≤ S.1 := h
      have := (abs_le.1 hS).2
      have h5 : 5 - 2 / 10 ^ 11 ≤ B.1 / m.1 := by norm_num at this hM ⊢; linarith
      rw [le_div_iff₀ hmp] at h5
      rw [← hm, mul_comm]
      exact h5
    have hx0 : 0 ≤ |V.1| * k.1 := by positivity
    by_cases hx : |V.1| * k.1 ≤ 100
    · obtain ⟨C, eC, hC⟩ := tiny_err (x := |V.1| * k.1) (by rw [abs_of_nonneg hx0]; exact hx)
      have k1 := key C eC
      have := le_max_left C.1 L.1
      have hC' := (abs_le.1 hC).1
      have hBB := abs_le.1 hB
      norm_num at k1 hC' ⊢
      linarith
    · exfalso
      have d4 : IsDouble (4 : ℝ) := by have := isDouble_int (n := 4) (by norm_num); push_cast at this; exact this
      have h4 := F64.ofReal_mono (show (4 : ℝ) ≤ |V.1| * k.1 by linarith)
      rw [F64.ofReal_of_isDouble d4] at h4
      cases e : F64.ofReal (|V.1| * k.1) with
      | nan => rw [e] at h4; exact h4
      | ninf => rw [e] at h4; exact h4
      | pinf => rw [e] at h; exact hinf h
      | fin C =>
        rw [e] at h4
        have h4 : 4 ≤ C.1 := h4
        have k1 := key C e
        have := le_max_left C.1 L.1
        have hBB := abs_le.1 hB
        norm_num at k1
        linarith

/-- Specification: the longest step each strategy takes, for an agent that has looked around. -/
noncomputable def Spec.longestStepD (coh : ℝ) : Strat F64 → ℝ
  | .phaseNudge _ => 3 / 20
  | .frequencyLock _ => 2 / 15 * coh
  | .energyAware _ => 0
  | .pulse _ => 1 / 10

/-- The value of the action that is chosen. -/
theorem step_bound_double (s : Strat F64) (now : ℤ) (cur tgt : State F64) (ctx : Context F64) (K : ℝ) (hK0 : 0 ≤ K) (hK : K ≤ 3)
    (hcoh : ctx.localCoherence = .nan ∨ ∃ d : Dbl, ctx.localCoherence = .fin d ∧ 0 ≤ d.1 ∧ d.1 ≤ K)
    (hst : ctx.stability = 0.5) (hpr : ctx.progress = 0) (act : Action F64) (acc : F64)
    (h : decide' cur [(s.propose now cur tgt ctx).1.1, ⟨"maintain", 0, 0.1, ctx.stability⟩] = (act, acc)) :
    ∃ V : Dbl, act.value = .fin V ∧ |V.1| ≤ longestStepD K s + 1 / 10 ^ 10 := by
  obtain ⟨M, eM, hM⟩ := maintain_score ctx.stability hst
  have hlong : 0 ≤ longestStepD K s := by cases s <;> simp only [longestStepD] <;> positivity
  have hzero : ∃ V : Dbl, (0 : F64) = .fin V ∧ |V.1| ≤ longestStepD K s + 1 / 10 ^ 10 :=
    ⟨_, rfl, by rw [abs_zero]; positivity⟩
  have hM5 : 4 ≤ M.1 := by norm_num at hM; linarith
  obtain ⟨rfl | ⟨rfl, hsc⟩, -⟩ := chosen_of_two cur _ _ M eM hM5 act acc h
  · exact hzero
  clear h
  have two : (2.0 : F64) = .fin ⟨2, isDouble_ofNat 2 (by norm_num)⟩ := by
    change F64.ofReal (2.0 : ℝ) = _
    rw [show (2.0 : ℝ) = 2 by norm_num, F64.ofReal_of_isDouble]
  have three : (3.0 : F64) = .fin ⟨3, isDouble_ofNat 3 (by norm_num)⟩ := by
    change F64.ofReal (3.0 : ℝ) = _
    rw [show (3.0 : ℝ) = 3 by norm_num, F64.ofReal_of_isDouble]
  have four : (4.0 : F64) = .fin ⟨4, isDouble_ofNat 4 (by norm_num)⟩ := by
    change F64.ofReal (4.0 : ℝ) = _
    rw [show (4.0 : ℝ) = 4 by norm_num, F64.ofReal_of_isDouble]
  cases s with
  | phaseNudge r =>
    simp only [Strat.propose, phaseNudgePropose, actionScore, longestStepD] at hsc ⊢
    rcases phaseDifference_cases tgt.phase cur.phase with e | ⟨D, e, hD⟩
    · rw [e] at hsc; exact absurd hsc (fun h => h)
    · have hpi1 := Real.pi_gt_d2
      have hpi2 := Real.pi_lt_d2
      norm_num at hpi1 hpi2
      have hpd := piDouble_bounds
      obtain ⟨E, eE, hE⟩ := F64.abs_fin D
      obtain ⟨P, eP, hP⟩ := tiny_err (x := Real.pi) (by rw [abs_of_pos Real.pi_pos]; linarith)
      have hP' := abs_le.1 hP
      norm_num at hP'
      have hD4 : |D.1| ≤ 4 := by
        have : piDouble ≤ 4 := by linarith [hpd.2]
        linarith
      have hq0 : 0 ≤ |D.1| / P.1 := div_nonneg (abs_nonneg _) (by linarith)
      have hq2 : |D.1| / P.1 ≤ 2 := by rw [div_le_iff₀ (by linarith)]; linarith
      obtain ⟨Q, hQd, eQ, Q0, Q2⟩ := F64.ofReal_between isDouble_zero (isDouble_ofNat 2 (by norm_num)) (x := |D.1| / P.1) hq0 (by exact_mod_cast hq2)
      obtain ⟨X, eX, hX⟩ := tiny_err (x := 1 - Q) (by rw [abs_le]; constructor <;> linarith)
      have hX' := abs_le.1 hX
      norm_num at hX'
      have d15 : IsDouble (3 / 2 : ℝ) := ⟨3, -1, by norm_num, by norm_num, by norm_num, by norm_num⟩
      have e15 : (1.5 : F64) = .fin ⟨3 / 2, d15⟩ := by
        change F64.ofReal (1.5 : ℝ) = _
        rw [show (1.5 : ℝ) = 3 / 2 by norm_num, F64.ofReal_of_isDouble]
      obtain ⟨B, eB, hB⟩ := tiny_err (x := X.1 * (3 / 2)) (by rw [abs_le]; constructor <;> linarith)
      have hB' := abs_le.1 hB
      norm_num at hB'
      have eb : (1 - GoMath.abs (phaseDifference tgt.phase cur.phase) / piMul 1) * (1.5 : F64) = .fin B := by
        change (1 - GoMath.abs (phaseDifference tgt.phase cur.phase) / F64.ofReal (((1 : ℚ) : ℝ) * Real.pi)) * (1.5 : F64) = _
        rw [e, eE, show (((1 : ℚ) : ℝ) * Real.pi) = Real.pi by norm_num, eP, F64.div_fin (by linarith), hE, eQ]
        change (F64.fin ⟨1, isDouble_one⟩ - F64.fin ⟨Q, hQd⟩) * (1.5 : F64) = _
        rw [F64.sub_fin]
        change F64.ofReal (1 - Q) * _ = _
        rw [eX, e15, F64.mul_fin, eB]
      rw [two] at hsc
      obtain ⟨V, eV, hV⟩ := score_value _ _ B ⟨2, isDouble_ofNat 2 (by norm_num)⟩ M eb (by rw [abs_le]; constructor <;> linarith) (by norm_num) hM hsc
      refine ⟨V, eV, ?_⟩
      norm_num at hV ⊢
      linarith
  | frequencyLock r =>
    simp only [Strat.propose, frequencyLockPropose, actionScore, longestStepD] at hsc ⊢
    rw [two, three] at hsc
    rcases hcoh with e | ⟨d, e, h1, h2⟩
    · rw [e] at hsc; exact absurd hsc (fun h => h)
    · obtain ⟨B, eB, hB⟩ := tiny_err (x := d.1 * 2) (by rw [abs_le]; constructor <;> linarith)
      have hB' := abs_le.1 hB
      norm_num at hB'
      have eb : ctx.localCoherence * F64.fin ⟨2, isDouble_ofNat 2 (by norm_num)⟩ = .fin B := by
        rw [e, F64.mul_fin]; exact eB
      obtain ⟨V, eV, hV⟩ := score_value _ _ B ⟨3, isDouble_ofNat 3 (by norm_num)⟩ M eb (by rw [abs_le]; constructor <;> linarith) (by norm_num) hM hsc
      refine ⟨V, eV, ?_⟩
      norm_num at hV ⊢
      linarith
  | energyAware t =>
    simp only [Strat.propose, energyAwarePropose, actionScore, longestStepD] at hsc ⊢
    by_cases hh : GoMath.abs (phaseDifference tgt.phase cur.phase) < (0.1 : F64)
    · rw [if_pos hh]; exact hzero
    · rw [if_neg hh] at hsc
      exfalso
      dsimp only at hsc
      have h0 : ctx.progress * (0.5 : F64) = .fin ⟨0, isDouble_zero⟩ := by
        have dh : IsDouble (1 / 2 : ℝ) := ⟨1, -1, by norm_num, by norm_num, by norm_num, by norm_num⟩
        have eh : (0.5 : F64) = .fin ⟨1 / 2, dh⟩ := by
          change F64.ofReal (0.5 : ℝ) = _
          rw [show (0.5 : ℝ) = 1 / 2 by norm_num, F64.ofReal_of_isDouble]
        rw [hpr, eh, F64.zero_def, F64.mul_fin]
        show F64.ofReal (0 * _) = _
        rw [zero_mul, F64.ofReal_of_isDouble]
      rw [h0] at hsc
      generalize fmax (fmax (0.5 : F64) _) (0.1 : F64) = c at hsc
      cases c with
      | nan => exact hsc
      | pinf => have : M.1 ≤ 0 := hsc; linarith
      | ninf => have : M.1 ≤ 0 := hsc; linarith
      | fin c =>
        change F64.fin M ≤ F64.div _ _ at hsc
        unfold F64.div at hsc
        dsimp only at hsc
        by_cases hc : c.1 = 0
        · rw [if_pos hc] at hsc
          unfold F64.infSign at hsc
          simp at hsc
        · rw [if_neg hc, zero_div, F64.ofReal_of_isDouble isDouble_zero] at hsc
          have : M.1 ≤ 0 := hsc
          linarith
  | pulse p =>
    simp only [Strat.propose, Pulse.propose, actionScore, longestStepD] at hsc ⊢
    by_cases hh : now - p.lastPulse < p.period
    · rw [if_pos hh]; exact hzero
    · rw [if_neg hh] at hsc ⊢
      dsimp only at hsc ⊢
      rw [four] at hsc
      obtain ⟨V, eV, hV⟩ := score_value _ _ ⟨2, isDouble_ofNat 2 (by norm_num)⟩ ⟨4, isDouble_ofNat 4 (by norm_num)⟩ M two (by norm_num) (by norm_num) hM hsc
      refine ⟨V, eV, ?_⟩
      norm_num at hV ⊢
      linarith

/-- Adding a small step to a phase. -/
theorem step_phase (b : Agent F64) (act : Action F64) (c : F64) (p V : Dbl) (hp : b.state.phase = .fin p) (hp7 : |p.1| ≤ 7) (hV : act.value = .fin V)
    (B : ℝ) (hB : |V.1| ≤ B) (hB1 : B ≤ 1) (h : (b.applyAction act).1 = .ok c) :
    ∃ r : Dbl, (b.applyAction act).2.state.phase = .fin r ∧ ∃ δ : ℝ, |δ| ≤ B ∧ Near r.1 (p.1 + δ) (1 / 10 ^ 12) := by
  obtain ⟨s, es, hs⟩ := tiny_err (x := p.1 + V.1) (by
    have := abs_add_le p.1 V.1
    linarith)
  obtain ⟨h1, h2⟩ := C36_phase_double b act c p V s hp hV (by rw [F64.add_fin, es]) h
  have hB0 : 0 ≤ B := (abs_nonneg _).trans hB
  by_cases ht : act.type = "maintain"
  · exact ⟨p, h1 ht, 0, by rw [abs_zero]; exact hB0, 0, by norm_num⟩
  · obtain ⟨r, er, -, -, k, hk⟩ := h2 ht
    refine ⟨r, er, V.1, hB, k, ?_⟩
    have hs8 : |s.1| ≤ 9 := by
      have t1 := abs_sub_abs_le_abs_sub s.1 (p.1 + V.1)
      have t2 := abs_add_le p.1 V.1
      norm_num at hs
      linarith
    have hu : (2 : ℝ) ^ (-53 : ℤ) ≤ 1 / 10 ^ 15 := by rw [zpow_neg]; norm_num
    have hu0 : (0 : ℝ) < 2 ^ (-53 : ℤ) := by positivity
    generalize (2 : ℝ) ^ (-53 : ℤ) = u at hk hu hu0
    have e : r.1 - (p.1 + V.1) + k * (2 * Real.pi) = (r.1 - s.1 + k * (2 * Real.pi)) + (s.1 - (p.1 + V.1)) := by ring
    rw [e]
    have t := abs_add_le (r.1 - s.1 + k * (2 * Real.pi)) (s.1 - (p.1 + V.1))
    have hb : (2 * |s.1| + 22) * u ≤ 40 * u := mul_le_mul_of_nonneg_right (by linarith) hu0.le
    norm_num at hs hu ⊢
    linarith

/-- **C125 in doubles.** An agent with one of the four plain strategies that has looked around never moves farther in one step than the strategy's longest
step, up to 1e-10. Whatever its parameters, infinite or not numbers included, the time and the random numbers: actions without a finite price are never
chosen. -/
theorem C125_plain_double (a : Agent F64) (phaseOf : ℕ → F64) (now : ℤ) (goal : State F64) (d1 d2 : F64) (s : Strat F64) (hs : a.strategy = .basic s)
    (p : Dbl) (hp : a.state.phase = .fin p) (hp7 : |p.1| ≤ 7) (K : ℝ) (hK0 : 0 ≤ K) (hK : K ≤ 3)
    (hcoh : a.context.localCoherence = .nan ∨ ∃ d : Dbl, a.context.localCoherence = .fin d ∧ 0 ≤ d.1 ∧ d.1 ≤ K)
    (hst : a.context.stability = 0.5) (hpr : a.context.progress = 0) (act : Action F64) (b : Agent F64)
    (h : a.proposeAdjustment phaseOf now goal d1 d2 = .ok ((act, true), b)) :
    ∃ r : Dbl, (b.applyAction act).2.state.phase = .fin r ∧
      ∃ δ : ℝ, |δ| ≤ longestStepD K s + 1 / 10 ^ 10 ∧ Near r.1 (p.1 + δ) (1 / 10 ^ 12) := by
  obtain ⟨-, q, conf, s', acc, e1, e2, -, -⟩ := (C38_acceptance a phaseOf now goal d1 d2 act).1 ⟨b, h⟩
  obtain ⟨act', ok, s'', f1, f2, -⟩ := C38_accepted_applies a phaseOf now goal d1 d2
  rw [h] at f1
  simp only [Outcome.ok.injEq, Prod.mk.injEq] at f1
  obtain ⟨⟨rfl, rfl⟩, rfl⟩ := f1
  rw [hs] at e1
  simp only [AgentStrategy.propose, Outcome.ok.injEq, Prod.mk.injEq] at e1
  have hq : q = (s.propose now
      { phase := a.state.phase, frequency := a.state.frequency, coherence := a.localCoherence phaseOf }
      { phase := a.state.localGoal, frequency := a.state.frequency, coherence := goal.coherence } a.context).1.1 := by
    rw [e1.1]
  subst hq
  obtain ⟨V, eV, hV⟩ := step_bound_double s now _ _ a.context K hK0 hK hcoh hst hpr act acc e2
  refine step_phase { a with strategy := s'' } act _ p V hp hp7 eV _ hV ?_ (f2 rfl)
  cases s <;> simp only [longestStepD] <;> norm_num
  linarith

/-- What the context of an agent that has looked around can be. -/
theorem context_coherence (a : Agent F64) (f : ℕ → F64) :
    (a.updateContext f).context.localCoherence = a.localCoherence f ∧ (a.updateContext f).context.progress = 0 := by
  unfold Agent.updateContext Agent.localCoherence
  dsimp only
  by_cases h : a.neighborList.length = 0
  · rw [if_pos h, if_pos h]; exact ⟨rfl, rfl⟩
  · rw [if_neg h, if_neg h]; exact ⟨rfl, rfl⟩

/-- **C125 in doubles, all strategies.** Whatever the built-in strategy, also an adaptive combination: an agent that has looked around, and found its
neighbours at most 9/8 coherent (or a coherence that is not a number), moves at most 0.15 radians in one step, up to 1e-9. -/
theorem C125_small_steps_double (a : Agent F64) (f phaseOf : ℕ → F64) (p : Dbl) (hp : a.state.phase = .fin p) (hp7 : |p.1| ≤ 7)
    (hcoh : a.localCoherence f = .nan ∨ ∃ d : Dbl, a.localCoherence f = .fin d ∧ 0 ≤ d.1 ∧ d.1 ≤ 9 / 8)
    (now : ℤ) (goal : State F64) (d1 d2 : F64) (act : Action F64) (b : Agent F64)
    (h : (a.updateContext f).proposeAdjustment phaseOf now goal d1 d2 = .ok ((act, true), b)) :
    ∃ r : Dbl, (b.applyAction act).2.state.phase = .fin r ∧ Near r.1 p.1 (0.15 + 1 / 10 ^ 9) := by
  obtain ⟨u1, u2, -, st1, -⟩ := context_frame_double a f
  obtain ⟨c1, st2⟩ := context_coherence a f
  rw [← c1] at hcoh
  rw [← u1] at hp
  generalize hw : a.updateContext f = w at *
  clear u1 u2 c1
  have hlong : ∀ s, longestStepD (9 / 8) s ≤ 3 / 20 := by
    intro s
    cases s <;> simp only [longestStepD] <;> norm_num
  obtain ⟨-, q, conf, s', acc, e1, e2, -, -⟩ := (C38_acceptance w phaseOf now goal d1 d2 act).1 ⟨b, h⟩
  obtain ⟨act', ok, s'', f1, f2, -⟩ := C38_accepted_applies w phaseOf now goal d1 d2
  rw [h] at f1
  simp only [Outcome.ok.injEq, Prod.mk.injEq] at f1
  obtain ⟨⟨rfl, rfl⟩, rfl⟩ := f1
  have hval : ∃ V : Dbl, act.value = .fin V ∧ |V.1| ≤ 3 / 20 + 1 / 10 ^ 10 := by
    cases hst : w.strategy with
    | basic s =>
      rw [hst] at e1
      simp only [AgentStrategy.propose, Outcome.ok.injEq, Prod.mk.injEq] at e1
      have hq : q = (s.propose now
          { phase := w.state.phase, frequency := w.state.frequency, coherence := w.localCoherence phaseOf }
          { phase := w.state.localGoal, frequency := w.state.frequency, coherence := goal.coherence } w.context).1.1 := by
        rw [e1.1]
      subst hq
      obtain ⟨V, eV, hV⟩ := step_bound_double s now _ _ w.context (9 / 8) (by norm_num) (by norm_num) hcoh st1 st2 act acc e2
      exact ⟨V, eV, hV.trans (by linarith [hlong s])⟩
    | adaptive l =>
      rw [hst] at e1
      simp only [AgentStrategy.propose] at e1
      unfold adaptivePropose at e1
      by_cases hl : l.length = 0
      · rw [if_pos (by simpa using hl)] at e1
        simp only [Outcome.ok.injEq, Prod.mk.injEq] at e1
        obtain ⟨⟨rfl, -⟩, -⟩ := e1
        obtain ⟨M, eM, hM⟩ := maintain_score w.context.stability st1
        have : act.value = 0 := by
          rcases (chosen_of_two _ _ _ M eM (by norm_num at hM; linarith) act acc e2).1 with rfl | ⟨rfl, -⟩ <;> rfl
        exact ⟨_, this, by rw [abs_zero]; norm_num⟩
      · rw [if_neg (by simpa using hl)] at e1
        dsimp only at e1
        split_ifs at e1
        all_goals
          split at e1
          · rename_i x _
            simp only [Outcome.ok.injEq, Prod.mk.injEq] at e1
            have hq : q = (x.1.propose now
                { phase := w.state.phase, frequency := w.state.frequency, coherence := w.localCoherence phaseOf }
                { phase := w.state.localGoal, frequency := w.state.frequency, coherence := goal.coherence } w.context).1.1 := by
              rw [e1.1]
            subst hq
            obtain ⟨V, eV, hV⟩ := step_bound_double x.1 now _ _ w.context (9 / 8) (by norm_num) (by norm_num) hcoh st1 st2 act acc e2
            exact ⟨V, eV, hV.trans (by linarith [hlong x.1])⟩
          · cases e1
  obtain ⟨V, eV, hV⟩ := hval
  obtain ⟨r, er, δ, hδ, k, hk⟩ := step_phase { w with strategy := s'' } act _ p V hp hp7 eV _ hV (by norm_num) (f2 rfl)
  refine ⟨r, er, k, ?_⟩
  have e : r.1 - p.1 + k * (2 * Real.pi) = (r.1 - (p.1 + δ) + k * (2 * Real.pi)) + δ := by ring
  rw [e]
  have t := abs_add_le (r.1 - (p.1 + δ) + k * (2 * Real.pi)) δ
  norm_num at hδ hk ⊢
  linarith

/-- **C125 in doubles, accurate libraries.** With sine and cosine accurate to 1/50 and phases of at most 7 the coherence found is at most 9/8, so that no agent
with at most 2^40 neighbours moves more than 0.15 radians in one step, up to 1e-9, whatever its strategy. -/
theorem C125_accurate_double (ε : ℝ) (e1 : ε ≤ 1 / 50) (hε : ∀ d : Dbl, TrigWithin ε d) (a : Agent F64) (phaseOf : ℕ → F64) (p : Dbl)
    (hp : a.state.phase = .fin p) (hp7 : |p.1| ≤ 7) (q : ℕ → Dbl) (hq : ∀ n ∈ a.neighborList, |(q n).1| ≤ 7) (hn : a.neighborList.length ≤ 2 ^ 40)
    (now : ℤ) (goal : State F64) (d1 d2 : F64) (act : Action F64) (b : Agent F64)
    (h : (a.updateContext fun n => .fin (q n)).proposeAdjustment phaseOf now goal d1 d2 = .ok ((act, true), b)) :
    ∃ r : Dbl, (b.applyAction act).2.state.phase = .fin r ∧ Near r.1 p.1 (0.15 + 1 / 10 ^ 9) := by
  refine C125_small_steps_double a _ phaseOf p hp hp7 (.inr ?_) now goal d1 d2 act b h
  by_cases h0 : a.neighborList = []
  · refine ⟨⟨0, isDouble_zero⟩, ?_, le_rfl, by norm_num⟩
    unfold Agent.localCoherence
    rw [h0]; rfl
  · obtain ⟨z, ez, -, z0, hz⟩ := C145_local ε hε a p hp hp7 q hq (lt_of_le_of_lt hn (by norm_num)) h0
    refine ⟨z, ez, z0, ?_⟩
    have h1 := orderParameter_le_one (a.neighborList.map fun n => (q n).1)
    have h2 := (abs_le.1 hz).2
    have nR : (a.neighborList.length : ℝ) ≤ 1099511627776 := by exact_mod_cast hn
    unfold coherenceError at h2
    rw [zpow_neg] at h2
    norm_num at h2 ⊢
    linarith

/-- Acceptance does occur: an agent that waits for its next pulse accepts to stay put. -/
example (a : Agent F64) (f : ℕ → F64) (phaseOf : ℕ → F64) (goal : State F64) (p : Pulse F64) (hs : a.strategy = .basic (.pulse p)) (hl : p.lastPulse = 0) (hp : p.period = 10)
    (hb : a.behavior.stubbornness = 0) (he : a.state.energy = 1) :
    ∃ act b, (a.updateContext f).proposeAdjustment phaseOf 5 goal 0 0 = .ok ((act, true), b) := by
  obtain ⟨u1, u2, -, st1, -⟩ := context_frame_double a f
  have fr : (a.updateContext f).behavior = a.behavior ∧ (a.updateContext f).state.energy = a.state.energy := by
    unfold Agent.updateContext
    dsimp only
    by_cases h : a.neighborList.length = 0
    · rw [if_pos h]; exact ⟨rfl, rfl⟩
    · rw [if_neg h]; exact ⟨rfl, rfl⟩
  generalize a.updateContext f = w at *
  obtain ⟨M, eM, hM⟩ := maintain_score w.context.stability st1
  have hM4 : 4 ≤ M.1 := by norm_num at hM; linarith
  obtain ⟨act, acc, hd⟩ : ∃ act acc, decide' { phase := w.state.phase, frequency := w.state.frequency, coherence := w.localCoherence phaseOf }
      [⟨"maintain", 0, 0.1, w.context.stability * 0.5⟩, ⟨"maintain", 0, 0.1, w.context.stability⟩] = (act, acc) := ⟨_, _, rfl⟩
  obtain ⟨h1, rfl⟩ := chosen_of_two _ _ _ M eM hM4 act acc hd
  have hc : act.cost = 0.1 := by rcases h1 with rfl | ⟨rfl, -⟩ <;> rfl
  obtain ⟨L, eL, hL⟩ := tiny_err (x := (0.1 : ℝ)) (by rw [abs_of_pos (by norm_num)]; norm_num)
  obtain ⟨T, eT, hT⟩ := tiny_err (x := (0.3 : ℝ)) (by rw [abs_of_pos (by norm_num)]; norm_num)
  have hL' := (abs_le.1 hL).2
  have hT' := (abs_le.1 hT).1
  norm_num at hL' hT'
  have hpr : (Strat.pulse p).propose 5 { phase := w.state.phase, frequency := w.state.frequency, coherence := w.localCoherence phaseOf }
      { phase := w.state.localGoal, frequency := w.state.frequency, coherence := goal.coherence } w.context =
      ((⟨"maintain", 0, 0.1, w.context.stability * 0.5⟩, 0.3), .pulse p) := by
    simp only [Strat.propose, Pulse.propose]
    rw [if_pos (by omega)]
  refine ⟨act, (C38_acceptance w phaseOf 5 goal 0 0 act).2
    ⟨?_, ⟨"maintain", 0, 0.1, w.context.stability * 0.5⟩, 0.3, .basic (.pulse p), 1, ?_, hd, ?_, ?_⟩⟩
  · rw [fr.1, hb]; exact fun h : (0 : ℝ) < 0 => lt_irrefl _ h
  · rw [u2, hs]
    simp only [AgentStrategy.propose, hpr]
  · rw [hc, fr.2, he, show (0.1 : F64) = F64.ofReal 0.1 from rfl, eL, F64.one_def]
    exact fun h : (1 : ℝ) < L.1 => by linarith
  · rw [show (0.3 : F64) = F64.ofReal 0.3 from rfl, eT, F64.one_def, F64.mul_fin]
    change (0 : F64) < F64.ofReal (T.1 * 1)
    rw [mul_one, F64.ofReal_of_isDouble T.2]
    exact (show (0 : ℝ) < T.1 by linarith)

end
end Verif
