import Verif.Props.NudgeDouble
import Verif.Props.Pull

/-!
# C98 in doubles: pulls on a spread swarm
-/

set_option autoImplicit false
set_option linter.unusedSectionVars false

namespace Verif
open GoMath Spec

variable [Rounding] [LibM]

local notation "π" => Real.pi

/-- **C98, in doubles.** An agent whose computed way forward is at most the threshold stays; any other agent goes between 0.855 and 0.945 times the scale of it, up to
`10^-8`, and does not pass the target. -/
theorem C98_forward_double (c : AdjustCtx F64) (t τ σ : Dbl) (ht : c.targetPhase = .fin t) (ht7 : |t.1| ≤ 7) (hτ : c.cfg.patternDistanceThreshold = .fin τ)
    (hτ0 : 0.001 ≤ τ.1) (hσ0 : 0.1 ≤ σ.1) (hσ1 : σ.1 ≤ 1) (w : ℕ → ℕ) (a : Agent F64) (p D : Dbl) (hp : a.state.phase = .fin p)
    (hp7 : |p.1| ≤ 7) (eD : wrapPhase (c.targetPhase - a.state.phase) = .fin D) :
    (D.1 ≤ τ.1 → pullAgent c (.fin σ) w a = a) ∧
    (τ.1 < D.1 → ∃ p' D' : Dbl, (pullAgent c (.fin σ) w a).state.phase = .fin p' ∧ |p'.1| ≤ 7 ∧ wrapPhase (c.targetPhase - .fin p') = .fin D' ∧
      D.1 * (1 - 0.945 * σ.1) - 1 / 10 ^ 8 ≤ D'.1 ∧ D'.1 ≤ D.1 * (1 - 0.855 * σ.1) + 1 / 10 ^ 8) := by
  have hpi1 := Real.pi_gt_d2
  have hpi2 := Real.pi_lt_d2
  norm_num at hpi1 hpi2 hτ0 hσ0
  obtain ⟨D2, eD2, D0, D1, hD⟩ := forward_double t p ht7 hp7
  rw [ht, hp, eD2] at eD
  obtain rfl : D2 = D := F64.fin.inj eD
  obtain ⟨A, eA, hA⟩ := F64.abs_fin D2
  unfold pullAgent
  dsimp only
  rw [ht, hp, eD2, eA, hτ]
  rw [abs_of_nonneg D0] at hA
  constructor
  · intro h
    rw [if_neg]
    show ¬ τ.1 < A.1
    rw [hA]; exact not_lt.2 h
  · intro h
    have hgt : F64.fin A > F64.fin τ := show τ.1 < A.1 by rw [hA]; exact h
    rw [if_pos hgt]
    obtain ⟨r, r0, r1, hr⟩ := App.rand (w 0)
    have l9 : App (0.9 : F64) 0.9 (1 / 10 ^ 13) := by lit
    have l95 : App (0.95 : F64) 0.95 (1 / 10 ^ 13) := by lit
    have l1 : App (0.1 : F64) 0.1 (1 / 10 ^ 13) := by lit
    have hD7 : |D2.1| ≤ 7 := by rw [abs_of_nonneg D0]; linarith
    have m2 := App.mul (App.fin D2) (App.fin σ) (A := 7) (B := 1) (g := 1 / 10 ^ 12) hD7 (by rw [abs_of_nonneg (by linarith)]; exact hσ1) (by norm_num)
      (by norm_num) (by norm_num)
    have hDS : |D2.1 * σ.1| ≤ 7 := by rw [abs_of_nonneg (by nlinarith)]; nlinarith
    have m3 := App.mul m2 l9 (A := 7) (B := 1) (g := 1 / 10 ^ 11) hDS (by rw [abs_of_nonneg] <;> norm_num) (by norm_num) (by norm_num) (by norm_num)
    have m4 := App.mul hr l1 (A := 1) (B := 1) (g := 1 / 10 ^ 12) (by rw [abs_of_nonneg r0]; exact r1.le) (by rw [abs_of_nonneg] <;> norm_num) (by norm_num)
      (by norm_num) (by norm_num)
    have m5 := App.add l95 m4 (g := 1 / 10 ^ 11) (by rw [abs_of_nonneg (by positivity)]; norm_num; linarith) (by norm_num) (by norm_num)
    have m6 := App.mul m3 m5 (A := 7) (B := 2) (g := 1 / 10 ^ 9) (by rw [abs_of_nonneg (by nlinarith)]; nlinarith)
      (by rw [abs_of_nonneg (by positivity)]; norm_num; linarith) (by norm_num) (by norm_num) (by norm_num)
    obtain ⟨K, hKe, k0, k1⟩ : ∃ K : ℝ, D2.1 * σ.1 * 0.9 * (0.95 + r * 0.1) = D2.1 * K ∧ 0.855 * σ.1 ≤ K ∧ K ≤ 0.945 * σ.1 :=
      ⟨σ.1 * 0.9 * (0.95 + r * 0.1), by ring, by norm_num; nlinarith, by norm_num; nlinarith⟩
    rw [hKe] at m6
    norm_num at k0 k1
    have hDK : |D2.1 * K| ≤ 7 := by rw [abs_of_nonneg (by nlinarith)]; nlinarith
    have m7 := App.add (App.fin p) m6 (g := 2 / 10 ^ 9) ((abs_add_le _ _).trans (by linarith)) (by norm_num) (by norm_num)
    obtain ⟨x, ex, hx⟩ := m7
    have hx20 : |x.1| ≤ 20 := by
      have h1 := abs_sub_abs_le_abs_sub x.1 (p.1 + D2.1 * K)
      have h2 := abs_add_le p.1 (D2.1 * K)
      norm_num at hx
      linarith
    obtain ⟨p', ep', hp', hn⟩ := wrap_twice x hx20
    obtain ⟨D', eD', D0', D1', hD'⟩ := forward_double t p' ht7 hp'
    refine ⟨p', D', ?_, hp', eD', ?_⟩
    · show wrapPhase (wrapPhase _) = _
      rw [ex]; exact ep'
    · obtain ⟨i, hi⟩ := hD
      obtain ⟨j, hj⟩ := hn
      obtain ⟨l, hl⟩ := hD'
      have hmain : |D'.1 - D2.1 * (1 - K) + ((l - i - j : ℤ) : ℝ) * (2 * Real.pi)| ≤ 5 / 10 ^ 9 := by
        have hid : D'.1 - D2.1 * (1 - K) + ((l - i - j : ℤ) : ℝ) * (2 * Real.pi) =
            (D'.1 - (t.1 - p'.1) + l * (2 * Real.pi)) - (D2.1 - (t.1 - p.1) + i * (2 * Real.pi)) - (p'.1 - x.1 + j * (2 * Real.pi)) -
              (x.1 - (p.1 + D2.1 * K)) := by
          push_cast; ring
        rw [hid]
        refine (abs_sub _ _).trans ?_
        refine (add_le_add_left ((abs_sub _ _).trans (add_le_add_left (abs_sub _ _) _)) _).trans ?_
        norm_num at hi hj hl hx ⊢
        linarith
      have hlo : 1 / 110000 ≤ D2.1 * (1 - K) := by nlinarith
      have hhi : D2.1 * (1 - K) ≤ 6 := by nlinarith
      obtain ⟨b1, b2⟩ := abs_le.1 (no_turn D0' D1' hlo hhi hmain)
      norm_num at b1 b2 ⊢
      constructor <;> nlinarith

/-- `n` pulls in doubles, each with its own random numbers. -/
noncomputable def Spec.pullsD (c : AdjustCtx F64) (scale : F64) (w : ℕ → ℕ → ℕ) (a : Agent F64) : ℕ → Agent F64
  | 0 => a
  | n + 1 => pullAgent c scale (w n) (pullsD c scale w a n)

/-- **C98, in doubles.** After `n` pulls the computed way forward is at most the threshold or `(1 - 0.85·scale)^n` of what it was. -/
theorem C98_converges_double (c : AdjustCtx F64) (t τ σ : Dbl) (ht : c.targetPhase = .fin t) (ht7 : |t.1| ≤ 7) (hτ : c.cfg.patternDistanceThreshold = .fin τ)
    (hτ0 : 0.001 ≤ τ.1) (hσ0 : 0.1 ≤ σ.1) (hσ1 : σ.1 ≤ 1) (w : ℕ → ℕ → ℕ) (a : Agent F64) (p D : Dbl) (hp : a.state.phase = .fin p)
    (hp7 : |p.1| ≤ 7) (eD : wrapPhase (c.targetPhase - a.state.phase) = .fin D) (n : ℕ) :
    ∃ p' D' : Dbl, (pullsD c (.fin σ) w a n).state.phase = .fin p' ∧ |p'.1| ≤ 7 ∧ wrapPhase (c.targetPhase - .fin p') = .fin D' ∧
      D'.1 ≤ max τ.1 (D.1 * (1 - 0.85 * σ.1) ^ n) := by
  induction n with
  | zero => exact ⟨p, D, hp, hp7, by rw [← hp]; exact eD, by simp⟩
  | succ n ih =>
    obtain ⟨q, E, hq, hq7, eE, hE⟩ := ih
    obtain ⟨s1, s2⟩ := C98_forward_double c t τ σ ht ht7 hτ hτ0 hσ0 hσ1 (w n) (pullsD c (.fin σ) w a n) q E hq hq7 (by rw [hq]; exact eE)
    rcases le_or_gt E.1 τ.1 with h | h
    · refine ⟨q, E, ?_, hq7, eE, le_max_of_le_left h⟩
      simp only [pullsD]; rw [s1 h]; exact hq
    · obtain ⟨q', E', hq', hq7', eE', -, hb⟩ := s2 h
      refine ⟨q', E', hq', hq7', eE', le_max_of_le_right ?_⟩
      have hE2 : E.1 ≤ D.1 * (1 - 0.85 * σ.1) ^ n := by
        rcases le_max_iff.1 hE with h' | h'
        · exact absurd h' (not_le.2 h)
        · exact h'
      have hk : 0 ≤ 1 - 0.85 * σ.1 := by norm_num at hσ0 ⊢; linarith
      have h3 : E'.1 ≤ E.1 * (1 - 0.85 * σ.1) := by
        refine hb.trans ?_
        norm_num at hτ0 hσ0 ⊢
        nlinarith
      calc E'.1 ≤ E.1 * (1 - 0.85 * σ.1) := h3
        _ ≤ D.1 * (1 - 0.85 * σ.1) ^ n * (1 - 0.85 * σ.1) := mul_le_mul_of_nonneg_right hE2 hk
        _ = D.1 * (1 - 0.85 * σ.1) ^ (n + 1) := by ring

/-- The default settings meet the hypotheses: threshold 0.05, scale 0.75 · 1.2; and every agent with a phase of at most 7 has a way forward. -/
example (p : Dbl) (hp : |p.1| ≤ 7) : ∃ τ σ D : Dbl, (minAPIConfig : GoalConfig F64).patternDistanceThreshold = .fin τ ∧ 0.001 ≤ τ.1 ∧
    (minAPIConfig : GoalConfig F64).baseAdjustmentScale * 1.2 = .fin σ ∧ 0.1 ≤ σ.1 ∧ σ.1 ≤ 1 ∧
    wrapPhase (F64.fin ⟨1, isDouble_one⟩ - .fin p) = .fin D := by
  obtain ⟨τ, eτ, hτ⟩ : App (0.05 : F64) 0.05 (1 / 10 ^ 13) := by lit
  have l75 : App (0.75 : F64) 0.75 (1 / 10 ^ 13) := by lit
  have l12 : App (1.2 : F64) 1.2 (1 / 10 ^ 13) := by lit
  obtain ⟨σ, eσ, hσ⟩ := App.mul l75 l12 (A := 1) (B := 2) (g := 1 / 10 ^ 11) (by rw [abs_of_nonneg] <;> norm_num) (by rw [abs_of_nonneg] <;> norm_num)
    (by norm_num) (by norm_num) (by norm_num)
  obtain ⟨D, eD, -⟩ := forward_double ⟨1, isDouble_one⟩ p (by norm_num) hp
  obtain ⟨t1, -⟩ := abs_le.1 hτ
  obtain ⟨s1, s2⟩ := abs_le.1 hσ
  norm_num at t1 s1 s2
  exact ⟨τ, σ, D, eτ, by norm_num; linarith, eσ, by norm_num; linarith, by linarith, eD⟩

end Verif
