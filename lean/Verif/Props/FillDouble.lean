import Verif.Props.CostDouble
import Verif.Props.Patterns
import Verif.Props.ThresholdsDouble

/-! # C81 in doubles: filling a gap -/

set_option autoImplicit false
set_option linter.unusedSectionVars false

namespace Verif
open GoMath Spec Rounding

section
variable [Rounding] [LibM]

/-- **C81, completing, in doubles.** A gap of more than one step (up to a million) between finite phases of at most 14 is filled with one finite phase in `[0, 2π)` per
missing place. They lie, up to 1e-12 each, in equal steps on the way of `D` from the start of the gap, and `D` leads to its end up to the accuracy of C135. -/
theorem C81_complete_double (ε : ℝ) (hl : Accurate ε) (p : Temporal F64) (i n : ℕ) (d : ℤ) (a b : Dbl) (ha : p.phases[i]? = some (.fin a))
    (hb : p.phases[i + n + 2]? = some (.fin b)) (hn : n ≤ 1000000) (ha14 : |a.1| ≤ 14) (hb14 : |b.1| ≤ 14)
    (hs : ¬ (GoMath.abs (F64.fin b) < (1e-10 : F64) ∧ GoMath.abs (F64.fin a - piMul (3 / 2)) < (1e-10 : F64)) ∧
      ¬ (GoMath.abs (F64.fin b - piMul (3 / 2)) < (1e-10 : F64) ∧ GoMath.abs (F64.fin a) < (1e-10 : F64))) :
    ∃ (D : Dbl) (l : List Dbl), |D.1| ≤ Real.pi ∧ Near D.1 (b.1 - a.1) (6 * ε + 29 * 2 ^ (-53 : ℤ)) ∧
      p.complete ⟨i, i + n + 2, d⟩ = some (l.map F64.fin) ∧ l.length = n + 1 ∧ (∀ x ∈ l, 0 ≤ x.1 ∧ x.1 < 2 * Real.pi) ∧
      ∀ (j : ℕ) (x : Dbl), l[j]? = some x → Near x.1 (a.1 + D.1 * ((j + 1) / (n + 2))) (1 / 10 ^ 12) := by
  obtain ⟨D, eD, hD, hN⟩ := C135_difference ε hl b a hb14 ha14 hs
  obtain ⟨hlen, -⟩ := List.getElem?_eq_some_iff.1 hb
  have ea : p.phases.getD i 0 = .fin a := by rw [List.getD_eq_getElem?_getD, ha]; rfl
  have eb : p.phases.getD (i + n + 2) 0 = .fin b := by rw [List.getD_eq_getElem?_getD, hb]; rfl
  have hpi2 := Real.pi_lt_d2
  norm_num at hpi2
  have hn2 : (0 : ℝ) < n + 2 := by positivity
  have key : ∀ j : ℕ, j < n + 1 → ∃ x : Dbl, wrapPhase (F64.fin a + F64.fin D * (ofInt ((j : ℤ) + 1) / ofInt ((i : ℤ) + n + 2 - i - 1 + 1))) = .fin x ∧ 0 ≤ x.1 ∧
      x.1 < 2 * Real.pi ∧ Near x.1 (a.1 + D.1 * ((j + 1) / (n + 2))) (1 / 10 ^ 12) := by
    intro j hj
    have e1 : (ofInt ((j : ℤ) + 1) : F64) = .fin ⟨((j : ℤ) + 1 : ℤ), isDouble_int (by rw [abs_of_nonneg (by omega)]; omega)⟩ :=
      F64.ofReal_of_isDouble _
    have e2 : (ofInt ((i : ℤ) + n + 2 - i - 1 + 1) : F64) = .fin ⟨((n : ℤ) + 2 : ℤ), isDouble_int (by rw [abs_of_nonneg (by omega)]; omega)⟩ := by
      rw [show ((i : ℤ) + n + 2 - i - 1 + 1) = (n : ℤ) + 2 by ring]
      exact F64.ofReal_of_isDouble _
    have hne : ((((n : ℤ) + 2 : ℤ)) : ℝ) ≠ 0 := by push_cast; exact hn2.ne'
    have hq : ((((j : ℤ) + 1 : ℤ)) : ℝ) / (((n : ℤ) + 2 : ℤ) : ℝ) = ((j : ℝ) + 1) / (n + 2) := by push_cast; rfl
    have q0 : 0 ≤ ((j : ℝ) + 1) / (n + 2) := by positivity
    have q1 : ((j : ℝ) + 1) / (n + 2) ≤ 1 := by
      rw [div_le_one hn2]
      have : (j : ℝ) + 1 ≤ n + 1 := by exact_mod_cast hj
      linarith
    obtain ⟨Q, eQ, hQ⟩ := tiny_err (x := ((j : ℝ) + 1) / (n + 2)) (by rw [abs_of_nonneg q0]; linarith)
    have hDq : |D.1 * Q.1 - D.1 * (((j : ℝ) + 1) / (n + 2))| ≤ 4 / 10 ^ 13 := by
      rw [← mul_sub, abs_mul]
      have := mul_le_mul (show |D.1| ≤ 4 by linarith) hQ (abs_nonneg _) (by norm_num)
      norm_num at this ⊢
      linarith
    have hD1 : |D.1 * (((j : ℝ) + 1) / (n + 2))| ≤ 4 := by
      rw [abs_mul, abs_of_nonneg q0]
      have := mul_le_mul (show |D.1| ≤ 4 by linarith) q1 q0 (by norm_num)
      linarith
    generalize ((j : ℝ) + 1) / (n + 2) = q at *
    have hDQ : |D.1 * Q.1| ≤ 5 := by
      have := abs_sub_abs_le_abs_sub (D.1 * Q.1) (D.1 * q)
      norm_num at hDq
      linarith
    obtain ⟨W, eW, hW⟩ := tiny_err (x := D.1 * Q.1) (by linarith)
    have hW6 : |W.1| ≤ 6 := by
      have := abs_sub_abs_le_abs_sub W.1 (D.1 * Q.1)
      norm_num at hW
      linarith
    obtain ⟨S, eS, hS⟩ := tiny_err (x := a.1 + W.1) (by have := abs_add_le a.1 W.1; linarith)
    have hS21 : |S.1| ≤ 21 := by
      have t1 := abs_sub_abs_le_abs_sub S.1 (a.1 + W.1)
      have t2 := abs_add_le a.1 W.1
      norm_num at hS
      linarith
    obtain ⟨x, ex, x0, x1, k, hk⟩ := C134_wrap S
    refine ⟨x, ?_, x0, x1, k, ?_⟩
    · rw [e1, e2, F64.div_fin hne]
      dsimp only
      rw [hq, eQ, F64.mul_fin, eW, F64.add_fin, eS, ex]
    · have e : x.1 - (a.1 + D.1 * q) + k * (2 * Real.pi) = (x.1 - S.1 + k * (2 * Real.pi)) + ((S.1 - (a.1 + W.1)) + ((W.1 - D.1 * Q.1) + (D.1 * Q.1 - D.1 * q))) := by ring
      rw [e]
      have t1 := abs_add_le (x.1 - S.1 + k * (2 * Real.pi)) ((S.1 - (a.1 + W.1)) + ((W.1 - D.1 * Q.1) + (D.1 * Q.1 - D.1 * q)))
      have t2 := abs_add_le (S.1 - (a.1 + W.1)) ((W.1 - D.1 * Q.1) + (D.1 * Q.1 - D.1 * q))
      have t3 := abs_add_le (W.1 - D.1 * Q.1) (D.1 * Q.1 - D.1 * q)
      have hu : (2 : ℝ) ^ (-53 : ℤ) ≤ 12 / 10 ^ 17 := by rw [zpow_neg]; norm_num
      have hu0 : (0 : ℝ) < 2 ^ (-53 : ℤ) := by positivity
      generalize (2 : ℝ) ^ (-53 : ℤ) = u at hk hu hu0
      have hb : (2 * |S.1| + 22) * u ≤ 64 * u := mul_le_mul_of_nonneg_right (by linarith) hu0.le
      refine (t1.trans (add_le_add hk (t2.trans (add_le_add hS (t3.trans (add_le_add hW hDq)))))).trans ?_
      norm_num at hu ⊢
      linarith
  let f : ℕ → Dbl := fun j => if h : j < n + 1 then (key j h).choose else a
  have hf : ∀ j, j < n + 1 → wrapPhase (F64.fin a + F64.fin D * (ofInt ((j : ℤ) + 1) / ofInt ((i : ℤ) + n + 2 - i - 1 + 1))) = .fin (f j) ∧ 0 ≤ (f j).1 ∧
      (f j).1 < 2 * Real.pi ∧ Near (f j).1 (a.1 + D.1 * ((j + 1) / (n + 2))) (1 / 10 ^ 12) := by
    intro j hj
    have : f j = (key j hj).choose := dif_pos hj
    rw [this]
    exact (key j hj).choose_spec
  refine ⟨D, (List.range (n + 1)).map f, hD, hN, ?_, by simp, ?_, ?_⟩
  · unfold Temporal.complete
    dsimp only
    rw [if_neg (by omega), if_neg (by omega)]
    rw [show ((i : ℤ) + n + 2).toNat = i + n + 2 by omega, show (i : ℤ).toNat = i by omega, ea, eb, eD,
      show ((i : ℤ) + n + 2 - i - 1).toNat = n + 1 by omega, List.map_map]
    congr 1
    refine List.map_congr_left fun j hj => ?_
    exact (hf j (List.mem_range.1 hj)).1
  · intro x hx
    obtain ⟨j, hj, rfl⟩ := List.mem_map.1 hx
    obtain ⟨-, h1, h2, -⟩ := hf j (List.mem_range.1 hj)
    exact ⟨h1, h2⟩
  · intro j x hx
    rw [List.getElem?_map] at hx
    by_cases hj : j < n + 1
    · rw [List.getElem?_range hj] at hx
      simp only [Option.map_some, Option.some.injEq] at hx
      rw [← hx]
      exact (hf j hj).2.2.2
    · rw [List.getElem?_eq_none (by simpa using hj)] at hx
      cases hx

/-- The phases 1 and 2 with a place missing between them. -/
example : ∃ (p : Temporal F64) (i n : ℕ) (a b : Dbl), p.phases[i]? = some (.fin a) ∧ p.phases[i + n + 2]? = some (.fin b) ∧ n ≤ 1000000 ∧ |a.1| ≤ 14 ∧ |b.1| ≤ 14 ∧
    ¬ (GoMath.abs (F64.fin b) < (1e-10 : F64) ∧ GoMath.abs (F64.fin a - piMul (3 / 2)) < (1e-10 : F64)) ∧
      ¬ (GoMath.abs (F64.fin b - piMul (3 / 2)) < (1e-10 : F64) ∧ GoMath.abs (F64.fin a) < (1e-10 : F64)) :=
  ⟨{ phases := [.fin ⟨1, isDouble_one⟩, 0, .fin ⟨2, isDouble_ofNat 2 (by norm_num)⟩], frequencies := [], amplitude := 0, period := 0, confidence := 0 }, 0, 0, ⟨1, isDouble_one⟩, ⟨2, isDouble_ofNat 2 (by norm_num)⟩,
    rfl, rfl, by norm_num, by norm_num, by norm_num, fun h => not_tiny (by norm_num) h.1, fun h => not_tiny (by norm_num) h.2⟩

end
end Verif
