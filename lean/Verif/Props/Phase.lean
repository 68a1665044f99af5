import Verif.Lemmas.Phase
import Verif.Lemmas.Coherence
import Verif.Lemmas.F64

/-!
# C01–C04: phases and coherence
-/

set_option autoImplicit false

namespace Verif
open Real Spec

/-! ## C01 Phase wrapping is canonical -/

/-- Over ℝ: `WrapPhase` returns the unique representative of the angle in `[0, 2π)`. -/
theorem C01_wrapPhase_canonical (p : ℝ) :
    (0 ≤ wrapPhase p ∧ wrapPhase p < 2 * π ∧ SameAngle (wrapPhase p) p) ∧
    ∀ q, 0 ≤ q → q < 2 * π → SameAngle q p → q = wrapPhase p :=
  ⟨⟨wrapPhase_nonneg p, wrapPhase_lt p, wrapPhase_sameAngle p⟩,
   fun _ h0 h1 h => (wrapPhase_unique h h0 h1).symm⟩

/-- Wrapping again changes nothing. -/
theorem C01_wrapPhase_idempotent (p : ℝ) : wrapPhase (wrapPhase p) = wrapPhase p :=
  wrapPhase_of_mem (wrapPhase_nonneg p) (wrapPhase_lt p)

/-- Two phases wrap to the same value exactly when they differ by whole turns. -/
theorem C01_wrapPhase_eq_iff (p q : ℝ) : wrapPhase p = wrapPhase q ↔ SameAngle p q := by
  constructor
  · intro h
    exact (wrapPhase_sameAngle p).symm.trans (h ▸ wrapPhase_sameAngle q)
  · intro h
    exact wrapPhase_unique ((wrapPhase_sameAngle q).trans h.symm) (wrapPhase_nonneg q) (wrapPhase_lt q)

/-- In IEEE doubles, for every rounding mode: wrapping a finite phase gives a finite double in `[0, 2π)`, where `2π` is
the double used by the code; wrapping NaN or an infinity gives NaN. -/
theorem C01_wrapPhase_double [Rounding] [LibM] (p : F64) :
    match p with
    | .fin _ => ∃ r : Dbl, wrapPhase p = .fin r ∧ 0 ≤ r.1 ∧ r.1 < F64.tau.1
    | _ => wrapPhase p = .nan := by
  have ht := F64.tau_bounds
  have ht0 : F64.tau.1 ≠ 0 := by linarith [ht.1] |> fun h : 0 < F64.tau.1 => h.ne'
  cases p with
  | nan => rfl
  | pinf => rfl
  | ninf => rfl
  | fin a =>
    simp only
    unfold wrapPhase
    rw [F64.piMul_two, F64.mod_fin _ _ ht0, F64.add_fin]
    have hm := (isDouble_mod a.2 F64.tau.2 ht0).2
    rw [abs_of_pos (by linarith [ht.1] : 0 < F64.tau.1), abs_lt] at hm
    obtain ⟨y, hy, e, hy0, -⟩ := F64.ofReal_between
      (x := a.1 - F64.tau.1 * rtrunc (a.1 / F64.tau.1) + F64.tau.1)
      isDouble_zero (isDouble_ofNat 14 (by norm_num)) (by linarith [hm.1]) (by
        have : (OfNat.ofNat 14 : ℝ) = 14 := rfl
        rw [this]; linarith [hm.2, ht.2])
    simp only at e ⊢
    rw [e, F64.mod_fin _ _ ht0]
    refine ⟨_, rfl, ?_, ?_⟩
    · simp only
      have h0 : 0 ≤ y / F64.tau.1 := div_nonneg hy0 (by linarith [ht.1])
      unfold rtrunc; rw [if_pos h0]
      have := (le_div_iff₀ (by linarith [ht.1] : 0 < F64.tau.1)).mp (Int.floor_le (y / F64.tau.1))
      linarith
    · have := (isDouble_mod hy F64.tau.2 ht0).2
      rw [abs_of_pos (by linarith [ht.1] : 0 < F64.tau.1), abs_lt] at this
      exact this.2

/-- non-vacuity: `-π/2` is not in the range, and wraps to `3π/2` -/
example : wrapPhase (-(π / 2)) = 3 * π / 2 := by
  apply wrapPhase_unique
  · exact ⟨1, by push_cast; ring⟩
  · have := Real.pi_pos; linarith
  · have := Real.pi_pos; linarith

/-! ## C02 Phase difference is the signed shortest rotation -/

/-- The full claim, kept in view; the code does not satisfy it (`C02_refuted`). -/
def C02_claim : Prop := ∀ p1 p2 : ℝ, ShortestRotation p2 p1 (phaseDifference p1 p2)

theorem specialPair_zero : SpecialPair 0 (3 * π / 2) := Or.inl (by norm_num)

/-- The code violates the claim at `(0, 3π/2)`: it answers `-π/2`, which rotates `3π/2` to `π`, away from `0`. -/
theorem C02_refuted : ¬ C02_claim := by
  intro h
  have hval : phaseDifference (0 : ℝ) (3 * π / 2) = -(π / 2) := by
    rw [phaseDifference_eq, if_pos]; norm_num
  obtain ⟨⟨k, hk⟩, -⟩ := h 0 (3 * π / 2)
  rw [hval] at hk
  have hp := Real.pi_pos
  have h1 : (1 : ℝ) = 2 * k := by nlinarith
  have h2 : (1 : ℤ) = 2 * k := by exact_mod_cast h1
  omega

/-- Exactly what happens at each of the two special pairs: the answer is the opposite of the correct rotation. -/
theorem C02_wrong_direction :
    phaseDifference (0 : ℝ) (3 * π / 2) = -(π / 2) ∧ ShortestRotation (3 * π / 2) 0 (π / 2) ∧
    phaseDifference (3 * π / 2) (0 : ℝ) = π / 2 ∧ ShortestRotation 0 (3 * π / 2) (-(π / 2)) := by
  have hp := Real.pi_pos
  have aux : ∀ m : ℤ, |π / 2| ≤ |π / 2 + m * (2 * π)| := by
    intro m
    rw [abs_of_pos (by linarith)]
    rcases le_or_gt m (-1) with hm | hm
    · have : (m : ℝ) ≤ -1 := by exact_mod_cast hm
      rw [abs_of_nonpos (by nlinarith)]; nlinarith
    · have : (0 : ℝ) ≤ m := by exact_mod_cast (by omega : 0 ≤ m)
      rw [abs_of_nonneg (by nlinarith)]; nlinarith
  refine ⟨by rw [phaseDifference_eq, if_pos]; norm_num, ⟨⟨1, by push_cast; ring⟩, by linarith, by linarith, ?_⟩, ?_,
    ⟨⟨-1, by push_cast; ring⟩, by linarith, by linarith, ?_⟩⟩
  · rintro d' ⟨k, hk⟩
    have : d' = π / 2 + (k - 1 : ℤ) * (2 * π) := by push_cast; linarith
    rw [this]; exact aux _
  · rw [phaseDifference_eq, if_neg, if_pos]
    · norm_num
    · rintro ⟨h, -⟩
      rw [abs_of_pos (by linarith)] at h
      have := Real.pi_gt_three
      norm_num at h; linarith
  · rintro d' ⟨k, hk⟩
    have : d' = -(π / 2 + (-1 - k : ℤ) * (2 * π)) := by push_cast; linarith
    rw [this, abs_neg, abs_neg]; exact aux _

/-- Outside the two special pairs (phases within `1e-10` of `(0, 3π/2)` or `(3π/2, 0)`) the claim holds. -/
theorem C02_phaseDifference_partial {p1 p2 : ℝ} (h : ¬ SpecialPair p1 p2) :
    ShortestRotation p2 p1 (phaseDifference p1 p2) :=
  phaseDifference_shortestRotation h

/-- The range holds for every pair, special or not. -/
theorem C02_phaseDifference_range (p1 p2 : ℝ) : -π < phaseDifference p1 p2 ∧ phaseDifference p1 p2 ≤ π :=
  ⟨phaseDifference_gt p1 p2, phaseDifference_le p1 p2⟩

/-- On the special pairs the claim always fails: so `C02_phaseDifference_partial` has the weakest hypothesis. -/
theorem C02_fails_on_special {p1 p2 : ℝ} (h : SpecialPair p1 p2) :
    ¬ ShortestRotation p2 p1 (phaseDifference p1 p2) := by
  intro hr
  obtain ⟨k, hk⟩ := hr.lands
  have hp := Real.pi_gt_three
  have key : ∀ e : ℝ, |e| < 1 → ∀ k : ℤ, π + e = k * (2 * π) → False := by
    intro e he k hk
    rw [abs_lt] at he
    rcases le_or_gt k 0 with h | h
    · have : (k : ℝ) ≤ 0 := by exact_mod_cast h
      nlinarith
    · have : (1 : ℝ) ≤ k := by exact_mod_cast h
      nlinarith
  rcases h with ⟨h1, h2⟩ | ⟨h1, h2⟩
  · rw [phaseDifference_eq, if_pos ⟨h1, h2⟩] at hk
    rw [abs_lt] at h1 h2
    norm_num at h1 h2
    refine key (p2 - 3 * π / 2 - p1) (by rw [abs_lt]; constructor <;> linarith) k (by linarith)
  · rw [phaseDifference_eq, if_neg, if_pos ⟨h1, h2⟩] at hk
    · rw [abs_lt] at h1 h2
      norm_num at h1 h2
      refine key (p1 - 3 * π / 2 - p2) (by rw [abs_lt]; constructor <;> linarith) (-k) (by push_cast; linarith)
    · rintro ⟨h3, -⟩
      rw [abs_lt] at h1 h3
      norm_num at h1 h3
      linarith

example : ¬ SpecialPair 1 2 := by
  have := Real.pi_gt_three
  rintro (⟨h, -⟩ | ⟨-, h⟩) <;> norm_num at h

/-! ## C03 Coherence is the length of the mean unit vector -/

/-- Over the reals the coherence is the modulus of the mean of the unit vectors. -/
theorem C03_coherence_eq_orderParameter (l : List ℝ) : measureCoherence l = orderParameter l :=
  measureCoherence_eq_orderParameter l

/-- The coherence is between 0 and 1. -/
theorem C03_coherence_range (l : List ℝ) : 0 ≤ measureCoherence l ∧ measureCoherence l ≤ 1 := by
  rw [measureCoherence_eq_orderParameter]
  exact ⟨orderParameter_nonneg l, orderParameter_le_one l⟩

/-- The coherence is 1 exactly if there are phases and all of them are the same angle. -/
theorem C03_coherence_eq_one_iff (l : List ℝ) :
    measureCoherence l = 1 ↔ l ≠ [] ∧ ∀ a ∈ l, ∀ b ∈ l, SameAngle a b :=
  measureCoherence_eq_one_iff l

/-- Without phases the coherence is 0. -/
theorem C03_coherence_nil : measureCoherence ([] : List ℝ) = 0 := by
  simp [measureCoherence]

/-- a spread-out pair is not fully coherent, an aligned one is -/
example : measureCoherence [0, 2 * π, 4 * π] = 1 := by
  rw [C03_coherence_eq_one_iff]
  refine ⟨by simp, ?_⟩
  intro a ha b hb
  have : ∀ x ∈ [0, 2 * π, 4 * π], SameAngle x 0 := by
    intro x hx
    simp only [List.mem_cons, List.not_mem_nil, or_false] at hx
    rcases hx with rfl | rfl | rfl
    · exact SameAngle.refl 0
    · exact ⟨1, by push_cast; ring⟩
    · exact ⟨2, by push_cast; ring⟩
  exact (this a ha).trans (this b hb).symm

/-! ## C04 Coherence depends only on the multiset of relative phases -/

/-- The coherence does not depend on the order of the phases. -/
theorem C04_coherence_perm {l l' : List ℝ} (h : l.Perm l') : measureCoherence l = measureCoherence l' := by
  rw [measureCoherence_eq, measureCoherence_eq, h.length_eq]
  simp only [cosSum, sinSum, (h.map _).sum_eq]

/-- Turning all phases by the same angle does not change the coherence. -/
theorem C04_coherence_rotate (l : List ℝ) (c : ℝ) : measureCoherence (l.map (· + c)) = measureCoherence l := by
  rw [measureCoherence_eq_orderParameter, measureCoherence_eq_orderParameter]
  unfold orderParameter
  have : ((l.map (· + c)).map fun p : ℝ => Complex.exp (p * Complex.I)).sum =
      Complex.exp (c * Complex.I) * (l.map fun p : ℝ => Complex.exp (p * Complex.I)).sum := by
    induction l with
    | nil => simp
    | cons x xs ih =>
      simp only [List.map_cons, List.sum_cons, ih, mul_add]
      congr 1
      rw [← Complex.exp_add]; congr 1; push_cast; ring
  rw [this, norm_mul, Complex.norm_exp_ofReal_mul_I, one_mul, List.length_map]

/-- Adding whole turns to individual phases (possibly different for each) changes nothing. -/
theorem C04_coherence_turns {l l' : List ℝ} (h : List.Forall₂ SameAngle l l') :
    measureCoherence l = measureCoherence l' := by
  have hc : cosSum l = cosSum l' ∧ sinSum l = sinSum l' ∧ l.length = l'.length := by
    induction h with
    | nil => simp
    | cons h _ ih =>
      obtain ⟨h1, h2, h3⟩ := ih
      simp only [cosSum, sinSum, List.map_cons, List.sum_cons, List.length_cons, h.cos_eq, h.sin_eq] at *
      exact ⟨by rw [h1], by rw [h2], by rw [h3]⟩
  rw [measureCoherence_eq, measureCoherence_eq, hc.1, hc.2.1, hc.2.2]

example : ([1, 2, 3] : List ℝ).Perm [3, 2, 1] := by
  exact (List.reverse_perm [1, 2, 3]).symm
example : List.Forall₂ SameAngle [1, 2] [1 + 2 * π, 2] :=
  .cons ⟨-1, by push_cast; ring⟩ (.cons (SameAngle.refl 2) .nil)

end Verif
