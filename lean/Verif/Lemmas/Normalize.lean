import Verif.Lemmas.F64
import Verif.Lemmas.Phase
import Verif.Model.Core

/-! # Lemmas: the phase loops of `State.normalize`, over the reals and over doubles -/

set_option autoImplicit false

namespace Verif
open Rounding

/-! ## Over the reals -/
section real
open Real

theorem loopUp_real (p : ℝ) : ∃ N, ∀ n ≥ N, ∃ q, loopUp n p = some q ∧ 0 ≤ q ∧ Spec.SameAngle p q ∧
    (p < 0 → q < 2 * π) ∧ (0 ≤ p → q = p) := by
  have hpi := Real.pi_gt_three
  obtain ⟨k, hk⟩ := exists_nat_gt (-p)
  refine ⟨k, fun n hn => ?_⟩
  have hn' : -p < n := lt_of_lt_of_le hk (by exact_mod_cast hn)
  clear hk hn
  induction n generalizing p with
  | zero =>
    have hp : 0 ≤ p := by have : -p < 0 := by simpa using hn'
                          linarith
    exact ⟨p, by rw [loopUp, if_neg (not_lt.mpr hp)], hp, Spec.SameAngle.refl _, fun h => by linarith, fun _ => rfl⟩
  | succ n ih =>
    by_cases hp : p < 0
    · have h2 : (GoMath.piMul 2 : ℝ) = 2 * π := by simp
      obtain ⟨q, hq, h0, hs, h1, h3⟩ := ih (p + 2 * π) (by push_cast at hn'; linarith)
      refine ⟨q, by rw [loopUp, if_pos hp, h2]; exact hq, h0, ?_, fun _ => ?_, fun h => by linarith⟩
      · refine Spec.SameAngle.trans ?_ hs
        exact ⟨-1, by push_cast; ring⟩
      · by_cases h : p + 2 * π < 0
        · exact h1 h
        · rw [h3 (not_lt.mp h)]; linarith
    · exact ⟨p, by rw [loopUp, if_neg hp], not_lt.mp hp, Spec.SameAngle.refl _, fun h => absurd h hp, fun _ => rfl⟩

theorem loopDown_real (p : ℝ) (hp : 0 ≤ p) : ∃ N, ∀ n ≥ N, ∃ q, loopDown n p = some q ∧ 0 ≤ q ∧ q < 2 * π ∧
    Spec.SameAngle p q := by
  have hpi := Real.pi_gt_three
  obtain ⟨k, hk⟩ := exists_nat_gt p
  refine ⟨k, fun n hn => ?_⟩
  have hn' : p < n := lt_of_lt_of_le hk (by exact_mod_cast hn)
  clear hk hn
  have h2 : (GoMath.piMul 2 : ℝ) = 2 * π := by simp
  induction n generalizing p with
  | zero => exfalso; have : p < 0 := by simpa using hn'
            linarith
  | succ n ih =>
    by_cases h : p ≥ 2 * π
    · obtain ⟨q, hq, h0, h1, hs⟩ := ih (p - 2 * π) (by linarith) (by push_cast at hn'; linarith)
      refine ⟨q, by rw [loopDown, h2, if_pos h]; exact hq, h0, h1, ?_⟩
      refine Spec.SameAngle.trans ?_ hs
      exact ⟨1, by push_cast; ring⟩
    · exact ⟨p, by rw [loopDown, h2, if_neg h], hp, not_le.mp h, Spec.SameAngle.refl _⟩

/-- For enough fuel the two loops compute the representative of the angle in `[0, 2π)`. -/
theorem loops_real (p : ℝ) : ∃ N, ∀ n ≥ N, (loopUp n p).bind (loopDown n) = some (wrapPhase p) := by
  obtain ⟨N1, h1⟩ := loopUp_real p
  obtain ⟨q1, -, hq0, -⟩ := h1 N1 le_rfl
  by_cases hp : 0 ≤ p
  · obtain ⟨N2, h2⟩ := loopDown_real p hp
    refine ⟨max N1 N2, fun n hn => ?_⟩
    obtain ⟨q, e, h0, hs, -, h3⟩ := h1 n (le_trans (le_max_left _ _) hn)
    obtain ⟨r, e', r0, r1, hs'⟩ := h2 n (le_trans (le_max_right _ _) hn)
    rw [e, Option.bind_some, h3 hp, e']
    congr 1
    exact (wrapPhase_unique hs'.symm r0 r1).symm
  · refine ⟨N1, fun n hn => ?_⟩
    obtain ⟨q, e, h0, hs, h2, -⟩ := h1 n hn
    have hlt := h2 (not_le.mp hp)
    rw [e, Option.bind_some]
    have h2 : (GoMath.piMul 2 : ℝ) = 2 * π := by simp
    have : loopDown n q = some q := by
      cases n <;> rw [loopDown, h2, if_neg (not_le.mpr hlt)]
    rw [this]
    congr 1
    exact (wrapPhase_unique hs.symm h0 hlt).symm

end real

/-! ## Fuel independence (any number type) -/
section fuel
variable {α : Type} [Zero α] [One α] [Add α] [Sub α] [Mul α] [Div α] [Neg α] [LT α] [LE α]
  [DecidableLT α] [DecidableLE α] [BEq α] [OfScientific α] [GoMath α]

theorem loopUp_mono {n m : ℕ} (h : n ≤ m) {p q : α} (e : loopUp n p = some q) : loopUp m p = some q := by
  induction n generalizing p m with
  | zero =>
    rw [loopUp] at e
    split_ifs at e with hp
    cases m <;> rw [loopUp, if_neg hp] <;> exact e
  | succ n ih =>
    rw [loopUp] at e
    obtain ⟨m, rfl⟩ : ∃ k, m = k + 1 := ⟨m - 1, by omega⟩
    rw [loopUp]
    split_ifs at e ⊢ with hp
    · exact ih (by omega) e
    · exact e

theorem loopDown_mono {n m : ℕ} (h : n ≤ m) {p q : α} (e : loopDown n p = some q) : loopDown m p = some q := by
  induction n generalizing p m with
  | zero =>
    rw [loopDown] at e
    split_ifs at e with hp
    cases m <;> rw [loopDown, if_neg hp] <;> exact e
  | succ n ih =>
    rw [loopDown] at e
    obtain ⟨m, rfl⟩ : ∃ k, m = k + 1 := ⟨m - 1, by omega⟩
    rw [loopDown]
    split_ifs at e ⊢ with hp
    · exact ih (by omega) e
    · exact e

theorem loops_mono {n m : ℕ} (h : n ≤ m) {p q : α} (e : (loopUp n p).bind (loopDown n) = some q) :
    (loopUp m p).bind (loopDown m) = some q := by
  obtain ⟨r, e1, e2⟩ := Option.bind_eq_some_iff.mp e
  rw [loopUp_mono h e1, Option.bind_some, loopDown_mono h e2]

theorem normalize_mono {n m : ℕ} (h : n ≤ m) {s s' : State α} (e : s.normalize n = some s') :
    s.normalize m = some s' := by
  unfold State.normalize at *
  simp only [Option.map_eq_some_iff] at *
  obtain ⟨p, hp, hs⟩ := e
  refine ⟨p, ?_, hs⟩
  split_ifs at hp ⊢ with hc
  · exact loops_mono h hp
  · exact hp

theorem normalizeAndValidate_mono {n m : ℕ} (h : n ≤ m) {s : State α} {r : State α × List StateErr}
    (e : s.normalizeAndValidate n = some r) : s.normalizeAndValidate m = some r := by
  unfold State.normalizeAndValidate at *
  split_ifs at e ⊢ with hc
  all_goals
    rw [Option.map_eq_some_iff] at *
    obtain ⟨s', h1, h2⟩ := e
    exact ⟨s', normalize_mono h h1, h2⟩
end fuel

/-! ## Over doubles -/

/-- Above `2^56` all doubles are multiples of 16. -/
theorem IsDouble.dvd16 {x : ℝ} (h : IsDouble x) (hx : 2 ^ 56 < x) : ∃ k : ℤ, x = k * 16 := by
  obtain ⟨m, e, hm, -, -, rfl⟩ := h
  have he : 4 ≤ e := by
    by_contra hc
    have h1 : (2 : ℝ) ^ e ≤ 2 ^ (3 : ℤ) := zpow_le_zpow_right₀ (by norm_num) (by omega)
    have h2 : (m : ℝ) < 2 ^ 53 := by exact_mod_cast lt_of_le_of_lt (le_abs_self m) hm
    have h3 : (0 : ℝ) < 2 ^ e := by positivity
    norm_num at h1 h2 hx
    nlinarith
  obtain ⟨d, hd⟩ := Int.le.dest he
  refine ⟨m * 2 ^ d, ?_⟩
  rw [← hd, zpow_add₀ (by norm_num)]
  push_cast
  norm_num
  ring

/-- Two doubles above `2^56` less than 16 apart are equal. -/
theorem IsDouble.eq_of_close {x y : ℝ} (hx : IsDouble x) (hy : IsDouble y) (h1 : 2 ^ 56 < x) (h2 : 2 ^ 56 < y)
    (h : |x - y| < 16) : x = y := by
  obtain ⟨j, rfl⟩ := hx.dvd16 h1
  obtain ⟨k, rfl⟩ := hy.dvd16 h2
  have : |(j : ℝ) - k| < 1 := by
    rw [← sub_mul, abs_mul] at h; norm_num at h; linarith
  have h3 : |j - k| < 1 := by exact_mod_cast this
  have h4 : j = k := by have := Int.abs_lt_one_iff.mp h3; omega
  rw [h4]

/-- In `[2^53, 2^56]` subtracting 8 is exact. -/
theorem IsDouble.sub8 {x : ℝ} (h : IsDouble x) (h1 : 2 ^ 53 ≤ x) (h2 : x ≤ 2 ^ 56) : IsDouble (x - 8) := by
  obtain ⟨m, e, hm, hl, hu, rfl⟩ := h
  have hpos : (0 : ℝ) < 2 ^ e := by positivity
  have hm0 : (0 : ℝ) < m := by
    by_contra hc
    push Not at hc
    norm_num at h1
    nlinarith
  have he : 0 ≤ e := by
    by_contra hc
    have h1' : (2 : ℝ) ^ e ≤ 1 := by
      have := zpow_le_zpow_right₀ (a := (2 : ℝ)) (by norm_num) (by omega : e ≤ 0)
      rwa [zpow_zero] at this
    have h2 : (m : ℝ) < 2 ^ 53 := by exact_mod_cast lt_of_le_of_lt (le_abs_self m) hm
    norm_num at h2 h1
    nlinarith
  rcases le_total e 3 with h3 | h3
  · obtain ⟨d, hd⟩ := Int.le.dest h3
    have e8 : (8 : ℝ) = 2 ^ d * 2 ^ e := by
      have : (8 : ℝ) = 2 ^ (3 : ℤ) := by norm_num
      rw [this, ← hd, zpow_add₀ (by norm_num), mul_comm]; simp
    refine ⟨m - 2 ^ d, e, ?_, hl, hu, ?_⟩
    · have hd8 : (2 : ℤ) ^ d ≤ m := by
        have : (2 : ℝ) ^ d ≤ m := by
          have h8 : (2 : ℝ) ^ d * 2 ^ e ≤ m * 2 ^ e := by rw [← e8]; norm_num at h1; linarith
          exact le_of_mul_le_mul_right h8 hpos
        exact_mod_cast this
      have : (0 : ℤ) < 2 ^ d := by positivity
      rw [abs_lt] at hm ⊢
      constructor <;> linarith [hm.1, hm.2]
    · push_cast; rw [sub_mul, ← e8]
  · obtain ⟨d, hd⟩ := Int.le.dest h3
    have ee : (2 : ℝ) ^ e = 2 ^ d * 2 ^ (3 : ℤ) := by
      rw [← hd, zpow_add₀ (by norm_num), mul_comm]; simp
    refine ⟨m * 2 ^ d - 1, 3, ?_, by norm_num, by norm_num, ?_⟩
    · rw [ee] at h1 h2
      have hb : ((m * 2 ^ d : ℤ) : ℝ) ≤ 2 ^ 53 := by
        push_cast; norm_num at h2 ⊢; nlinarith
      have hb' : ((m * 2 ^ d : ℤ) : ℝ) ≥ 1 := by
        push_cast; norm_num at h1 ⊢; nlinarith
      have hb1 : m * 2 ^ d ≤ 2 ^ 53 := by exact_mod_cast hb
      have hb2 : 1 ≤ m * 2 ^ d := by exact_mod_cast hb'
      rw [abs_lt]; constructor <;> omega
    · rw [ee]; push_cast; norm_num; ring

section
variable [Rounding] [LibM]
open F64

omit [LibM] in
theorem tau_gt : 6.2 < tau.1 := by
  have h : IsDouble (25 / 4 : ℝ) := ⟨25, -2, by norm_num, by norm_num, by norm_num, by norm_num⟩
  have := le_rnd (x := 2 * Real.pi) h (by have := Real.pi_gt_d2; norm_num at this ⊢; linarith)
  unfold tau
  norm_num
  linarith

/-- Subtracting 2π from a double above `2^56` is absorbed. -/
theorem sub_absorbed (x : Dbl) (h : 2 ^ 56 < x.1) : (fin x - fin tau : F64) = fin x := by
  rw [sub_fin]
  obtain ⟨t6, t7⟩ := tau_bounds
  obtain ⟨k, hk⟩ := x.2.dvd16 h
  have hx16 : 2 ^ 56 + 16 ≤ x.1 := by
    rw [hk] at h ⊢
    have h' : (2 ^ 52 : ℤ) < k := by
      have : (2 ^ 52 : ℝ) < k := by norm_num at h ⊢; linarith
      exact_mod_cast this
    have : ((2 ^ 52 + 1 : ℤ) : ℝ) ≤ k := by exact_mod_cast h'
    push_cast at this
    norm_num at this ⊢
    linarith
  have hover : |x.1 - tau.1| < overflow := by
    have := x.2.abs_lt_overflow
    have h0 : 0 ≤ x.1 - tau.1 := by norm_num at hx16; linarith
    rw [abs_of_nonneg h0]
    have := le_abs_self x.1
    linarith
  have hn := nearest (x.1 - tau.1) x.1 x.2
  have hr : rnd (x.1 - tau.1) = x.1 := by
    have e : |x.1 - (x.1 - tau.1)| = tau.1 := by rw [show x.1 - (x.1 - tau.1) = tau.1 by ring, abs_of_pos (by linarith)]
    rw [e, abs_le] at hn
    apply IsDouble.eq_of_close (isDouble _) x.2 _ h
    · rw [abs_lt]; constructor <;> linarith [hn.1, hn.2]
    · linarith [hn.1]
  unfold ofReal
  rw [if_pos hover]
  congr 1
  exact Subtype.ext hr

/-- Negation commutes with the step: adding 2π to a double below `-2^56` is absorbed. -/
theorem add_absorbed (x : Dbl) (h : x.1 < -2 ^ 56) : (fin x + fin tau : F64) = fin x := by
  rw [add_fin]
  obtain ⟨t6, t7⟩ := tau_bounds
  obtain ⟨k, hk⟩ := x.2.neg.dvd16 (by linarith)
  have hx16 : x.1 ≤ -(2 ^ 56 + 16) := by
    have h0 : 2 ^ 56 < -x.1 := by linarith
    have h1 : 2 ^ 56 + 16 ≤ -x.1 := by
      rw [hk] at h0 ⊢
      have h' : (2 ^ 52 : ℤ) < k := by
        have : (2 ^ 52 : ℝ) < k := by norm_num at h0 ⊢; linarith
        exact_mod_cast this
      have : ((2 ^ 52 + 1 : ℤ) : ℝ) ≤ k := by exact_mod_cast h'
      push_cast at this
      norm_num at this ⊢
      linarith
    linarith
  have hover : |x.1 + tau.1| < overflow := by
    have := x.2.abs_lt_overflow
    have h0 : x.1 + tau.1 ≤ 0 := by norm_num at hx16; linarith
    rw [abs_of_nonpos h0]
    have := neg_abs_le x.1
    linarith
  have hn := nearest (x.1 + tau.1) x.1 x.2
  have hr : rnd (x.1 + tau.1) = x.1 := by
    have e : |x.1 - (x.1 + tau.1)| = tau.1 := by
      rw [show x.1 - (x.1 + tau.1) = -tau.1 by ring, abs_neg, abs_of_pos (by linarith)]
    rw [e, abs_le] at hn
    have := IsDouble.eq_of_close (isDouble (x.1 + tau.1)).neg x.2.neg (by linarith [hn.2]) (by linarith)
      (by rw [abs_lt]; constructor <;> linarith [hn.1, hn.2])
    linarith
  unfold ofReal
  rw [if_pos hover]
  congr 1
  exact Subtype.ext hr

/-- Below `2^56` the subtraction makes real progress. -/
theorem sub_progress (x : Dbl) (h1 : tau.1 ≤ x.1) (h2 : x.1 ≤ 2 ^ 56) :
    ∃ y : Dbl, (fin x - fin tau : F64) = fin y ∧ 0 ≤ y.1 ∧ y.1 ≤ x.1 - 4 := by
  rw [sub_fin]
  obtain ⟨t6, t7⟩ := tau_bounds
  have t62 := tau_gt
  -- a double at or above the exact result and at most x - 4
  have hd : ∃ d, IsDouble d ∧ 0 ≤ d ∧ |d - (x.1 - tau.1)| ≤ 2 ∧ d ≤ x.1 - 4 := by
    by_cases hb : x.1 < 2 ^ 53
    · have hf1 := Int.floor_le x.1
      have hf2 := Int.lt_floor_add_one x.1
      refine ⟨((⌊x.1⌋ - 5 : ℤ) : ℝ), isDouble_int ?_, ?_, ?_, ?_⟩
      · have : (6 : ℤ) ≤ ⌊x.1⌋ := Int.le_floor.mpr (by push_cast; linarith)
        have h3 : ⌊x.1⌋ < 2 ^ 53 := Int.floor_lt.mpr (by push_cast; norm_num at hb ⊢; exact hb)
        rw [abs_lt]; constructor <;> omega
      · have : (6 : ℤ) ≤ ⌊x.1⌋ := Int.le_floor.mpr (by push_cast; linarith)
        have : (0 : ℤ) ≤ ⌊x.1⌋ - 5 := by omega
        exact_mod_cast this
      · push_cast
        norm_num at t62
        rw [abs_le]; constructor <;> linarith
      · push_cast; linarith
    · refine ⟨x.1 - 8, x.2.sub8 (not_lt.mp hb) h2, ?_, ?_, by linarith⟩
      · norm_num at hb; linarith
      · norm_num at t62
        rw [abs_le]; constructor <;> linarith
  obtain ⟨d, hdd, hd0, hd1, hd2⟩ := hd
  have hov : |x.1 - tau.1| < overflow := by
    rw [abs_of_nonneg (by linarith)]
    have := x.2.abs_lt_overflow
    have := le_abs_self x.1
    linarith
  refine ⟨⟨rnd (x.1 - tau.1), isDouble _⟩, ?_, le_rnd isDouble_zero (by linarith), ?_⟩
  · unfold ofReal; rw [if_pos hov]
  · have hn := nearest (x.1 - tau.1) d hdd
    have h3 := (abs_le.mp (hn.trans hd1)).2
    norm_num at t62
    simp only
    linarith

theorem add_progress (x : Dbl) (h1 : x.1 < 0) (h2 : -2 ^ 56 ≤ x.1) :
    ∃ y : Dbl, (fin x + fin tau : F64) = fin y ∧ y.1 ≤ tau.1 ∧ x.1 + 4 ≤ y.1 := by
  rw [add_fin]
  obtain ⟨t6, t7⟩ := tau_bounds
  have t62 := tau_gt
  have hd : ∃ d, IsDouble d ∧ |d - (x.1 + tau.1)| ≤ 2 := by
    by_cases hb : x.1 > -2 ^ 53
    · refine ⟨((⌈x.1⌉ + 5 : ℤ) : ℝ), isDouble_int ?_, ?_⟩
      · have h3 : -2 ^ 53 < ⌈x.1⌉ := by
          have hc : ((-2 ^ 53 : ℤ) : ℝ) < x.1 := by push_cast; norm_num at hb ⊢; exact hb
          exact Int.lt_ceil.mpr hc
        have h4 : ⌈x.1⌉ ≤ 0 := Int.ceil_le.mpr (by push_cast; linarith)
        rw [abs_lt]; constructor <;> omega
      · have hf1 := Int.le_ceil x.1
        have hf2 := Int.ceil_lt_add_one x.1
        push_cast
        norm_num at t62
        rw [abs_le]; constructor <;> linarith
    · have h8 := (x.2.neg.sub8 (by linarith) (by linarith)).neg
      refine ⟨_, h8, ?_⟩
      norm_num at t62
      rw [abs_le]; constructor <;> linarith
  obtain ⟨d, hdd, hd1⟩ := hd
  have hov : |x.1 + tau.1| < overflow := by
    have := x.2.abs_lt_overflow
    have := tau.2.abs_lt_overflow
    have := neg_abs_le x.1
    have := le_abs_self tau.1
    rw [abs_lt]; constructor <;> linarith
  refine ⟨⟨rnd (x.1 + tau.1), isDouble _⟩, ?_, rnd_le tau.2 (by linarith), ?_⟩
  · unfold ofReal; rw [if_pos hov]
  · have hn := nearest (x.1 + tau.1) d hdd
    have h3 := (abs_le.mp (hn.trans hd1)).1
    norm_num at t62
    simp only
    linarith

theorem loopDown_f64 (x : Dbl) (h0 : 0 ≤ x.1) (h : x.1 ≤ 2 ^ 56) :
    ∃ N, ∃ y : Dbl, loopDown N (fin x : F64) = some (fin y) ∧ 0 ≤ y.1 ∧ y.1 < tau.1 := by
  obtain ⟨k, hk⟩ := exists_nat_gt x.1
  refine ⟨k, ?_⟩
  induction k generalizing x with
  | zero => exfalso; have : x.1 < 0 := by simpa using hk
            linarith
  | succ n ih =>
    by_cases hc : tau.1 ≤ x.1
    · obtain ⟨y, hy, y0, y1⟩ := sub_progress x hc h
      obtain ⟨z, hz, hz0, hz1⟩ := ih y y0 (by linarith) (by push_cast at hk; linarith)
      refine ⟨z, ?_, hz0, hz1⟩
      rw [loopDown, piMul_two, if_pos (by simpa using hc), hy]; exact hz
    · refine ⟨x, ?_, h0, not_le.mp hc⟩
      rw [loopDown, piMul_two, if_neg (by simpa using hc)]

theorem loopUp_f64 (x : Dbl) (h : -2 ^ 56 ≤ x.1) :
    ∃ N, ∃ y : Dbl, loopUp N (fin x : F64) = some (fin y) ∧ 0 ≤ y.1 ∧ (x.1 < 0 → y.1 ≤ tau.1) ∧ (0 ≤ x.1 → y = x) := by
  obtain ⟨k, hk⟩ := exists_nat_gt (-x.1)
  refine ⟨k, ?_⟩
  induction k generalizing x with
  | zero =>
    have : 0 ≤ x.1 := by have : -x.1 < 0 := by simpa using hk
                         linarith
    refine ⟨x, ?_, this, fun h => by linarith, fun _ => rfl⟩
    rw [loopUp, if_neg (by simpa using this)]
  | succ n ih =>
    by_cases hc : x.1 < 0
    · obtain ⟨y, hy, y0, y1⟩ := add_progress x hc h
      obtain ⟨z, hz, hz0, hz1, hz2⟩ := ih y (by linarith) (by push_cast at hk; linarith)
      refine ⟨z, ?_, hz0, fun _ => ?_, fun h => by linarith⟩
      · rw [loopUp, piMul_two, if_pos (by simpa using hc), hy]; exact hz
      · by_cases hy' : y.1 < 0
        · exact hz1 hy'
        · rw [hz2 (not_lt.mp hy')]; exact y0
    · refine ⟨x, ?_, not_lt.mp hc, fun h => absurd h hc, fun _ => rfl⟩
      rw [loopUp, if_neg (by simpa using hc)]

/-- Whatever the fuel: above `2^56` the loops are still running. -/
theorem loops_stuck (x : Dbl) (h : 2 ^ 56 < |x.1|) (n : ℕ) :
    (loopUp n (fin x : F64)).bind (loopDown n) = none := by
  obtain ⟨t6, t7⟩ := tau_bounds
  rcases lt_or_ge x.1 0 with hx | hx
  · rw [abs_of_neg hx] at h
    have : ∀ n, loopUp n (fin x : F64) = none := by
      intro n
      induction n with
      | zero => rw [loopUp, if_pos (by simpa using hx)]
      | succ n ih => rw [loopUp, piMul_two, if_pos (by simpa using hx), add_absorbed x (by linarith), ih]
    rw [this]; rfl
  · rw [abs_of_nonneg hx] at h
    have h1 : loopUp n (fin x : F64) = some (fin x) := by
      cases n <;> rw [loopUp, if_neg (by simpa using hx)]
    have hc : tau.1 ≤ x.1 := by norm_num at h; linarith
    have h2 : ∀ n, loopDown n (fin x : F64) = none := by
      intro n
      induction n with
      | zero => rw [loopDown, piMul_two, if_pos (by simpa using hc)]
      | succ n ih => rw [loopDown, piMul_two, if_pos (by simpa using hc), sub_absorbed x h, ih]
    rw [h1, Option.bind_some, h2]

theorem loops_f64 (x : Dbl) (h : |x.1| ≤ 2 ^ 56) :
    ∃ N, ∃ y : Dbl, (loopUp N (fin x : F64)).bind (loopDown N) = some (fin y) ∧ 0 ≤ y.1 ∧ y.1 < tau.1 := by
  obtain ⟨t6, t7⟩ := tau_bounds
  rw [abs_le] at h
  obtain ⟨N1, y, hy, y0, y1, y2⟩ := loopUp_f64 x h.1
  have hyb : y.1 ≤ 2 ^ 56 := by
    by_cases hx : x.1 < 0
    · have := y1 hx; norm_num; linarith
    · rw [y2 (not_lt.mp hx)]; exact h.2
  obtain ⟨N2, z, hz, z0, z1⟩ := loopDown_f64 y y0 hyb
  refine ⟨max N1 N2, z, ?_, z0, z1⟩
  rw [loopUp_mono (le_max_left _ _) hy, Option.bind_some, loopDown_mono (le_max_right _ _) hz]

end
end Verif
