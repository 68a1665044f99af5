import Verif.Num.F64
import Mathlib.Analysis.Real.Pi.Bounds

/-! # Lemmas: IEEE values -/

set_option autoImplicit false

namespace Verif
open Rounding

/-- The truncated remainder of two doubles is a double (so `math.Mod` is exact). -/
theorem isDouble_mod {a b : ℝ} (ha : IsDouble a) (hb : IsDouble b) (hb0 : b ≠ 0) :
    IsDouble (a - b * rtrunc (a / b)) ∧ |a - b * rtrunc (a / b)| < |b| := by
  -- bounds of the remainder
  have hbounds : |a - b * rtrunc (a / b)| < |b| ∧ |a - b * rtrunc (a / b)| ≤ |a| := by
    have e : a - b * rtrunc (a / b) = b * (a / b - rtrunc (a / b)) := by field_simp
    have ea : |a| = |b| * |a / b| := by rw [← abs_mul]; congr 1; field_simp
    have hbp : 0 < |b| := abs_pos.mpr hb0
    rw [e, abs_mul, ea]
    generalize a / b = q
    unfold rtrunc
    by_cases hq : 0 ≤ q
    · rw [if_pos hq]
      have h1 := Int.floor_le q
      have h2 := Int.lt_floor_add_one q
      have h3 : (0 : ℝ) ≤ ⌊q⌋ := by exact_mod_cast Int.floor_nonneg.mpr hq
      rw [abs_of_nonneg (by linarith : 0 ≤ q - ⌊q⌋), abs_of_nonneg hq]
      constructor <;> nlinarith
    · rw [if_neg hq]
      push Not at hq
      have h1 := Int.le_ceil q
      have h2 := Int.ceil_lt_add_one q
      have h3 : (⌈q⌉ : ℝ) ≤ 0 := by
        have : ⌈q⌉ ≤ 0 := Int.ceil_le.mpr (by simpa using hq.le)
        exact_mod_cast this
      rw [abs_of_nonpos (by linarith : q - ⌈q⌉ ≤ 0), abs_of_nonpos hq.le]
      constructor <;> nlinarith
  refine ⟨?_, hbounds.1⟩
  obtain ⟨h1, h2⟩ := hbounds
  revert h1 h2
  generalize rtrunc (a / b) = t
  intro h1 h2
  obtain ⟨m, e, hm, he1, he2, rfl⟩ := ha
  obtain ⟨n, f, hn, hf1, hf2, rfl⟩ := hb
  rcases le_total e f with hef | hef
  · -- work in units of 2^e
    obtain ⟨d, hd⟩ := Int.le.dest hef
    have hfd : (2 : ℝ) ^ f = 2 ^ d * 2 ^ e := by
      rw [← hd, zpow_add₀ (by norm_num), mul_comm]; simp
    have key : (m : ℝ) * 2 ^ e - n * 2 ^ f * t = ((m - n * 2 ^ d * t : ℤ) : ℝ) * 2 ^ e := by
      rw [hfd]; push_cast; ring
    rw [key] at h2 ⊢
    refine ⟨_, e, ?_, he1, he2, rfl⟩
    have hpos : (0 : ℝ) < 2 ^ e := by positivity
    rw [abs_mul, abs_mul, abs_of_pos hpos, mul_le_mul_iff_of_pos_right hpos] at h2
    have : |m - n * 2 ^ d * t| ≤ |m| := by exact_mod_cast h2
    omega
  · -- work in units of 2^f
    obtain ⟨d, hd⟩ := Int.le.dest hef
    have hfd : (2 : ℝ) ^ e = 2 ^ d * 2 ^ f := by
      rw [← hd, zpow_add₀ (by norm_num), mul_comm]; simp
    have key : (m : ℝ) * 2 ^ e - n * 2 ^ f * t = ((m * 2 ^ d - n * t : ℤ) : ℝ) * 2 ^ f := by
      rw [hfd]; push_cast; ring
    rw [key] at h1 ⊢
    refine ⟨_, f, ?_, hf1, hf2, rfl⟩
    have hpos : (0 : ℝ) < 2 ^ f := by positivity
    rw [abs_mul, abs_mul, abs_of_pos hpos, mul_lt_mul_iff_of_pos_right hpos] at h1
    have : |m * 2 ^ d - n * t| < |n| := by exact_mod_cast h1
    omega

namespace F64

@[simp] theorem zero_def : (0 : F64) = fin ⟨0, isDouble_zero⟩ := rfl
@[simp] theorem one_def : (1 : F64) = fin ⟨1, isDouble_one⟩ := rfl
@[simp] theorem lt_fin (a b : Dbl) : fin a < fin b ↔ a.1 < b.1 := Iff.rfl
@[simp] theorem le_fin (a b : Dbl) : fin a ≤ fin b ↔ a.1 ≤ b.1 := Iff.rfl
@[simp] theorem nan_lt (a : F64) : ¬ nan < a := by change ¬ lt nan a; cases a <;> simp [lt]
@[simp] theorem lt_nan (a : F64) : ¬ a < nan := by change ¬ lt a nan; cases a <;> simp [lt]
@[simp] theorem nan_le (a : F64) : ¬ nan ≤ a := by change ¬ le nan a; cases a <;> simp [le]
@[simp] theorem le_nan (a : F64) : ¬ a ≤ nan := by change ¬ le a nan; cases a <;> simp [le]
@[simp] theorem pinf_lt (a : F64) : ¬ pinf < a := by change ¬ lt pinf a; cases a <;> simp [lt]
@[simp] theorem lt_ninf (a : F64) : ¬ a < ninf := by change ¬ lt a ninf; cases a <;> simp [lt]
@[simp] theorem fin_lt_pinf (a : Dbl) : fin a < pinf := trivial
@[simp] theorem ninf_lt_fin (a : Dbl) : ninf < fin a := trivial
@[simp] theorem ninf_lt_pinf : ninf < pinf := trivial
@[simp] theorem fin_le_pinf (a : Dbl) : fin a ≤ pinf := trivial
@[simp] theorem ninf_le_fin (a : Dbl) : ninf ≤ fin a := trivial
@[simp] theorem ninf_le_pinf : ninf ≤ pinf := trivial
@[simp] theorem pinf_le_pinf : pinf ≤ pinf := trivial
@[simp] theorem ninf_le_ninf : ninf ≤ ninf := trivial
@[simp] theorem not_pinf_le_fin (a : Dbl) : ¬ pinf ≤ fin a := fun h => h
@[simp] theorem not_fin_le_ninf (a : Dbl) : ¬ fin a ≤ ninf := fun h => h
@[simp] theorem not_pinf_le_ninf : ¬ pinf ≤ ninf := fun h => h


variable [Rounding]

theorem ofReal_of_isDouble {x : ℝ} (h : IsDouble x) : ofReal x = fin ⟨x, h⟩ := by
  unfold ofReal
  rw [if_pos h.abs_lt_overflow]
  simp [rnd_eq_self h]

/-- A result between two doubles rounds to a finite double between them. -/
theorem ofReal_between {a b x : ℝ} (ha : IsDouble a) (hb : IsDouble b) (h1 : a ≤ x) (h2 : x ≤ b) :
    ∃ y h, ofReal x = fin ⟨y, h⟩ ∧ a ≤ y ∧ y ≤ b := by
  have hov : |x| < overflow := by
    have h3 := ha.abs_lt_overflow
    have h4 := hb.abs_lt_overflow
    rw [abs_lt] at *
    constructor <;> linarith [h3.1, h4.2]
  refine ⟨rnd x, isDouble x, ?_, le_rnd ha h1, rnd_le hb h2⟩
  unfold ofReal; rw [if_pos hov]

theorem ofReal_nonneg_of_nonneg {x : ℝ} (h : 0 ≤ x) :
    ofReal x = pinf ∨ ∃ y hy, ofReal x = fin ⟨y, hy⟩ ∧ 0 ≤ y := by
  unfold ofReal
  split_ifs with h1 h2
  · exact Or.inr ⟨rnd x, isDouble x, rfl, le_rnd isDouble_zero h⟩
  · exact Or.inl rfl
  · exfalso
    have : x = 0 := le_antisymm (not_lt.mp h2) h
    subst this
    apply h1; rw [abs_zero]; exact (maxDouble_pos.trans maxDouble_lt_overflow)

theorem add_fin (a b : Dbl) : fin a + fin b = ofReal (a.1 + b.1) := rfl
theorem sub_fin (a b : Dbl) : fin a - fin b = ofReal (a.1 - b.1) := by
  change ofReal (a.1 + -b.1) = _; rw [← sub_eq_add_neg]
theorem mul_fin (a b : Dbl) : fin a * fin b = ofReal (a.1 * b.1) := rfl
theorem div_fin {a b : Dbl} (h : b.1 ≠ 0) : fin a / fin b = ofReal (a.1 / b.1) := by
  change (if b.1 = 0 then _ else _) = _; rw [if_neg h]

/-- `a` is an ordinary (finite) number. -/
def IsFinite : F64 → Prop
  | fin _ => True
  | _ => False

section
variable [LibM]
@[simp] theorem isNaN_nan : GoMath.isNaN (nan : F64) = true := rfl
@[simp] theorem isNaN_pinf : GoMath.isNaN (pinf : F64) = false := rfl
@[simp] theorem isNaN_ninf : GoMath.isNaN (ninf : F64) = false := rfl
@[simp] theorem isNaN_fin (a : Dbl) : GoMath.isNaN (fin a : F64) = false := rfl
@[simp] theorem isInf_nan : GoMath.isInf (nan : F64) = false := rfl
@[simp] theorem isInf_pinf : GoMath.isInf (pinf : F64) = true := rfl
@[simp] theorem isInf_ninf : GoMath.isInf (ninf : F64) = true := rfl
@[simp] theorem isInf_fin (a : Dbl) : GoMath.isInf (fin a : F64) = false := rfl

theorem mod_fin (a b : Dbl) (h : b.1 ≠ 0) :
    GoMath.mod (fin a) (fin b) = fin ⟨a.1 - b.1 * rtrunc (a.1 / b.1), (isDouble_mod a.2 b.2 h).1⟩ := by
  change (if b.1 = 0 then nan else ofReal (a.1 - b.1 * rtrunc (a.1 / b.1))) = _
  rw [if_neg h, ofReal_of_isDouble (isDouble_mod a.2 b.2 h).1]

/-- The double nearest to `2π` (Go's constant `2*math.Pi` as a `float64`). -/
noncomputable def tau : Dbl := ⟨rnd (2 * Real.pi), isDouble _⟩

omit [LibM] in
theorem tau_bounds : 6 ≤ tau.1 ∧ tau.1 ≤ 7 :=
  ⟨le_rnd (isDouble_ofNat 6 (by norm_num)) (by have := Real.pi_gt_three; linarith),
   rnd_le (isDouble_ofNat 7 (by norm_num)) (by have := Real.pi_lt_d2; linarith)⟩

theorem piMul_two : (GoMath.piMul 2 : F64) = fin tau := by
  change ofReal (((2 : ℚ) : ℝ) * Real.pi) = _
  obtain ⟨y, h, e, -⟩ := ofReal_between (x := ((2 : ℚ) : ℝ) * Real.pi) (isDouble_ofNat 6 (by norm_num))
    (isDouble_ofNat 7 (by norm_num)) (by have := Real.pi_gt_three; push_cast; linarith)
    (by have := Real.pi_lt_d2; push_cast; linarith)
  have h2 : |((2 : ℚ) : ℝ) * Real.pi| < overflow := by
    by_contra hc
    unfold ofReal at e
    rw [if_neg hc] at e
    split_ifs at e
  unfold ofReal; rw [if_pos h2]
  simp [tau]

end
end F64
end Verif
