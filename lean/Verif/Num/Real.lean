import Verif.Num.GoMath
import Verif.Num.Double
import Mathlib.Analysis.SpecialFunctions.Complex.Arg
import Mathlib.Algebra.Order.Round

/-!
# Ideal arithmetic: the model read over ℝ
-/

set_option autoImplicit false

namespace Verif

/-- Truncation towards zero. -/
noncomputable def rtrunc (x : ℝ) : ℤ := if 0 ≤ x then ⌊x⌋ else ⌈x⌉

/-- Nearest integer, ties to even (as used by `math.Remainder`). -/
noncomputable def rroundEven (x : ℝ) : ℤ :=
  if x - ⌊x⌋ < 1 / 2 then ⌊x⌋
  else if 1 / 2 < x - ⌊x⌋ then ⌊x⌋ + 1
  else if Even ⌊x⌋ then ⌊x⌋ else ⌊x⌋ + 1

/-- Ideal real arithmetic. There is no NaN or infinity here; a division by zero is `0` by Lean's convention, so
every theorem over ℝ about code containing a division states the guard the code has. -/
noncomputable instance instGoMathReal : GoMath ℝ where
  piMul q := (q : ℝ) * Real.pi
  sin := Real.sin
  cos := Real.cos
  sqrt := Real.sqrt
  exp := Real.exp
  abs x := |x|
  atan2 y x := Complex.arg ⟨x, y⟩
  mod x y := x - y * rtrunc (x / y)
  remainder x y := x - y * rroundEven (x / y)
  fmin := min
  fmax := max
  isNaN _ := false
  isInf _ := false
  ofInt n := (n : ℝ)
  toInt := rtrunc
  maxFloat := maxDouble

namespace GoMath

@[simp] theorem piMul_real (q : ℚ) : (piMul q : ℝ) = (q : ℝ) * Real.pi := rfl
@[simp] theorem sin_real (x : ℝ) : sin x = Real.sin x := rfl
@[simp] theorem cos_real (x : ℝ) : cos x = Real.cos x := rfl
@[simp] theorem sqrt_real (x : ℝ) : sqrt x = Real.sqrt x := rfl
@[simp] theorem exp_real (x : ℝ) : exp x = Real.exp x := rfl
@[simp] theorem abs_real (x : ℝ) : GoMath.abs x = |x| := rfl
@[simp] theorem atan2_real (y x : ℝ) : atan2 y x = Complex.arg ⟨x, y⟩ := rfl
@[simp] theorem mod_real (x y : ℝ) : mod x y = x - y * rtrunc (x / y) := rfl
@[simp] theorem remainder_real (x y : ℝ) : remainder x y = x - y * rroundEven (x / y) := rfl
@[simp] theorem fmin_real (x y : ℝ) : fmin x y = min x y := rfl
@[simp] theorem fmax_real (x y : ℝ) : fmax x y = max x y := rfl
@[simp] theorem isNaN_real (x : ℝ) : isNaN x = false := rfl
@[simp] theorem isInf_real (x : ℝ) : isInf x = false := rfl
@[simp] theorem ofInt_real (n : ℤ) : (ofInt n : ℝ) = (n : ℝ) := rfl
@[simp] theorem toInt_real (x : ℝ) : toInt x = rtrunc x := rfl
@[simp] theorem maxFloat_real : (maxFloat : ℝ) = maxDouble := rfl

end GoMath

end Verif
