import Verif.Num.Real

/-!
# IEEE-754 values: the model read over `F64`

`F64` has NaN, the two infinities and the finite doubles. Arithmetic on finite values is the exact real result
rounded to a nearest double (`Rounding`), with overflow to infinity. Comparisons involving NaN are false.
The sign of zero is not represented, so a division of a non-zero number by zero takes the sign of the dividend
(Go would also look at the sign of the zero); no theorem depends on that choice of sign.
-/

set_option autoImplicit false

namespace Verif

/-- Finite doubles. -/
abbrev Dbl := {x : ℝ // IsDouble x}

/-- Values of a Go `float64`. -/
inductive F64 where
  | nan
  | pinf
  | ninf
  | fin (x : Dbl)

/-- Contract of the transcendental functions of Go's `math` package on finite doubles, and the platform-dependent
part of float to integer conversion. Only these facts are assumed about them. -/
class LibM where
  sin : Dbl → Dbl
  cos : Dbl → Dbl
  exp : Dbl → F64
  atan2 : Dbl → Dbl → F64
  sin_le : ∀ x, |(sin x).1| ≤ 1
  cos_le : ∀ x, |(cos x).1| ≤ 1
  atan2_le : ∀ y x, ∃ d : Dbl, atan2 y x = .fin d ∧ |d.1| ≤ Real.pi
  exp_le : ∀ x : Dbl, x.1 ≤ 0 → ∃ d : Dbl, exp x = .fin d ∧ 0 ≤ d.1 ∧ d.1 ≤ 1
  /-- `int(x)` for NaN, infinities and values outside the `int64` range: implementation-defined (Go specification,
  "Conversions between numeric types") -/
  badInt : F64 → ℤ

/-- The contract can be met, so no theorem over `[LibM]` is vacuous. -/
@[instance_reducible] noncomputable def LibM.some : LibM where
  sin _ := ⟨0, isDouble_zero⟩
  cos _ := ⟨1, isDouble_one⟩
  exp _ := .fin ⟨1, isDouble_one⟩
  atan2 _ _ := .fin ⟨0, isDouble_zero⟩
  sin_le _ := by simp
  cos_le _ := by simp
  atan2_le _ _ := ⟨_, rfl, by simpa using Real.pi_pos.le⟩
  exp_le _ _ := ⟨_, rfl, by simp, by simp⟩
  badInt _ := 0

variable [Rounding] [LibM]
open Rounding

namespace F64

omit [LibM] in
/-- Round an exact real result to a `float64`. -/
noncomputable def ofReal (x : ℝ) : F64 :=
  if |x| < overflow then fin ⟨rnd x, isDouble x⟩ else if 0 < x then pinf else ninf

/-- Addition. -/
noncomputable def add : F64 → F64 → F64
  | nan, _ => nan | _, nan => nan
  | pinf, ninf => nan | ninf, pinf => nan
  | pinf, _ => pinf | _, pinf => pinf
  | ninf, _ => ninf | _, ninf => ninf
  | fin a, fin b => ofReal (a.1 + b.1)

/-- Negation (exact). -/
def neg : F64 → F64
  | nan => nan | pinf => ninf | ninf => pinf
  | fin a => fin ⟨-a.1, a.2.neg⟩

/-- Subtraction. -/
noncomputable def sub (a b : F64) : F64 := add a (neg b)

/-- Infinity with the sign of `x`, or NaN for zero. -/
noncomputable def infSign (x : ℝ) : F64 := if 0 < x then pinf else if x < 0 then ninf else nan

/-- Multiplication. -/
noncomputable def mul : F64 → F64 → F64
  | nan, _ => nan | _, nan => nan
  | pinf, pinf => pinf | ninf, ninf => pinf | pinf, ninf => ninf | ninf, pinf => ninf
  | pinf, fin b => infSign b.1 | fin a, pinf => infSign a.1
  | ninf, fin b => infSign (-b.1) | fin a, ninf => infSign (-a.1)
  | fin a, fin b => ofReal (a.1 * b.1)

/-- Division; `0/0` is NaN, `x/0` is an infinity. -/
noncomputable def div : F64 → F64 → F64
  | nan, _ => nan | _, nan => nan
  | pinf, fin b => if b.1 < 0 then ninf else pinf
  | ninf, fin b => if b.1 < 0 then pinf else ninf
  | fin _, pinf => fin ⟨0, isDouble_zero⟩ | fin _, ninf => fin ⟨0, isDouble_zero⟩
  | fin a, fin b => if b.1 = 0 then infSign a.1 else ofReal (a.1 / b.1)
  | _, _ => nan

/-- `a < b` (false if either is NaN). -/
def lt : F64 → F64 → Prop
  | ninf, pinf => True | ninf, fin _ => True | fin _, pinf => True
  | fin a, fin b => a.1 < b.1
  | _, _ => False

/-- `a <= b` (false if either is NaN). -/
def le : F64 → F64 → Prop
  | ninf, pinf => True | ninf, fin _ => True | fin _, pinf => True
  | pinf, pinf => True | ninf, ninf => True
  | fin a, fin b => a.1 ≤ b.1
  | _, _ => False

/-- `a == b` (false if either is NaN). -/
def eq : F64 → F64 → Prop
  | pinf, pinf => True | ninf, ninf => True
  | fin a, fin b => a.1 = b.1
  | _, _ => False

/-- `math.Max`: +Inf wins over NaN, otherwise NaN is contagious. -/
noncomputable def max : F64 → F64 → F64
  | pinf, _ => pinf | _, pinf => pinf
  | nan, _ => nan | _, nan => nan
  | ninf, x => x | x, ninf => x
  | fin a, fin b => if b.1 < a.1 then fin a else fin b

/-- `math.Min`: -Inf wins over NaN, otherwise NaN is contagious. -/
noncomputable def min : F64 → F64 → F64
  | ninf, _ => ninf | _, ninf => ninf
  | nan, _ => nan | _, nan => nan
  | pinf, x => x | x, pinf => x
  | fin a, fin b => if a.1 < b.1 then fin a else fin b

/-- `math.Abs`. -/
noncomputable def abs : F64 → F64
  | nan => nan | pinf => pinf | ninf => pinf
  | fin a => if a.1 < 0 then neg (fin a) else fin a

/-- `math.Mod`: exact on finite operands (the exact remainder of two doubles is a double). -/
noncomputable def mod : F64 → F64 → F64
  | fin a, fin b => if b.1 = 0 then nan else ofReal (a.1 - b.1 * rtrunc (a.1 / b.1))
  | fin a, pinf => fin a | fin a, ninf => fin a
  | _, _ => nan

/-- `math.Remainder`: exact on finite operands. -/
noncomputable def remainder : F64 → F64 → F64
  | fin a, fin b => if b.1 = 0 then nan else ofReal (a.1 - b.1 * rroundEven (a.1 / b.1))
  | fin a, pinf => fin a | fin a, ninf => fin a
  | _, _ => nan

/-- `math.Sqrt`: correctly rounded. -/
noncomputable def sqrt : F64 → F64
  | nan => nan | ninf => nan | pinf => pinf
  | fin a => if a.1 < 0 then nan else ofReal (Real.sqrt a.1)

/-- `math.Sin` (NaN outside the finite doubles). -/
noncomputable def sin : F64 → F64
  | fin a => fin (LibM.sin a) | _ => nan

/-- `math.Cos` (NaN outside the finite doubles). -/
noncomputable def cos : F64 → F64
  | fin a => fin (LibM.cos a) | _ => nan

/-- `math.Exp`. -/
noncomputable def exp : F64 → F64
  | nan => nan | pinf => pinf | ninf => fin ⟨0, isDouble_zero⟩
  | fin a => LibM.exp a

/-- `math.Atan2`; infinite arguments do not occur in the code (both are sines/cosines) and give NaN here. -/
noncomputable def atan2 : F64 → F64 → F64
  | fin a, fin b => LibM.atan2 a b | _, _ => nan

/-- `int(x)`: truncation when the result fits in 64 bits, otherwise implementation-defined. -/
noncomputable def toInt : F64 → ℤ
  | fin a => if -(2 ^ 63) ≤ rtrunc a.1 ∧ rtrunc a.1 < 2 ^ 63 then rtrunc a.1 else LibM.badInt (fin a)
  | x => LibM.badInt x

noncomputable instance : Zero F64 := ⟨fin ⟨0, isDouble_zero⟩⟩
noncomputable instance : One F64 := ⟨fin ⟨1, isDouble_one⟩⟩
noncomputable instance : Add F64 := ⟨add⟩
noncomputable instance : Sub F64 := ⟨sub⟩
noncomputable instance : Mul F64 := ⟨mul⟩
noncomputable instance : Div F64 := ⟨div⟩
noncomputable instance : Neg F64 := ⟨neg⟩
instance : LT F64 := ⟨lt⟩
instance : LE F64 := ⟨le⟩
noncomputable instance : DecidableLT F64 := fun _ _ => Classical.propDecidable _
noncomputable instance : DecidableLE F64 := fun _ _ => Classical.propDecidable _
noncomputable instance : BEq F64 := ⟨fun a b => @decide (eq a b) (Classical.propDecidable _)⟩
/-- Decimal literals are rounded once. -/
noncomputable instance : OfScientific F64 :=
  ⟨fun m s e => ofReal (OfScientific.ofScientific m s e : ℝ)⟩

noncomputable instance : GoMath F64 where
  piMul q := ofReal ((q : ℝ) * Real.pi)
  sin := sin
  cos := cos
  sqrt := sqrt
  exp := exp
  abs := abs
  atan2 := atan2
  mod := mod
  remainder := remainder
  fmin := min
  fmax := max
  isNaN x := match x with | nan => true | _ => false
  isInf x := match x with | pinf => true | ninf => true | _ => false
  ofInt n := ofReal (n : ℝ)
  toInt := toInt
  maxFloat := fin ⟨maxDouble, isDouble_maxDouble⟩

end F64
end Verif
