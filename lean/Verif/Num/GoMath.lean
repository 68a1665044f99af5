/-!
# The arithmetic interface of the model

Functions of the Go code that compute with `float64` are written over a type `α` with the usual operator classes
and this class, which collects the parts of Go's `math` package that the code uses and the conversions between
integers and floats. `Verif.Num.Real` interprets it by the real numbers and `Verif.Num.F64` by IEEE-754 values.
-/

set_option autoImplicit false

namespace Verif

/-- The parts of Go's `math` package used by the code. -/
class GoMath (α : Type) where
  /-- the constant expression `q * math.Pi`, e.g. `2*math.Pi`; Go evaluates constants exactly and rounds once -/
  piMul : Rat → α
  /-- `math.Sin` -/
  sin : α → α
  /-- `math.Cos` -/
  cos : α → α
  /-- `math.Sqrt` -/
  sqrt : α → α
  /-- `math.Exp` -/
  exp : α → α
  /-- `math.Abs` -/
  abs : α → α
  /-- `math.Atan2(y, x)` -/
  atan2 : α → α → α
  /-- `math.Mod` -/
  mod : α → α → α
  /-- `math.Remainder` -/
  remainder : α → α → α
  /-- `math.Min` -/
  fmin : α → α → α
  /-- `math.Max` -/
  fmax : α → α → α
  /-- `math.IsNaN` -/
  isNaN : α → Bool
  /-- `math.IsInf(x, 0)` -/
  isInf : α → Bool
  /-- `float64(n)` for an integer `n` -/
  ofInt : Int → α
  /-- `int(x)` (truncation towards zero when representable) -/
  toInt : α → Int
  /-- `math.MaxFloat64` -/
  maxFloat : α

end Verif
