import Verif.Num.F64

/-!
# Model of `internal/sim/mathx.go`
-/

set_option autoImplicit false

namespace Verif
section
variable {α : Type} [Zero α] [One α] [LT α] [DecidableLT α]

/-- `Clamp01`, internal/sim/mathx.go:4-12. -/
def clamp01 (v : α) : α := if v < 0 then 0 else if v > 1 then 1 else v

/-- `Min`, internal/sim/mathx.go:15-20. -/
def simMin (a b : α) : α := if a < b then a else b

/-- `Max`, internal/sim/mathx.go:23-28. -/
def simMax (a b : α) : α := if a > b then a else b

end
end Verif
