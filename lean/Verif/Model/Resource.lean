import Verif.Model.Core

/-!
# Model of `internal/resource/token.go` and `internal/random/random.go`
-/

set_option autoImplicit false

namespace Verif
open GoMath

section
variable {α : Type} [Zero α] [One α] [Add α] [Sub α] [Mul α] [Div α] [Neg α] [LT α] [LE α]
  [DecidableLT α] [DecidableLE α] [BEq α] [OfScientific α] [GoMath α]

/-- `resource.TokenManager`, internal/resource/token.go:12-16. Every mutating method holds the mutex for its whole
body, so a concurrent execution is a sequence of whole method calls. -/
structure TokenManager (α : Type) where
  tokens : α
  maxTokens : α

/-- `NewTokenManager`, internal/resource/token.go:19-29. -/
def TokenManager.new (maxTokens : α) : TokenManager α :=
  let m := if maxTokens < 0 then 0 else maxTokens
  { tokens := m, maxTokens := m }

/-- `(*TokenManager).Request`, internal/resource/token.go:32-51: the granted amount and the new state. -/
def TokenManager.request (t : TokenManager α) (amount : α) : α × TokenManager α :=
  if amount ≤ 0 then (0, t)
  else
    let available := t.tokens
    if available ≤ 0 then (0, t)
    else
      let allocated := fmin amount available
      (allocated, { t with tokens := available - allocated })

/-- `(*TokenManager).Release`, internal/resource/token.go:54-65. -/
def TokenManager.release (t : TokenManager α) (amount : α) : TokenManager α :=
  if amount ≤ 0 then t
  else { t with tokens := fmin (t.tokens + amount) t.maxTokens }

/-- `(*TokenManager).Available`, internal/resource/token.go:68-70. -/
def TokenManager.available (t : TokenManager α) : α := t.tokens

/-- A call on a token manager. -/
inductive TokenOp (α : Type) where
  | request (amount : α)
  | release (amount : α)

/-- One call: the amount handed out (zero for a release) and the new state. -/
def TokenManager.step (t : TokenManager α) : TokenOp α → α × TokenManager α
  | .request a => t.request a
  | .release a => (0, t.release a)

/-- A history of calls: the amounts handed out, in order, and the final state. -/
def TokenManager.run (t : TokenManager α) : List (TokenOp α) → List α × TokenManager α
  | [] => ([], t)
  | op :: ops =>
    let r := t.step op
    let rs := r.2.run ops
    (r.1 :: rs.1, rs.2)

/-- `(*SecureRandom).Float64`, internal/random/random.go:24-39, on the 64-bit word read from the entropy source; the
mask keeps the low 53 bits. -/
def randFloat64 (word : Nat) : α := ofInt ((word % 2 ^ 53 : Nat) : Int) / ofInt (2 ^ 53)

/-- `random.Phase`, internal/random/random.go:94-96: `Float64() * 2 * math.Pi`, two multiplications from the left. -/
def randPhase (word : Nat) : α := randFloat64 word * 2.0 * piMul 1

end

/-- `(*SecureRandom).Int31n`, internal/random/random.go:74-91, on the 32-bit word read from the entropy source; the
check at lines 87-89 never fires because the mask has just cleared the top bit. -/
def int31n (word : Nat) : Nat := word % 2 ^ 31

/-- The rejection loop of `Intn`, internal/random/random.go:61-66, on the stream of 32-bit words that will be drawn;
`none` means that all of them are rejected and the loop goes on. -/
def intnLoop (n maxVal : Nat) : List Nat → Option Nat
  | [] => none
  | w :: ws => if int31n w < maxVal then some (int31n w % n) else intnLoop n maxVal ws

/-- `(*SecureRandom).Intn`, internal/random/random.go:47-71. `maxInt31` is 2^31 − 1. -/
def intn (n : Int) (words : List Nat) : Outcome (Option Nat) :=
  if n ≤ 0 then .panic
  else if n ≤ 1 then .ok (some 0)
  else if n ≤ 2 ^ 31 - 1 then
    .ok (intnLoop n.toNat ((2 ^ 31 - 1) / n.toNat * n.toNat) words)
  else .panic

end Verif
