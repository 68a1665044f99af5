import Verif.Model.Tables
import Verif.Model.Config
import Mathlib.Data.Rat.Defs
import Mathlib.Algebra.Order.Ring.Rat
import Mathlib.Data.Nat.Log

/-!
# Model of the random draws, the request patterns and the activity levels of the demo (`simulations/emerge/simulation/agent.go`)

A draw is the word read from `crypto/rand`, or `none` if reading fails. A `float32` is the rational number it stands for. Times and durations
are nanoseconds; the zero `time.Time` is `none`. Patterns: 0 `Unset`, 1 `HighFrequency`, 2 `Burst`, 3 `Steady`, 4 `Mixed`, 5 `Sparse`
(simulations/emerge/simulation/pattern/pattern.go:7-25).
-/

set_option autoImplicit false

namespace Verif

/-! ### Random draws -/

/-- The conversion `float32(u)` of a 32-bit unsigned integer: to the nearest number with 24 significant bits, ties to the even one. -/
def roundFloat32 (u : Nat) : Nat :=
  if u < 2 ^ 24 then u
  else
    let e := Nat.log2 u - 23
    let q := u / 2 ^ e
    let r := u % 2 ^ e
    if 2 ^ (e - 1) < r ∨ (r = 2 ^ (e - 1) ∧ q % 2 = 1) then (q + 1) * 2 ^ e else q * 2 ^ e

/-- `secureRandFloat32`, simulations/emerge/simulation/agent.go:39-46. `float32(1<<32)` is exact, and so is the division by it. -/
def secureRandFloat32 (word : Option Nat) : Rat :=
  match word with
  | none => 1 / 2
  | some u => roundFloat32 u / 2 ^ 32

/-- `secureRandIntn`, simulations/emerge/simulation/agent.go:49-71. `math.MaxInt32` is 2^31 − 1. -/
def secureRandIntn (n : Int) (word : Option Nat) : Int :=
  if n ≤ 0 then 0
  else
    match word with
    | none => Int.tdiv n 2
    | some w =>
      let nUint := if n.toNat > 2 ^ 31 - 1 then 2 ^ 31 - 1 else n.toNat
      let result := w % nUint
      if result > 2 ^ 31 - 1 then 2 ^ 31 - 1 else (result : Int)

/-- The constant `0.2` as a `float32`. -/
def float32_02 : Rat := 13421773 / 2 ^ 26
/-- The constant `0.3` as a `float32`. -/
def float32_03 : Rat := 10066330 / 2 ^ 25
/-- The constant `0.7` as a `float32`. -/
def float32_07 : Rat := 11744051 / 2 ^ 24

/-! ### Request patterns -/

/-- The pattern-specific state of a workload, simulations/emerge/simulation/agent.go:82 and 89-92. -/
structure GenState where
  pattern : PatternType
  lastRequestTime : Option Int
  burstActive : Bool
  burstEndTime : Option Int

/-- The state of a new workload, simulations/emerge/simulation/agent.go:231-250. -/
def GenState.new (p : PatternType) : GenState :=
  { pattern := p, lastRequestTime := none, burstActive := false, burstEndTime := none }

/-- The pattern state after `Reset`, simulations/emerge/simulation/agent.go:596-599. -/
def GenState.reset (g : GenState) : GenState := { g with lastRequestTime := none, burstActive := false, burstEndTime := none }

/-- The first interval of the ticker of `generateTasks`, simulations/emerge/simulation/agent.go:264-291. -/
def firstInterval (p : PatternType) (word : Option Nat) : Int :=
  match p with
  | 1 => 50 * millisecond + secureRandIntn 50 word * millisecond
  | 2 => 100 * millisecond
  | 3 => 500 * millisecond
  | 4 => 300 * millisecond
  | 5 => 2 * (1000 * millisecond) + secureRandIntn 2000 word * millisecond
  | _ => 500 * millisecond

/-- `now.After(t)`; the zero time is before every `now`. -/
def isAfter (now : Int) : Option Int → Bool
  | none => true
  | some t => now > t

/-- `shouldGenerateTask`, simulations/emerge/simulation/agent.go:337-383, at the time `now`; `f` and `k` are the words drawn for
`secureRandFloat32` and `secureRandIntn`. -/
def GenState.shouldGenerate (g : GenState) (now : Int) (f k : Option Nat) : Bool × GenState :=
  match g.pattern with
  | 2 =>
    if g.burstActive = false then
      if secureRandFloat32 f < float32_02 then
        (true, { g with burstActive := true, burstEndTime := some (now + (500 + secureRandIntn 1500 k) * millisecond) })
      else (false, g)
    else if isAfter now g.burstEndTime then (false, { g with burstActive := false })
    else (true, g)
  | 5 => (secureRandFloat32 f < float32_03, g)
  | 4 => (secureRandFloat32 f < float32_07, g)
  | _ => (true, g)

/-- `getTaskBatchSize`, simulations/emerge/simulation/agent.go:386-414. -/
def GenState.batchSize (g : GenState) (f k : Option Nat) : Int :=
  match g.pattern with
  | 1 => 2 + secureRandIntn 3 k
  | 2 => if g.burstActive then 3 + secureRandIntn 5 k else 1
  | 4 => if secureRandFloat32 f < float32_03 then 2 + secureRandIntn 2 k else 1
  | _ => 1

/-- What one tick of `generateTasks` finds: the time, whether the simulation is paused, and the words it would draw. -/
structure GenTick where
  now : Int
  paused : Bool
  f1 : Option Nat
  k1 : Option Nat
  f2 : Option Nat
  k2 : Option Nat
  k3 : Option Nat

/-- One tick of `generateTasks`, simulations/emerge/simulation/agent.go:301-331: the number of tasks made, the new state, and the new interval
of the ticker, if it is changed. -/
def GenState.tick (g : GenState) (t : GenTick) : Int × GenState × Option Int :=
  if t.paused then (0, g, none)
  else
    let r := g.shouldGenerate t.now t.f1 t.k1
    if r.1 = false then (0, r.2, none)
    else
      (r.2.batchSize t.f2 t.k2, r.2,
        if r.2.pattern = 4 then some ((200 + secureRandIntn 800 t.k3) * millisecond) else none)

/-- A sequence of ticks: the numbers of tasks made, and the final state. -/
def GenState.run (g : GenState) : List GenTick → List Int × GenState
  | [] => ([], g)
  | t :: l =>
    let r := g.tick t
    let rs := r.2.1.run l
    (r.1 :: rs.1, rs.2)

/-! ### Activity levels -/

/-- The activity levels, simulations/emerge/simulation/agent.go:31-36. -/
inductive Activity where
  | steady | active | quiet | burst
deriving DecidableEq

/-- `time.Since(t)` at the time `now`; for the zero time the largest duration, 2^63 − 1. -/
def sinceTime (now : Int) : Option Int → Int
  | none => 2 ^ 63 - 1
  | some t => now - t

/-- The activity level and the burst flag of `Snapshot`, simulations/emerge/simulation/agent.go:607-642, for a workload with `pending` pending
tasks. -/
def GenState.activity (g : GenState) (now : Int) (pending : Nat) : Activity × Bool :=
  match g.pattern with
  | 2 => if g.burstActive then (.burst, true) else (.quiet, false)
  | 1 => (.active, false)
  | 5 => if pending > 0 then (.active, false) else (.quiet, false)
  | 4 =>
    if sinceTime now g.lastRequestTime < 200 * millisecond then (.active, false)
    else if sinceTime now g.lastRequestTime > 1000 * millisecond then (.quiet, false)
    else (.steady, false)
  | _ => (.steady, false)

end Verif
