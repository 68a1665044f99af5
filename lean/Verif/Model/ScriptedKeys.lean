/-!
# Model: the scripted controller of the demo (`AutomatedController`, simulations/display/controller.go:121-151)

`NewAutomatedController` starts a goroutine that sends the scripted events into a channel with room for ten, sleeping
before the first `len(delays)` of them. Interleavings are arbitrary: every step of the goroutine, every receive from
`Events()` and every passing of time is a separate step. Times are integers (nanoseconds). Events are of any type `E`.
-/

set_option autoImplicit false

namespace Verif

/-- Where the goroutine `run` stands, simulations/display/controller.go:144-151; the number is the loop index `i`. -/
inductive ScriptPc where
  | top (i : Nat)
  | sleeping (i : Nat) (until_ : Int)
  | sending (i : Nat)
  | done
  deriving DecidableEq, Repr

/-- The controller while it runs: clock, goroutine, channel (room for ten, controller.go:130) and, for the statements,
what was received from `Events()` and when. -/
structure ScriptState (E : Type) where
  now : Int
  pc : ScriptPc
  chan : List E
  got : List (E × Int)

/-- What can happen next. -/
inductive ScriptStep where
  | time (d : Nat)
  | loop
  | wake
  | send
  | receive
  deriving DecidableEq, Repr

/-- `NewAutomatedController`, simulations/display/controller.go:128-136, at time `t0`. -/
def ScriptState.init {E : Type} (t0 : Int) : ScriptState E := ⟨t0, .top 0, [], []⟩

/-- One step; `none` if it cannot happen now. `time.Sleep` of a negative duration returns at once. A send waits while ten
events are in the channel (controller.go:149). -/
def ScriptState.step {E : Type} (script : List E) (delays : List Int) (s : ScriptState E) : ScriptStep → Option (ScriptState E)
  | .time d => some { s with now := s.now + d }
  | .loop =>
    match s.pc with
    | .top i =>
      if i < script.length then
        match delays[i]? with
        | some d => some { s with pc := .sleeping i (s.now + max 0 d) }
        | none => some { s with pc := .sending i }
      else some { s with pc := .done }
    | _ => none
  | .wake =>
    match s.pc with
    | .sleeping i t => if t ≤ s.now then some { s with pc := .sending i } else none
    | _ => none
  | .send =>
    match s.pc with
    | .sending i =>
      if s.chan.length < 10 then
        match script[i]? with
        | some e => some { s with pc := .top (i + 1), chan := s.chan ++ [e] }
        | none => none
      else none
    | _ => none
  | .receive =>
    match s.chan with
    | e :: r => some { s with chan := r, got := s.got ++ [(e, s.now)] }
    | [] => none

/-- A run. -/
def ScriptState.run {E : Type} (script : List E) (delays : List Int) (s : ScriptState E) : List ScriptStep → Option (ScriptState E)
  | [] => some s
  | a :: as => (s.step script delays a).bind fun s' => s'.run script delays as

end Verif
