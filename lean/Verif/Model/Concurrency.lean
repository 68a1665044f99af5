import Verif.Model.Agent

/-!
# Model of concurrent updates of an agent (`emerge/agent/atomic_state.go`, `emerge/agent/agent.go`)

`atomic.Value` gives atomic loads and stores (sequentially consistent, Go memory model). Everything between a load and
the following store is thread-local, so the atomic steps of a goroutine are exactly its loads and stores. A schedule is
the list of goroutine numbers in the order in which they take steps.
-/

set_option autoImplicit false

namespace Verif
open GoMath

/-- An operation on a shared cell of type `σ`. -/
inductive CellOp (σ : Type) where
  /-- `(*AtomicState).Update` and `(*AtomicBehavior).Update`, emerge/agent/atomic_state.go:52-56 and 86-90: load, modify,
  store -/
  | update (f : σ → σ)
  /-- the shape of `ApplyAction`, emerge/agent/agent.go:442-462: load and check, and if the check succeeds a separate
  `Update` -/
  | guarded (g : σ → Bool) (f : σ → σ)

/-- The function an operation applies to the cell. -/
def CellOp.fn {σ : Type} : CellOp σ → σ → σ
  | .update f => f
  | .guarded _ f => f

/-- Where a goroutine is inside its current operation. -/
inductive Mid (σ : Type) where
  | idle
  /-- the check of a guarded operation has succeeded -/
  | checked (op : CellOp σ)
  /-- the cell has been loaded and the new value computed, but not stored -/
  | pending (op : CellOp σ) (v : σ)

/-- A goroutine: what it is in the middle of, and the operations it still has to start. -/
structure Thread (σ : Type) where
  mid : Mid σ
  todo : List (CellOp σ)

/-- The shared cell, the goroutines, the values the cell has had, and the operations that took effect, newest first (the
last two are only observed, never read by a step). -/
structure Sys (σ : Type) where
  cell : σ
  threads : Nat → Thread σ
  past : List σ
  log : List (CellOp σ)

/-- Goroutines about to start, on a cell with the given content. -/
def Sys.init {σ : Type} (c : σ) (progs : Nat → List (CellOp σ)) : Sys σ :=
  { cell := c, threads := fun i => { mid := .idle, todo := progs i }, past := [c], log := [] }

/-- Replace one goroutine. -/
def Sys.setThread {σ : Type} (s : Sys σ) (i : Nat) (t : Thread σ) : Sys σ :=
  { s with threads := fun j => if j = i then t else s.threads j }

/-- One atomic step of goroutine `i`. -/
def Sys.step {σ : Type} (s : Sys σ) (i : Nat) : Sys σ :=
  match (s.threads i).mid, (s.threads i).todo with
  | .idle, [] => s
  | .idle, .update f :: rest => s.setThread i { mid := .pending (.update f) (f s.cell), todo := rest }
  | .idle, .guarded g f :: rest =>
    if g s.cell then s.setThread i { mid := .checked (.guarded g f), todo := rest }
    else s.setThread i { mid := .idle, todo := rest }
  | .checked op, todo => s.setThread i { mid := .pending op (op.fn s.cell), todo := todo }
  | .pending op v, todo =>
    { (s.setThread i { mid := .idle, todo := todo }) with cell := v, past := v :: s.past, log := op :: s.log }

/-- A run under a schedule. -/
def Sys.run {σ : Type} (s : Sys σ) (schedule : List Nat) : Sys σ := schedule.foldl Sys.step s

section
variable {α : Type} [Zero α] [One α] [Add α] [Sub α] [Mul α] [Div α] [Neg α] [LT α] [LE α]
  [DecidableLT α] [DecidableLE α] [BEq α] [OfScientific α] [GoMath α]

/-- The writers of an agent's state. `goalShift` is the write at the end of `UpdateContext` with the shift computed from
an earlier load. -/
inductive StateOp (α : Type) where
  | setPhase (x : α)
  | setFrequency (f : Int)
  | setEnergy (x : α)
  | setLocalGoal (x : α)
  | goalShift (myPhase shift : α)
  | apply (action : Action α)

/-- The steps each writer takes on the shared state: emerge/agent/agent.go:169-209 (setters), 362-364 (`UpdateContext`)
and 442-462 (`ApplyAction`). An unknown action type writes nothing. -/
def StateOp.toCell : StateOp α → CellOp (StateData α)
  | .setPhase x => .update fun s => { s with phase := wrapPhase x }
  | .setFrequency f => .update fun s => { s with frequency := f }
  | .setEnergy x => .update fun s => { s with energy := fmax 0 x }
  | .setLocalGoal x => .update fun s => { s with localGoal := wrapPhase x }
  | .goalShift p d => .update fun s => { s with localGoal := wrapPhase (p + d) }
  | .apply act =>
    match applyUpdate act with
    | some f => .guarded (fun s => decide ¬ act.cost > s.energy) f
    | none => .guarded (fun _ => false) id

/-- The writers of an agent's behaviour parameters, emerge/agent/agent.go:217-243. -/
inductive BehaviorOp (α : Type) where
  | setInfluence (x : α)
  | setStubbornness (x : α)

/-- The steps each writer takes on the shared behaviour. -/
def BehaviorOp.toCell : BehaviorOp α → CellOp (BehaviorData α)
  | .setInfluence x => .update fun b => { b with influence := clampUnit x }
  | .setStubbornness x => .update fun b => { b with stubbornness := clampUnit x }

end
end Verif
