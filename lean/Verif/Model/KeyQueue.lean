import Verif.Model.App

/-!
# Model of the queue of key events and of the time limit of the demo program

`simulations/display/controller.go`, `simulations/emerge/ui/runner.go` and `simulations/emerge/main.go`. The thread of the terminal puts events into the buffered
channel of the controller, `handleEvents` takes them out; which of the two moves next is up to the scheduler. Every run of the loop in `main` has a controller of
its own (simulations/emerge/main.go:234), so the events in the channel of a run that is over are lost, as are those of keys pressed between the end of
the handling of events and the start of the next run.

Simplification: an event that `handleEvents` takes at the very moment at which the time limit ends the run is left out.
-/

set_option autoImplicit false

namespace Verif

/-- The program of `Verif.Model.App` with the channel of events, the time, and the time at which the current run began. `leaving` is `some r` while a
run ends, `r` being the program of the next run, if there is one. `over` means that the program has ended. -/
structure KeySys where
  app : App
  queue : List Event
  leaving : Option (Option App)
  over : Bool
  now : Int
  began : Int

/-- The program with its first run just begun. -/
def KeySys.start (a : App) (now : Int) : KeySys := { app := a, queue := [], leaving := none, over := false, now := now, began := now }

/-- What can happen: time passes, a key is pressed, an event is handled, the next run begins or the program ends, the time limit ends the run. -/
inductive KeyMove where
  | pass (d : Nat)
  | press (k : Key)
  | handle
  | leave
  | expire

/-- What can be observed of a move. -/
inductive KeyNote where
  | nothing
  | accepted (e : Event)
  | dropped (e : Event)
  | handled (e : Event)
  | switched

/-- One move with the given time limit; `none` if it is not possible now. -/
def KeySys.step (timeout : Int) (s : KeySys) : KeyMove → Option (KeySys × KeyNote)
  | .pass d => some ({ s with now := s.now + d }, .nothing)
  -- `ProcessKey`, simulations/display/controller.go:31-99: the channel has room for ten events (line 21) and further ones are dropped
  | .press k =>
    if s.over then none
    else match processKey k with
      | none => some (s, .nothing)
      | some e => if s.queue.length < 10 then some ({ s with queue := s.queue ++ [e] }, .accepted e) else some (s, .dropped e)
  -- `handleEvents`, simulations/emerge/ui/runner.go:187-248: after a cancellation the loop returns
  | .handle =>
    if s.over ∨ s.leaving.isSome then none
    else match s.queue with
      | [] => none
      | e :: rest =>
        match handleEvent s.app.current s.app.paused e with
        | .cancel => some ({ s with queue := rest, leaving := some none }, .handled e)
        | .restart e' =>
          some ({ s with queue := rest, leaving := some ((nextConfig s.app.config e').map fun c => ⟨c, false, [], s.app.restarts + 1⟩) }, .handled e)
        | .call c p => some ({ s with queue := rest, app := { s.app with paused := p, calls := s.app.calls ++ [c] } }, .handled e)
        | .ignore => some ({ s with queue := rest }, .handled e)
  -- the loop of `main`, simulations/emerge/main.go:65-171, with the controller of line 234
  | .leave =>
    if s.over then none
    else match s.leaving with
      | none => none
      | some none => some ({ s with over := true }, .nothing)
      | some (some b) => some ({ s with app := b, queue := [], leaving := none, began := s.now }, .switched)
  -- the time limit, simulations/emerge/ui/runner.go:59-63, is that of a run
  | .expire =>
    if s.over ∨ s.leaving.isSome then none
    else if timeout > 0 ∧ s.now ≥ s.began + timeout then some ({ s with leaving := some none }, .nothing) else none

/-- Moves one after the other, with what is observed; `none` if one of them is not possible. -/
def KeySys.run (timeout : Int) : KeySys → List KeyMove → Option (KeySys × List KeyNote)
  | s, [] => some (s, [])
  | s, m :: ms =>
    match s.step timeout m with
    | none => none
    | some (t, n) => match t.run timeout ms with
      | none => none
      | some (u, ns) => some (u, n :: ns)

end Verif
