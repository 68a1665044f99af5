import Verif.Props.CoherenceDouble
import Verif.Props.SwarmOps
import Verif.Props.DemoClient
import Verif.Props.Snapshot

/-! # The same phases in different orders: C50, C91 and C151 in doubles -/

set_option autoImplicit false
set_option linter.unusedSectionVars false

namespace Verif
open GoMath Spec Rounding

section
variable [Rounding] [LibM]

/-- Sums in different orders, of numbers. -/
theorem coherence_reordered (ε : ℝ) (xs ys : List F64) (h : xs.Perm ys) (hε : ∀ x ∈ xs, ∃ d : Dbl, x = .fin d ∧ TrigWithin ε d)
    (hn : xs.length < 2 ^ 53) (h0 : xs ≠ []) :
    ∃ z z' : Dbl, measureCoherence xs = .fin z ∧ measureCoherence ys = .fin z' ∧ |z.1 - z'.1| ≤ 2 * coherenceError ε xs.length := by
  have key : ∀ l : List F64, (∀ x ∈ l, ∃ d : Dbl, x = .fin d ∧ TrigWithin ε d) → ∃ ds : List Dbl, l = ds.map F64.fin ∧ ∀ d ∈ ds, TrigWithin ε d := by
    intro l
    induction l with
    | nil => exact fun _ => ⟨[], rfl, by simp⟩
    | cons x l ih =>
      intro hl
      obtain ⟨ds, e, hds⟩ := ih fun y hy => hl y (List.mem_cons_of_mem _ hy)
      obtain ⟨d, ed, hd⟩ := hl x List.mem_cons_self
      exact ⟨d :: ds, by rw [e, ed]; rfl, List.forall_mem_cons.2 ⟨hd, hds⟩⟩
  obtain ⟨ds, rfl, hds⟩ := key xs hε
  obtain ⟨es, rfl, -⟩ := key ys fun y hy => hε y (h.mem_iff.2 hy)
  have inj : Function.Injective (F64.fin) := fun a b e => by injection e
  rw [List.map_perm_map_iff inj] at h
  rw [List.length_map] at hn ⊢
  exact C04_perm_double ε ds es h hds hn (by simpa using h0)

/-- **C50 in doubles.** The two storages hold the same agents, so that their coherences are those of the same phases in two orders: they differ by at most
twice the error of C133. -/
theorem C50_coherence_double_partial (s s' : Swarm F64) (l : List ℕ) (hh : s'.heap = s.heap) (h : Spec.InMap s l) (h' : Spec.InSlice s' l)
    (hd : (l.map fun a => (s.heap a).id).Nodup) (order : SyncMap ℕ → SyncMap ℕ) (hp : ∀ m, (order m).Perm m) (ε : ℝ)
    (hε : ∀ a ∈ s.collectAgents order, ∃ d : Dbl, (s.heap a).state.phase = .fin d ∧ TrigWithin ε d) (hn : (s.collectAgents order).length < 2 ^ 53)
    (h0 : s.collectAgents order ≠ []) :
    ∃ z z' : Dbl, s.measureCoherence order = .fin z ∧ s'.measureCoherence order = .fin z' ∧
      |z.1 - z'.1| ≤ 2 * coherenceError ε (s.collectAgents order).length := by
  have hc := (C50_reads_partial s s' l hh h h' hd order hp).collect
  unfold Swarm.measureCoherence
  rw [hh]
  have := coherence_reordered ε ((s.collectAgents order).map fun a => (s.heap a).state.phase) ((s'.collectAgents order).map fun a => (s.heap a).state.phase)
    (hc.map _) (by
      intro x hx
      obtain ⟨a, ha, rfl⟩ := List.mem_map.1 hx
      exact hε a ha) (by simpa using hn) (by simpa using h0)
  rwa [List.length_map] at this

/-- **C91 in doubles.** If nothing moved between the two snapshots of a pause, the coherence shown and the one of the phases shown differ by at most twice the
error of C133. -/
theorem C91_consistent_double_partial (second later : List (Agent F64)) (hnd : (second.map fun a => a.id).Nodup)
    (hl : (later.map fun a => a.id).Perm (second.map fun a => a.id)) (p : PauseState F64) (ε : ℝ)
    (hε : ∀ a ∈ second, ∃ d : Dbl, a.state.phase = .fin d ∧ TrigWithin ε d) (hn : second.length < 2 ^ 53) (h0 : second ≠ []) :
    ∃ z z' : Dbl, (p.pause second second).shownCoherence later = .fin z ∧
      measureCoherence (later.map fun a => (p.pause second second).shownPhase a.id a.state.phase) = .fin z' ∧
      |z.1 - z'.1| ≤ 2 * coherenceError ε second.length := by
  show ∃ z z' : Dbl, agentsCoherence second = .fin z ∧ _
  rw [agentsCoherence]
  let f : String → F64 := fun id => ((second.map fun a => (a.id, a.state.phase)).lookup id).getD 0
  have h1 : (second.map fun a => a.state.phase) = (second.map fun a => a.id).map f := by
    rw [List.map_map]
    apply List.map_congr_left
    intro a ha
    simp only [Function.comp, f]
    rw [lookup_map second hnd a ha]; rfl
  have h2 : (later.map fun a => (p.pause second second).shownPhase a.id a.state.phase) = (later.map fun a => a.id).map f := by
    rw [List.map_map]
    apply List.map_congr_left
    intro a ha
    obtain ⟨b, hb, e⟩ := List.mem_map.1 (hl.subset (List.mem_map.2 ⟨a, ha, rfl⟩))
    simp only [Function.comp, f]
    rw [← e, lookup_map second hnd b hb]
    exact (C91_frozen p second second later hnd a.state.phase).2.1 b hb
  have := coherence_reordered ε (second.map fun a => a.state.phase) (later.map fun a => (p.pause second second).shownPhase a.id a.state.phase)
    (by rw [h1, h2]; exact (hl.map f).symm) (by
      intro x hx
      obtain ⟨a, ha, rfl⟩ := List.mem_map.1 hx
      exact hε a ha) (by simpa using hn) (by simpa using h0)
  rwa [List.length_map] at this

/-- **C151 in doubles.** If the workloads are those of the swarm, the coherence shown and the one of the phases shown differ by at most twice the error of
C133. -/
theorem C151_coherence_double (s : Sight F64) (p : PauseState F64) (start : ℤ) (target : F64) (d r : Bool) (hp : p.paused = false)
    (h : (s.works.map fun w => w.agent.state.phase).Perm (s.swarm.map fun a => a.state.phase)) (ε : ℝ)
    (hε : ∀ a ∈ s.swarm, ∃ d : Dbl, a.state.phase = .fin d ∧ TrigWithin ε d) (hn : s.swarm.length < 2 ^ 53) (h0 : s.swarm ≠ []) :
    ∃ z z' : Dbl, (s.view p start target d r).coherence = .fin z ∧
      measureCoherence ((s.view p start target d r).agents.map fun v => v.phase) = .fin z' ∧
      |z.1 - z'.1| ≤ 2 * coherenceError ε s.swarm.length := by
  rw [view_agents, List.map_map]
  show ∃ z z' : Dbl, p.shownCoherence s.swarm = .fin z ∧ _
  unfold PauseState.shownCoherence agentsCoherence
  rw [hp, if_neg (by simp)]
  have := coherence_reordered ε (s.swarm.map fun a => a.state.phase) (s.works.map fun w => w.agent.state.phase) h.symm (by
      intro x hx
      obtain ⟨a, ha, rfl⟩ := List.mem_map.1 hx
      exact hε a ha) (by simpa using hn) (by simpa using h0)
  rw [List.length_map] at this
  have e : s.works.map ((fun v => v.phase) ∘ fun w => convertAgent { w.snapshot s.now with phase := p.shownPhase w.id w.agent.state.phase }) =
      s.works.map fun w => w.agent.state.phase := by
    apply List.map_congr_left
    intro w _
    show p.shownPhase _ _ = _
    unfold PauseState.shownPhase
    rw [hp, if_neg (by simp)]
  rw [e]
  exact this

end

/-! Examples, with a mathematics library that is accurate to the last place. -/

/-- Three agents in both storages, beside `C50_coherence_double_partial`. -/
example [Rounding] (goal : State F64) (c : SwarmConfig F64) : letI := LibM.rounded
    ∃ z z' : Dbl, ({ mapSwarm goal c with heap := fun i => { (Agent.zero : Agent F64) with id := agentID i } } : Swarm F64).measureCoherence id = .fin z ∧
      ({ sliceSwarm goal c with heap := fun i => { (Agent.zero : Agent F64) with id := agentID i } } : Swarm F64).measureCoherence id = .fin z' ∧
      |z.1 - z'.1| ≤ 2 * coherenceError (2 ^ (-52 : ℤ)) 3 := by
  let := LibM.rounded
  have h := C50_coherence_double_partial { mapSwarm goal c with heap := fun i => { (Agent.zero : Agent F64) with id := agentID i } }
    { sliceSwarm goal c with heap := fun i => { (Agent.zero : Agent F64) with id := agentID i } } (List.range 3) rfl
    ⟨by simp [mapSwarm, Swarm.initial], by simp only [mapSwarm]; exact List.Perm.refl _⟩
    ⟨rfl, rfl, rfl, by simp only [sliceSwarm]; exact List.Perm.refl _⟩ (agentIDs_nodup 3) id (fun _ => List.Perm.refl _) (2 ^ (-52 : ℤ))
    (fun a _ => ⟨_, rfl, trigWithin_rounded _⟩)
  exact h (by simp [Swarm.collectAgents, mapSwarm, Swarm.initial]) (by simp [Swarm.collectAgents, mapSwarm, Swarm.initial])

/-- Two agents that are read in the other order, beside `C91_consistent_double_partial`. -/
example [Rounding] (p : PauseState F64) (a b : Dbl) (x y : Agent F64) (hx : x.id = "b") (hy : y.id = "a") : letI := LibM.rounded
    let second : List (Agent F64) := [({ (Agent.zero : Agent F64) with id := "a" }), ({ (Agent.zero : Agent F64) with id := "b" })].map fun z =>
      { z with state := { z.state with phase := if z.id = "a" then .fin a else .fin b } }
    ∃ z z' : Dbl, (p.pause second second).shownCoherence [x, y] = .fin z ∧
      measureCoherence ([x, y].map fun z => (p.pause second second).shownPhase z.id z.state.phase) = .fin z' ∧
      |z.1 - z'.1| ≤ 2 * coherenceError (2 ^ (-52 : ℤ)) 2 := by
  let := LibM.rounded
  refine C91_consistent_double_partial _ [x, y] (by simp) ?_ p _ ?_ (by simp) (by simp)
  · simp only [List.map_cons, List.map_nil, hx, hy]; exact List.Perm.swap _ _ _
  · intro z hz
    obtain ⟨w, -, rfl⟩ := List.mem_map.1 hz
    by_cases h : w.id = "a"
    · exact ⟨a, if_pos h, trigWithin_rounded _⟩
    · exact ⟨b, if_neg h, trigWithin_rounded _⟩

/-- Two workloads of a swarm that is listed in the other order, beside `C151_coherence_double`. -/
example [Rounding] (a b : Dbl) : letI := LibM.rounded
    let x : Agent F64 := { (Agent.zero : Agent F64) with state := { (Agent.zero : Agent F64).state with phase := .fin a } }
    let y : Agent F64 := { (Agent.zero : Agent F64) with state := { (Agent.zero : Agent F64).state with phase := .fin b } }
    let s : Sight F64 := ⟨[⟨"a", "", "", x, GenState.new 0, 1, 0⟩, ⟨"b", "", "", y, GenState.new 0, 2, 0⟩], Metrics.new 0, [y, x], 0, SimStats.new 0, 0⟩
    ∃ z z' : Dbl, (s.view PauseState.init 0 0 false false).coherence = .fin z ∧
      measureCoherence ((s.view PauseState.init 0 0 false false).agents.map fun v => v.phase) = .fin z' ∧
      |z.1 - z'.1| ≤ 2 * coherenceError (2 ^ (-52 : ℤ)) 2 := by
  let := LibM.rounded
  intro x y s
  exact C151_coherence_double s PauseState.init 0 0 false false rfl (List.Perm.swap _ _ _) _
    (List.forall_mem_cons.2 ⟨⟨b, rfl, trigWithin_rounded b⟩, List.forall_mem_cons.2 ⟨⟨a, rfl, trigWithin_rounded a⟩, by simp⟩⟩) (by simp [s]) (by simp [s])

end Verif
