import Verif.Model.Snapshot
import Verif.Props.DemoClient
import Verif.Props.Summary

/-!
# C151: what reaches the screen

The way from the workloads, the swarm and the batch manager through `Snapshot` and `convertSnapshot` to what the panels are drawn from.
-/

set_option autoImplicit false
set_option linter.unusedSectionVars false

namespace Verif
open GoMath Spec

/-- Everything `Snapshot` reads. -/
structure Spec.Sight (α : Type) where
  works : List (Work α)
  metrics : Metrics α
  swarm : List (Agent α)
  queue : ℕ
  stats : SimStats α
  now : ℤ

section
variable {α : Type} [Zero α] [One α] [Add α] [Sub α] [Mul α] [Div α] [Neg α] [LT α] [LE α] [DecidableLT α] [DecidableLE α] [BEq α]
  [OfScientific α] [GoMath α]

/-- What the display receives. -/
def Spec.Sight.view (s : Sight α) (p : PauseState α) (start : ℤ) (target : α) (disrupted reset : Bool) : View α :=
  convertSnapshot (simSnapshot p start target disrupted reset s.works s.metrics s.swarm s.queue s.stats s.now)

theorem snapLoop_eq (p : PauseState α) (now : ℤ) (ws : List (Work α)) (acc : List (AgentSnap α)) (total : ℕ) :
    snapLoop p now ws acc total =
      (acc ++ ws.map fun w => { w.snapshot now with phase := p.shownPhase w.id w.agent.state.phase }, total + (ws.map fun w => w.pending).sum) := by
  induction ws generalizing acc total with
  | nil => simp [snapLoop]
  | cons w ws ih =>
    rw [snapLoop, ih]
    simp only [List.map_cons, List.sum_cons, List.append_assoc, List.singleton_append]
    refine Prod.ext rfl ?_
    show total + w.pending + _ = _
    omega

theorem view_agents (s : Sight α) (p : PauseState α) (start : ℤ) (target : α) (d r : Bool) :
    (s.view p start target d r).agents = s.works.map fun w => convertAgent { w.snapshot s.now with phase := p.shownPhase w.id w.agent.state.phase } := by
  show ((snapLoop p s.now s.works [] 0).1).map convertAgent = _
  rw [snapLoop_eq]
  simp

/-- **C151** Every workload appears once, in order, with its identity, its kind, its number of pending tasks and of batches sent, its activity, and the phase of its
agent, or the phase stored when the simulation was paused. -/
theorem C151_agents (s : Sight α) (p : PauseState α) (start : ℤ) (target : α) (d r : Bool) :
    (s.view p start target d r).agents.length = s.works.length ∧
    ∀ (i : ℕ) (w : Work α), s.works[i]? = some w → ∃ v : AgentView α, (s.view p start target d r).agents[i]? = some v ∧
      v.id = w.id ∧ v.typeName = w.typeName ∧ v.icon = w.icon ∧ v.pendingTasks = w.pending ∧ v.batchesSent = w.batchesSent ∧
      (v.activityLevel, v.inBurstMode) = w.gen.activity s.now w.pending ∧
      (p.paused = false → v.phase = w.agent.state.phase) ∧
      (∀ m x, p.paused = true → p.pausedPhases = some m → m.lookup w.id = some x → v.phase = x) := by
  rw [view_agents]
  refine ⟨by rw [List.length_map], fun i w hw => ⟨_, by rw [List.getElem?_map, hw]; rfl, rfl, rfl, rfl, rfl, rfl, rfl, fun h => ?_, fun m x h1 h2 h3 => ?_⟩⟩
  · show p.shownPhase _ _ = _
    unfold PauseState.shownPhase
    rw [h]; rfl
  · show p.shownPhase _ _ = _
    unfold PauseState.shownPhase
    rw [h1, h2]
    simp only [if_true, h3]

/-- **C151** The total of pending tasks is the sum of the numbers shown beside it. -/
theorem C151_pending (s : Sight α) (p : PauseState α) (start : ℤ) (target : α) (d r : Bool) :
    (s.view p start target d r).pendingTasks = ((s.view p start target d r).agents.map fun v => v.pendingTasks).sum := by
  rw [view_agents]
  show (snapLoop p s.now s.works [] 0).2 = _
  rw [snapLoop_eq, List.map_map]
  simp only [Nat.zero_add]
  rfl

/-- **C151** The panels that count agents count every workload in exactly one of the four states. -/
theorem C151_counts (s : Sight α) (p : PauseState α) (start : ℤ) (target : α) (d r : Bool) :
    let v := (s.view p start target d r).shown
    idleCount v + activeCount v + v.agents.countP (fun a => a.activity = .steady) = s.works.length ∧
    idleCount v = s.works.countP (fun w => (w.gen.activity s.now w.pending).1 = .quiet) ∧
    activeCount v = s.works.countP (fun w => (w.gen.activity s.now w.pending).1 = .burst ∨ (w.gen.activity s.now w.pending).1 = .active) := by
  have e : (s.view p start target d r).shown.agents = s.works.map fun w =>
      { phase := p.shownPhase w.id w.agent.state.phase, activity := (w.gen.activity s.now w.pending).1 } := by
    show ((s.view p start target d r).agents.map _) = _
    rw [view_agents, List.map_map]
    rfl
  dsimp only
  unfold idleCount activeCount
  rw [e]
  simp only [List.countP_map]
  refine ⟨?_, rfl, rfl⟩
  have key : ∀ l : List Activity, l.countP (fun x => decide (x = .quiet)) + l.countP (fun x => decide (x = .burst ∨ x = .active)) +
      l.countP (fun x => decide (x = .steady)) = l.length := by
    intro l
    induction l with
    | nil => rfl
    | cons x xs ih =>
      simp only [List.countP_cons, List.length_cons]
      rw [← ih]
      cases x <;> simp <;> omega
  have := key (s.works.map fun w => (w.gen.activity s.now w.pending).1)
  simp only [List.countP_map, List.length_map] at this
  exact this

/-- **C151** The state of the simulation is shown as it is: the flags, the target, the time since the start, the number of batches in the queue, and what the batch
manager knows of its last batch; a batch has just been sent if that was less than half a second ago. -/
theorem C151_state (s : Sight α) (p : PauseState α) (start : ℤ) (target : α) (d r : Bool) :
    let v := s.view p start target d r
    v.paused = p.paused ∧ v.disrupted = d ∧ v.reset = r ∧ v.targetCoherence = target ∧ v.timestamp = s.now ∧ v.elapsedTime = s.now - start ∧
    v.currentBatchSize = s.queue ∧ v.lastBatchTime = s.stats.lastBatchTime ∧ v.lastBatchSize = s.stats.lastBatchSize ∧
    (v.batchJustSent = true ↔ ∃ t, s.stats.lastBatchTime = some t ∧ s.now < t + 500000000) := by
  refine ⟨rfl, rfl, rfl, rfl, rfl, rfl, rfl, rfl, rfl, ?_⟩
  show s.stats.justSent s.now = true ↔ _
  unfold SimStats.justSent
  cases s.stats.lastBatchTime with
  | none => simp [sinceTime, millisecond]
  | some t =>
    rw [decide_eq_true_eq]
    simp only [sinceTime, millisecond, Option.some.injEq, exists_eq_left']
    omega
end

/-- **C151** The costs shown are those of the batches recorded since the metrics were last reset: 3 cents for every task without batching, one and a half for every batch; the
savings are the difference, and their percentage is that of the costs without batching. -/
theorem C151_costs (s : Sight ℝ) (p : PauseState ℝ) (start created : ℤ) (target : ℝ) (d r : Bool) (moves : List StatMove)
    (h : s.metrics = ((SimStats.new (α := ℝ) created).run moves).metrics) :
    let v := s.view p start target d r
    let sizes := recordedSince moves []
    v.batchesProcessed = (sizes.length : ℕ) ∧ v.costWithoutSync = 3 / 100 * (sizes.sum : ℕ) ∧ v.costWithSync = 15 / 1000 * (sizes.length : ℕ) ∧
    v.savings = v.costWithoutSync - v.costWithSync ∧ (0 < sizes.sum → v.savingsPercent * v.costWithoutSync = v.savings * 100) ∧
    (sizes.sum = 0 → v.savingsPercent = 0) := by
  obtain ⟨-, h2, -, h4, h5, h6, h7, h8, -⟩ := C127_totals_partial created moves []
  rw [← h] at h2 h4 h5 h6 h7 h8
  exact ⟨h2, h4, h5, h6, h7, h8⟩

/-- **C151** Unless paused, if no agent moves while the snapshot is taken and every agent of the swarm has a workload, the coherence shown is that of the phases shown. -/
theorem C151_coherence (s : Sight ℝ) (p : PauseState ℝ) (start : ℤ) (target : ℝ) (d r : Bool) (hp : p.paused = false)
    (h : (s.works.map fun w => w.agent.state.phase).Perm (s.swarm.map fun a => a.state.phase)) :
    (s.view p start target d r).coherence = measureCoherence ((s.view p start target d r).agents.map fun v => v.phase) := by
  rw [view_agents, List.map_map]
  show p.shownCoherence s.swarm = _
  unfold PauseState.shownCoherence agentsCoherence
  rw [hp, if_neg (by simp)]
  apply C04_coherence_perm
  refine (h.symm.trans (List.Perm.of_eq ?_))
  apply List.map_congr_left
  intro w _
  show _ = p.shownPhase _ _
  unfold PauseState.shownPhase
  rw [hp, if_neg (by simp)]

/-- What one expects of a paused simulation: the display stands still. -/
def C151_claim : Prop := ∀ (p : PauseState ℝ) (first second : List (Agent ℝ)) (s s' : Sight ℝ) (start : ℤ) (target : ℝ) (d r : Bool),
  s.works.map (fun w => w.id) = second.map (fun a => a.id) → s'.works.map (fun w => w.id) = second.map (fun a => a.id) →
  (second.map fun a => a.id).Nodup →
  (s.view (p.pause first second) start target d r) = (s'.view (p.pause first second) start target d r)

/-- The clock of the display goes on, and so do the workloads' numbers of tasks. -/
theorem C151_refuted : ¬ C151_claim := by
  intro h
  have := h PauseState.init [] [] ⟨[], Metrics.new 0, [], 0, SimStats.new 0, 0⟩ ⟨[], Metrics.new 0, [], 0, SimStats.new 0, 1⟩ 0 0 false false rfl rfl (by simp)
  have e := congrArg View.elapsedTime this
  simp [Sight.view, convertSnapshot, simSnapshot] at e

/-- **C151, proved part.** While paused the coherence, the target and, agent by agent, the phases stand still, whatever the agents do, and the flag is shown. Missing is
the rest: the elapsed time and the numbers of tasks and batches go on. -/
theorem C151_frozen_partial (p : PauseState ℝ) (first second : List (Agent ℝ)) (s s' : Sight ℝ) (start : ℤ) (target : ℝ) (d r : Bool)
    (h : s.works.map (fun w => w.id) = second.map (fun a => a.id)) (h' : s'.works.map (fun w => w.id) = second.map (fun a => a.id))
    (hn : (second.map fun a => a.id).Nodup) :
    let v := s.view (p.pause first second) start target d r
    let v' := s'.view (p.pause first second) start target d r
    v.paused = true ∧ v'.paused = true ∧ v.coherence = v'.coherence ∧ v.targetCoherence = v'.targetCoherence ∧
    v.agents.map (fun a => (a.id, a.phase)) = v'.agents.map (fun a => (a.id, a.phase)) ∧
    v.agents.map (fun a => a.phase) = second.map (fun a => a.state.phase) := by
  have key : ∀ t : Sight ℝ, t.works.map (fun w => w.id) = second.map (fun a => a.id) →
      (t.view (p.pause first second) start target d r).agents.map (fun a => (a.id, a.phase)) = second.map fun a => (a.id, a.state.phase) := by
    intro t ht
    rw [view_agents, List.map_map]
    let f : String → String × ℝ := fun id => (id, ((second.map fun a => (a.id, a.state.phase)).lookup id).getD 0)
    have e1 : second.map (fun a => (a.id, a.state.phase)) = (second.map fun a => a.id).map f := by
      rw [List.map_map]
      apply List.map_congr_left
      intro a ha
      simp only [Function.comp, f]
      rw [lookup_map second hn a ha]; rfl
    have e2 : t.works.map ((fun a : AgentView ℝ => (a.id, a.phase)) ∘ fun w =>
        convertAgent { w.snapshot t.now with phase := (p.pause first second).shownPhase w.id w.agent.state.phase }) = (t.works.map fun w => w.id).map f := by
      rw [List.map_map]
      apply List.map_congr_left
      intro w hw
      obtain ⟨b, hb, e⟩ := List.mem_map.1 ((ht ▸ List.mem_map_of_mem hw : w.id ∈ second.map fun a => a.id))
      simp only [Function.comp, f]
      refine Prod.ext rfl ?_
      show (p.pause first second).shownPhase w.id _ = _
      rw [← e, lookup_map second hn b hb]
      exact (C91_frozen p first second [] hn _).2.1 b hb
    rw [e1, e2, ht]
  refine ⟨rfl, rfl, rfl, rfl, (key s h).trans (key s' h').symm, ?_⟩
  have := congrArg (List.map Prod.snd) (key s h)
  rw [List.map_map, List.map_map] at this
  exact this

/-- Two workloads of one swarm, beside `C151_coherence`: the order is different. -/
example : ∃ s : Sight ℝ, (s.works.map fun w => w.agent.state.phase).Perm (s.swarm.map fun a => a.state.phase) ∧ s.works.length = 2 := by
  let a : Agent ℝ := { (Agent.zero : Agent ℝ) with id := "a" }
  let b : Agent ℝ := ({ (Agent.zero : Agent ℝ) with id := "b" } : Agent ℝ).setPhase 1
  refine ⟨⟨[⟨"a", "", "", a, GenState.new 0, 1, 0⟩, ⟨"b", "", "", b, GenState.new 0, 2, 0⟩], Metrics.new 0, [b, a], 0, SimStats.new 0, 0⟩, ?_, rfl⟩
  exact List.Perm.swap _ _ _

/-- Three pending tasks in all, beside `C151_pending`. -/
example : (Sight.view (α := ℝ) ⟨[⟨"a", "", "", Agent.zero, GenState.new 0, 1, 0⟩, ⟨"b", "", "", Agent.zero, GenState.new 0, 2, 0⟩], Metrics.new 0, [], 0,
    SimStats.new 0, 0⟩ PauseState.init 0 0 false false).pendingTasks = 3 := by
  rw [C151_pending, view_agents]; rfl

end Verif
