import Verif.Model.Demo
import Verif.Props.Client
import Verif.Props.Grading
import Verif.Props.Phase
import Mathlib.Data.List.Perm.Subperm

/-!
# C91, C92: pausing the demo; building its client
-/

set_option autoImplicit false
set_option linter.unusedSectionVars false

namespace Verif
open GoMath Rounding Spec

section
variable [Rounding] [LibM]

theorem beq_f64 {a b : F64} (h : (a == b) = true) : a = b := by
  have : F64.eq a b := @of_decide_eq_true _ (Classical.propDecidable _) h
  cases a <;> cases b <;> simp_all [F64.eq]
  exact Subtype.ext this

theorem F64.lt_irrefl' (a : F64) : ¬ a < a := by
  intro h
  have : F64.lt a a := h
  cases a <;> simp [F64.lt] at this

theorem lit_pos (x : ℝ) (h0 : 0.1 ≤ x) (h1 : x ≤ 1) : ¬ F64.ofReal x ≤ 0 := by
  obtain ⟨y, hy, e, h2, -⟩ := F64.ofReal_between (a := 2⁻¹ ^ 4) (b := 1) (by
    have := dyadic 1 4 (by norm_num) (by norm_num); simpa using this) isDouble_one (by norm_num; linarith) h1
  rw [e, F64.zero_def, F64.le_fin]
  have : (0:ℝ) < 2⁻¹ ^ 4 := by norm_num
  show ¬ y ≤ 0
  linarith

theorem scale_target_lit (s : Size) : ∃ x : ℝ, (s.defaultTargetCoherence : F64) = F64.ofReal x ∧ 0.1 ≤ x ∧ x ≤ 0.9 := by
  unfold Size.defaultTargetCoherence
  split
  · exact ⟨0.90, rfl, by norm_num, by norm_num⟩
  · exact ⟨0.85, rfl, by norm_num, by norm_num⟩
  · exact ⟨0.75, rfl, by norm_num, by norm_num⟩
  · exact ⟨0.65, rfl, by norm_num, by norm_num⟩
  · exact ⟨0.55, rfl, by norm_num, by norm_num⟩
  · exact ⟨0.75, rfl, by norm_num, by norm_num⟩

theorem demo_target_lit (g : GoalType) (s : Size) : ∃ x : ℝ, (demoTarget g s : F64) = F64.ofReal x ∧ 0.1 ≤ x ∧ x ≤ 0.9 := by
  unfold demoTarget
  split_ifs
  · exact ⟨0.2, rfl, by norm_num, by norm_num⟩
  · exact ⟨0.6, rfl, by norm_num, by norm_num⟩
  · exact ⟨0.4, rfl, by norm_num, by norm_num⟩
  · exact scale_target_lit s

/-! ## C92 The demo builds the client it asks for -/

/-- The shorthand taken for the default coherence and the builder give the same client, for every goal, scale and coherence. -/
theorem C92_shorthand (g : GoalType) (s : Size) (t : F64) (env : SwarmEnv F64) (now : ℤ) :
    createEmergeClient g s t env now = ({ goal := g, scale := s, targetCoherence := t } : Builder F64).build env now := by
  unfold createEmergeClient
  split_ifs with h
  · obtain ⟨rfl, h⟩ := h
    have ht := beq_f64 h
    obtain ⟨x, hx, h0, h1⟩ := scale_target_lit s
    have hn : ¬ (s.defaultTargetCoherence : F64) ≤ 0 := by rw [hx]; exact lit_pos x h0 (by linarith)
    have hz : (0 : F64) ≤ 0 := by rw [F64.zero_def]; exact (F64.le_fin _ _).2 (_root_.le_refl _)
    have e : ((Builder.new.withGoal 0).withScale s : Builder F64).target =
        ({ goal := 0, scale := s, targetCoherence := t } : Builder F64).target := by
      have h1 : ((Builder.new.withGoal 0).withScale s : Builder F64).target.coherence = s.defaultTargetCoherence := if_pos hz
      have h2 : ({ goal := 0, scale := s, targetCoherence := t } : Builder F64).target.coherence = t := by rw [ht]; exact if_neg hn
      rw [← ht, ← h2] at h1
      exact congrArg (fun c => ({ phase := 0, frequency := 1000 * millisecond, coherence := c } : State F64)) h1
    unfold clientMinimizeAPICalls Builder.build
    rw [e]
    rfl
  · rfl

/-- The client of the demo can always be built: for every goal and scale, whatever is drawn, as long as no agent is left out for ever by the
random choice of neighbours. -/
theorem C92_builds (g : GoalType) (s : Size) (env : SwarmEnv F64) (now : ℤ)
    (hf : ∀ i, Spec.FairPicks (env.pick i) s.defaultAgentCount.toNat) :
    ∃ N c, ∀ n ≥ N, createEmergeClient g s (demoTarget g s) { env with fuel := n } now = .ok c := by
  simp only [C92_shorthand]
  obtain ⟨y, hy, y0, y1⟩ := demo_target_lit (g := g) (s := s)
  refine (C73_build { goal := g, scale := s, targetCoherence := demoTarget g s }).1 ⟨?_, ?_⟩ env now hf
  · show (demoTarget g s : F64) ≠ .nan
    obtain ⟨z, hz, e, -, -⟩ := F64.ofReal_between isDouble_zero isDouble_one (by linarith) (show y ≤ 1 by linarith)
    rw [hy, e]; simp
  · show ¬ (1 : F64) < demoTarget g s
    obtain ⟨z, hz, e, -, h1⟩ := F64.ofReal_between isDouble_zero isDouble_one (by linarith) (show y ≤ 1 by linarith)
    rw [hy, e, F64.one_def, F64.lt_fin]
    exact _root_.not_lt.2 h1

/-- Every client of the demo works towards exactly the coherence the demo shows as its target, for every goal and scale, and has exactly
one workload for each of its agents. -/
theorem C92_target (g : GoalType) (s : Size) (env : SwarmEnv F64) (now : ℤ) (c : Client F64)
    (e : createEmergeClient g s (demoTarget g s) env now = .ok c) (order : SyncMap ℕ → SyncMap ℕ) (hp : ∀ m, (order m).Perm m)
    (visited : List String) (hv : visited.Perm ((c.sync.swarm.allAgents order).map Prod.fst)) :
    c.sync.swarm.goalState.coherence = demoTarget g s ∧
    workloadIds s visited = visited ∧
    ∃ n : ℕ, (n : ℤ) = s.defaultAgentCount ∧ visited.Perm ((List.range n).map fun i => "agent-" ++ toString i) := by
  rw [C92_shorthand] at e
  obtain ⟨n, hn, ⟨addr, hx⟩, -, -, -, -, x, h5, h6, h7⟩ := C73_client _ env now c e order hp
  obtain ⟨y, hy, y0, y1⟩ := demo_target_lit g s
  have hpos : ¬ (demoTarget g s : F64) ≤ 0 := by rw [hy]; exact lit_pos y y0 (by linarith)
  have hxe : x = demoTarget g s := h5.1 hpos
  have hcount : (n : ℤ) = s.defaultAgentCount := by
    have h1 : Spec.Agents s n := hn
    have h2 := agentCount_spec s
    unfold Spec.Agents at h1 h2
    have key : ∀ s : ℤ, s = 0 ∨ s = 1 ∨ s = 2 ∨ s = 3 ∨ s = 4 ∨ (s < 0 ∨ 4 < s) := by intro s; omega
    rcases key s with h | h | h | h | h | h
    · rw [h1.1 h, h2.1 h]
    · rw [h1.2.1 h, h2.2.1 h]
    · rw [h1.2.2.1 h, h2.2.2.1 h]
    · rw [h1.2.2.2.1 h, h2.2.2.2.1 h]
    · rw [h1.2.2.2.2.1 h, h2.2.2.2.2.1 h]
    · rw [h1.2.2.2.2.2 h, h2.2.2.2.2.2 h]
  have hlen : visited.length = n := by rw [hv.length_eq, List.length_map, hx.count]
  refine ⟨?_, ?_, n, hcount, ?_⟩
  · rw [← hxe]
    apply h7
    rw [hxe, hy]
    have hle : F64.ofReal y ≤ (getCoherenceLimits n : CoherenceLimits F64).practical := by
      have hn20 : (20 : ℤ) ≤ n := by
        rw [hcount]; unfold Size.defaultAgentCount; split <;> norm_num
      unfold getCoherenceLimits
      simp only [show ¬ (n : ℤ) ≤ 0 by omega, show ¬ (n : ℤ) = 1 by omega, show ¬ (n : ℤ) < 5 by omega, show ¬ (n : ℤ) < 10 by omega,
        show ¬ (n : ℤ) < 20 by omega, if_false]
      split_ifs
      · exact F64.ofReal_mono (show y ≤ 0.97 by linarith)
      · exact F64.ofReal_mono (show y ≤ 0.98 by linarith)
      · exact F64.ofReal_mono (show y ≤ 0.99 by linarith)
    intro hgt
    have := F64.lt_of_le_lt hle hgt
    rw [← hy] at this
    exact F64.lt_irrefl' _ this
  · have key : ∀ (l : List String) (i : ℕ) (m : ℤ), (i : ℤ) + l.length ≤ m → workloadLoop m i l = l := by
      intro l
      induction l with
      | nil => intros; rfl
      | cons a l ih =>
        intro i m h
        simp only [List.length_cons, Nat.cast_add, Nat.cast_one] at h
        unfold workloadLoop
        rw [if_neg (by omega), ih (i + 1) m (by push_cast; omega)]
    exact key visited 0 _ (by rw [hlen, hcount]; simp)
  · refine hv.trans (List.Perm.symm ?_)
    have hnd : ((List.range n).map fun i => "agent-" ++ toString i).Nodup := List.nodup_range.map agentID_injective
    refine (List.subperm_of_subset hnd ?_).perm_of_length_le (by simp [hx.count])
    intro id hid
    obtain ⟨i, hi, rfl⟩ := List.mem_map.1 hid
    exact List.mem_map.2 ⟨(_, addr i), (hx.mapped _ _).2 ⟨i, List.mem_range.1 hi, rfl, rfl⟩, rfl⟩

/-- Beside `C92_builds` and `C92_target`: a demo of load distribution at the large scale. -/
example : ∃ (env : SwarmEnv F64) (c : Client F64), createEmergeClient 1 3 (demoTarget 1 3) env 0 = .ok c := by
  obtain ⟨N, c, h⟩ := C92_builds 1 3 (SwarmEnv.simple (fun _ _ => 0) fun _ k => k) 0 fun _ => fair_self _
  exact ⟨_, c, h N (_root_.le_refl _)⟩

end

/-! ## C91 A paused demo stands still -/

section
variable {α : Type} [Zero α] [One α] [Add α] [Sub α] [Mul α] [Div α] [Neg α] [LT α] [LE α]
  [DecidableLT α] [DecidableLE α] [BEq α] [OfScientific α] [GoMath α]

theorem lookup_map (l : List (Agent α)) (hnd : (l.map fun a => a.id).Nodup) (a : Agent α) (ha : a ∈ l) :
    (l.map fun a => (a.id, a.state.phase)).lookup a.id = some a.state.phase := by
  induction l with
  | nil => cases ha
  | cons b l ih =>
    rw [List.map_cons, List.nodup_cons] at hnd
    rcases List.mem_cons.1 ha with rfl | ha
    · simp
    · have hne : a.id ≠ b.id := by
        intro e
        exact hnd.1 (by rw [← e]; exact List.mem_map.2 ⟨a, ha, rfl⟩)
      rw [List.map_cons, List.lookup_cons]
      have : (a.id == b.id) = false := by simpa using hne
      rw [this]
      exact ih hnd.2 ha

/-- From the pause to the next resume every snapshot shows the coherence of the moment of the pause and, for every agent, the phase it had
then, whatever the agents do meanwhile; after resuming, snapshots show what is there. -/
theorem C91_frozen (p : PauseState α) (first second later : List (Agent α)) (hnd : (second.map fun a => a.id).Nodup) (x : α) :
    (p.pause first second).shownCoherence later = agentsCoherence first ∧
    (∀ a ∈ second, (p.pause first second).shownPhase a.id x = a.state.phase) ∧
    (∀ id, (∀ a ∈ second, a.id ≠ id) → (p.pause first second).shownPhase id x = x) ∧
    (p.pause first second).resume.shownCoherence later = agentsCoherence later ∧
    (∀ id, (p.pause first second).resume.shownPhase id x = x) := by
  refine ⟨rfl, ?_, ?_, rfl, fun _ => rfl⟩
  · intro a ha
    simp only [PauseState.shownPhase, PauseState.pause, if_true]
    rw [lookup_map second hnd a ha]
  · intro id h
    simp only [PauseState.shownPhase, PauseState.pause, if_true]
    have : (second.map fun a => (a.id, a.state.phase)).lookup id = none := by
      rw [List.lookup_eq_none_iff]
      intro q hq
      obtain ⟨a, ha, rfl⟩ := List.mem_map.1 hq
      simpa using (h a ha).symm
    rw [this]

end

/-- What one sees in a snapshot should fit together: the coherence is that of the phases beside it. -/
def C91_claim : Prop := ∀ (first second later : List (Agent ℝ)), (second.map fun a => a.id).Nodup →
  (first.map fun a => a.id) = second.map (fun a => a.id) → (later.map fun a => a.id).Perm (second.map fun a => a.id) →
  ∀ p : PauseState ℝ, (p.pause first second).shownCoherence later =
    measureCoherence (later.map fun a => (p.pause first second).shownPhase a.id a.state.phase)

/-- It does if no agent moves while `Pause` is at work. -/
theorem C91_consistent_partial (second later : List (Agent ℝ)) (hnd : (second.map fun a => a.id).Nodup)
    (hl : (later.map fun a => a.id).Perm (second.map fun a => a.id)) (p : PauseState ℝ) :
    (p.pause second second).shownCoherence later =
      measureCoherence (later.map fun a => (p.pause second second).shownPhase a.id a.state.phase) := by
  show agentsCoherence second = _
  rw [agentsCoherence]
  apply C04_coherence_perm
  let f : String → ℝ := fun id => ((second.map fun a => (a.id, a.state.phase)).lookup id).getD 0
  have h1 : (second.map fun a => a.state.phase) = (second.map fun a => a.id).map f := by
    rw [List.map_map]
    apply List.map_congr_left
    intro a ha
    simp only [Function.comp, f]
    rw [lookup_map second hnd a ha]; rfl
  have h2 : (later.map fun a => (p.pause second second).shownPhase a.id a.state.phase) = (later.map fun a => a.id).map f := by
    rw [List.map_map]
    apply List.map_congr_left
    intro a ha
    obtain ⟨b, hb, e⟩ := List.mem_map.1 (hl.subset (List.mem_map.2 ⟨a, ha, rfl⟩))
    simp only [Function.comp, f]
    rw [← e, lookup_map second hnd b hb]
    exact (C91_frozen p second second later hnd a.state.phase).2.1 b hb
  rw [h1, h2]
  exact (hl.map f).symm

example : ∃ second later : List (Agent ℝ), (second.map fun a => a.id).Nodup ∧
    (later.map fun a => a.id).Perm (second.map fun a => a.id) ∧ later ≠ second := by
  refine ⟨[{ (Agent.zero : Agent ℝ) with id := "a" }, { (Agent.zero : Agent ℝ) with id := "b" }],
    [{ (Agent.zero : Agent ℝ) with id := "b" }, { (Agent.zero : Agent ℝ) with id := "a" }], by simp, ?_, by simp⟩
  exact List.Perm.swap _ _ _

/-- An agent moves by half a turn between the two reads. -/
theorem C91_refuted : ¬ C91_claim := by
  intro h
  let a : Agent ℝ := { (Agent.zero : Agent ℝ) with id := "a" }
  let b : Agent ℝ := { (Agent.zero : Agent ℝ) with id := "b" }
  have h1 := h [a, b] [a, b.setPhase Real.pi] [a, b] (by simp [a, b, Agent.setPhase]) rfl (by rfl) PauseState.init
  have h2 : measureCoherence [a.state.phase, b.state.phase] = 1 := by
    rw [C03_coherence_eq_one_iff]
    refine ⟨by simp, ?_⟩
    intro x hx y hy
    simp [a, b] at hx hy
    rw [hx, hy]; exact SameAngle.refl _
  have h3 : measureCoherence [a.state.phase, (b.setPhase Real.pi).state.phase] = 1 := by
    rw [← h2]; exact h1.symm
  rw [C03_coherence_eq_one_iff] at h3
  have h4 := h3.2 _ (List.mem_cons_self) _ (List.mem_cons_of_mem _ List.mem_cons_self)
  have h5 : (b.setPhase Real.pi).state.phase = Real.pi := wrapPhase_of_mem Real.pi_pos.le (by linarith [Real.pi_pos])
  rw [h5] at h4
  change SameAngle (0 : ℝ) Real.pi at h4
  have h6 := h4.eq_of_Ico (le_refl (0 : ℝ)) (by linarith [Real.pi_pos]) Real.pi_pos.le (by linarith [Real.pi_pos])
  exact Real.pi_ne_zero h6.symm

end Verif
