import Verif.Model.GoalDirected
import Verif.Props.MonitorRate

/-!
# C96, C97: selection of strategies, and its effect on a run
-/

set_option autoImplicit false
set_option linter.unusedSectionVars false

namespace Verif
open GoMath Spec

/-! ## C97 The selection has no effect -/

section
variable {α : Type} [Zero α] [One α] [Add α] [Sub α] [Mul α] [Div α] [Neg α] [LT α] [LE α]
  [DecidableLT α] [DecidableLE α] [BEq α] [OfScientific α] [GoMath α]

/-- Two runs that differ at most in the state of the strategy selection. -/
structure Spec.SameButSelector (g g' : Gds α) : Prop where
  swarm : g.swarm = g'.swarm
  target : g.target = g'.target
  engine : g.engine = g'.engine
  monitor : g.monitor = g'.monitor
  config : g.config = g'.config

theorem same_iff (g g' : Gds α) : SameButSelector g g' ↔ ∃ s, g' = { g with selector := s } := by
  constructor
  · rintro ⟨h1, h2, h3, h4, h5⟩
    refine ⟨g'.selector, ?_⟩
    cases g; cases g'
    simp_all
  · rintro ⟨s, rfl⟩
    exact ⟨rfl, rfl, rfl, rfl, rfl⟩

theorem adjust_selector (g : Gds α) (s : Selector) (sw : Swarm α) (e : Tick α) (c : TargetPattern α) :
    ({ g with selector := s } : Gds α).adjust sw e c =
      match g.adjust sw e c with
      | .ok g1 => .ok { g1 with selector := s }
      | .panic => .panic
      | .running => .running := by
  unfold Gds.adjust
  dsimp only
  cases g.engine.completePattern e.templates c (identifyGaps' c g.target) with
  | panic => rfl
  | ok cp =>
    dsimp only
    cases phaseVariance e.fuel (sw.phases (e.order 9)) with
    | none => rfl
    | some v =>
      dsimp only
      have h1 : ({ g with selector := s } : Gds α).adjustCtx sw e cp v = g.adjustCtx sw e cp v := rfl
      rw [h1]
      have h2 : ∀ x, ({ g with selector := s } : Gds α).resonate x e = g.resonate x e := fun _ => rfl
      rw [h2]
      cases g.resonate { sw with heap := applyCompletion (g.adjustCtx sw e cp v) e.word (sw.rangeAgents (e.order 7) (e.order 8)) sw.heap } e <;> rfl

/-- Outcomes that agree up to the selection. -/
def sameOutcome : Exec (Bool × Gds α) → Exec (Bool × Gds α) → Prop
  | .ok (b, g), .ok (b', g') => b = b' ∧ SameButSelector g g'
  | .panic, .panic => True
  | .running, .running => True
  | _, _ => False

theorem iterate_same (g : Gds α) (s : Selector) (e : Tick α) : sameOutcome (g.iterate e) (({ g with selector := s } : Gds α).iterate e) := by
  unfold Gds.iterate
  dsimp only
  have hach : ∀ (g1 : Gds α) (s1 : Selector) (x : Swarm α), ({ g1 with selector := s1 } : Gds α).achieved x e = g1.achieved x e := fun _ _ _ => rfl
  generalize hm : g.monitor.record e.now (some ((e.others g.swarm).pattern e)) ((e.others g.swarm).measureCoherence (e.order 3)) = mon
  generalize hx : e.others g.swarm = x at *
  have h1 := hach { g with swarm := x, monitor := mon } s x
  dsimp only at h1
  rw [h1]
  by_cases ha : ({ g with swarm := x, monitor := mon } : Gds α).achieved x e = true
  · rw [if_pos ha, if_pos ha]
    exact ⟨rfl, rfl, rfl, rfl, rfl, rfl⟩
  · rw [if_neg ha, if_neg ha]
    have key : ∀ s1 s2 : Selector, sameOutcome
        (match ({ swarm := x, target := g.target, engine := g.engine, monitor := mon, selector := s1, config := g.config } : Gds α).adjust x e (x.pattern e) with
          | .ok g => .ok (false, g) | .panic => .panic | .running => .running)
        (match ({ swarm := x, target := g.target, engine := g.engine, monitor := mon, selector := s2, config := g.config } : Gds α).adjust x e (x.pattern e) with
          | .ok g => .ok (false, g) | .panic => .panic | .running => .running) := by
      intro s1 s2
      have := adjust_selector ({ swarm := x, target := g.target, engine := g.engine, monitor := mon, selector := s1, config := g.config } : Gds α) s2 x e (x.pattern e)
      dsimp only at this
      rw [this]
      cases ({ swarm := x, target := g.target, engine := g.engine, monitor := mon, selector := s1, config := g.config } : Gds α).adjust x e (x.pattern e) with
      | ok g1 => exact ⟨rfl, rfl, rfl, rfl, rfl, rfl⟩
      | panic => trivial
      | running => trivial
    by_cases hs : mon.shouldSwitch = true
    · simp only [hs, if_true]; exact key _ _
    · simp only [hs]; exact key _ _

theorem loop_same (budget : ℤ) : ∀ (evs : List (SyncEvent α)) (k : ℕ) (g : Gds α) (s : Selector),
    (g.loop budget evs k).1 = (({ g with selector := s } : Gds α).loop budget evs k).1 ∧
    (g.loop budget evs k).2.1 = (({ g with selector := s } : Gds α).loop budget evs k).2.1 ∧
    SameButSelector (g.loop budget evs k).2.2 (({ g with selector := s } : Gds α).loop budget evs k).2.2 := by
  intro evs
  induction evs with
  | nil =>
    intro k g s
    unfold Gds.loop
    split_ifs <;> exact ⟨rfl, rfl, rfl, rfl, rfl, rfl, rfl⟩
  | cons ev evs ih =>
    intro k g s
    unfold Gds.loop
    split_ifs with hb
    · cases ev with
      | cancel => exact ⟨rfl, rfl, rfl, rfl, rfl, rfl, rfl⟩
      | tick e =>
        dsimp only
        have h := iterate_same g s e
        cases h1 : g.iterate e with
        | panic =>
          rw [h1] at h
          cases h2 : ({ g with selector := s } : Gds α).iterate e with
          | panic => exact ⟨rfl, rfl, rfl, rfl, rfl, rfl, rfl⟩
          | running => rw [h2] at h; exact h.elim
          | ok p => rw [h2] at h; exact h.elim
        | running =>
          rw [h1] at h
          cases h2 : ({ g with selector := s } : Gds α).iterate e with
          | panic => rw [h2] at h; exact h.elim
          | running => exact ⟨rfl, rfl, rfl, rfl, rfl, rfl, rfl⟩
          | ok p => rw [h2] at h; exact h.elim
        | ok p =>
          rw [h1] at h
          cases h2 : ({ g with selector := s } : Gds α).iterate e with
          | panic => rw [h2] at h; exact h.elim
          | running => rw [h2] at h; exact h.elim
          | ok p' =>
            rw [h2] at h
            obtain ⟨b, g1⟩ := p
            obtain ⟨b', g2⟩ := p'
            obtain ⟨rfl, hg⟩ := h
            obtain ⟨s', rfl⟩ := (same_iff g1 g2).1 hg
            cases b with
            | true => exact ⟨rfl, rfl, rfl, rfl, rfl, rfl, rfl⟩
            | false => exact ih (k + 1) g1 s'
    · exact ⟨rfl, rfl, rfl, rfl, rfl, rfl, rfl⟩

/-- **C97** Which strategy is selected, and everything recorded about strategies, makes no difference to a synchronisation run: with the same
events two runs that start with different selections return the same result after the same number of iterations and leave the same swarm, agent by
agent. Any number type. -/
theorem C97_no_effect (g g' : Gds α) (h : SameButSelector g g') (order : SyncMap ℕ → SyncMap ℕ) (target : TargetPattern α)
    (evs : List (SyncEvent α)) :
    (g.achieve order target evs).1 = (g'.achieve order target evs).1 ∧
    (g.achieve order target evs).2.1 = (g'.achieve order target evs).2.1 ∧
    (g.achieve order target evs).2.2.swarm = (g'.achieve order target evs).2.2.swarm := by
  obtain ⟨s, rfl⟩ := (same_iff g g').1 h
  unfold Gds.achieve
  dsimp only
  split_ifs
  · exact ⟨rfl, rfl, rfl⟩
  · have := loop_same (iterationBudget g.config ((g.swarm.allAgents order).length : ℤ) (adjustTarget ((g.swarm.allAgents order).length : ℤ) target).coherence)
      evs 0 { g with target := adjustTarget ((g.swarm.allAgents order).length : ℤ) target, monitor := g.monitor.setTarget (some (adjustTarget ((g.swarm.allAgents order).length : ℤ) target)) } s
    exact ⟨this.1, this.2.1, this.2.2.swarm⟩

/-- What a user expects of strategy selection: some switch matters to the swarm. -/
def C97_claim (α : Type) [Zero α] [One α] [Add α] [Sub α] [Mul α] [Div α] [Neg α] [LT α] [LE α]
    [DecidableLT α] [DecidableLE α] [BEq α] [OfScientific α] [GoMath α] : Prop :=
  ∃ (g : Gds α) (i j : Option ℕ) (order : SyncMap ℕ → SyncMap ℕ) (target : TargetPattern α) (evs : List (SyncEvent α)),
    (({ g with selector := { g.selector with current := i } } : Gds α).achieve order target evs).2.2.swarm ≠
      (({ g with selector := { g.selector with current := j } } : Gds α).achieve order target evs).2.2.swarm

/-- No switch ever matters to the swarm. -/
theorem C97_refuted : ¬ C97_claim α := by
  rintro ⟨g, i, j, order, target, evs, h⟩
  refine h (C97_no_effect _ _ ?_ order target evs).2.2
  exact ⟨rfl, rfl, rfl, rfl, rfl⟩

/-- Two states that differ in the selected strategy only. -/
example (g : Gds α) : SameButSelector { g with selector := { g.selector with current := some 0 } }
      { g with selector := { g.selector with current := some 3 } } ∧
    ({ g with selector := { g.selector with current := some 0 } } : Gds α).selector.current ≠
      ({ g with selector := { g.selector with current := some 3 } } : Gds α).selector.current :=
  ⟨⟨rfl, rfl, rfl, rfl, rfl⟩, by simp⟩

end

/-! ## C96 The selection -/

namespace Spec

/-- `i` is the position of the first largest value. -/
def IsFirstMax (l : List ℝ) (i : ℕ) : Prop :=
  ∃ x, l[i]? = some x ∧ (∀ (j : ℕ) (y : ℝ), l[j]? = some y → y ≤ x) ∧ (∀ (j : ℕ) (y : ℝ), j < i → l[j]? = some y → y < x)

end Spec

theorem bestIndex_spec (l : List ℝ) : ∀ (k : ℕ) (o : Option ℕ) (b : ℝ),
    ((∀ x ∈ l, x ≤ b) ∧ bestIndex l k (o, b) = (o, b)) ∨
    (∃ i x, l[i]? = some x ∧ b < x ∧ (∀ y ∈ l, y ≤ x) ∧ (∀ (j : ℕ) (y : ℝ), j < i → l[j]? = some y → y < x) ∧
      bestIndex l k (o, b) = (some (k + i), x)) := by
  induction l with
  | nil => intro k o b; left; exact ⟨by simp, rfl⟩
  | cons a l ih =>
    intro k o b
    unfold bestIndex
    by_cases h : a > b
    · rw [if_pos h]
      rcases ih (k + 1) (some k) a with ⟨h1, h2⟩ | ⟨i, x, h1, h2, h3, h4, h5⟩
      · right
        refine ⟨0, a, rfl, h, ?_, by intro j y hj; omega, by rw [h2]; rfl⟩
        intro y hy
        rcases List.mem_cons.1 hy with rfl | hy
        · exact le_rfl
        · exact h1 y hy
      · right
        refine ⟨i + 1, x, h1, lt_trans h h2, ?_, ?_, by rw [h5]; congr 2; omega⟩
        · intro y hy
          rcases List.mem_cons.1 hy with rfl | hy
          · exact h2.le
          · exact h3 y hy
        · intro j y hj hy
          cases j with
          | zero => simp only [List.getElem?_cons_zero, Option.some.injEq] at hy; rw [← hy]; exact h2
          | succ j => exact h4 j y (by omega) hy
    · rw [if_neg h]
      rcases ih (k + 1) o b with ⟨h1, h2⟩ | ⟨i, x, h1, h2, h3, h4, h5⟩
      · left
        refine ⟨?_, h2⟩
        intro y hy
        rcases List.mem_cons.1 hy with rfl | hy
        · exact not_lt.1 h
        · exact h1 y hy
      · right
        refine ⟨i + 1, x, h1, h2, ?_, ?_, by rw [h5]; congr 2; omega⟩
        · intro y hy
          rcases List.mem_cons.1 hy with rfl | hy
          · linarith [not_lt.1 h]
          · exact h3 y hy
        · intro j y hj hy
          cases j with
          | zero => simp only [List.getElem?_cons_zero, Option.some.injEq] at hy; rw [← hy]; linarith [not_lt.1 h]
          | succ j => exact h4 j y (by omega) hy

namespace Spec

/-- The score of a strategy: its success rate, plus a bonus that grows with the time since it was last used up to a maximum (reached at once by a
strategy never used), plus a random share of a constant. -/
noncomputable def score (cfg : GoalConfig ℝ) (now : ℤ) (p : StrategyPerf) (r : ℝ) : ℝ :=
  (p.successes : ℝ) / p.attempts +
    min (((now - p.lastUsed.getD (now - (2 ^ 63 - 1)) : ℤ) : ℝ) / cfg.explorationTimeWindow) cfg.explorationBonusMax + r * cfg.randomExploration

end Spec

theorem score_eq (cfg : GoalConfig ℝ) (now : ℤ) (p : StrategyPerf) (w : ℕ) (ha : 0 ≤ p.attempts) :
    strategyScore cfg now p w = score cfg now p (randFloat64 w) := by
  unfold strategyScore score
  simp only [GoMath.ofInt_real, GoMath.fmin_real]
  have h1 : (if p.attempts > 0 then (p.successes : ℝ) / p.attempts else 0) = (p.successes : ℝ) / p.attempts := by
    split_ifs with h
    · rfl
    · have : p.attempts = 0 := by omega
      rw [this]; simp
  have h2 : (sinceSeconds now p.lastUsed : ℝ) / durationSeconds cfg.explorationTimeWindow =
      ((now - p.lastUsed.getD (now - (2 ^ 63 - 1)) : ℤ) : ℝ) / cfg.explorationTimeWindow := by
    unfold sinceSeconds
    cases p.lastUsed with
    | none =>
      simp only [durationSeconds_real, Option.getD_none]
      rw [div_div_div_cancel_right₀ (by norm_num)]
      congr 1
      push_cast
      ring
    | some t =>
      simp only [durationSeconds_real, Option.getD_some]
      rw [div_div_div_cancel_right₀ (by norm_num)]
  rw [h1, h2]

/-- **C96** A switch selects the first of the strategies with the highest score; only if no score is above −1 it selects none. -/
theorem C96_best (cfg : GoalConfig ℝ) (now : ℤ) (clock : ℕ → ℤ) (w : ℕ → ℕ) (s : Selector) (ha : ∀ n, 0 ≤ (s.perf n).attempts) :
    ∃ scores : List ℝ, scores.length = 5 ∧
      (∀ (i : ℕ) (n : String), strategyNames[i]? = some n → scores[i]? = some (score cfg (clock i) ((s.recordFailure now).perf n) (randFloat64 (w i)))) ∧
      ((∃ x ∈ scores, -1 < x) → ∃ i, (s.switch cfg now clock w).current = some i ∧ i < 5 ∧ IsFirstMax scores i) ∧
      ((∀ x ∈ scores, x ≤ -1) → (s.switch cfg now clock w).current = none) := by
  have ha' : ∀ n, 0 ≤ ((s.recordFailure now).perf n).attempts := by
    intro n
    unfold Selector.recordFailure
    cases s.current with
    | none => exact ha n
    | some i =>
      dsimp only
      split_ifs
      · have := ha n; dsimp only; omega
      · exact ha n
  refine ⟨strategyNames.zipIdx.map fun p => strategyScore cfg (clock p.2) ((s.recordFailure now).perf p.1) (w p.2), rfl, ?_, ?_, ?_⟩
  · intro i n hn
    rw [List.getElem?_map, List.getElem?_zipIdx, hn]
    simp only [Option.map_some, zero_add, Option.some.injEq]
    exact score_eq _ _ _ _ (ha' n)
  · rintro ⟨x, hx, hlt⟩
    unfold Selector.switch
    dsimp only
    rcases bestIndex_spec (strategyNames.zipIdx.map fun p => strategyScore cfg (clock p.2) ((s.recordFailure now).perf p.1) (w p.2)) 0 none (-1) with
      ⟨h1, -⟩ | ⟨i, y, h1, h2, h3, h4, h5⟩
    · exact absurd (h1 x hx) (not_le.2 hlt)
    · refine ⟨i, by rw [h5]; simp, ?_, y, h1, ?_, h4⟩
      · have := (List.getElem?_eq_some_iff.1 h1).1
        simpa [strategyNames] using this
      · intro j z hz
        exact h3 z (List.mem_of_getElem? hz)
  · intro h
    unfold Selector.switch
    dsimp only
    rcases bestIndex_spec (strategyNames.zipIdx.map fun p => strategyScore cfg (clock p.2) ((s.recordFailure now).perf p.1) (w p.2)) 0 none (-1) with
      ⟨-, h2⟩ | ⟨i, y, h1, h2, -⟩
    · rw [h2]
    · exact absurd (h y (List.mem_of_getElem? h1)) (not_le.2 h2)

/-- A fresh selection meets the hypotheses: its scores are at least 0. -/
example : ∀ n, 0 ≤ (Selector.initial.perf n).attempts := fun _ => le_rfl

/-! ### Records -/

/-- What happens to a selection. -/
inductive SelOp where
  | switch (cfg : GoalConfig ℝ) (now : ℤ) (clock : ℕ → ℤ) (w : ℕ → ℕ)
  | success

noncomputable def Selector.op (s : Selector) : SelOp → Selector
  | .switch cfg now clock w => s.switch cfg now clock w
  | .success => s.recordSuccess

/-- The name of the strategy in use, if any. -/
def Spec.inUse (s : Selector) : Option String := s.current.map fun i => strategyNames.getD i ""

/-- The states a selection goes through: the state before each operation, with the operation. -/
noncomputable def Spec.history (s : Selector) : List SelOp → List (Option String × SelOp)
  | [] => []
  | o :: os => (inUse s, o) :: history (s.op o) os

def SelOp.isSwitch : SelOp → Bool
  | .switch .. => true
  | .success => false

theorem op_perf (s : Selector) (o : SelOp) (n : String) :
    ((s.op o).perf n).attempts = (s.perf n).attempts + (if inUse s = some n ∧ o.isSwitch = true then 1 else 0) ∧
    ((s.op o).perf n).successes = (s.perf n).successes + (if inUse s = some n ∧ o.isSwitch = false then 1 else 0) := by
  obtain ⟨perf, cur⟩ := s
  cases o with
  | switch cfg now clock w =>
    simp only [Selector.op, Selector.switch, Selector.recordFailure, inUse, SelOp.isSwitch]
    cases cur with
    | none => simp
    | some i =>
      simp only [Option.map_some, Option.some.injEq]
      generalize strategyNames.getD i "" = name
      by_cases h : n = name
      · simp [h]
      · have h' : ¬ name = n := fun h1 => h h1.symm
        simp [h, h']
  | success =>
    simp only [Selector.op, Selector.recordSuccess, inUse, SelOp.isSwitch]
    cases cur with
    | none => simp
    | some i =>
      simp only [Option.map_some, Option.some.injEq]
      generalize strategyNames.getD i "" = name
      by_cases h : n = name
      · simp [h]
      · have h' : ¬ name = n := fun h1 => h h1.symm
        simp [h, h']

/-- **C96** After any sequence of switches and reported successes, a record counts the switches away from its strategy as attempts, and the successes
reported while it was in use. The two phase nudges share one record. -/
theorem C96_records (ops : List SelOp) (s : Selector) (n : String) :
    ((ops.foldl Selector.op s).perf n).attempts =
      (s.perf n).attempts + (history s ops).countP (fun p => decide (p.1 = some n) && p.2.isSwitch) ∧
    ((ops.foldl Selector.op s).perf n).successes =
      (s.perf n).successes + (history s ops).countP (fun p => decide (p.1 = some n) && !p.2.isSwitch) := by
  induction ops generalizing s with
  | nil => simp [history]
  | cons o os ih =>
    obtain ⟨h1, h2⟩ := ih (s.op o)
    obtain ⟨e1, e2⟩ := op_perf s o n
    rw [List.foldl_cons, h1, h2, e1, e2]
    simp only [history, List.countP_cons]
    by_cases hu : inUse s = some n <;> cases hs : o.isSwitch <;> simp [hu] <;> ring_nf

/-- "Success rate": the successes of a strategy never exceed its attempts. -/
def C96_claim : Prop := ∀ (ops : List SelOp) (n : String),
  ((ops.foldl Selector.op Selector.initial).perf n).successes ≤ ((ops.foldl Selector.op Selector.initial).perf n).attempts

/-- The claim is false: a success is not counted as an attempt. -/
theorem C96_refuted : ¬ C96_claim := by
  intro h
  have := h [.success] "phase_nudge"
  simp [Selector.op, Selector.recordSuccess, Selector.initial, strategyNames] at this

/-- Two successes of the first strategy. -/
example : (history Selector.initial [.success, .success]).countP (fun p => decide (p.1 = some "phase_nudge") && !p.2.isSwitch) = 2 := by
  simp [history, inUse, Selector.initial, Selector.op, Selector.recordSuccess, strategyNames, SelOp.isSwitch]

/-- **C96** As long as nobody calls `RecordSuccess` (no code of the library does), every success rate is 0, so that only the bonus and chance decide. -/
theorem C96_no_success_partial (ops : List SelOp) (h : ∀ o ∈ ops, o.isSwitch = true) (n : String) :
    ((ops.foldl Selector.op Selector.initial).perf n).successes = 0 ∧ 0 ≤ ((ops.foldl Selector.op Selector.initial).perf n).attempts := by
  obtain ⟨h1, h2⟩ := C96_records ops Selector.initial n
  rw [h1, h2]
  refine ⟨?_, by simp only [Selector.initial]; omega⟩
  have : (history Selector.initial ops).countP (fun p => decide (p.1 = some n) && !p.2.isSwitch) = 0 := by
    rw [List.countP_eq_zero]
    have : ∀ (os : List SelOp) (s : Selector), (∀ o ∈ os, o.isSwitch = true) → ∀ p ∈ history s os, p.2.isSwitch = true := by
      intro os
      induction os with
      | nil => intro s _ p hp; simp [history] at hp
      | cons o os ih =>
        intro s ho p hp
        simp only [history, List.mem_cons] at hp
        rcases hp with rfl | hp
        · exact ho o (by simp)
        · exact ih _ (fun o' ho' => ho o' (by simp [ho'])) p hp
    intro p hp
    simp [this ops Selector.initial h p hp]
  rw [this]
  rfl

end Verif
