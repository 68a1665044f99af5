import Verif.Model.Closing
import Verif.Props.Summary
import Verif.Props.Explain

/-! # The closing summary (C155) and the choice of the swarm panel (C156) -/

set_option autoImplicit false
set_option linter.unusedSectionVars false

namespace Verif
open GoMath

/-- The summary says that the agents learned to batch. -/
def Spec.Praises {α : Type} (l : List (Said α)) : Prop := ∃ t, Said.text t ∈ l ∧ occurs "successfully learned to batch" t = true

/-- A line that is not a fixed text. -/
def Spec.IsFigure {α : Type} : Said α → Prop
  | .text _ => False
  | _ => True

open Spec

section
variable {α : Type} [Zero α] [One α] [Add α] [Sub α] [Mul α] [Div α] [Neg α] [LT α] [LE α]
  [DecidableLT α] [DecidableLE α] [BEq α] [OfScientific α] [GoMath α]

/-- **C155 (always).** Both displays end every run with the praise, whatever its figures and its goal. -/
theorem C155_always (s : FinalStats α) : Praises (terminalSummary s) ∧ Praises (textSummary s) :=
  ⟨⟨"Agents successfully learned to batch API calls!", by simp [terminalSummary], by decide +kernel⟩,
   ⟨"✓ Agents successfully learned to batch API calls!", by simp [textSummary], by decide +kernel⟩⟩

/-- **C155 (figures).** Both displays give the same figures, except that the time to converge is given in the terminal only. -/
theorem C155_figures (s : FinalStats α) (f : Said α) (hf : IsFigure f) :
    f ∈ terminalSummary s ↔ f ∈ textSummary s ∨ f = .convergeTime s.timeToConverge := by
  cases f <;> simp [terminalSummary, textSummary, IsFigure] at hf ⊢

end

/-- The full claim: the agents are praised for batching exactly if some API call carried more than one task. -/
def C155_claim : Prop := ∀ (start : ℤ) (moves : List StatMove) (phases : List ℝ), (∀ n ∈ recordedSince moves [], 1 ≤ n) →
  (Praises (terminalSummary (statistics ((SimStats.new (α := ℝ) start).run moves).metrics phases)) ↔ ∃ n ∈ recordedSince moves [], 2 ≤ n)

/-- It is false: the agents are praised as well if nothing was sent at all, or every task by itself. -/
theorem C155_refuted : ¬ C155_claim := fun h => by
  have := (h 0 [.record 1, .record 1] [] (by simp [recordedSince])).1 (C155_always _).1
  simp [recordedSince] at this

theorem sum_ge_length (l : List ℕ) (h : ∀ n ∈ l, 1 ≤ n) : l.length ≤ l.sum := by
  induction l with
  | nil => simp
  | cons a l ih =>
    have := ih fun n hn => h n (List.mem_cons_of_mem _ hn)
    have := h a (by simp)
    simp only [List.length_cons, List.sum_cons]; omega

theorem sum_gt_length_iff (l : List ℕ) (h : ∀ n ∈ l, 1 ≤ n) : l.length < l.sum ↔ ∃ n ∈ l, 2 ≤ n := by
  induction l with
  | nil => simp
  | cons a l ih =>
    have h1 := fun n hn => h n (List.mem_cons_of_mem a hn)
    have h2 := sum_ge_length l h1
    have h3 := h a (by simp)
    have h4 := ih h1
    simp only [List.length_cons, List.sum_cons, List.mem_cons, exists_eq_or_imp, ← h4]
    omega

/-- **C155 (what the figures tell).** As soon as something was sent, the summary shows savings of at least 50 %, even if every task was sent by itself, because a
batched call is reckoned at half the price of a single one. Whether agents did batch is seen from whether the savings exceed 50 %, or the average batch one. -/
theorem C155_percent_partial (start : ℤ) (moves : List StatMove) (phases : List ℝ) (h : ∀ n ∈ recordedSince moves [], 1 ≤ n)
    (h0 : recordedSince moves [] ≠ []) :
    let f := statistics ((SimStats.new (α := ℝ) start).run moves).metrics phases
    Said.savings f.totalSavings f.savingsPercent ∈ terminalSummary f ∧ Said.average f.averageBatchSize ∈ terminalSummary f ∧
    50 ≤ f.savingsPercent ∧ (50 < f.savingsPercent ↔ ∃ n ∈ recordedSince moves [], 2 ≤ n) ∧
    1 ≤ f.averageBatchSize ∧ (1 < f.averageBatchSize ↔ ∃ n ∈ recordedSince moves [], 2 ≤ n) ∧
    0 < f.totalSavings := by
  intro f
  obtain ⟨-, -, h3, h4, h5, h6, h7, -, -⟩ := C127_totals_partial start moves phases
  have hs := sum_ge_length _ h
  rw [← sum_gt_length_iff _ h]
  change f.averageBatchSize * _ = _ at h3
  change f.costWithoutSync = _ at h4
  change f.costWithSync = _ at h5
  change f.totalSavings = f.costWithoutSync - f.costWithSync at h6
  change _ → f.savingsPercent * f.costWithoutSync = f.totalSavings * 100 at h7
  have hl : 0 < (recordedSince moves []).length := List.length_pos_iff.2 h0
  generalize (recordedSince moves []).length = b at *
  generalize (recordedSince moves []).sum = a at *
  have ha : 0 < a := by omega
  have h8 := h7 ha
  rw [h4, h6, h4, h5] at h8
  have hb' : (0 : ℝ) < b := by exact_mod_cast hl
  have ha' : (0 : ℝ) < a := by exact_mod_cast ha
  have hab : (b : ℝ) ≤ a := by exact_mod_cast hs
  have hp : f.savingsPercent = 100 - 50 * (b / a) := by field_simp; linarith
  have hv : f.averageBatchSize = a / b := by field_simp; linarith
  refine ⟨by simp [terminalSummary], by simp [terminalSummary], ?_, ?_, ?_, ?_, ?_⟩
  · rw [hp]
    have : (b : ℝ) / a ≤ 1 := (div_le_one ha').2 hab
    linarith
  · rw [hp]
    constructor
    · intro hx
      have : (b : ℝ) / a < 1 := by linarith
      rw [div_lt_one ha'] at this
      exact_mod_cast this
    · intro hx
      have : (b : ℝ) / a < 1 := (div_lt_one ha').2 (by exact_mod_cast hx)
      linarith
  · rw [hv, le_div_iff₀ hb', one_mul]; exact hab
  · rw [hv, lt_div_iff₀ hb', one_mul]; exact_mod_cast Iff.rfl
  · rw [h6, h4, h5]; linarith

/-- Two tasks sent one by one: 50 % are saved and the agents are praised for batching. -/
example : let f := statistics ((SimStats.new (α := ℝ) 0).run [.record 1, .record 1]).metrics [0, 3]
    f.savingsPercent = 50 ∧ Praises (terminalSummary f) := by
  intro f
  obtain ⟨-, -, h1, h2, -⟩ := C155_percent_partial 0 [.record 1, .record 1] [0, 3] (by simp [recordedSince]) (by simp [recordedSince])
  refine ⟨le_antisymm (not_lt.1 fun h => ?_) h1, (C155_always f).1⟩
  have := h2.1 h
  simp [recordedSince] at this

/-! ## C156 -/

/-- **C156.** Whatever keys are pressed, from whatever scale the program starts with: two runs have the same swarm panel exactly if they have the same goal, and
the panel is the one of the goal that runs. -/
theorem C156_panel (s s' : Size) (hs : s ∈ ([0, 1, 2, 3, 4] : List ℤ)) (hs' : s' ∈ ([0, 1, 2, 3, 4] : List ℤ)) (ks ks' : List Key) (a b : App)
    (ha : (App.start s).pressAll ks = some a) (hb : (App.start s').pressAll ks' = some b) :
    swarmPanelTitle a.display.goal = swarmPanelTitle a.current.goal ∧
    (swarmPanelTitle a.display.goal = swarmPanelTitle b.display.goal ↔ a.current.goal = b.current.goal) := by
  have i : ∀ x ∈ ([0, 1, 2, 3, 4, 5, 6, 7] : List ℤ), ∀ y ∈ ([0, 1, 2, 3, 4, 5, 6, 7] : List ℤ), swarmPanelTitle x = swarmPanelTitle y → x = y := by
    decide +kernel
  have e : ∀ a : App, a.display.goal = a.current.goal := fun a => by rw [current_goal]; rfl
  rw [e a, e b]
  exact ⟨rfl, i _ (current_choosable a (reached_choosable s hs ks a ha)).1 _ (current_choosable b (reached_choosable s' hs' ks' b hb)).1,
    fun h => by rw [h]⟩

/-- The title of the panel has a word of the name of its goal or of what the goal is about, and nothing of the others'. -/
theorem C156_words : ∀ g ∈ ([0, 1, 2, 3, 4, 5, 6, 7] : List ℤ), ∀ g' ∈ ([0, 1, 2, 3, 4, 5, 6, 7] : List ℤ),
    (occurs ((["PHASE", "LOAD DIST", "CONSENSUS", "LATENCY", "ENERGY", "SCHEDULE", "HEALTH", "TRAFFIC"] : List String).getD g.toNat "") (swarmPanelTitle g') = true ↔
      g = g') := by decide +kernel

/-- After the key `f` the panel is that of fault recovery. -/
example : ∃ a, (App.start 0).pressAll [.char 'f'] = some a ∧ swarmPanelTitle a.display.goal = "🛡️ SYSTEM HEALTH" := by
  refine ⟨_, rfl, ?_⟩
  decide +kernel

end Verif
