import Verif.Model.Concurrency
import Verif.Props.AgentRange

/-!
# C40 and C41: concurrent updates of an agent
-/

set_option autoImplicit false
set_option linter.unusedSectionVars false

namespace Verif
open GoMath

section
variable {σ : Type}

theorem run_cons (s : Sys σ) (i : ℕ) (l : List ℕ) : s.run (i :: l) = (s.step i).run l := rfl

theorem run_append (s : Sys σ) (l m : List ℕ) : s.run (l ++ m) = (s.run l).run m := List.foldl_append ..

/-- What a step does, by cases. -/
inductive StepCase (s : Sys σ) (i : ℕ) : Sys σ → Prop where
  | skip (hm : (s.threads i).mid = .idle) (ht : (s.threads i).todo = []) : StepCase s i s
  | load (f : σ → σ) (rest : List (CellOp σ)) (hm : (s.threads i).mid = .idle)
      (ht : (s.threads i).todo = .update f :: rest) :
      StepCase s i (s.setThread i { mid := .pending (.update f) (f s.cell), todo := rest })
  | pass (g : σ → Bool) (f : σ → σ) (rest : List (CellOp σ)) (hm : (s.threads i).mid = .idle)
      (ht : (s.threads i).todo = .guarded g f :: rest) (hg : g s.cell = true) :
      StepCase s i (s.setThread i { mid := .checked (.guarded g f), todo := rest })
  | reject (g : σ → Bool) (f : σ → σ) (rest : List (CellOp σ)) (hm : (s.threads i).mid = .idle)
      (ht : (s.threads i).todo = .guarded g f :: rest) (hg : g s.cell = false) :
      StepCase s i (s.setThread i { mid := .idle, todo := rest })
  | reload (op : CellOp σ) (hm : (s.threads i).mid = .checked op) :
      StepCase s i (s.setThread i { mid := .pending op (op.fn s.cell), todo := (s.threads i).todo })
  | store (op : CellOp σ) (v : σ) (hm : (s.threads i).mid = .pending op v) :
      StepCase s i { (s.setThread i { mid := .idle, todo := (s.threads i).todo }) with
        cell := v, past := v :: s.past, log := op :: s.log }

theorem step_case (s : Sys σ) (i : ℕ) : StepCase s i (s.step i) := by
  unfold Sys.step
  split
  · next hm ht => exact .skip hm ht
  · next f rest hm ht => exact .load f rest hm ht
  · next g f rest hm ht =>
    cases hg : g s.cell with
    | true => simp only [if_true]; exact .pass g f rest hm ht hg
    | false => simp only [Bool.false_eq_true, if_false]; exact .reject g f rest hm ht hg
  · next op hm => exact .reload op hm
  · next op v hm => exact .store op v hm

/-! ## C40 -/

/-- Invariant: values in flight were computed by one operation of the program from a value the cell once had; so was
every value the cell has had. `A` is the set of all operations. -/
structure Provenance (A : CellOp σ → Prop) (c0 : σ) (s : Sys σ) : Prop where
  cell : s.cell ∈ s.past
  past : ∀ v ∈ s.past, v = c0 ∨ ∃ op, A op ∧ ∃ u ∈ s.past, v = op.fn u
  pending : ∀ i op v, (s.threads i).mid = .pending op v → A op ∧ ∃ u ∈ s.past, v = op.fn u
  checked : ∀ i op, (s.threads i).mid = .checked op → A op
  todo : ∀ i, ∀ op ∈ (s.threads i).todo, A op

theorem provenance_step (A : CellOp σ → Prop) (c0 : σ) (s : Sys σ) (h : Provenance A c0 s) (i : ℕ) :
    Provenance A c0 (s.step i) := by
  obtain ⟨h1, h2, h3, h4, h5⟩ := h
  have htodo : ∀ (op : CellOp σ) rest, (s.threads i).todo = op :: rest → A op ∧ ∀ o ∈ rest, A o := by
    intro op rest e
    exact ⟨h5 i op (by rw [e]; exact List.mem_cons_self), fun o ho => h5 i o (by rw [e]; exact List.mem_cons_of_mem _ ho)⟩
  generalize hs : s.step i = s'
  have hc := step_case s i
  rw [hs] at hc
  cases hc with
  | skip hm ht => exact ⟨h1, h2, h3, h4, h5⟩
  | load f rest hm ht =>
    obtain ⟨ha, hr⟩ := htodo _ _ ht
    refine ⟨h1, h2, ?_, ?_, ?_⟩ <;> intro j <;> simp only [Sys.setThread] <;> split_ifs with hj
    · intro op v e; injection e with e1 e2; subst e1 e2; exact ⟨ha, _, h1, rfl⟩
    · exact h3 j
    · intro op e; cases e
    · exact h4 j
    · exact hr
    · exact h5 j
  | pass g f rest hm ht hg =>
    obtain ⟨ha, hr⟩ := htodo _ _ ht
    refine ⟨h1, h2, ?_, ?_, ?_⟩ <;> intro j <;> simp only [Sys.setThread] <;> split_ifs with hj
    · intro op v e; cases e
    · exact h3 j
    · intro op e; injection e with e1; subst e1; exact ha
    · exact h4 j
    · exact hr
    · exact h5 j
  | reject g f rest hm ht hg =>
    obtain ⟨ha, hr⟩ := htodo _ _ ht
    refine ⟨h1, h2, ?_, ?_, ?_⟩ <;> intro j <;> simp only [Sys.setThread] <;> split_ifs with hj
    · intro op v e; cases e
    · exact h3 j
    · intro op e; cases e
    · exact h4 j
    · exact hr
    · exact h5 j
  | reload op hm =>
    refine ⟨h1, h2, ?_, ?_, ?_⟩ <;> intro j <;> simp only [Sys.setThread] <;> split_ifs with hj
    · intro op' v e; injection e with e1 e2; subst e1 e2; exact ⟨h4 i _ hm, _, h1, rfl⟩
    · exact h3 j
    · intro op e; cases e
    · exact h4 j
    · exact h5 i
    · exact h5 j
  | store op v hm =>
    obtain ⟨ha, u, hu, e⟩ := h3 i op v hm
    refine ⟨List.mem_cons_self, ?_, ?_, ?_, ?_⟩
    · intro w hw
      rcases List.mem_cons.1 hw with rfl | hw
      · exact Or.inr ⟨op, ha, u, List.mem_cons_of_mem _ hu, e⟩
      · rcases h2 w hw with h | ⟨o, ho, x, hx, ex⟩
        · exact Or.inl h
        · exact Or.inr ⟨o, ho, x, List.mem_cons_of_mem _ hx, ex⟩
    all_goals intro j; simp only [Sys.setThread]; split_ifs with hj
    · intro op v e; cases e
    · intro o w hw
      obtain ⟨ha, u, hu, e⟩ := h3 j o w hw
      exact ⟨ha, u, List.mem_cons_of_mem _ hu, e⟩
    · intro op e; cases e
    · exact h4 j
    · exact h5 i
    · exact h5 j

theorem provenance_run (c : σ) (progs : ℕ → List (CellOp σ)) (schedule : List ℕ) :
    Provenance (fun op => ∃ i, op ∈ progs i) c ((Sys.init c progs).run schedule) := by
  have h0 : Provenance (fun op => ∃ i, op ∈ progs i) c (Sys.init c progs) :=
    ⟨List.mem_cons_self, fun v hv => Or.inl (by simpa [Sys.init] using hv), fun i op v e => (by cases e),
      fun i op e => (by cases e), fun i op ho => ⟨i, ho⟩⟩
  generalize Sys.init c progs = s at h0
  induction schedule generalizing s with
  | nil => exact h0
  | cons i l ih => rw [run_cons]; exact ih _ (provenance_step _ _ _ h0 i)

/-- **C40.** Whatever the number of goroutines and the schedule, every value the shared cell ever holds is the initial one
or the result of applying one whole operation of the program to a value the cell held: no torn or mixed states. -/
theorem C40_single_update (c : σ) (progs : ℕ → List (CellOp σ)) (schedule : List ℕ) :
    ((Sys.init c progs).run schedule).cell ∈ ((Sys.init c progs).run schedule).past ∧
    ∀ v ∈ ((Sys.init c progs).run schedule).past, v = c ∨
      ∃ i, ∃ op ∈ progs i, ∃ u ∈ ((Sys.init c progs).run schedule).past, v = op.fn u := by
  obtain ⟨h1, h2, -⟩ := provenance_run c progs schedule
  refine ⟨h1, fun v hv => ?_⟩
  rcases h2 v hv with h | ⟨op, ⟨i, hi⟩, u, hu, e⟩
  · exact Or.inl h
  · exact Or.inr ⟨i, op, hi, u, hu, e⟩

/-- `past` really is the history: every value the cell holds at any moment of the run. -/
theorem C40_past_is_history (c : σ) (progs : ℕ → List (CellOp σ)) (schedule : List ℕ) (v : σ) :
    v ∈ ((Sys.init c progs).run schedule).past ↔
      ∃ n, v = ((Sys.init c progs).run (schedule.take n)).cell := by
  have hstep : ∀ (s : Sys σ) i, (s.step i).cell = s.cell ∧ (s.step i).past = s.past ∨
      (s.step i).past = (s.step i).cell :: s.past := by
    intro s i
    have hc := step_case s i
    generalize s.step i = s' at hc
    cases hc <;> first | exact Or.inl ⟨rfl, rfl⟩ | exact Or.inr rfl
  induction schedule using List.reverseRecOn generalizing v with
  | nil => simp [Sys.run, Sys.init]
  | append_singleton l i ih =>
    have hlast : (Sys.init c progs).run (l ++ [i]) = ((Sys.init c progs).run l).step i := by rw [run_append]; rfl
    have htake : ∀ n, n ≤ l.length → (l ++ [i]).take n = l.take n := fun n hn => List.take_append_of_le_length hn
    have hbig : ∀ n, l.length < n → (l ++ [i]).take n = l ++ [i] := fun n hn =>
      List.take_of_length_le (by simp; omega)
    have hsplit : (∃ n, v = ((Sys.init c progs).run ((l ++ [i]).take n)).cell) ↔
        (∃ n, v = ((Sys.init c progs).run (l.take n)).cell) ∨ v = ((Sys.init c progs).run (l ++ [i])).cell := by
      constructor
      · rintro ⟨n, e⟩
        rcases Nat.lt_or_ge l.length n with h | h
        · rw [hbig n h] at e; exact Or.inr e
        · rw [htake n h] at e; exact Or.inl ⟨n, e⟩
      · rintro (⟨n, e⟩ | e)
        · refine ⟨min n l.length, ?_⟩
          rw [htake _ (by omega), e]
          congr 2
          rcases Nat.le_total n l.length with h | h
          · rw [Nat.min_eq_left h]
          · rw [Nat.min_eq_right h, List.take_of_length_le h, List.take_of_length_le (le_refl _)]
        · exact ⟨l.length + 1, by rw [hbig _ (by omega)]; exact e⟩
    have ih' : v ∈ ((Sys.init c progs).run l).past ↔ ∃ n, v = ((Sys.init c progs).run (l.take n)).cell := ih v
    rw [hsplit, ← ih', hlast]
    rcases hstep ((Sys.init c progs).run l) i with ⟨e1, e2⟩ | e
    · rw [e2, e1]
      constructor
      · exact Or.inl
      · rintro (h | rfl)
        · exact h
        · exact (provenance_run c progs l).cell
    · rw [e, List.mem_cons]
      exact or_comm

/-- **C40.** Any property of single values that every operation keeps holds at all times under every schedule. -/
theorem C40_invariant (P : σ → Prop) (c : σ) (progs : ℕ → List (CellOp σ)) (h0 : P c)
    (hp : ∀ i, ∀ op ∈ progs i, ∀ u, P u → P (op.fn u)) (schedule : List ℕ) :
    P ((Sys.init c progs).run schedule).cell := by
  have key : ∀ s : Sys σ, (∀ v ∈ s.past, P v) → Provenance (fun op => ∃ i, op ∈ progs i) c s →
      ∀ i, ∀ v ∈ (s.step i).past, P v := by
    intro s hs hpr i
    have hc := step_case s i
    generalize s.step i = s' at hc
    cases hc with
    | store op v hm =>
      obtain ⟨⟨j, hj⟩, u, hu, e⟩ := hpr.pending i op v hm
      intro w hw
      rcases List.mem_cons.1 hw with rfl | hw
      · rw [e]; exact hp j op hj u (hs u hu)
      · exact hs w hw
    | _ => exact hs
  have : ∀ v ∈ ((Sys.init c progs).run schedule).past, P v := by
    induction schedule using List.reverseRecOn with
    | nil => intro v hv; simp only [Sys.run, Sys.init, List.foldl_nil, List.mem_singleton] at hv; rw [hv]; exact h0
    | append_singleton l i ih =>
      rw [run_append]
      exact key _ ih (provenance_run c progs l) i
  exact this _ (provenance_run c progs schedule).cell

end

section
variable [Rounding] [LibM]

/-- Arguments that are ordinary numbers. -/
def StateOp.Fine : StateOp F64 → Prop
  | .setPhase x => F64.IsFinite x
  | .setLocalGoal x => F64.IsFinite x
  | .goalShift p d => F64.IsFinite (p + d)
  | .setEnergy x => x ≠ .nan
  | .setFrequency _ => True
  | .apply act => F64.IsFinite act.value ∧ F64.IsFinite act.cost

/-- The documented ranges of the shared state. -/
def StateOK (s : StateData F64) : Prop := InTurn s.phase ∧ InTurn s.localGoal ∧ NonNeg s.energy

theorem inTurn_wrap' {x : F64} (h : F64.IsFinite x) : InTurn (wrapPhase x) := by
  cases x with
  | fin d => exact inTurn_wrap d
  | _ => exact absurd h (by simp [F64.IsFinite])

/-- **C40 for agents, in IEEE doubles.** Any number of goroutines calling setters, `UpdateContext` and `ApplyAction` on
the same agent under any schedule: at every moment phase and goal are in `[0, 2π)` and energy is not negative. -/
theorem C40_agent_state (c : StateData F64) (h0 : StateOK c) (progs : ℕ → List (StateOp F64))
    (hp : ∀ i, ∀ op ∈ progs i, op.Fine) (schedule : List ℕ) :
    StateOK ((Sys.init c fun i => (progs i).map StateOp.toCell).run schedule).cell := by
  refine C40_invariant StateOK c _ h0 ?_ schedule
  intro i op hop u hu
  obtain ⟨o, ho, rfl⟩ := List.mem_map.1 hop
  have hf := hp i o ho
  obtain ⟨h1, h2, h3⟩ := hu
  cases o with
  | setPhase x => exact ⟨inTurn_wrap' hf, h2, h3⟩
  | setFrequency f => exact ⟨h1, h2, h3⟩
  | setEnergy x => exact ⟨h1, h2, nonNeg_fmax hf⟩
  | setLocalGoal x => exact ⟨h1, inTurn_wrap' hf, h3⟩
  | goalShift p d => exact ⟨h1, inTurn_wrap' hf, h3⟩
  | apply act =>
    obtain ⟨ho1, ho2⟩ := hf
    cases hv : act.value with
    | fin v =>
      cases hcst : act.cost with
      | fin c =>
        obtain ⟨p, ep, hp⟩ := h1.small
        obtain ⟨q, eq⟩ := F64.add_small p v (by linarith)
        have he := nonNeg_fmax (nonNeg_sub h3 c)
        simp only [StateOp.toCell, applyUpdate]
        split_ifs
        · refine ⟨?_, h2, ?_⟩
          · simp only [CellOp.fn]; rw [ep, hv, eq]; exact inTurn_wrap q
          · simp only [CellOp.fn]; rw [hcst]; exact he
        · refine ⟨h1, h2, ?_⟩
          simp only [CellOp.fn]; rw [hcst]; exact he
        · exact ⟨h1, h2, h3⟩
      | _ => rw [hcst] at ho2; exact absurd ho2 (by simp [F64.IsFinite])
    | _ => rw [hv] at ho1; exact absurd ho1 (by simp [F64.IsFinite])

/-- **C40 for the behaviour parameters**: influence and stubbornness are in `[0, 1]` at every moment. -/
theorem C40_agent_behavior (c : BehaviorData F64) (h0 : F64.In01 c.influence ∧ F64.In01 c.stubbornness)
    (progs : ℕ → List (BehaviorOp F64))
    (hp : ∀ i, ∀ op ∈ progs i, op ≠ .setInfluence .nan ∧ op ≠ .setStubbornness .nan) (schedule : List ℕ) :
    F64.In01 ((Sys.init c fun i => (progs i).map BehaviorOp.toCell).run schedule).cell.influence ∧
    F64.In01 ((Sys.init c fun i => (progs i).map BehaviorOp.toCell).run schedule).cell.stubbornness := by
  refine C40_invariant (fun b => F64.In01 b.influence ∧ F64.In01 b.stubbornness) c _ h0 ?_ schedule
  intro i op hop u hu
  obtain ⟨o, ho, rfl⟩ := List.mem_map.1 hop
  have hf := hp i o ho
  cases o with
  | setInfluence x => exact ⟨in01_clampUnit fun e => hf.1 (by rw [e]), hu.2⟩
  | setStubbornness x => exact ⟨hu.1, in01_clampUnit fun e => hf.2 (by rw [e])⟩

/-- two goroutines racing on a fresh state satisfy the hypotheses -/
example : StateOK { phase := 0, energy := 1, localGoal := 0, frequency := 0 } ∧
    ∀ _ : ℕ, ∀ op ∈ ([.setPhase 1, .apply { type := "pulse", value := 1, cost := 1, benefit := 0 }] : List (StateOp F64)),
      op.Fine := by
  have ht := F64.tau_bounds
  exact ⟨⟨⟨_, rfl, le_refl _, by change (0 : ℝ) < _; linarith⟩, ⟨_, rfl, le_refl _, by change (0 : ℝ) < _; linarith⟩,
    Or.inr ⟨_, rfl, by change (0 : ℝ) ≤ 1; norm_num⟩⟩, by simp [StateOp.Fine, F64.IsFinite]⟩

end

/-! ## C41 -/

/-- The action used below: spend energy without moving. -/
noncomputable def spend (c : ℝ) : StateOp ℝ := .apply { type := "maintain", value := 0, cost := c, benefit := 0 }

/-- A state with the given energy. -/
noncomputable def withEnergy (e : ℝ) : StateData ℝ := { phase := 0, energy := e, localGoal := 0, frequency := 1 }

/-- Two goroutines, each applying one action. -/
noncomputable def twoSpenders (c1 c2 : ℝ) : ℕ → List (CellOp (StateData ℝ)) :=
  fun i => if i = 0 then [(spend c1).toCell] else if i = 1 then [(spend c2).toCell] else []

/-- The full claim, kept in view: if both of two concurrently applied actions succeed, both costs are paid. -/
def C41_claim : Prop := ∀ (e c1 c2 : ℝ), 0 ≤ c1 → 0 ≤ c2 → c1 + c2 ≤ e → ∀ schedule : List ℕ,
  ((Sys.init (withEnergy e) (twoSpenders c1 c2)).run schedule).log.length = 2 →
  ((Sys.init (withEnergy e) (twoSpenders c1 c2)).run schedule).cell.energy = e - c1 - c2

theorem spend_toCell (c : ℝ) : (spend c).toCell =
    .guarded (fun s => decide ¬ c > s.energy) fun s => { s with energy := max 0 (s.energy - c) } := by
  simp [spend, StateOp.toCell, applyUpdate]

/-- The lost update: both goroutines load energy 10 before either stores; 7 of the 10 units spent never leave. -/
theorem C41_lost_update :
    ((Sys.init (withEnergy 10) (twoSpenders 3 7)).run [0, 1, 0, 1, 1, 0]).log.length = 2 ∧
    ((Sys.init (withEnergy 10) (twoSpenders 3 7)).run [0, 1, 0, 1, 1, 0]).cell.energy = 7 := by
  simp only [Sys.run, List.foldl_cons, List.foldl_nil, Sys.init, twoSpenders, spend_toCell, withEnergy]
  simp [Sys.step, Sys.setThread, CellOp.fn]
  norm_num

/-- The claim is false. -/
theorem C41_refuted : ¬ C41_claim := fun h => by
  have h1 := h 10 3 7 (by norm_num) (by norm_num) (by norm_num) [0, 1, 0, 1, 1, 0] C41_lost_update.1
  rw [C41_lost_update.2] at h1
  norm_num at h1

/-- Even when the two load-modify-store sequences do not overlap, checking before updating lets two actions costing 20 in
total both succeed on 15 units of energy. -/
theorem C41_overspend :
    ((Sys.init (withEnergy 15) (twoSpenders 10 10)).run [0, 1, 0, 0, 1, 1]).log.length = 2 ∧
    ((Sys.init (withEnergy 15) (twoSpenders 10 10)).run [0, 1, 0, 0, 1, 1]).cell.energy = 0 := by
  simp only [Sys.run, List.foldl_cons, List.foldl_nil, Sys.init, twoSpenders, spend_toCell, withEnergy]
  simp [Sys.step, Sys.setThread, CellOp.fn]
  norm_num

section
variable {σ : Type}

/-- A schedule without overlap: a goroutine only moves when no other is inside an operation. -/
def Serial (s : Sys σ) : List ℕ → Prop
  | [] => True
  | i :: l => (∀ j, j ≠ i → (s.threads j).mid = .idle) ∧ Serial (s.step i) l

/-- Specification: performing operations one after the other, each on the result of the previous one; `none` if the check
of some operation fails. -/
def Spec.sequential (c : σ) : List (CellOp σ) → Option σ
  | [] => some c
  | .update f :: l => Spec.sequential (f c) l
  | .guarded g f :: l => if g c then Spec.sequential (f c) l else none

theorem sequential_append (c : σ) (l m : List (CellOp σ)) :
    Spec.sequential c (l ++ m) = (Spec.sequential c l).bind fun d => Spec.sequential d m := by
  induction l generalizing c with
  | nil => rfl
  | cons op l ih =>
    cases op with
    | update f => exact ih _
    | guarded g f =>
      simp only [List.cons_append, Spec.sequential]
      split_ifs
      · exact ih _
      · rfl

/-- Invariant of non-overlapping runs. -/
structure SerialInv (c : σ) (s : Sys σ) : Prop where
  replay : Spec.sequential c s.log.reverse = some s.cell
  checked : ∀ i op, (s.threads i).mid = .checked op → ∃ g f, op = .guarded g f ∧ g s.cell = true
  pending : ∀ i op v, (s.threads i).mid = .pending op v → Spec.sequential s.cell [op] = some v

theorem serialInv_run (c : σ) (s : Sys σ) (h : SerialInv c s) (l : List ℕ) (hs : Serial s l) : SerialInv c (s.run l) := by
  induction l generalizing s with
  | nil => exact h
  | cons i l ih =>
    rw [run_cons]
    obtain ⟨hid, hs⟩ := hs
    refine ih _ ?_ hs
    clear hs ih
    obtain ⟨h1, h2, h3⟩ := h
    have hc := step_case s i
    generalize s.step i = s' at hc
    cases hc with
    | skip hm ht => exact ⟨h1, h2, h3⟩
    | load f rest hm ht =>
      refine ⟨h1, ?_, ?_⟩ <;> intro j <;> simp only [Sys.setThread] <;> split_ifs with hj
      · intro op e; cases e
      · exact h2 j
      · intro op v e; injection e with e1 e2; subst e1 e2; rfl
      · exact h3 j
    | pass g f rest hm ht hg =>
      refine ⟨h1, ?_, ?_⟩ <;> intro j <;> simp only [Sys.setThread] <;> split_ifs with hj
      · intro op e; injection e with e1; subst e1; exact ⟨g, f, rfl, hg⟩
      · exact h2 j
      · intro op v e; cases e
      · exact h3 j
    | reject g f rest hm ht hg =>
      refine ⟨h1, ?_, ?_⟩ <;> intro j <;> simp only [Sys.setThread] <;> split_ifs with hj
      · intro op e; cases e
      · exact h2 j
      · intro op v e; cases e
      · exact h3 j
    | reload op hm =>
      obtain ⟨g, f, rfl, hg⟩ := h2 i op hm
      refine ⟨h1, ?_, ?_⟩ <;> intro j <;> simp only [Sys.setThread] <;> split_ifs with hj
      · intro op e; cases e
      · exact h2 j
      · intro op v e
        injection e with e1 e2; subst e1 e2
        simp [Spec.sequential, hg, CellOp.fn]
      · exact h3 j
    | store op v hm =>
      have hp := h3 i op v hm
      refine ⟨?_, ?_, ?_⟩
      · change Spec.sequential c (op :: s.log).reverse = some v
        rw [List.reverse_cons, sequential_append, h1]
        exact hp
      all_goals intro j; simp only [Sys.setThread]; split_ifs with hj
      · intro op e; cases e
      · intro op e; rw [hid j hj] at e; cases e
      · intro op v e; cases e
      · intro op v e; rw [hid j hj] at e; cases e

/-- **C41 (partial).** If operations do not overlap, the cell is exactly the result of performing the operations that took
effect one after the other, each passing its check on the result of the previous one: nothing is lost. Missing:
overlapping schedules, for which the claim is false. -/
theorem C41_serial_partial (c : σ) (progs : ℕ → List (CellOp σ)) (schedule : List ℕ)
    (hs : Serial (Sys.init c progs) schedule) :
    Spec.sequential c ((Sys.init c progs).run schedule).log.reverse =
      some ((Sys.init c progs).run schedule).cell := by
  refine (serialInv_run c _ ⟨rfl, fun i op e => ?_, fun i op v e => ?_⟩ schedule hs).replay <;> cases e

end

/-- All operations of the log are operations of the program. -/
theorem log_mem {σ : Type} (c : σ) (progs : ℕ → List (CellOp σ)) (schedule : List ℕ) :
    ∀ op ∈ ((Sys.init c progs).run schedule).log, ∃ i, op ∈ progs i := by
  induction schedule using List.reverseRecOn with
  | nil => intro op h; cases h
  | append_singleton l i ih =>
    rw [run_append]
    have hpr := provenance_run c progs l
    generalize (Sys.init c progs).run l = s at ih hpr
    have hc := step_case s i
    change ∀ op ∈ (s.step i).log, _
    generalize s.step i = s' at hc
    cases hc with
    | store op v hm =>
      intro o ho
      rcases List.mem_cons.1 ho with rfl | ho
      · exact (hpr.pending i _ v hm).1
      · exact ih o ho
    | _ => exact ih

/-- Total cost of the spending operations in a log, for a program made of `spend`s. -/
theorem sequential_spend (l : List (CellOp (StateData ℝ))) (s t : StateData ℝ)
    (hl : ∀ op ∈ l, ∃ c, 0 ≤ c ∧ op = (spend c).toCell) (h : Spec.sequential s l = some t) :
    ∃ costs : List ℝ, l = costs.map (fun c => (spend c).toCell) ∧ t.energy = s.energy - costs.sum ∧
      (0 ≤ s.energy → 0 ≤ t.energy) := by
  induction l generalizing s with
  | nil =>
    injection h with h; subst h
    exact ⟨[], rfl, by simp, id⟩
  | cons op l ih =>
    obtain ⟨c, hc, rfl⟩ := hl _ List.mem_cons_self
    rw [spend_toCell] at h ⊢
    simp only [Spec.sequential] at h
    split_ifs at h with hg
    have hg' : c ≤ s.energy := by simpa using hg
    obtain ⟨costs, e, he, hn⟩ := ih _ (fun o ho => hl o (List.mem_cons_of_mem _ ho)) h
    refine ⟨c :: costs, by rw [List.map_cons, ← e, spend_toCell], ?_, ?_⟩
    · rw [he, List.sum_cons]
      dsimp only
      rw [max_eq_right (by linarith)]; ring
    · intro _
      exact hn (le_max_left _ _)

/-- **C41 (partial), in terms of energy.** Any number of goroutines applying actions without overlap: the energy left is
the initial energy minus the sum of the costs of all actions that succeeded, and never negative. -/
theorem C41_energy_partial (e : ℝ) (he : 0 ≤ e) (costs : ℕ → List ℝ) (hc : ∀ i, ∀ c ∈ costs i, 0 ≤ c) (schedule : List ℕ)
    (hs : Serial (Sys.init (withEnergy e) fun i => (costs i).map fun c => (spend c).toCell) schedule) :
    ∃ paid : List ℝ,
      ((Sys.init (withEnergy e) fun i => (costs i).map fun c => (spend c).toCell).run schedule).log.reverse =
        paid.map (fun c => (spend c).toCell) ∧
      ((Sys.init (withEnergy e) fun i => (costs i).map fun c => (spend c).toCell).run schedule).cell.energy =
        e - paid.sum ∧
      paid.sum ≤ e := by
  have h := C41_serial_partial _ _ _ hs
  have hl := log_mem (withEnergy e) (fun i => (costs i).map fun c => (spend c).toCell) schedule
  obtain ⟨paid, e1, e2, e3⟩ := sequential_spend _ _ _ (fun op hop => by
    obtain ⟨i, hi⟩ := hl op (List.mem_reverse.1 hop)
    obtain ⟨c, hci, rfl⟩ := List.mem_map.1 hi
    exact ⟨c, hc i c hci, rfl⟩) h
  refine ⟨paid, e1, e2, ?_⟩
  have := e3 he
  rw [e2] at this
  have h4 : (withEnergy e).energy = e := rfl
  rw [h4] at this
  linarith

/-- a non-overlapping schedule in which both goroutines act -/
example : Serial (Sys.init (withEnergy 10) (twoSpenders 3 7)) [0, 0, 0, 1, 1, 1] ∧
    ((Sys.init (withEnergy 10) (twoSpenders 3 7)).run [0, 0, 0, 1, 1, 1]).log.length = 2 := by
  constructor
  · simp only [Serial, Sys.init, twoSpenders, spend_toCell, withEnergy]
    norm_num [Sys.step, Sys.setThread, CellOp.fn]
    refine ⟨?_, ?_, ?_, ?_, ?_⟩ <;> intro j hj <;> (split_ifs <;> simp_all)
  · simp only [Sys.run, List.foldl_cons, List.foldl_nil, Sys.init, twoSpenders, spend_toCell, withEnergy]
    simp [Sys.step, Sys.setThread, CellOp.fn]
    norm_num

end Verif
