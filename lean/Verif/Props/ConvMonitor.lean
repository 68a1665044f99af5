import Verif.Lemmas.Regression
import Verif.Props.Pattern
import Verif.Props.AgentRange

/-!
# C63: stuck detection and progress tracking of `convergence.Monitor`
-/

set_option autoImplicit false
set_option linter.unusedSectionVars false

namespace Verif
open GoMath Spec

section Generic
variable {α : Type} [Zero α] [One α] [Add α] [Sub α] [Mul α] [Div α] [Neg α] [LT α] [LE α]
  [DecidableLT α] [DecidableLE α] [BEq α] [OfScientific α] [GoMath α]

/-- Public mutating operations of a monitor. -/
inductive MonOp (α : Type) where
  | setTarget (t : Option (TargetPattern α))
  | record (now : ℤ) (current : Option (TargetPattern α)) (coherence : α)
  | reset

/-- What an operation says about movement. -/
inductive Spec.Verdict where
  | unjudged | flat | moved | restart
  deriving DecidableEq

/-- The last `n` elements. -/
def Spec.lastN {β : Type} (n : ℕ) (l : List β) : List β := l.drop (l.length - n)

/-- Verdict on the samples recorded so far: judged on the last `w` of them, if there are at least three; flat if the slope
of their distances (`C63_trend`: the least-squares slope) is below 0.001 in magnitude. -/
def Spec.verdict (w : ℕ) (all : List (ConvSample α)) : Spec.Verdict :=
  if (lastN w all).length < 3 then .unjudged
  else if GoMath.abs (calculateTrend ((lastN w all).map (·.distance))) < 0.001 then .flat else .moved

/-- A monitor together with everything recorded since the last reset (oldest first) and the verdicts (newest first). -/
structure Traced (α : Type) where
  monitor : ConvMonitor α
  all : List (ConvSample α)
  verdicts : List Verdict

def Traced.step (w : ℕ) (t : Traced α) : MonOp α → Traced α
  | .setTarget p => ⟨t.monitor.setTarget p, t.all, .unjudged :: t.verdicts⟩
  | .record now c coh =>
    let all := t.all ++ [t.monitor.sample now c coh]
    ⟨t.monitor.record now c coh, all, verdict w all :: t.verdicts⟩
  | .reset => ⟨t.monitor.reset, [], .restart :: t.verdicts⟩

/-- The window in effect. -/
def Spec.window (windowSize : ℤ) : ℕ := if windowSize ≤ 0 then 10 else windowSize.toNat

def Traced.run (windowSize : ℤ) (ops : List (MonOp α)) : Traced α :=
  ops.foldl (Traced.step (window windowSize)) ⟨ConvMonitor.new windowSize, [], []⟩

/-- Flat verdicts since the last movement or restart. -/
def Spec.flatRun : List Verdict → ℕ
  | [] => 0
  | .flat :: l => flatRun l + 1
  | .unjudged :: l => flatRun l
  | .moved :: _ => 0
  | .restart :: _ => 0

theorem updateStatus_history (m : ConvMonitor α) : m.updateStatus.history = m.history := by
  unfold ConvMonitor.updateStatus; split_ifs <;> rfl

theorem record_fields (m : ConvMonitor α) (now : ℤ) (c : Option (TargetPattern α)) (coh : α) :
    (m.record now c coh).history = boundHistory m.windowSize (m.history ++ [m.sample now c coh]) ∧
    (m.record now c coh).target = m.target ∧ (m.record now c coh).windowSize = m.windowSize := by
  refine ⟨updateStatus_history _, ?_, ?_⟩ <;>
    (unfold ConvMonitor.record ConvMonitor.updateStatus; split_ifs <;> rfl)

theorem sample_distance (m : ConvMonitor α) (now : ℤ) (c : Option (TargetPattern α)) (coh : α) :
    (m.sample now c coh).distance = patternDistance c m.target := by
  unfold ConvMonitor.sample
  split
  · rfl
  · simp only; split_ifs <;> rfl

theorem progress_of_history (m : ConvMonitor α) (first last : ConvSample α) (h1 : m.history.head? = some first)
    (h2 : m.history.getLast? = some last) :
    m.progress = if first.distance ≤ 0 then 1 else fmax 0 (fmin 1 (1 - last.distance / first.distance)) := by
  unfold ConvMonitor.progress; rw [h1, h2]

theorem window_pos (n : ℤ) : 1 ≤ window n := by
  unfold window; split_ifs <;> omega

structure Traced.Inv (w : ℕ) (t : Traced α) : Prop where
  window : t.monitor.windowSize = w
  suffix : t.monitor.history <:+ t.all
  enough : min t.all.length w ≤ t.monitor.history.length
  bounded : t.monitor.history.length ≤ 2 * w
  stuck : t.monitor.stuckCount = flatRun t.verdicts
  converging : t.monitor.converging = true ↔
    3 ≤ (lastN w t.all).length ∧ calculateTrend ((lastN w t.all).map (·.distance)) < -0.001

theorem lastN_length {β : Type} (n : ℕ) (l : List β) : (lastN n l).length = min l.length n := by
  unfold lastN; rw [List.length_drop]; omega

theorem lastN_of_suffix {β : Type} {n : ℕ} {h l : List β} (hs : h <:+ l) (hn : min l.length n ≤ h.length) :
    h.drop (h.length - n) = lastN n l := by
  obtain ⟨pre, rfl⟩ := hs
  unfold lastN
  rw [List.length_append] at hn ⊢
  rw [List.drop_append]
  have e : List.drop (pre.length + h.length - n) pre = [] ∨ h.length < n := by
    by_cases hh : n ≤ h.length
    · left; rw [List.drop_eq_nil_iff]; omega
    · right; omega
  rcases e with e | e
  · rw [e, List.nil_append]; congr 1
    by_cases hh : n ≤ h.length
    · omega
    · have : pre.length = 0 := by
        by_contra h0
        omega
      omega
  · have : pre.length = 0 := by omega
    rw [List.length_eq_zero_iff] at this
    subst this
    simp

theorem recent_eq {w : ℕ} {m : ConvMonitor α} {all : List (ConvSample α)} (hw : m.windowSize = w)
    (hs : m.history <:+ all) (he : min all.length w ≤ m.history.length) : m.recent = lastN w all := by
  rw [← lastN_of_suffix hs he]
  unfold ConvMonitor.recent
  rw [hw]
  simp only
  congr 1
  split_ifs <;> omega

theorem bound_spec {w : ℕ} {h all : List (ConvSample α)} (hw : 1 ≤ w) (x : ConvSample α) (hs : h <:+ all)
    (he : min all.length w ≤ h.length) (hb : h.length ≤ 2 * w) :
    boundHistory w (h ++ [x]) <:+ all ++ [x] ∧ min (all ++ [x]).length w ≤ (boundHistory w (h ++ [x])).length ∧
      (boundHistory w (h ++ [x])).length ≤ 2 * w := by
  have hs' : h ++ [x] <:+ all ++ [x] := by
    obtain ⟨pre, rfl⟩ := hs
    exact ⟨pre, by simp⟩
  have hl : (h ++ [x]).length = h.length + 1 := by simp
  have hl' : (all ++ [x]).length = all.length + 1 := by simp
  unfold boundHistory
  split_ifs with hc
  · refine ⟨(List.drop_suffix _ _).trans hs', ?_, ?_⟩
    · rw [List.length_drop]; omega
    · rw [List.length_drop]; omega
  · exact ⟨hs', by omega, by omega⟩

theorem inv_step (w : ℕ) (hw : 1 ≤ w) (t : Traced α) (h : t.Inv w) (op : MonOp α) : (t.step w op).Inv w := by
  cases op with
  | setTarget p => exact ⟨h.window, h.suffix, h.enough, h.bounded, h.stuck, h.converging⟩
  | reset =>
    refine ⟨h.window, List.suffix_refl _, by simp [Traced.step, ConvMonitor.reset], by simp [Traced.step, ConvMonitor.reset],
      rfl, ?_⟩
    simp [Traced.step, ConvMonitor.reset, lastN]
  | record now c coh =>
    unfold Traced.step
    simp only
    unfold ConvMonitor.record
    generalize t.monitor.sample now c coh = x
    rw [h.window]
    obtain ⟨b1, b2, b3⟩ := bound_spec hw x h.suffix h.enough h.bounded
    generalize hm : (⟨boundHistory w (t.monitor.history ++ [x]), w, t.monitor.target, t.monitor.converging,
      t.monitor.stuckCount⟩ : ConvMonitor α) = m
    have m1 : m.windowSize = w := by rw [← hm]
    have m2 : m.history = boundHistory w (t.monitor.history ++ [x]) := by rw [← hm]
    have m3 : m.stuckCount = flatRun t.verdicts := by rw [← hm]; exact h.stuck
    rw [← m2] at b1 b2 b3
    have hr := recent_eq m1 b1 b2
    have hrl : m.recent.length ≤ m.history.length := by
      unfold ConvMonitor.recent; rw [List.length_drop]; omega
    by_cases hj : m.history.length < 3 ∨ m.recent.length < 3
    · have hu : m.updateStatus = { m with converging := false } := by
        unfold ConvMonitor.updateStatus
        rcases hj with hj | hj
        · rw [if_pos hj]
        · split_ifs <;> rfl
      have hj' : m.recent.length < 3 := by omega
      have hv : verdict w (t.all ++ [x]) = .unjudged := by
        unfold verdict; rw [← hr, if_pos hj']
      rw [hu, hv]
      exact ⟨m1, b1, b2, b3, m3, by rw [← hr]; simp; omega⟩
    · have hu : m.updateStatus = { m with
          stuckCount := if GoMath.abs (calculateTrend (m.recent.map (·.distance))) < 0.001 then m.stuckCount + 1 else 0
          converging := decide (calculateTrend (m.recent.map (·.distance)) < -0.001) } := by
        unfold ConvMonitor.updateStatus
        rw [if_neg (by omega), if_neg (by omega)]
      rw [hu]
      refine ⟨m1, b1, b2, b3, ?_, ?_⟩
      · have hv : verdict w (t.all ++ [x]) =
            if GoMath.abs (calculateTrend (m.recent.map (·.distance))) < 0.001 then .flat else .moved := by
          unfold verdict; rw [← hr, if_neg (by omega)]
        simp only [hv]
        split_ifs with hf
        · rw [m3]; rfl
        · rfl
      · simp only
        rw [← hr, decide_eq_true_iff]
        constructor
        · exact fun h => ⟨by omega, h⟩
        · exact fun h => h.2

theorem inv_run' (windowSize : ℤ) (ops : List (MonOp α)) : (Traced.run windowSize ops).Inv (window windowSize) := by
  have key : ∀ (ops : List (MonOp α)) (t : Traced α), t.Inv (window windowSize) →
      (ops.foldl (Traced.step (window windowSize)) t).Inv (window windowSize) := by
    intro ops
    induction ops with
    | nil => exact fun _ h => h
    | cons op ops ih => exact fun t h => ih _ (inv_step _ (window_pos _) t h op)
  refine key ops _ ⟨?_, List.suffix_refl _, by simp, by simp [ConvMonitor.new], rfl, by simp [ConvMonitor.new, lastN]⟩
  unfold ConvMonitor.new window
  simp only
  split_ifs <;> omega

/-- The tracker keeps at most twice its window of samples, they are the most recent ones since the last reset, and at
least a full window of them if that many were recorded. Any number type, window and sequence of operations. -/
theorem C63_history (windowSize : ℤ) (ops : List (MonOp α)) :
    (Traced.run windowSize ops).monitor.history <:+ (Traced.run windowSize ops).all ∧
    (Traced.run windowSize ops).monitor.history.length ≤ 2 * window windowSize ∧
    min (Traced.run windowSize ops).all.length (window windowSize) ≤ (Traced.run windowSize ops).monitor.history.length :=
  let h := inv_run' windowSize ops
  ⟨h.suffix, h.bounded, h.enough⟩

theorem flatRun_iff (l : List Verdict) (n : ℕ) :
    n < flatRun l ↔ ∃ recent older, l = recent ++ older ∧ .moved ∉ recent ∧ .restart ∉ recent ∧
      n < recent.count .flat := by
  induction l generalizing n with
  | nil =>
    simp only [flatRun, Nat.not_lt_zero, false_iff]
    rintro ⟨r, o, h, -, -, hc⟩
    rw [List.nil_eq_append_iff] at h
    rw [h.1] at hc; simp at hc
  | cons v l ih =>
    have stop : v = .moved ∨ v = .restart → ¬ ∃ recent older, v :: l = recent ++ older ∧ .moved ∉ recent ∧
        .restart ∉ recent ∧ n < recent.count .flat := by
      rintro hv ⟨r, o, h, h1, h2, hc⟩
      cases r with
      | nil => simp at hc
      | cons a r =>
        simp only [List.cons_append, List.cons.injEq] at h
        obtain ⟨rfl, -⟩ := h
        rcases hv with rfl | rfl
        · exact h1 List.mem_cons_self
        · exact h2 List.mem_cons_self
    cases v with
    | moved => simp only [flatRun, Nat.not_lt_zero, false_iff]; exact stop (Or.inl rfl)
    | restart => simp only [flatRun, Nat.not_lt_zero, false_iff]; exact stop (Or.inr rfl)
    | unjudged =>
      simp only [flatRun]
      rw [ih]
      constructor
      · rintro ⟨r, o, rfl, h1, h2, hc⟩
        exact ⟨.unjudged :: r, o, rfl, by simp [h1], by simp [h2], by simpa using hc⟩
      · rintro ⟨r, o, h, h1, h2, hc⟩
        cases r with
        | nil => simp at hc
        | cons a r =>
          simp only [List.cons_append, List.cons.injEq] at h
          obtain ⟨rfl, rfl⟩ := h
          exact ⟨r, o, rfl, fun h => h1 (List.mem_cons_of_mem _ h), fun h => h2 (List.mem_cons_of_mem _ h),
            by simpa using hc⟩
    | flat =>
      simp only [flatRun]
      cases n with
      | zero =>
        simp only [Nat.zero_lt_succ, true_iff]
        exact ⟨[.flat], l, rfl, by simp, by simp, by simp⟩
      | succ n =>
        rw [Nat.succ_lt_succ_iff, ih]
        constructor
        · rintro ⟨r, o, rfl, h1, h2, hc⟩
          exact ⟨.flat :: r, o, rfl, by simp [h1], by simp [h2], by simpa using hc⟩
        · rintro ⟨r, o, h, h1, h2, hc⟩
          cases r with
          | nil => simp at hc
          | cons a r =>
            simp only [List.cons_append, List.cons.injEq] at h
            obtain ⟨rfl, rfl⟩ := h
            exact ⟨r, o, rfl, fun h => h1 (List.mem_cons_of_mem _ h), fun h => h2 (List.mem_cons_of_mem _ h),
              by simpa using hc⟩

/-- Stuck is reported exactly when more than five samples were judged flat since the last movement or reset (verdicts
are listed newest first). -/
theorem C63_stuck (windowSize : ℤ) (ops : List (MonOp α)) :
    (Traced.run windowSize ops).monitor.isStuck = true ↔
      ∃ recent older, (Traced.run windowSize ops).verdicts = recent ++ older ∧ Verdict.moved ∉ recent ∧
        Verdict.restart ∉ recent ∧ 5 < recent.count Verdict.flat := by
  rw [← flatRun_iff]
  unfold ConvMonitor.isStuck
  rw [decide_eq_true_iff, (inv_run' windowSize ops).stuck]
  omega

/-- Converging is reported exactly when the slope of the last window of distances is below -0.001. -/
theorem C63_converging (windowSize : ℤ) (ops : List (MonOp α)) :
    (Traced.run windowSize ops).monitor.converging = true ↔
      3 ≤ (lastN (window windowSize) (Traced.run windowSize ops).all).length ∧
      calculateTrend ((lastN (window windowSize) (Traced.run windowSize ops).all).map (·.distance)) < -0.001 :=
  (inv_run' windowSize ops).converging

/-- With a window of one or two samples nothing is ever judged: never stuck and never converging. -/
theorem C63_tiny_window (windowSize : ℤ) (h1 : 1 ≤ windowSize) (h2 : windowSize ≤ 2) (ops : List (MonOp α)) :
    (Traced.run windowSize ops).monitor.isStuck = false ∧ (Traced.run windowSize ops).monitor.converging = false := by
  have hw : window windowSize ≤ 2 := by unfold window; split_ifs <;> omega
  have hv : ∀ (ops : List (MonOp α)) (t : Traced α), Verdict.flat ∉ t.verdicts →
      Verdict.flat ∉ (ops.foldl (Traced.step (window windowSize)) t).verdicts := by
    intro ops
    induction ops with
    | nil => exact fun _ h => h
    | cons op ops ih =>
      intro t h
      refine ih _ ?_
      cases op with
      | setTarget p => simp [Traced.step, h]
      | reset => simp [Traced.step, h]
      | record now c coh =>
        simp only [Traced.step, List.mem_cons, not_or]
        refine ⟨?_, h⟩
        unfold verdict
        rw [if_pos (by rw [lastN_length]; omega)]
        simp
  constructor
  · rw [Bool.eq_false_iff]
    intro hs
    obtain ⟨r, o, e, -, -, hc⟩ := (C63_stuck windowSize ops).1 hs
    have := hv ops ⟨ConvMonitor.new windowSize, [], []⟩ (by simp)
    change Verdict.flat ∉ (Traced.run windowSize ops).verdicts at this
    rw [e] at this
    have h0 : r.count Verdict.flat = 0 := List.count_eq_zero.2 fun h => this (List.mem_append_left _ h)
    omega
  · rw [Bool.eq_false_iff]
    intro hs
    have := ((C63_converging windowSize ops).1 hs).1
    rw [lastN_length] at this
    omega

end Generic

/-- The slope used for the verdicts is the slope of the least-squares line through the distances. -/
theorem C63_trend (ys : List ℝ) (h : 2 ≤ ys.length) (b : ℝ) : IsFitSlope ys b ↔ b = calculateTrend ys :=
  calculateTrend_fit ys h b

example : 2 ≤ ([0.5, 0.25, 0.125] : List ℝ).length := by simp

/-- Progress is in `[0, 1]` for every monitor over the reals. -/
theorem C63_progress_real (m : ConvMonitor ℝ) : 0 ≤ m.progress ∧ m.progress ≤ 1 := by
  unfold ConvMonitor.progress
  split
  · split_ifs
    · norm_num
    · simp only [fmax_real, fmin_real]
      exact ⟨le_max_left _ _, max_le (by norm_num) (min_le_left _ _)⟩
  · norm_num

/-! ### Doubles -/

section Doubles
variable [Rounding] [LibM]

/-- The claim on progress for doubles. -/
def C63_claim : Prop := ∀ (windowSize : ℤ) (ops : List (MonOp F64)), F64.In01 (Traced.run windowSize ops).monitor.progress

/-- In doubles progress is in `[0, 1]` whenever the recorded distances are finite. -/
theorem C63_progress_partial (m : ConvMonitor F64) (h : ∀ x ∈ m.history, F64.IsFinite x.distance) :
    F64.In01 m.progress := by
  have h01 : ∀ x : F64, x ≠ .nan → F64.In01 (fmax 0 (fmin 1 x)) := by
    intro x hx
    cases x with
    | nan => exact absurd rfl hx
    | pinf =>
      refine ⟨1, isDouble_one, ?_, by norm_num, by norm_num⟩
      change fmax (F64.fin ⟨0, isDouble_zero⟩) (F64.fin ⟨1, isDouble_one⟩) = _
      change (if (1 : ℝ) < 0 then _ else _) = _
      rw [if_neg (by norm_num)]
    | ninf =>
      exact ⟨0, isDouble_zero, rfl, by norm_num, by norm_num⟩
    | fin d =>
      have e1 : fmin (1 : F64) (.fin d) = if (1 : ℝ) < d.1 then 1 else .fin d := rfl
      rw [e1]
      split_ifs with h1
      · refine ⟨1, isDouble_one, ?_, by norm_num, by norm_num⟩
        change (if (1 : ℝ) < 0 then _ else _) = _
        rw [if_neg (by norm_num)]
      · have e2 : fmax (0 : F64) (.fin d) = if d.1 < (0 : ℝ) then 0 else .fin d := rfl
        rw [e2]
        split_ifs with h2
        · exact ⟨0, isDouble_zero, rfl, by norm_num, by norm_num⟩
        · exact ⟨d.1, d.2, rfl, not_lt.1 h2, not_lt.1 h1⟩
  unfold ConvMonitor.progress
  split
  · rename_i first last hf hl
    have h1 := h first (List.mem_of_mem_head? hf)
    have h2 := h last (List.mem_of_getLast? hl)
    split_ifs with hc
    · exact ⟨1, isDouble_one, rfl, by norm_num, by norm_num⟩
    · apply h01
      cases hfd : first.distance with
      | fin a =>
        cases hld : last.distance with
        | fin b =>
          rw [hfd] at hc
          have ha : ¬ a.1 ≤ 0 := by simpa using hc
          rw [F64.div_fin (by intro h0; rw [h0] at ha; exact ha le_rfl)]
          unfold F64.ofReal
          split_ifs
          · rw [F64.one_def, F64.sub_fin]
            unfold F64.ofReal
            split_ifs <;> simp
          · exact fun h => by cases h
          · exact fun h => by cases h
        | nan => rw [hld] at h2; exact h2.elim
        | pinf => rw [hld] at h2; exact h2.elim
        | ninf => rw [hld] at h2; exact h2.elim
      | nan => rw [hfd] at h1; exact h1.elim
      | pinf => rw [hfd] at h1; exact h1.elim
      | ninf => rw [hfd] at h1; exact h1.elim
  · exact ⟨0, isDouble_zero, rfl, by norm_num, by norm_num⟩

example : ∀ x ∈ ({ ConvMonitor.new 10 with history := [⟨0, 1, 1, 0, 0⟩] } : ConvMonitor F64).history,
    F64.IsFinite x.distance := by
  intro x hx
  rw [List.mem_singleton.1 hx]
  trivial

/-- A NaN sample makes progress NaN. -/
theorem C63_refuted : ¬ C63_claim := fun h => by
  obtain ⟨y, hy, e, -⟩ := h 10 [.setTarget (some ⟨0, 0, 0, 0, [], 0⟩), .record 0 (some ⟨0, 0, 0, .nan, [], 0⟩) 0]
  have hd : patternDistance (some (⟨0, 0, 0, F64.nan, [], 0⟩ : TargetPattern F64)) (some ⟨0, 0, 0, 0, [], 0⟩) = .nan := by
    unfold patternDistance
    simp only
    have : ∀ x : F64, x + 0.3 * GoMath.abs (0 - F64.nan) = .nan := by
      intro x
      have h1 : (0 : F64) - F64.nan = .nan := rfl
      rw [h1]
      have h2 : (0.3 : F64) * GoMath.abs F64.nan = .nan := by
        change F64.mul _ .nan = .nan
        cases (0.3 : F64) <;> rfl
      rw [h2]
      change F64.add x .nan = .nan
      cases x <;> rfl
    exact this _
  have hh : (Traced.run 10 [.setTarget (some ⟨0, 0, 0, 0, [], 0⟩),
      .record 0 (some (⟨0, 0, 0, F64.nan, [], 0⟩ : TargetPattern F64)) 0]).monitor.history = [⟨0, .nan, 0, 0, 0⟩] := by
    simp only [Traced.run, List.foldl_cons, List.foldl_nil, Traced.step, ConvMonitor.record, updateStatus_history]
    simp only [ConvMonitor.sample, ConvMonitor.setTarget, ConvMonitor.new, List.getLast?_nil, hd, List.nil_append]
    rfl
  rw [progress_of_history _ ⟨0, .nan, 0, 0, 0⟩ ⟨0, .nan, 0, 0, 0⟩ (by rw [hh]; rfl) (by rw [hh]; rfl), if_neg (F64.nan_le _)] at e
  have : fmax (0 : F64) (fmin 1 (1 - F64.nan / F64.nan)) = .nan := rfl
  rw [this] at e
  cases e

end Doubles

theorem calculateTrend_const (c : ℝ) (n : ℕ) (h : 2 ≤ n) : calculateTrend (List.replicate n c) = 0 := by
  symm
  rw [← C63_trend _ (by simpa using h)]
  refine ⟨c, fun a' b' => ?_⟩
  have h0 : squaredError (List.replicate n c) c 0 = 0 := by
    unfold squaredError
    apply List.sum_eq_zero
    intro x hx
    obtain ⟨q, hq, rfl⟩ := List.mem_map.1 hx
    have := List.eq_of_mem_replicate (List.fst_mem_of_mem_zipIdx hq)
    rw [this]; ring
  rw [h0]
  unfold squaredError
  apply List.sum_nonneg
  intro x hx
  obtain ⟨q, -, rfl⟩ := List.mem_map.1 hx
  positivity

/-- Non-vacuity: a monitor that records the same distance again and again is judged flat from the third sample on, so it is
stuck after eight samples and not before. -/
theorem C63_stuck_example (p : TargetPattern ℝ) (n : ℕ) :
    (Traced.run 10 (.setTarget (some p) :: List.replicate n (.record 0 (some p) 1))).monitor.isStuck = true ↔ 8 ≤ n := by
  have key : ∀ n : ℕ, let t := Traced.run 10 (.setTarget (some p) :: List.replicate n (.record 0 (some p) 1))
      t.monitor.target = some p ∧ t.all.map (·.distance) = List.replicate n 0 ∧ flatRun t.verdicts = n - 2 := by
    intro n
    induction n with
    | zero => exact ⟨rfl, rfl, rfl⟩
    | succ n ih =>
      obtain ⟨h1, h2, h3⟩ := ih
      intro t
      have e : t = (Traced.run 10 (.setTarget (some p) :: List.replicate n (.record 0 (some p) 1))).step 10
          (.record 0 (some p) 1) := by
        unfold t Traced.run
        rw [List.replicate_succ', ← List.cons_append, List.foldl_append]
        rfl
      rw [e]
      generalize Traced.run 10 (.setTarget (some p) :: List.replicate n (.record 0 (some p) 1)) = u at *
      have hs : (u.monitor.sample 0 (some p) 1).distance = 0 := by
        rw [sample_distance, h1, C06_distance_self]
      have hall : ((u.all ++ [u.monitor.sample 0 (some p) 1]).map (·.distance)) = List.replicate (n + 1) 0 := by
        rw [List.map_append, h2, List.replicate_succ']
        simp [hs]
      refine ⟨(record_fields _ _ _ _).2.1.trans h1, hall, ?_⟩
      have hlen : (u.all ++ [u.monitor.sample 0 (some p) 1]).length = n + 1 := by
        have := congrArg List.length hall
        simpa using this
      simp only [Traced.step]
      generalize u.all ++ [u.monitor.sample 0 (some p) 1] = l at *
      unfold verdict
      by_cases hn : n + 1 < 3
      · rw [if_pos (by rw [lastN_length]; omega)]
        simp only [flatRun, h3]; omega
      · rw [if_neg (by rw [lastN_length]; omega)]
        have hm : (lastN 10 l).map (·.distance) = List.replicate (min (n + 1) 10) 0 := by
          unfold lastN
          rw [List.map_drop, hall, List.drop_replicate]
          congr 1
          omega
        rw [hm, calculateTrend_const 0 _ (by omega), if_pos (by norm_num)]
        simp only [flatRun, h3]; omega
  unfold ConvMonitor.isStuck
  rw [decide_eq_true_iff, (inv_run' 10 _).stuck, (key n).2.2]
  omega

/-- Progress is relative to the oldest retained sample, not the first one: when the history is trimmed progress can drop to
zero although the distance has only ever decreased. -/
theorem C63_progress_forgets :
    let p (c : ℝ) : TargetPattern ℝ := ⟨0, 0, 0, c, [], 0⟩
    let ops : List (MonOp ℝ) := [.setTarget (some (p 1)), .record 0 (some (p 0)) 0, .record 1 (some (p 0.5)) 0]
    let next : MonOp ℝ := .record 2 (some (p 0.6)) 0
    patternDistance (some (p 0.6)) (some (p 1)) < patternDistance (some (p 0.5)) (some (p 1)) ∧
    (Traced.run 1 ops).monitor.progress = 0.5 ∧ (Traced.run 1 (ops ++ [next])).monitor.progress = 0 := by
  intro p ops next
  have hd : ∀ c : ℝ, c ≤ 1 → patternDistance (some (p c)) (some (p 1)) = 0.3 * (1 - c) := by
    intro c hc
    rw [patternDistance_some]
    simp only [p, freqDeviation, (phaseDifference_eq_zero_iff 0 0).2 (SameAngle.refl 0)]
    norm_num
    exact hc
  generalize hm0 : (ConvMonitor.new 1 : ConvMonitor ℝ).setTarget (some (p 1)) = m0
  have a0 : m0.history = [] ∧ m0.target = some (p 1) ∧ m0.windowSize = 1 := by rw [← hm0]; exact ⟨rfl, rfl, rfl⟩
  generalize hm1 : m0.record 0 (some (p 0)) 0 = m1
  generalize hm2 : m1.record 1 (some (p 0.5)) 0 = m2
  generalize hm3 : m2.record 2 (some (p 0.6)) 0 = m3
  have e2 : (Traced.run 1 ops).monitor = m2 := by
    rw [← hm2, ← hm1, ← hm0]; simp only [Traced.run, ops, List.foldl_cons, List.foldl_nil, Traced.step]
  have e3 : (Traced.run 1 (ops ++ [next])).monitor = m3 := by
    rw [← hm3, ← hm2, ← hm1, ← hm0]; simp only [Traced.run, ops, next, List.cons_append, List.nil_append, List.foldl_cons,
    List.foldl_nil, Traced.step]
  obtain ⟨b1, b2, b3⟩ := record_fields m0 0 (some (p 0)) 0
  have s0 := sample_distance m0 0 (some (p 0)) 0
  rw [hm1, a0.1, a0.2.2] at b1; rw [hm1, a0.2.1] at b2; rw [hm1, a0.2.2] at b3
  rw [a0.2.1, hd 0 (by norm_num)] at s0
  generalize m0.sample 0 (some (p 0)) 0 = x0 at *
  obtain ⟨c1, c2, c3⟩ := record_fields m1 1 (some (p 0.5)) 0
  have s1 := sample_distance m1 1 (some (p 0.5)) 0
  rw [hm2, b1, b3] at c1; rw [hm2, b2] at c2; rw [hm2, b3] at c3
  rw [b2, hd 0.5 (by norm_num)] at s1
  generalize m1.sample 1 (some (p 0.5)) 0 = x1 at *
  obtain ⟨d1, -, -⟩ := record_fields m2 2 (some (p 0.6)) 0
  have s2 := sample_distance m2 2 (some (p 0.6)) 0
  rw [hm3, c1, c3] at d1
  rw [c2, hd 0.6 (by norm_num)] at s2
  generalize m2.sample 2 (some (p 0.6)) 0 = x2 at *
  have t1 : m2.history = [x0, x1] := c1
  have t2 : m3.history = [x2] := d1
  refine ⟨?_, ?_, ?_⟩
  · rw [hd _ (by norm_num), hd _ (by norm_num)]; norm_num
  · rw [e2, progress_of_history m2 x0 x1 (by rw [t1]; rfl) (by rw [t1]; rfl), s0, s1]
    norm_num
  · rw [e3, progress_of_history m3 x2 x2 (by rw [t2]; rfl) (by rw [t2]; rfl), s2]
    norm_num

end Verif
