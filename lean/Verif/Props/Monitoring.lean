import Verif.Model.Monitoring
import Verif.Lemmas.Regression
import Verif.Props.SyncSafe
import Mathlib.Analysis.SpecialFunctions.Exp

/-!
# C59, C60, C61 and C79: what the monitors remember and report
-/

set_option autoImplicit false
set_option linter.unusedSectionVars false

namespace Verif
open GoMath

section
variable {α : Type} [Zero α] [One α] [Add α] [Sub α] [Mul α] [Div α] [Neg α] [LT α] [LE α]
  [DecidableLT α] [DecidableLE α] [BEq α] [OfScientific α] [GoMath α]

/-! ## C59 -/

/-- `h` is what is left of `xs` when only the last `n` are kept. -/
def Spec.IsLast {β : Type} (n : ℕ) (xs h : List β) : Prop := h <:+ xs ∧ h.length = min n xs.length

theorem isLast_record (m : CohMonitor α) (xs : List α) (h : Spec.IsLast 100 xs m.history) (x : α) :
    Spec.IsLast 100 (xs ++ [x]) (m.recordSample x).history := by
  obtain ⟨⟨p, hp⟩, hl⟩ := h
  unfold CohMonitor.recordSample
  dsimp only
  subst hp
  rw [List.length_append] at hl
  split_ifs with h100
  · cases hh : m.history with
    | nil => rw [hh] at h100; simp at h100
    | cons y ys =>
      rw [hh] at hl h100
      refine ⟨⟨p ++ [y], by simp⟩, ?_⟩
      simp only [List.tail_cons, List.length_append, List.length_cons, List.length_nil] at hl h100 ⊢
      omega
  · refine ⟨⟨p, by simp⟩, ?_⟩
    simp only [List.length_append, List.length_cons, List.length_nil] at hl ⊢
    omega

/-- **C59.** After any sequence of samples the history is exactly the last 100 of them in order, and the latest value is the last
sample (0 if there is none). -/
theorem C59_history (xs : List α) :
    Spec.IsLast 100 xs (xs.foldl CohMonitor.recordSample CohMonitor.new).history ∧
    (xs = [] → (xs.foldl CohMonitor.recordSample (CohMonitor.new : CohMonitor α)).latest = 0) ∧
    (∀ ys x, xs = ys ++ [x] → (xs.foldl CohMonitor.recordSample CohMonitor.new).latest = x) := by
  refine ⟨?_, ?_, ?_⟩
  · induction xs using List.reverseRecOn with
    | nil => exact ⟨List.suffix_rfl, rfl⟩
    | append_singleton ys x ih =>
      rw [List.foldl_append]
      exact isLast_record _ ys ih x
  · rintro rfl; rfl
  · rintro ys x rfl
    rw [List.foldl_append]
    show CohMonitor.latest (CohMonitor.recordSample _ x) = x
    unfold CohMonitor.latest CohMonitor.recordSample
    dsimp only
    rw [List.getLast?_concat]

/-! ## C60 -/

/-- What the comparisons of a number type must satisfy here. -/
class LeNotLt (α : Type) [LT α] [LE α] : Prop where
  le_not_lt : ∀ x y : α, x ≤ y → ¬ y < x

instance : LeNotLt ℝ := ⟨fun _ _ h => not_lt.2 h⟩

instance : LeNotLt F64 := ⟨fun x y h h' => by
  cases x <;> cases y <;>
    first
    | exact h
    | exact h'
    | exact absurd ((F64.lt_fin _ _).1 h') (not_lt.2 ((F64.le_fin _ _).1 h))⟩

/-- The samples since the last reset, with their times. -/
def Spec.since {α : Type} (ops : List (TrackerOp α)) : List (α × ℤ) :=
  ops.foldl (fun l op => match op with
    | .record x t => l ++ [(x, t)]
    | .reset _ => []) []

/-- The time of the last reset, or of the creation. -/
def Spec.started {α : Type} (created : ℤ) (ops : List (TrackerOp α)) : ℤ :=
  ops.foldl (fun s op => match op with
    | .record _ _ => s
    | .reset t => t) created

/-- Some sample reaches the threshold and none after it is below. -/
def Spec.Reached (threshold : α) (l : List (α × ℤ)) : Prop :=
  ∃ pre x post, l = pre ++ x :: post ∧ threshold ≤ x.1 ∧ ∀ y ∈ post, ¬ y.1 < threshold

/-- The current unbroken stretch began at time `t`: the sample at `t` reaches the threshold, none after it is below, and before it the
threshold had not been reached (or had been lost again). -/
def Spec.ReachedAt (threshold : α) (l : List (α × ℤ)) (t : ℤ) : Prop :=
  ∃ pre x post, l = pre ++ (x, t) :: post ∧ threshold ≤ x ∧ (∀ y ∈ post, ¬ y.1 < threshold) ∧ ¬ Spec.Reached threshold pre

/-- What a monitor knows, in terms of the samples since the last reset. -/
structure Spec.Tracks (threshold : α) (start : ℤ) (l : List (α × ℤ)) (m : Tracker α) : Prop where
  threshold_eq : m.convergenceAt = threshold
  start_eq : m.startTime = start
  history_eq : m.history = l.map Prod.fst
  timestamps_eq : m.timestamps = l.map Prod.snd
  reached : m.convergedTime.isSome = true ↔ Spec.Reached threshold l
  reachedAt : ∀ t, m.convergedTime = some t → Spec.ReachedAt threshold l t

theorem reached_snoc [LeNotLt α] (threshold : α) (l : List (α × ℤ)) (x : α) (t : ℤ) :
    Spec.Reached threshold (l ++ [(x, t)]) ↔ threshold ≤ x ∨ (¬ x < threshold ∧ Spec.Reached threshold l) := by
  constructor
  · rintro ⟨pre, y, post, h, h1, h2⟩
    rcases List.eq_nil_or_concat post with rfl | ⟨post', z, rfl⟩
    · have := List.append_inj' h rfl
      simp only [List.cons.injEq, and_true] at this
      left; rw [← this.2] at h1; exact h1
    · rw [List.concat_eq_append] at h h2
      have h' : l ++ [(x, t)] = (pre ++ y :: post') ++ [z] := by rw [h]; simp
      have := List.append_inj' h' rfl
      simp only [List.cons.injEq, and_true] at this
      obtain ⟨rfl, rfl⟩ := this
      exact .inr ⟨h2 (x, t) (by simp), pre, y, post', rfl, h1, fun z hz => h2 z (by simp [hz])⟩
  · rintro (h | ⟨h, pre, y, post, rfl, h1, h2⟩)
    · exact ⟨l, (x, t), [], rfl, h, by simp⟩
    · refine ⟨pre, y, post ++ [(x, t)], by simp, h1, ?_⟩
      intro z hz
      rcases List.mem_append.1 hz with hz | hz
      · exact h2 z hz
      · rw [List.mem_singleton] at hz; subst hz; exact h

theorem tracks_record [LeNotLt α] {threshold : α} {start : ℤ} {l : List (α × ℤ)} {m : Tracker α}
    (h : Spec.Tracks threshold start l m) (x : α) (t : ℤ) : Spec.Tracks threshold start (l ++ [(x, t)]) (m.record x t) := by
  have keep : ∀ t', m.convergedTime = some t' → ¬ x < threshold → Spec.ReachedAt threshold (l ++ [(x, t)]) t' := by
    intro t' ht' hx
    obtain ⟨pre, y, post, rfl, h1, h2, h3⟩ := h.reachedAt t' ht'
    refine ⟨pre, y, post ++ [(x, t)], by simp, h1, ?_, h3⟩
    intro z hz
    rcases List.mem_append.1 hz with hz | hz
    · exact h2 z hz
    · rw [List.mem_singleton] at hz; subst hz; exact hx
  refine ⟨h.threshold_eq, h.start_eq, ?_, ?_, ?_, ?_⟩
  · show m.history ++ [x] = _
    rw [h.history_eq, List.map_append]; rfl
  · show m.timestamps ++ [t] = _
    rw [h.timestamps_eq, List.map_append]; rfl
  · rw [reached_snoc, ← h.reached]
    unfold Tracker.record
    dsimp only
    rw [h.threshold_eq]
    by_cases h1 : threshold ≤ x
    · have h2 := LeNotLt.le_not_lt _ _ h1
      cases hc : m.convergedTime <;> simp [h1, h2]
    · by_cases h2 : x < threshold
      · cases hc : m.convergedTime <;> simp [h1, h2]
      · cases hc : m.convergedTime <;> simp [h1, h2]
  · intro t' ht'
    unfold Tracker.record at ht'
    dsimp only at ht'
    rw [h.threshold_eq] at ht'
    split_ifs at ht' with h1 h2
    · injection ht' with ht'; subst ht'
      refine ⟨l, x, [], rfl, h1.1, by simp, ?_⟩
      rw [← h.reached]
      have := h1.2
      cases hc : m.convergedTime <;> simp [hc] at this ⊢
    · refine keep t' ht' fun hx => h2 ⟨hx, by rw [ht']; rfl⟩

theorem tracks_apply [LeNotLt α] {threshold : α} {start : ℤ} {l : List (α × ℤ)} {m : Tracker α}
    (h : Spec.Tracks threshold start l m) (op : TrackerOp α) :
    Spec.Tracks threshold (match op with | .record _ _ => start | .reset t => t)
      (match op with | .record x t => l ++ [(x, t)] | .reset _ => []) (m.apply op) := by
  cases op with
  | record x t => exact tracks_record h x t
  | reset t =>
    refine ⟨h.threshold_eq, rfl, rfl, rfl, ?_, ?_⟩
    · constructor
      · intro h; cases h
      · rintro ⟨pre, x, post, h, -, -⟩; simp at h
    · intro t' h; cases h

/-- **C60.** After any history of samples and resets the monitor holds exactly the samples since the last reset; it is converged exactly
when one of them reached the threshold and none after that was below it, and then the recorded time is the beginning of that unbroken
stretch. This holds for every number type; a NaN sample is neither above nor below the threshold. -/
theorem C60_tracks [LeNotLt α] (threshold : α) (created : ℤ) (ops : List (TrackerOp α)) :
    Spec.Tracks threshold (Spec.started created ops) (Spec.since ops) (ops.foldl Tracker.apply (Tracker.new threshold created)) := by
  induction ops using List.reverseRecOn with
  | nil =>
    refine ⟨rfl, rfl, rfl, rfl, ?_, fun t h => by cases h⟩
    constructor
    · intro h; cases h
    · rintro ⟨pre, x, post, h, -, -⟩; simp [Spec.since] at h
  | append_singleton ops op ih =>
    have h1 := tracks_apply ih op
    unfold Spec.started Spec.since at h1 ⊢
    simp only [List.foldl_append, List.foldl_cons, List.foldl_nil]
    exact h1

/-- **C60.** The reported values: converged or not, the time from the start to the beginning of the current stretch (0 when not converged),
and the last sample (0 if there is none). -/
theorem C60_reports [LeNotLt α] (threshold : α) (created : ℤ) (ops : List (TrackerOp α)) :
    let m := ops.foldl Tracker.apply (Tracker.new threshold created)
    (m.isConverged = true ↔ Spec.Reached threshold (Spec.since ops)) ∧
    (m.isConverged = false → m.convergenceTime = 0) ∧
    (m.isConverged = true → ∃ t, Spec.ReachedAt threshold (Spec.since ops) t ∧ m.convergenceTime = t - Spec.started created ops) ∧
    (Spec.since ops = [] → m.currentCoherence = 0) ∧
    (∀ l x t, Spec.since ops = l ++ [(x, t)] → m.currentCoherence = x) := by
  have h := C60_tracks threshold created ops
  dsimp only
  generalize ops.foldl Tracker.apply (Tracker.new threshold created) = m at h
  refine ⟨h.reached, ?_, ?_, ?_, ?_⟩
  · intro hc
    unfold Tracker.isConverged at hc
    unfold Tracker.convergenceTime
    cases hm : m.convergedTime with
    | none => rfl
    | some t => rw [hm] at hc; cases hc
  · intro hc
    unfold Tracker.isConverged at hc
    unfold Tracker.convergenceTime
    cases hm : m.convergedTime with
    | none => rw [hm] at hc; cases hc
    | some t => exact ⟨t, h.reachedAt t hm, by rw [h.start_eq]⟩
  · intro hl
    unfold Tracker.currentCoherence
    rw [h.history_eq, hl]; rfl
  · intro l x t hl
    unfold Tracker.currentCoherence
    rw [h.history_eq, hl, List.map_append]
    simp

end

/-- **C60, over the reals.** Converged exactly when the most recent sample since the last reset reaches the threshold. -/
theorem C60_last (threshold : ℝ) (created : ℤ) (ops : List (TrackerOp ℝ)) :
    (ops.foldl Tracker.apply (Tracker.new threshold created)).isConverged = true ↔
      ∃ l x t, Spec.since ops = l ++ [(x, t)] ∧ threshold ≤ x := by
  rw [(C60_reports threshold created ops).1]
  rcases List.eq_nil_or_concat (Spec.since ops) with h | ⟨l, ⟨x, t⟩, h⟩
  · rw [h]
    constructor
    · rintro ⟨pre, x, post, h, -, -⟩; simp at h
    · rintro ⟨pre, x, post, h, -⟩; simp at h
  · rw [List.concat_eq_append] at h
    rw [h, reached_snoc]
    constructor
    · rintro (h1 | h1)
      · exact ⟨l, x, t, rfl, h1⟩
      · exact ⟨l, x, t, rfl, not_lt.1 h1.1⟩
    · rintro ⟨l', x', t', h', h1⟩
      have := List.append_inj' h' rfl
      simp only [List.cons.injEq, Prod.mk.injEq, and_true] at this
      rw [this.2.1]; exact .inl h1

/-- **C60, in doubles.** A sample that is not a number never changes the status: a converged monitor stays converged. -/
theorem C60_nan_sticks [Rounding] [LibM] (m : Tracker F64) (t : ℤ) : (m.record .nan t).convergedTime = m.convergedTime := by
  have h1 : ∀ x : F64, ¬ x ≤ .nan := fun x => by cases x <;> exact not_false
  have h2 : ∀ x : F64, ¬ F64.nan < x := fun x => by cases x <;> exact not_false
  unfold Tracker.record
  dsimp only
  rw [if_neg (fun h => h1 _ h.1), if_neg (fun h => h2 _ h.1)]

/-- **C60, over the reals.** The extremes are the true extremes of the samples since the last reset and the initial values 0 and 1. -/
theorem C60_extremes (threshold : ℝ) (created : ℤ) (ops : List (TrackerOp ℝ)) :
    let m := ops.foldl Tracker.apply (Tracker.new threshold created)
    IsGreatest {x | x = 0 ∨ ∃ t, (x, t) ∈ Spec.since ops} m.maxCoherence ∧
    IsLeast {x | x = 1 ∨ ∃ t, (x, t) ∈ Spec.since ops} m.minCoherence := by
  dsimp only
  induction ops using List.reverseRecOn with
  | nil =>
    refine ⟨⟨.inl rfl, ?_⟩, ⟨.inl rfl, ?_⟩⟩
    · rintro x (rfl | ⟨t, h⟩)
      · exact le_rfl
      · cases h
    · rintro x (rfl | ⟨t, h⟩)
      · exact le_rfl
      · cases h
  | append_singleton ops op ih =>
    obtain ⟨⟨g1, g2⟩, ⟨l1, l2⟩⟩ := ih
    rw [List.foldl_append]
    generalize ops.foldl Tracker.apply (Tracker.new threshold created) = m at g1 g2 l1 l2
    have hs : Spec.since (ops ++ [op]) = match op with | .record x t => Spec.since ops ++ [(x, t)] | .reset _ => [] := by
      unfold Spec.since; rw [List.foldl_append]; cases op <;> rfl
    rw [hs]
    cases op with
    | reset t =>
      refine ⟨⟨.inl rfl, ?_⟩, ⟨.inl rfl, ?_⟩⟩
      · rintro x (rfl | ⟨t, h⟩)
        · exact le_rfl
        · cases h
      · rintro x (rfl | ⟨t, h⟩)
        · exact le_rfl
        · cases h
    | record x t =>
      show IsGreatest _ (if x > m.maxCoherence then x else m.maxCoherence) ∧ IsLeast _ (if x < m.minCoherence then x else m.minCoherence)
      refine ⟨?_, ?_⟩
      · split_ifs with h
        · refine ⟨.inr ⟨t, by simp⟩, ?_⟩
          rintro y (rfl | ⟨t', hy⟩)
          · exact le_of_lt (lt_of_le_of_lt (g2 (.inl rfl)) h)
          · rcases List.mem_append.1 hy with hy | hy
            · exact le_of_lt (lt_of_le_of_lt (g2 (.inr ⟨t', hy⟩)) h)
            · rw [List.mem_singleton] at hy; injection hy with hy; exact hy.le
        · refine ⟨?_, ?_⟩
          · rcases g1 with g1 | ⟨t', g1⟩
            · exact .inl g1
            · exact .inr ⟨t', List.mem_append_left _ g1⟩
          · rintro y (rfl | ⟨t', hy⟩)
            · exact g2 (.inl rfl)
            · rcases List.mem_append.1 hy with hy | hy
              · exact g2 (.inr ⟨t', hy⟩)
              · rw [List.mem_singleton] at hy; injection hy with hy; rw [hy]; exact not_lt.1 h
      · split_ifs with h
        · refine ⟨.inr ⟨t, by simp⟩, ?_⟩
          rintro y (rfl | ⟨t', hy⟩)
          · exact le_of_lt (lt_of_lt_of_le h (l2 (.inl rfl)))
          · rcases List.mem_append.1 hy with hy | hy
            · exact le_of_lt (lt_of_lt_of_le h (l2 (.inr ⟨t', hy⟩)))
            · rw [List.mem_singleton] at hy; injection hy with hy; exact hy.ge
        · refine ⟨?_, ?_⟩
          · rcases l1 with l1 | ⟨t', l1⟩
            · exact .inl l1
            · exact .inr ⟨t', List.mem_append_left _ l1⟩
          · rintro y (rfl | ⟨t', hy⟩)
            · exact l2 (.inl rfl)
            · rcases List.mem_append.1 hy with hy | hy
              · exact l2 (.inr ⟨t', hy⟩)
              · rw [List.mem_singleton] at hy; injection hy with hy; rw [hy]; exact not_lt.1 h

/-- The time of a call. -/
def Spec.time {α : Type} : TrackerOp α → ℤ
  | .record _ t => t
  | .reset t => t

/-- Times never go back. -/
def Spec.Ordered {α : Type} (created : ℤ) (ops : List (TrackerOp α)) : Prop :=
  (created :: ops.map Spec.time).Pairwise (· ≤ ·)

/-- **C60.** With times that never go back the convergence time is not negative. -/
theorem C60_time_nonneg {α : Type} [Zero α] [One α] [Add α] [Sub α] [Mul α] [Div α] [Neg α] [LT α] [LE α]
    [DecidableLT α] [DecidableLE α] [BEq α] [OfScientific α] [GoMath α] [LeNotLt α] (threshold : α) (created : ℤ)
    (ops : List (TrackerOp α)) (h : Spec.Ordered created ops) :
    0 ≤ (ops.foldl Tracker.apply (Tracker.new threshold created)).convergenceTime := by
  have key : ∀ p ∈ Spec.since ops, Spec.started created ops ≤ p.2 := by
    clear threshold
    have : ∀ (ops : List (TrackerOp α)), Spec.Ordered created ops →
        (∀ p ∈ Spec.since ops, Spec.started created ops ≤ p.2) ∧
        (Spec.started created ops = created ∨ ∃ op ∈ ops, Spec.started created ops = Spec.time op) := by
      intro ops
      induction ops using List.reverseRecOn with
      | nil => exact fun _ => ⟨by simp [Spec.since], .inl rfl⟩
      | append_singleton ops op ih =>
        intro h
        unfold Spec.Ordered at h
        rw [List.map_append, ← List.cons_append, List.pairwise_append] at h
        obtain ⟨i1, i2⟩ := ih h.1
        have hle : ∀ z ∈ created :: ops.map Spec.time, z ≤ Spec.time op := fun z hz => h.2.2 z hz _ (by simp)
        unfold Spec.since Spec.started at *
        simp only [List.foldl_append, List.foldl_cons, List.foldl_nil]
        cases op with
        | reset t => exact ⟨by simp, .inr ⟨.reset t, by simp, rfl⟩⟩
        | record x t =>
          refine ⟨?_, ?_⟩
          · intro p hp
            rcases List.mem_append.1 hp with hp | hp
            · exact i1 p hp
            · rw [List.mem_singleton] at hp; subst hp
              rcases i2 with i2 | ⟨op', ho, i2⟩
              · dsimp only at i2 ⊢; rw [i2]; exact hle _ (by simp)
              · dsimp only at i2 ⊢; rw [i2]; exact hle _ (List.mem_cons_of_mem _ (List.mem_map_of_mem ho))
          · rcases i2 with i2 | ⟨op', ho, i2⟩
            · exact .inl i2
            · exact .inr ⟨op', List.mem_append_left _ ho, i2⟩
    exact (this ops h).1
  obtain ⟨-, h2, h3, -⟩ := C60_reports threshold created ops
  rcases hc : (ops.foldl Tracker.apply (Tracker.new threshold created)).isConverged with - | -
  · exact (h2 hc).ge
  · obtain ⟨t, ⟨pre, x, post, e, -⟩, et⟩ := h3 hc
    rw [et]
    have := key (x, t) (by rw [e]; simp)
    dsimp only at this
    omega

/-! ## C61 over the reals -/

theorem lastN_suffix {β : Type} (n : ℕ) (h : List β) : Spec.IsLast n h (lastN n h) := by
  unfold lastN
  refine ⟨List.drop_suffix _ _, ?_⟩
  rw [List.length_drop]
  split_ifs <;> omega

theorem isLast_unique {β : Type} {n : ℕ} {h a b : List β} (ha : Spec.IsLast n h a) (hb : Spec.IsLast n h b) : a = b := by
  rw [List.suffix_iff_eq_drop.1 ha.1, List.suffix_iff_eq_drop.1 hb.1, ha.2, hb.2]

/-- **C61.** With at least two samples the reported rate is the slope of the line that fits the last at most ten samples best, in the
least-squares sense, and there is only one such slope; with fewer samples it is 0. -/
theorem C61_rate (m : Tracker ℝ) (ys : List ℝ) (hy : Spec.IsLast 10 m.history ys) :
    (2 ≤ m.history.length → ∀ b, Spec.IsFitSlope ys b ↔ b = m.convergenceRate) ∧
    (m.history.length < 2 → m.convergenceRate = 0) := by
  have e := isLast_unique hy (lastN_suffix 10 m.history)
  refine ⟨fun h b => ?_, fun h => ?_⟩
  · have hl : 2 ≤ ys.length := by rw [hy.2]; omega
    rw [fitSlope_iff ys hl]
    unfold Tracker.convergenceRate
    rw [if_neg (by omega)]
    dsimp only
    rw [← e]
    simp only [trendSums_eq, ofInt_real, Int.cast_natCast]
  · unfold Tracker.convergenceRate; rw [if_pos h]

/-- **C61.** The division is always by a number that is at least 1. -/
theorem C61_denominator (ys : List ℝ) (h : 2 ≤ ys.length) :
    1 ≤ (ofInt (ys.length : ℤ) : ℝ) * (trendSums ys).2.2.2 - (trendSums ys).1 * (trendSums ys).1 := by
  simp only [trendSums_eq, ofInt_real, Int.cast_natCast]
  exact denominator_ge ys h

/-- **C61.** On samples that lie on a line the rate is exactly its slope; in particular it is 0 on constant samples. -/
theorem C61_rate_linear (m : Tracker ℝ) (ys : List ℝ) (hy : Spec.IsLast 10 m.history ys) (h2 : 2 ≤ m.history.length) (a b : ℝ)
    (h : ∀ p ∈ ys.zipIdx, p.1 = a + b * (p.2 : ℝ)) : m.convergenceRate = b := by
  refine (((C61_rate m ys hy).1 h2 b).1 ⟨a, fun a' b' => ?_⟩).symm
  have h0 : Spec.squaredError ys a b = 0 := by
    unfold Spec.squaredError
    apply List.sum_eq_zero
    intro x hx
    obtain ⟨p, hp, rfl⟩ := List.mem_map.1 hx
    rw [h p hp]; ring
  rw [h0]
  unfold Spec.squaredError
  apply List.sum_nonneg
  intro x hx
  obtain ⟨p, -, rfl⟩ := List.mem_map.1 hx
  positivity

/-- **C61.** Reflecting the samples (`y` becomes `c - y`) negates the rate. -/
theorem C61_rate_reflect (m m' : Tracker ℝ) (c : ℝ) (h : m'.history = m.history.map (c - ·)) :
    m'.convergenceRate = -m.convergenceRate := by
  by_cases h2 : 2 ≤ m.history.length
  · have hy := lastN_suffix 10 m.history
    have hy' : Spec.IsLast 10 m'.history ((lastN 10 m.history).map (c - ·)) := by
      rw [h]
      exact ⟨hy.1.map _, by rw [List.length_map, List.length_map]; exact hy.2⟩
    have h2' : 2 ≤ m'.history.length := by rw [h, List.length_map]; exact h2
    obtain ⟨a, ha⟩ := ((C61_rate m _ hy).1 h2 _).2 rfl
    refine (((C61_rate m' _ hy').1 h2' _).1 ⟨c - a, fun a' b' => ?_⟩).symm
    have key : ∀ (ys : List ℝ) (a b : ℝ), Spec.squaredError (ys.map (c - ·)) a b = Spec.squaredError ys (c - a) (-b) := by
      intro ys a b
      unfold Spec.squaredError
      rw [List.zipIdx_map, List.map_map]
      congr 1
      apply List.map_congr_left
      intro p _
      simp only [Function.comp, Prod.map]
      simp only [id]
      ring
    rw [key, key]
    have := ha (c - a') (-b')
    simpa using this
  · have e := (C61_rate m _ (lastN_suffix 10 m.history)).2 (by omega)
    have e' := (C61_rate m' _ (lastN_suffix 10 m'.history)).2 (by rw [h, List.length_map]; omega)
    rw [e, e', neg_zero]

theorem foldl_add_eq (l : List ℝ) (s : ℝ) : l.foldl (· + ·) s = s + l.sum := by
  induction l generalizing s with
  | nil => simp
  | cons x xs ih => rw [List.foldl_cons, ih, List.sum_cons]; ring

theorem foldl_sq_eq (l : List ℝ) (c s : ℝ) :
    l.foldl (fun v y => let diff := y - c; v + diff * diff) s = s + (l.map fun y => (y - c) ^ 2).sum := by
  induction l generalizing s with
  | nil => simp
  | cons x xs ih => rw [List.foldl_cons, ih, List.map_cons, List.sum_cons]; ring

theorem sliceVariance_eq (l : List ℝ) : sliceVariance l = (l.map fun y => (y - l.sum / l.length) ^ 2).sum / l.length := by
  unfold sliceVariance sliceMean
  dsimp only
  rw [foldl_sq_eq, foldl_add_eq]
  simp

/-- **C61.** Stability is in `(0, 1]`, and equal to 1 exactly when the last at most twenty samples are all equal. -/
theorem C61_stability (m : Tracker ℝ) (ys : List ℝ) (hy : Spec.IsLast 20 m.history ys) :
    0 < m.stability ∧ m.stability ≤ 1 ∧ (m.stability = 1 ↔ ∀ x ∈ ys, ∀ y ∈ ys, x = y) := by
  have e := isLast_unique hy (lastN_suffix 20 m.history)
  unfold Tracker.stability
  split_ifs with h
  · refine ⟨by norm_num, by norm_num, fun _ => ?_, fun _ => by norm_num⟩
    have hl : ys.length < 2 := by rw [hy.2]; omega
    intro x hx y hy'
    match ys, hl with
    | [z], _ => rw [List.mem_singleton] at hx hy'; rw [hx, hy']
  · rw [← e, sliceVariance_eq]
    have hl : 2 ≤ ys.length := by rw [hy.2]; omega
    have hn : (0 : ℝ) < ys.length := by exact_mod_cast (by omega : 0 < ys.length)
    have hs : 0 ≤ (ys.map fun y => (y - ys.sum / ys.length) ^ 2).sum := by
      apply List.sum_nonneg
      intro x hx
      obtain ⟨p, -, rfl⟩ := List.mem_map.1 hx
      positivity
    simp only [exp_real, sqrt_real]
    refine ⟨Real.exp_pos _, ?_, ?_⟩
    · rw [Real.exp_le_one_iff]
      have := Real.sqrt_nonneg ((ys.map fun y => (y - ys.sum / ys.length) ^ 2).sum / ys.length)
      have h10 : (0 : ℝ) ≤ 10.0 := by norm_num
      have := mul_nonneg this h10
      linarith
    · rw [Real.exp_eq_one_iff]
      have h1 : -√((ys.map fun y => (y - ys.sum / ys.length) ^ 2).sum / ys.length) * 10.0 = 0 ↔
          (ys.map fun y => (y - ys.sum / ys.length) ^ 2).sum = 0 := by
        rw [mul_eq_zero, or_iff_left (by norm_num), neg_eq_zero, Real.sqrt_eq_zero (by positivity), div_eq_zero_iff,
          or_iff_left hn.ne']
      rw [h1]
      constructor
      · intro h0
        have h2 : ∀ y ∈ ys, y = ys.sum / ys.length := by
          intro y hy'
          have h3 := List.single_le_sum (l := ys.map fun y => (y - ys.sum / ys.length) ^ 2) (by
            intro x hx
            obtain ⟨p, -, rfl⟩ := List.mem_map.1 hx
            positivity) _ (List.mem_map_of_mem hy')
          rw [h0] at h3
          have h4 := pow_eq_zero_iff two_ne_zero |>.1 (le_antisymm h3 (sq_nonneg _))
          linarith
        intro x hx y hy'
        rw [h2 x hx, h2 y hy']
      · intro hc
        obtain ⟨z, hz⟩ : ∃ z, z ∈ ys := List.exists_mem_of_length_pos (by omega)
        have hsum : ys.sum = ys.length * z := by
          have : ys = List.replicate ys.length z := List.eq_replicate_of_mem fun x hx => hc x hx z hz
          rw [this, List.sum_replicate]; simp
        apply List.sum_eq_zero
        intro x hx
        obtain ⟨p, hp, rfl⟩ := List.mem_map.1 hx
        rw [hc p hp z hz, hsum]
        field_simp
        ring

/-- **C59, over the reals.** The average is the mean of the last 100 samples. -/
theorem C59_average (xs ys : List ℝ) (h : Spec.IsLast 100 xs ys) :
    (xs.foldl CohMonitor.recordSample CohMonitor.new).average = ys.sum / ys.length := by
  have e := isLast_unique h (C59_history xs).1
  unfold CohMonitor.average
  rw [← e, foldl_add_eq]
  split_ifs with h0
  · rw [h0]; simp
  · simp

/-! ## C79 over the reals -/

/-- **C79.** The prediction is 0 when converged, when the rate is not positive and when nothing remains; otherwise it is the number of whole
nanoseconds in `remaining / rate` periods of 100 ms. It is never negative. -/
theorem C79_predict (m : Tracker ℝ) :
    0 ≤ m.predictConvergenceTime ∧
    (m.isConverged = true ∨ m.convergenceRate ≤ 0 ∨ m.convergenceAt ≤ m.currentCoherence → m.predictConvergenceTime = 0) ∧
    (m.isConverged = false → 0 < m.convergenceRate → m.currentCoherence < m.convergenceAt →
      m.predictConvergenceTime = ⌊(m.convergenceAt - m.currentCoherence) / m.convergenceRate * 100000000⌋) := by
  unfold Tracker.predictConvergenceTime Tracker.isConverged
  dsimp only
  have pos : 0 < m.convergenceRate → m.currentCoherence < m.convergenceAt →
      toInt ((m.convergenceAt - m.currentCoherence) / m.convergenceRate * (ofInt 100000000 : ℝ)) =
        ⌊(m.convergenceAt - m.currentCoherence) / m.convergenceRate * 100000000⌋ := by
    intro h1 h2
    have : 0 ≤ (m.convergenceAt - m.currentCoherence) / m.convergenceRate := div_nonneg (by linarith) h1.le
    simp only [toInt_real, ofInt_real]
    push_cast
    unfold rtrunc
    rw [if_pos (by positivity)]
  refine ⟨?_, ?_, ?_⟩
  · split_ifs with h1 h2 h3
    · exact le_rfl
    · exact le_rfl
    · exact le_rfl
    · have : 0 ≤ (m.convergenceAt - m.currentCoherence) / m.convergenceRate := div_nonneg (by linarith) (by linarith)
      rw [pos (by linarith) (by linarith)]
      positivity
  · rintro (h | h | h)
    · rw [if_pos h]
    · rw [if_pos h]; split_ifs <;> rfl
    · rw [if_pos (show m.convergenceAt - m.currentCoherence ≤ 0 by linarith)]; split_ifs <;> rfl
  · intro h1 h2 h3
    rw [if_neg (by rw [h1]; simp), if_neg (by linarith), if_neg (by linarith)]
    exact pos h2 h3

/-- **C79.** The prediction is right for samples on a rising line: if the line is continued, the threshold is first reached at the end of
the predicted time, up to the 100 ms between samples. -/
theorem C79_predict_line (m : Tracker ℝ) (ys : List ℝ) (hy : Spec.IsLast 10 m.history ys) (h2 : 2 ≤ m.history.length) (a b : ℝ)
    (hb : 0 < b) (h : ∀ p ∈ ys.zipIdx, p.1 = a + b * (p.2 : ℝ)) (hc : m.isConverged = false) (hm : m.currentCoherence < m.convergenceAt)
    (k : ℕ) :
    (m.convergenceAt ≤ m.currentCoherence + b * k → m.predictConvergenceTime ≤ 100000000 * k) ∧
    (m.currentCoherence + b * k < m.convergenceAt → 100000000 * (k : ℤ) ≤ m.predictConvergenceTime) := by
  have hr := C61_rate_linear m ys hy h2 a b h
  rw [(C79_predict m).2.2 hc (by rw [hr]; exact hb) hm, hr]
  constructor
  · intro hk
    have h1 : (m.convergenceAt - m.currentCoherence) / b ≤ k := by rw [div_le_iff₀ hb]; linarith
    have h3 : (⌊(m.convergenceAt - m.currentCoherence) / b * 100000000⌋ : ℝ) ≤ ((100000000 * (k : ℤ) : ℤ) : ℝ) :=
      (Int.floor_le _).trans (by push_cast; linarith)
    exact_mod_cast h3
  · intro hk
    have h1 : (k : ℝ) ≤ (m.convergenceAt - m.currentCoherence) / b := by rw [le_div_iff₀ hb]; linarith
    rw [Int.le_floor]
    push_cast
    linarith

/-! ## In doubles -/

section
variable [Rounding] [LibM]

theorem ofReal_add {a b : ℝ} (ha : IsDouble a) (hb : IsDouble b) : F64.ofReal a + F64.ofReal b = F64.ofReal (a + b) := by
  rw [F64.ofReal_of_isDouble ha, F64.ofReal_of_isDouble hb, F64.add_fin]

theorem ofReal_sub {a b : ℝ} (ha : IsDouble a) (hb : IsDouble b) : F64.ofReal a - F64.ofReal b = F64.ofReal (a - b) := by
  rw [F64.ofReal_of_isDouble ha, F64.ofReal_of_isDouble hb, F64.sub_fin]

theorem ofReal_mul {a b : ℝ} (ha : IsDouble a) (hb : IsDouble b) : F64.ofReal a * F64.ofReal b = F64.ofReal (a * b) := by
  rw [F64.ofReal_of_isDouble ha, F64.ofReal_of_isDouble hb, F64.mul_fin]

theorem ofReal_div {a b : ℝ} (ha : IsDouble a) (hb : IsDouble b) (h : b ≠ 0) : F64.ofReal a / F64.ofReal b = F64.ofReal (a / b) := by
  rw [F64.ofReal_of_isDouble ha, F64.ofReal_of_isDouble hb, F64.div_fin h]

/-- The sum of `n` doubles in `[0, 1]` is in `[0, n]`, whatever the roundings. -/
theorem sum01_double (l : List F64) (hl : ∀ x ∈ l, F64.In01 x) (k : ℕ) (hk : k + l.length < 2 ^ 53) (s : Dbl) (h0 : 0 ≤ s.1)
    (hs : s.1 ≤ k) : ∃ d : Dbl, l.foldl (· + ·) (F64.fin s) = .fin d ∧ 0 ≤ d.1 ∧ d.1 ≤ (k + l.length : ℕ) := by
  induction l generalizing k s with
  | nil => exact ⟨s, rfl, h0, by simpa using hs⟩
  | cons x xs ih =>
    obtain ⟨y, hy, rfl, y0, y1⟩ := hl x (by simp)
    rw [List.length_cons] at hk
    rw [List.foldl_cons, F64.add_fin]
    obtain ⟨z, e, z0, z1⟩ := F64.ofReal_int_between (x := s.1 + y) 0 ((k + 1 : ℕ) : ℤ) (by norm_num)
      (by rw [abs_of_nonneg (by positivity)]; omega) (by push_cast; linarith) (by push_cast; linarith)
    rw [e]
    obtain ⟨d, e', d0, d1⟩ := ih (fun x hx => hl x (by simp [hx])) (k + 1) (by omega) z (by exact_mod_cast z0) (by exact_mod_cast z1)
    exact ⟨d, e', d0, by rw [List.length_cons]; convert d1 using 2; omega⟩

/-- The mean of doubles in `[0, 1]` is in `[0, 1]`. -/
theorem mean01_double (l : List F64) (hl : ∀ x ∈ l, F64.In01 x) (hn : l.length < 2 ^ 53) (h0 : l.length ≠ 0) :
    F64.In01 (l.foldl (· + ·) 0 / ofInt (l.length : ℤ)) := by
  obtain ⟨d, e, d0, d1⟩ := sum01_double l hl 0 (by omega) ⟨0, isDouble_zero⟩ le_rfl (by simp)
  have dn : IsDouble ((l.length : ℤ) : ℝ) := isDouble_int (by rw [abs_of_nonneg (by positivity)]; omega)
  have en : (ofInt (l.length : ℤ) : F64) = .fin ⟨_, dn⟩ := F64.ofReal_of_isDouble dn
  have hp : (0 : ℝ) < ((l.length : ℤ) : ℝ) := by push_cast; exact_mod_cast Nat.pos_of_ne_zero h0
  rw [F64.zero_def, e, en, F64.div_fin hp.ne']
  refine F64.in01_ofReal (div_nonneg d0 hp.le) ?_
  rw [div_le_one hp]
  push_cast
  simpa using d1

/-- **C59, in doubles.** The average of samples in `[0, 1]` is in `[0, 1]`. -/
theorem C59_average_double (xs : List F64) (h : ∀ x ∈ xs, F64.In01 x) :
    F64.In01 (xs.foldl CohMonitor.recordSample CohMonitor.new).average := by
  obtain ⟨h1, h2⟩ := (C59_history xs).1
  unfold CohMonitor.average
  split_ifs with h0
  · exact ⟨0, isDouble_zero, F64.zero_def, le_rfl, by norm_num⟩
  · exact mean01_double _ (fun x hx => h x (h1.subset hx)) (by omega) h0

/-- **C61, in doubles.** For samples in `[0, 1]` stability is a number in `[0, 1]` (0 is possible where `exp` underflows). -/
theorem C61_stability_double (m : Tracker F64) (h : ∀ x ∈ m.history, F64.In01 x) : F64.In01 m.stability := by
  unfold Tracker.stability
  split_ifs with h2
  · exact F64.in01_ofReal (by norm_num) (by norm_num)
  · obtain ⟨l1, l2⟩ := lastN_suffix 20 m.history
    have hl : ∀ x ∈ lastN 20 m.history, F64.In01 x := fun x hx => h x (l1.subset hx)
    generalize lastN 20 m.history = ys at l2 hl
    have hn : ys.length ≤ 20 := by omega
    have h0 : ys.length ≠ 0 := by omega
    obtain ⟨c, hc, ec, c0, c1⟩ := mean01_double ys hl (by omega) h0
    have sq : ∀ x, F64.In01 x → ∃ y, F64.In01 y ∧ ∀ v, v + (x - F64.fin ⟨c, hc⟩) * (x - F64.fin ⟨c, hc⟩) = v + y := by
      rintro _ ⟨x, hx, rfl, x0, x1⟩
      rw [F64.sub_fin]
      obtain ⟨z, e, z0, z1⟩ := F64.ofReal_int_between (x := x - c) (-1) 1 (by norm_num) (by norm_num) (by push_cast; linarith)
        (by push_cast; linarith)
      refine ⟨_, ?_, fun v => rfl⟩
      change F64.In01 (F64.ofReal (x - c) * F64.ofReal (x - c))
      rw [e, F64.mul_fin]
      push_cast at z0 z1
      exact F64.in01_ofReal (mul_self_nonneg _) (by nlinarith)
    have fold : ∀ (l : List F64) (v : F64), (∀ x ∈ l, F64.In01 x) → ∃ l' : List F64, l'.length = l.length ∧ (∀ x ∈ l', F64.In01 x) ∧
        l.foldl (fun v y => v + (y - F64.fin ⟨c, hc⟩) * (y - F64.fin ⟨c, hc⟩)) v = l'.foldl (· + ·) v := by
      intro l
      induction l with
      | nil => exact fun v _ => ⟨[], rfl, by simp, rfl⟩
      | cons x xs ih =>
        intro v hx
        obtain ⟨y, hy, ey⟩ := sq x (hx x (by simp))
        obtain ⟨l', e1, e2, e3⟩ := ih (v + y) (fun x h => hx x (by simp [h]))
        refine ⟨y :: l', by simp [e1], ?_, ?_⟩
        · intro z hz
          rcases List.mem_cons.1 hz with rfl | hz
          · exact hy
          · exact e2 z hz
        · rw [List.foldl_cons, List.foldl_cons, ey, e3]
    obtain ⟨l', e1, e2, e3⟩ := fold ys 0 hl
    have hv : F64.In01 (sliceVariance ys) := by
      unfold sliceVariance sliceMean
      dsimp only
      rw [ec, e3, ← e1]
      exact mean01_double l' e2 (by omega) (by omega)
    obtain ⟨v, hv, ev, v0, v1⟩ := hv
    rw [ev]
    have es : F64.In01 (GoMath.sqrt (F64.fin ⟨v, hv⟩)) := by
      change F64.In01 (if v < 0 then F64.nan else F64.ofReal (Real.sqrt v))
      rw [if_neg (by linarith)]
      exact F64.in01_ofReal (Real.sqrt_nonneg _) (Real.sqrt_le_one.2 v1)
    obtain ⟨r, hr, er, r0, r1⟩ := es
    rw [er]
    have e10 : (10.0 : F64) = .fin ⟨((10 : ℤ) : ℝ), isDouble_int (by norm_num)⟩ := lit_int (10.0 : ℝ) 10 (by norm_num) (by norm_num)
    rw [e10]
    change F64.In01 (GoMath.exp (F64.ofReal (-r * ((10 : ℤ) : ℝ))))
    obtain ⟨z, e, z0, z1⟩ := F64.ofReal_int_between (x := -r * ((10 : ℤ) : ℝ)) (-10) 0 (by norm_num) (by norm_num)
      (by push_cast; linarith) (by push_cast; linarith)
    rw [e]
    obtain ⟨d, e', d0, d1⟩ := LibM.exp_le z (by exact_mod_cast z1)
    exact ⟨d.1, d.2, e', d0, d1⟩

end

/-- What one would expect: a prediction is never negative. -/
def C79_claim : Prop := ∀ (_ : Rounding) (_ : LibM) (threshold : F64) (created : ℤ) (ops : List (TrackerOp F64)),
  F64.In01 threshold → (∀ p ∈ Spec.since ops, F64.In01 p.1) →
    0 ≤ (ops.foldl Tracker.apply (Tracker.new threshold created)).predictConvergenceTime

theorem pow_double (k : ℕ) (h : k ≤ 1000) : IsDouble ((2 : ℝ) ^ (-(k : ℤ))) :=
  ⟨1, -k, by norm_num, by omega, by omega, by norm_num⟩

/-- **C79 is false in doubles.** Two samples that rise by 2⁻⁵⁰ give a prediction of more than 2⁶³ nanoseconds, which amd64 converts to the
smallest `int64`. -/
theorem C79_refuted : ¬ C79_claim := by
  intro h
  let _ : Rounding := Rounding.some
  let _ : LibM := LibM.amd64
  obtain ⟨ε, hε⟩ : ∃ ε : ℝ, ε = (2 : ℝ) ^ (-(50 : ℕ) : ℤ) := ⟨_, rfl⟩
  have dε : IsDouble ε := hε ▸ pow_double 50 (by norm_num)
  have dh : IsDouble (1 / 2 : ℝ) := by have := pow_double 1 (by norm_num); norm_num at this ⊢; exact this
  have vε : ε * 2 ^ 50 = 1 := by rw [hε]; norm_num
  have ε0 : 0 < ε := by rw [hε]; positivity
  have d2ε : IsDouble (2 * ε) := ⟨1, -49, by norm_num, by norm_num, by norm_num, by rw [hε]; norm_num⟩
  have dr : IsDouble (1 / 2 - ε) := ⟨2 ^ 49 - 1, -50, by norm_num, by norm_num, by norm_num, by rw [hε]; norm_num⟩
  have dq : IsDouble ((1 / 2 - ε) / ε) := ⟨2 ^ 49 - 1, 0, by norm_num, by norm_num, by norm_num, by rw [hε]; norm_num⟩
  have d2 : IsDouble (2 : ℝ) := by have := isDouble_int (n := 2) (by norm_num); push_cast at this; exact this
  have d8 : IsDouble (100000000 : ℝ) := by have := isDouble_int (n := 100000000) (by norm_num); push_cast at this; exact this
  have h1 := h Rounding.some LibM.amd64 (F64.ofReal (1 / 2)) 0 [.record (F64.ofReal 0) 0, .record (F64.ofReal ε) 0]
    (F64.in01_ofReal (by norm_num) (by norm_num)) (by
      intro p hp
      simp only [Spec.since, List.foldl_cons, List.foldl_nil, List.nil_append, List.cons_append, List.mem_cons, List.not_mem_nil, or_false] at hp
      rcases hp with rfl | rfl
      · exact F64.in01_ofReal le_rfl (by norm_num)
      · exact F64.in01_ofReal ε0.le (by nlinarith))
  simp only [List.foldl_cons, List.foldl_nil] at h1
  have nc : ∀ x : ℝ, IsDouble x → x < 1 / 2 → ¬ F64.ofReal (1 / 2) ≤ F64.ofReal x := by
    intro x hx hlt
    rw [F64.ofReal_of_isDouble dh, F64.ofReal_of_isDouble hx, F64.le_fin]
    exact not_le.2 hlt
  have hlt : ε < 1 / 2 := by nlinarith
  obtain ⟨m, hm⟩ : ∃ m, ((Tracker.new (F64.ofReal (1 / 2)) 0).apply (.record (F64.ofReal 0) 0)).apply (.record (F64.ofReal ε) 0) = m := ⟨_, rfl⟩
  rw [hm] at h1
  have m1 : m.history = [F64.ofReal 0, F64.ofReal ε] := by rw [← hm]; rfl
  have m2 : m.convergenceAt = F64.ofReal (1 / 2) := by rw [← hm]; rfl
  have m3 : m.convergedTime = none := by
    rw [← hm]
    show (if _ then _ else _) = none
    have e1 : ((Tracker.new (F64.ofReal (1 / 2)) 0).apply (.record (F64.ofReal 0) 0)).convergedTime = none := by
      show (if _ then _ else _) = none
      rw [if_neg (fun h => nc 0 isDouble_zero (by norm_num) h.1), if_neg (fun h => absurd h.2 (by simp [Tracker.new]))]; rfl
    rw [if_neg (fun h => nc ε dε hlt h.1), if_neg (fun h => absurd h.2 (by rw [e1]; simp)), e1]
  have hx : (trendSums [F64.ofReal 0, F64.ofReal ε]) = (F64.ofReal 1, F64.ofReal ε, F64.ofReal ε, F64.ofReal 1) := by
    have e0 : (ofInt ((0 : ℕ) : ℤ) : F64) = F64.ofReal 0 := by show F64.ofReal _ = _; norm_num
    have e1 : (ofInt ((1 : ℕ) : ℤ) : F64) = F64.ofReal 1 := by show F64.ofReal _ = _; norm_num
    have z : (0 : F64) = F64.ofReal 0 := lit_zero
    show (((0 : F64) + ofInt ((0 : ℕ) : ℤ)) + ofInt ((1 : ℕ) : ℤ), ((0 : F64) + F64.ofReal 0) + F64.ofReal ε,
      ((0 : F64) + ofInt ((0 : ℕ) : ℤ) * F64.ofReal 0) + ofInt ((1 : ℕ) : ℤ) * F64.ofReal ε,
      ((0 : F64) + ofInt ((0 : ℕ) : ℤ) * ofInt ((0 : ℕ) : ℤ)) + ofInt ((1 : ℕ) : ℤ) * ofInt ((1 : ℕ) : ℤ)) = _
    rw [e0, e1, z, ofReal_mul isDouble_zero isDouble_zero, ofReal_mul isDouble_one dε, ofReal_mul isDouble_one isDouble_one]
    simp only [mul_zero, mul_one, one_mul]
    rw [ofReal_add isDouble_zero isDouble_zero, add_zero, ofReal_add isDouble_zero isDouble_one, ofReal_add isDouble_zero dε, zero_add, zero_add]
  have hrate : m.convergenceRate = F64.ofReal ε := by
    unfold Tracker.convergenceRate
    rw [m1, if_neg (by simp)]
    dsimp only
    have e : lastN 10 [F64.ofReal 0, F64.ofReal ε] = [F64.ofReal 0, F64.ofReal ε] := rfl
    have e2 : (ofInt (([F64.ofReal 0, F64.ofReal ε] : List F64).length : ℤ) : F64) = F64.ofReal 2 := by
      show F64.ofReal _ = _; norm_num
    rw [e, hx, e2]
    dsimp only
    rw [ofReal_mul d2 dε, ofReal_mul isDouble_one dε, ofReal_mul d2 isDouble_one, ofReal_mul isDouble_one isDouble_one, one_mul, mul_one,
      mul_one, ofReal_sub d2ε dε, ofReal_sub d2 isDouble_one, show 2 * ε - ε = ε by ring, show (2 : ℝ) - 1 = 1 by norm_num,
      ofReal_div dε isDouble_one one_ne_zero, div_one]
  have hcur : m.currentCoherence = F64.ofReal ε := by unfold Tracker.currentCoherence; rw [m1]; rfl
  have hpos : ∀ x : ℝ, IsDouble x → 0 < x → ¬ F64.ofReal x ≤ 0 := by
    intro x hx h0
    rw [F64.ofReal_of_isDouble hx, F64.zero_def, F64.le_fin]
    exact not_le.2 h0
  unfold Tracker.predictConvergenceTime at h1
  rw [m3, if_neg (by simp)] at h1
  dsimp only at h1
  rw [hrate, hcur, m2, if_neg (hpos ε dε ε0), ofReal_sub dh dε, if_neg (hpos _ dr (by linarith)), ofReal_div dr dε ε0.ne'] at h1
  have e8 : (ofInt (100000000 : ℤ) : F64) = F64.ofReal 100000000 := by show F64.ofReal _ = _; norm_num
  rw [e8, ofReal_mul dq d8] at h1
  have d63 : IsDouble ((2 : ℝ) ^ 63) := ⟨1, 63, by norm_num, by norm_num, by norm_num, by norm_num⟩
  have d80 : IsDouble ((2 : ℝ) ^ 80) := ⟨1, 80, by norm_num, by norm_num, by norm_num, by norm_num⟩
  have hq : (1 / 2 - ε) / ε = 2 ^ 49 - 1 := by rw [div_eq_iff ε0.ne']; linarith
  rw [hq] at h1
  obtain ⟨u, hu, e, u0, -⟩ := F64.ofReal_between (x := (2 ^ 49 - 1) * 100000000) d63 d80 (by norm_num) (by norm_num)
  rw [e] at h1
  change (0 : ℤ) ≤ (if -(2 ^ 63) ≤ rtrunc u ∧ rtrunc u < 2 ^ 63 then rtrunc u else -(2 ^ 63)) at h1
  have hr : (2 ^ 63 : ℤ) ≤ rtrunc u := by
    unfold rtrunc
    rw [if_pos (by linarith [(by positivity : (0 : ℝ) ≤ 2 ^ 63)]), Int.le_floor]
    push_cast
    linarith
  rw [if_neg (fun h => absurd h.2 (not_lt.2 hr))] at h1
  norm_num at h1

/-! ## Examples -/

/-- Beside the theorems on C60: a converged stretch that is broken and begins again, and a reset. -/
example : Spec.since [TrackerOp.record (0.9 : ℝ) 1, .reset 2, .record 0.9 3, .record 0.5 4, .record 0.8 5, .record 0.85 6] =
      [(0.9, 3), (0.5, 4), (0.8, 5), (0.85, 6)] ∧
    Spec.started 0 [TrackerOp.record (0.9 : ℝ) 1, .reset 2, .record 0.9 3, .record 0.5 4, .record 0.8 5, .record 0.85 6] = 2 ∧
    Spec.ReachedAt (0.8 : ℝ) [(0.9, 3), (0.5, 4), (0.8, 5), (0.85, 6)] 5 ∧
    Spec.Ordered 0 [TrackerOp.record (0.9 : ℝ) 1, .reset 2, .record 0.9 3, .record 0.5 4, .record 0.8 5, .record 0.85 6] := by
  refine ⟨rfl, rfl, ⟨[(0.9, 3), (0.5, 4)], 0.8, [(0.85, 6)], rfl, le_rfl, ?_, ?_⟩, ?_⟩
  · intro y hy; rw [List.mem_singleton] at hy; subst hy; norm_num
  · rw [show ([(0.9, 3), (0.5, 4)] : List (ℝ × ℤ)) = [(0.9, 3)] ++ [(0.5, 4)] from rfl, reached_snoc]
    norm_num
  · simp [Spec.Ordered, Spec.time]

/-- Beside `C59_history`: 102 samples, of which the last 100 are kept. -/
example : Spec.IsLast 100 (List.replicate 2 (1 : ℝ) ++ List.replicate 100 0) (List.replicate 100 0) :=
  ⟨List.suffix_append _ _, by simp⟩

/-- Beside `C61_rate`, `C61_rate_linear` and `C79_predict_line`: three rising samples. -/
example : ∃ m : Tracker ℝ, m.history = [0.1, 0.3, 0.5] ∧ Spec.IsLast 10 m.history [0.1, 0.3, 0.5] ∧ 2 ≤ m.history.length ∧
    (∀ p ∈ ([0.1, 0.3, 0.5] : List ℝ).zipIdx, p.1 = 0.1 + 0.2 * (p.2 : ℝ)) ∧ m.isConverged = false ∧
    m.currentCoherence < m.convergenceAt := by
  refine ⟨{ (Tracker.new 0.9 0) with history := [0.1, 0.3, 0.5] }, rfl, ⟨List.suffix_rfl, by simp⟩, by simp, ?_, rfl, ?_⟩
  · intro p hp
    simp [List.zipIdx] at hp
    rcases hp with rfl | rfl | rfl <;> norm_num
  · show (0.5 : ℝ) < 0.9
    norm_num

/-- Beside `C61_stability`: samples that are not all equal. -/
example : ¬ ∀ x ∈ ([0.1, 0.3] : List ℝ), ∀ y ∈ ([0.1, 0.3] : List ℝ), x = y := by
  intro h
  have := h 0.1 (by simp) 0.3 (by simp)
  norm_num at this

/-- Beside `C59_average_double` and `C61_stability_double`. -/
example [Rounding] [LibM] : ∀ x ∈ ([0, 1] : List F64), F64.In01 x := by
  intro x hx
  simp only [List.mem_cons, List.not_mem_nil, or_false] at hx
  rcases hx with rfl | rfl
  · exact ⟨0, isDouble_zero, F64.zero_def, le_rfl, by norm_num⟩
  · exact ⟨1, isDouble_one, F64.one_def, by norm_num, le_rfl⟩

end Verif
