import Verif.Model.Texts
import Verif.Props.Batching
import Verif.Props.Gauges
import Verif.Model.Bars
import Verif.Model.Tables

/-!
# C141–C144: the cost panel, durations, texts of validation errors, insights of the traffic panel
-/

set_option autoImplicit false
set_option linter.unusedSectionVars false

namespace Verif
open GoMath Spec

/-! ### C141 -/

/-- What one would expect of the cost panel: the savings are green only if tasks are sent together, that is, if the average batch has more than
one task. -/
def C141_claim : Prop := ∀ (start : ℤ) (ops : List (Spec.MetricsOp ℝ)), (∀ n ∈ Spec.sizes ops, 1 ≤ n ∧ n ≤ 100) →
  costShade (ops.foldl Spec.MetricsOp.apply (Metrics.new start)).current.savingsPercent = .green →
  1 < (ops.foldl Spec.MetricsOp.apply (Metrics.new start)).current.averageBatchSize

/-- **C141, what holds**: the savings are red before the first batch and green ever after, until a reset; they are never yellow. -/
theorem C141_colour_partial (start : ℤ) (ops : List (Spec.MetricsOp ℝ)) (h : ∀ n ∈ Spec.sizes ops, 1 ≤ n ∧ n ≤ 100) :
    costShade (ops.foldl Spec.MetricsOp.apply (Metrics.new start)).current.savingsPercent = if Spec.sizes ops = [] then .red else .green := by
  obtain ⟨-, -, -, -, h1, h0⟩ := C70_savings start ops h
  have key : ∀ p : ℝ, costShade p = if p < 20 then .red else if p < 50 then .yellow else .green := by
    intro p; unfold costShade; norm_num
  rw [key]
  by_cases he : Spec.sizes ops = []
  · rw [(h0 he).2, if_pos (by norm_num), if_pos he]
  · have := (h1 he).2.2.2.2.1
    rw [if_neg (by linarith), if_neg (by linarith), if_neg he]

/-- Three batches of one task each: nothing is sent together. -/
example : ∀ n ∈ Spec.sizes (α := ℝ) [.batch 1, .coherence 3 0.5, .batch 1, .batch 1], 1 ≤ n ∧ n ≤ 100 := by
  simp [Spec.sizes]

/-- **C141, refuted**: after one batch of a single task the average batch has one task, and the savings are green. -/
theorem C141_refuted : ¬ C141_claim := by
  intro h
  have hs : ∀ n ∈ Spec.sizes (α := ℝ) [.batch 1], 1 ≤ n ∧ n ≤ 100 := by simp [Spec.sizes]
  have hne : Spec.sizes (α := ℝ) [.batch 1] ≠ [] := by simp [Spec.sizes]
  have h1 := h 0 [.batch 1] hs ((C141_colour_partial 0 _ hs).trans (if_neg hne))
  obtain ⟨-, -, -, -, h2, -⟩ := C70_savings 0 _ hs
  rw [(h2 hne).1] at h1
  simp [Spec.sizes] at h1

/-- **C141, the shades**: red below 20 %, yellow from there up to 50 %, green from 50 % on; a higher percentage never has a worse shade. -/
theorem C141_shade (p : ℝ) : (costShade p = .red ↔ p < 20) ∧ (costShade p = .yellow ↔ 20 ≤ p ∧ p < 50) ∧ (costShade p = .green ↔ 50 ≤ p) := by
  have key : costShade p = if p < 20 then .red else if p < 50 then .yellow else .green := by
    unfold costShade; norm_num
  rw [key]
  split_ifs with h1 h2
  · simp [h1, not_le.2 h1, (by linarith : p < 50)]
  · simp [h2, not_lt.1 h1]
  · simp [not_lt.1 h1, not_lt.1 h2]

/-! ### C142 -/

/-- `fix` rounds to a nearest whole number, ties in either way. -/
def Spec.NearestInt (fix : ℚ → ℤ) : Prop := ∀ x, |(fix x : ℚ) - x| ≤ 1 / 2

/-- The time shown, in nanoseconds, if the number shown counts `1/k` of the unit. -/
def Spec.shownTime (k : ℚ) (p : ℤ × TimeUnit) : ℚ :=
  match p.2 with
  | .seconds => (p.1 : ℚ) / k * 10 ^ 9
  | .minutes => (p.1 : ℚ) / k * (60 * 10 ^ 9)

theorem nearest_mono {fix : ℚ → ℤ} (hf : Spec.NearestInt fix) {x y : ℚ} (h : x ≤ y) : fix x ≤ fix y := by
  rcases h.eq_or_lt with rfl | h
  · exact le_rfl
  · by_contra hc
    have h1 := abs_le.1 (hf x)
    have h2 := abs_le.1 (hf y)
    have : (fix y : ℚ) + 1 ≤ fix x := by exact_mod_cast not_le.1 hc
    linarith [h1.2, h2.1]

theorem nearest_int {fix : ℚ → ℤ} (hf : Spec.NearestInt fix) (n : ℤ) : fix n = n := by
  have h := abs_le.1 (hf n)
  have h1 : fix n < n + 1 := by
    have : (fix n : ℚ) < ((n + 1 : ℤ) : ℚ) := by push_cast; linarith [h.2]
    exact_mod_cast this
  have h2 : n < fix n + 1 := by
    have : (n : ℚ) < ((fix n + 1 : ℤ) : ℚ) := by push_cast; linarith [h.1]
    exact_mod_cast this
  omega

/-- Both functions of the code, for `k` steps in a unit. -/
theorem shown_aux (k : ℕ) (hk : 0 < k) (fix : ℚ → ℤ) (hf : Spec.NearestInt fix) (show' : ℤ → ℤ × TimeUnit)
    (hs : ∀ d : ℤ, show' d = if d < 60 * 10 ^ 9 then (fix ((d : ℚ) / 10 ^ 9 * k), .seconds) else (fix ((d : ℚ) / (60 * 10 ^ 9) * k), .minutes)) :
    (∀ d : ℤ, (show' d).2 = if d < 60 * 10 ^ 9 then .seconds else .minutes) ∧
    (∀ d : ℤ, d < 60 * 10 ^ 9 → |Spec.shownTime k (show' d) - d| ≤ 10 ^ 9 / (2 * k)) ∧
    (∀ d : ℤ, 60 * 10 ^ 9 ≤ d → |Spec.shownTime k (show' d) - d| ≤ 60 * 10 ^ 9 / (2 * k)) ∧
    (∀ d d' : ℤ, d ≤ d' → Spec.shownTime k (show' d) ≤ Spec.shownTime k (show' d')) := by
  have hk' : (0 : ℚ) < k := by exact_mod_cast hk
  have err : ∀ (u : ℚ) (d : ℤ), 0 < u → |(fix ((d : ℚ) / u * k) : ℚ) / k * u - d| ≤ u / (2 * k) := by
    intro u d hu
    have h := hf ((d : ℚ) / u * k)
    have e : (fix ((d : ℚ) / u * k) : ℚ) / k * u - d = (fix ((d : ℚ) / u * k) - (d : ℚ) / u * k) * (u / k) := by
      field_simp
    rw [e, abs_mul, abs_of_pos (div_pos hu hk')]
    calc _ ≤ 1 / 2 * (u / k) := mul_le_mul_of_nonneg_right h (div_pos hu hk').le
      _ = u / (2 * k) := by field_simp
  refine ⟨fun d => ?_, fun d hd => ?_, fun d hd => ?_, fun d d' hd => ?_⟩
  · rw [hs]; split_ifs <;> rfl
  · rw [hs, if_pos hd]
    exact err (10 ^ 9) d (by norm_num)
  · rw [hs, if_neg (not_lt.2 hd)]
    exact err (60 * 10 ^ 9) d (by norm_num)
  · have mono : ∀ (u : ℚ) (x y : ℚ), 0 < u → x ≤ y → (fix (x / u * k) : ℚ) / k * u ≤ (fix (y / u * k) : ℚ) / k * u := by
      intro u x y hu hxy
      have : fix (x / u * k) ≤ fix (y / u * k) := nearest_mono hf (by gcongr)
      have : (fix (x / u * k) : ℚ) ≤ fix (y / u * k) := by exact_mod_cast this
      gcongr
    have hdq : (d : ℚ) ≤ d' := by exact_mod_cast hd
    have at60 : ∀ u : ℚ, ∀ m : ℕ, 0 < u → m * u = 60 * 10 ^ 9 → (fix ((60 * 10 ^ 9 : ℚ) / u * k) : ℚ) / k * u = 60 * 10 ^ 9 := by
      intro u m hu hm
      have e : (60 * 10 ^ 9 : ℚ) / u * k = ((m * k : ℕ) : ℤ) := by
        rw [← hm]; push_cast; field_simp
      rw [e, nearest_int hf, ← hm]
      push_cast
      field_simp
    rw [hs, hs]
    by_cases h1 : d < 60 * 10 ^ 9
    · by_cases h2 : d' < 60 * 10 ^ 9
      · rw [if_pos h1, if_pos h2]
        exact mono (10 ^ 9) d d' (by norm_num) hdq
      · rw [if_pos h1, if_neg h2]
        have a : (d : ℚ) ≤ 60 * 10 ^ 9 := by exact_mod_cast h1.le
        have b : (60 * 10 ^ 9 : ℚ) ≤ d' := by exact_mod_cast not_lt.1 h2
        have m1 := mono (10 ^ 9) d (60 * 10 ^ 9) (by norm_num) a
        have m2 := mono (60 * 10 ^ 9) (60 * 10 ^ 9) d' (by norm_num) b
        rw [at60 (10 ^ 9) 60 (by norm_num) (by norm_num)] at m1
        rw [at60 (60 * 10 ^ 9) 1 (by norm_num) (by norm_num)] at m2
        exact m1.trans m2
    · have h2 : ¬ d' < 60 * 10 ^ 9 := fun h => h1 (lt_of_le_of_lt hd h)
      rw [if_neg h1, if_neg h2]
      exact mono (60 * 10 ^ 9) d d' (by norm_num) hdq

/-- **C142, `formatDuration`**: seconds are used below one minute and minutes from there on. The time shown is off by at most a twentieth of the unit,
and a longer time never shows as a shorter one. -/
theorem C142_duration (fix : ℚ → ℤ) (hf : Spec.NearestInt fix) :
    (∀ d : ℤ, (formatDuration fix d).2 = if d < 60 * 10 ^ 9 then .seconds else .minutes) ∧
    (∀ d : ℤ, d < 60 * 10 ^ 9 → |Spec.shownTime 10 (formatDuration fix d) - d| ≤ 10 ^ 9 / 20) ∧
    (∀ d : ℤ, 60 * 10 ^ 9 ≤ d → |Spec.shownTime 10 (formatDuration fix d) - d| ≤ 60 * 10 ^ 9 / 20) ∧
    (∀ d d' : ℤ, d ≤ d' → Spec.shownTime 10 (formatDuration fix d) ≤ Spec.shownTime 10 (formatDuration fix d')) := by
  have := shown_aux 10 (by norm_num) fix hf (formatDuration fix) (fun d => by unfold formatDuration; norm_num)
  norm_num at this ⊢
  exact this

/-- **C142, `formatTime`**: seconds below one minute, minutes from there on. The time shown is off by at most half of the unit, that is, by up to
thirty seconds from one minute on, and a longer time never shows as a shorter one. -/
theorem C142_time (fix : ℚ → ℤ) (hf : Spec.NearestInt fix) :
    (∀ d : ℤ, (formatTime fix d).2 = if d < 60 * 10 ^ 9 then .seconds else .minutes) ∧
    (∀ d : ℤ, d < 60 * 10 ^ 9 → |Spec.shownTime 1 (formatTime fix d) - d| ≤ 10 ^ 9 / 2) ∧
    (∀ d : ℤ, 60 * 10 ^ 9 ≤ d → |Spec.shownTime 1 (formatTime fix d) - d| ≤ 60 * 10 ^ 9 / 2) ∧
    (∀ d d' : ℤ, d ≤ d' → Spec.shownTime 1 (formatTime fix d) ≤ Spec.shownTime 1 (formatTime fix d')) := by
  have := shown_aux 1 (by norm_num) fix hf (formatTime fix) (fun d => by unfold formatTime; norm_num)
  norm_num at this ⊢
  exact this

/-- Rounding half up is such a rounding. -/
theorem nearest_floor : Spec.NearestInt (fun x => ⌊x + 1 / 2⌋) := by
  intro x
  rw [abs_le]
  constructor
  · linarith [Int.lt_floor_add_one (x + 1 / 2)]
  · linarith [Int.floor_le (x + 1 / 2)]

example : Spec.NearestInt (fun x => ⌊x + 1 / 2⌋) := nearest_floor

/-- What one would expect of a clock: the number shown is the number of complete minutes, and the seconds shown stay below sixty. -/
def C142_claim : Prop := ∀ fix : ℚ → ℤ, Spec.NearestInt fix → ∀ d : ℤ, 0 ≤ d →
  ((formatTime fix d).2 = .minutes → (formatTime fix d).1 = d / (60 * 10 ^ 9)) ∧ ((formatTime fix d).2 = .seconds → (formatTime fix d).1 < 60)

/-- **C142, how wrong the clock is**: the seconds shown are 60 for every time from 59.5 s (excluded) to one minute, and a time of `m` minutes and more than
half a minute shows as `m + 1` minutes. -/
theorem C142_clock_partial (fix : ℚ → ℤ) (hf : Spec.NearestInt fix) :
    (∀ d : ℤ, 59500000000 < d → d < 60 * 10 ^ 9 → formatTime fix d = (60, .seconds)) ∧
    (∀ (m : ℕ) (d : ℤ), 1 ≤ m → m * (60 * 10 ^ 9) + 30 * 10 ^ 9 < d → d < (m + 1) * (60 * 10 ^ 9) → formatTime fix d = ((m : ℤ) + 1, .minutes)) := by
  have pin : ∀ (x : ℚ) (n : ℤ), (n : ℚ) - 1 / 2 < x → x < (n : ℚ) + 1 / 2 → fix x = n := by
    intro x n h1 h2
    have h := abs_le.1 (hf x)
    have a : (fix x : ℚ) < ((n + 1 : ℤ) : ℚ) := by push_cast; linarith [h.2]
    have b : ((n - 1 : ℤ) : ℚ) < fix x := by push_cast; linarith [h.1]
    have a' : fix x < n + 1 := by exact_mod_cast a
    have b' : n - 1 < fix x := by exact_mod_cast b
    omega
  constructor
  · intro d h1 h2
    have q1 : (59500000000 : ℚ) < d := by exact_mod_cast h1
    have q2 : (d : ℚ) < 60 * 10 ^ 9 := by exact_mod_cast h2
    unfold formatTime
    rw [if_pos (by norm_num at h2 ⊢; exact h2), pin _ 60]
    · norm_num; rw [lt_div_iff₀ (by norm_num)]; linarith
    · rw [div_lt_iff₀ (by norm_num)]; norm_num at q2 ⊢; linarith
  · intro m d hm h1 h2
    have q1 : (m * (60 * 10 ^ 9) + 30 * 10 ^ 9 : ℚ) < d := by exact_mod_cast h1
    have q2 : (d : ℚ) < (m + 1) * (60 * 10 ^ 9) := by exact_mod_cast h2
    unfold formatTime
    rw [if_neg (by push_cast at *; omega), pin _ ((m : ℤ) + 1)]
    · push_cast; rw [lt_div_iff₀ (by norm_num)]; norm_num at q1; linarith
    · push_cast; rw [div_lt_iff₀ (by norm_num)]; norm_num at q2; linarith

/-- **C142, refuted**: after one minute and 45 seconds the display shows two minutes. -/
theorem C142_refuted : ¬ C142_claim := by
  intro h
  have h1 := (C142_clock_partial _ nearest_floor).2 1 105000000000 le_rfl (by norm_num) (by norm_num)
  have h2 := (h _ nearest_floor 105000000000 (by norm_num)).1 (by rw [h1])
  rw [h1] at h2
  norm_num at h2

/-! ### C143 -/

/-- The texts occur in `s` one after the other, without overlap, in the order of the list. -/
def Spec.InOrder : List String → List Char → Prop
  | [], _ => True
  | t :: ts, s => ∃ a b, s = a ++ t.toList ++ b ∧ Spec.InOrder ts b

theorem inOrder_prefix (ts : List String) (a s : List Char) (h : Spec.InOrder ts s) : Spec.InOrder ts (a ++ s) := by
  cases ts with
  | nil => trivial
  | cons t ts =>
    obtain ⟨a', b, rfl, hb⟩ := h
    exact ⟨a ++ a', b, by simp, hb⟩

theorem inOrder_intercalate (ts : List String) (sep : String) (tail : List Char) :
    Spec.InOrder ts ((String.intercalate sep ts).toList ++ tail) := by
  induction ts with
  | nil => trivial
  | cons t ts ih =>
    cases ts with
    | nil => exact ⟨[], tail, by simp, trivial⟩
    | cons u us =>
      refine ⟨[], sep.toList ++ ((String.intercalate sep (u :: us)).toList ++ tail), ?_, inOrder_prefix _ _ _ ih⟩
      rw [String.intercalate_cons_cons]
      simp

theorem inOrder_three (a b c x y z : String) : Spec.InOrder [x, y, z] (a ++ x ++ b ++ y ++ c ++ z).toList := by
  refine ⟨a.toList, b.toList ++ y.toList ++ c.toList ++ z.toList, ?_, b.toList, c.toList ++ z.toList, ?_, c.toList, [], ?_, trivial⟩ <;>
    simp only [String.toList_append, List.append_assoc, List.append_nil]

/-- **C143, nothing is lost**: the text of a list of errors contains the text of every error, in the order of the list, and the text of an error contains
its field, its value and its message, in this order. -/
theorem C143_all (errs : List ValidationErr) :
    Spec.InOrder (errs.map ValidationErr.text) (validationText errs).toList ∧
    ∀ e ∈ errs, Spec.InOrder [e.field, e.value, e.message] e.text.toList := by
  constructor
  · match errs with
    | [] => trivial
    | [e] => exact ⟨[], [], by simp [validationText], trivial⟩
    | e :: f :: es =>
      unfold validationText
      simp only [String.toList_append, List.append_assoc]
      exact inOrder_prefix _ _ _ (inOrder_intercalate _ _ _)
  · intro e _
    exact inOrder_three _ _ _ _ _ _

/-- **C143, no false all-clear**: the text says that there are no validation errors exactly if there are none. -/
theorem C143_clear (errs : List ValidationErr) : validationText errs = "no validation errors" ↔ errs = [] := by
  have key : ∀ (a b t : String) (c d : Char) (as bs : List Char), a.toList = c :: as → b.toList = d :: bs → c ≠ d → a ++ t ≠ b := by
    intro a b t c d as bs ha hb hcd h
    have h := congrArg String.toList h
    rw [String.toList_append, ha, hb, List.cons_append] at h
    exact hcd (List.cons.inj h).1
  constructor
  · intro h
    rcases errs with _ | ⟨e, _ | ⟨f, es⟩⟩
    · rfl
    · refine absurd h ?_
      unfold validationText ValidationErr.text
      simp only [String.append_assoc]
      exact key _ _ _ 'v' 'n' "alidation error for field ".toList "o validation errors".toList (by decide +kernel) (by decide +kernel) (by decide)
    · refine absurd h ?_
      unfold validationText
      simp only [String.append_assoc]
      exact key _ _ _ 'm' 'n' "ultiple validation errors: [".toList "o validation errors".toList (by decide +kernel) (by decide +kernel) (by decide)
  · rintro rfl; rfl

/-- Two errors. -/
example : validationText [⟨"SwarmSize", "0", "must be positive"⟩, ⟨"Stubbornness", "2", "must be in [0, 1]"⟩] =
    "multiple validation errors: [validation error for field SwarmSize (value: 0): must be positive; validation error for field Stubbornness (value: 2): must be in [0, 1]]" := by
  decide +kernel

/-! ### C144 -/

/-- One of two colours is green and the other red. -/
def Spec.Contradict (a b : Shade) : Prop := (a = .green ∧ b = .red) ∨ (a = .red ∧ b = .green)

/-- What one would expect of the panels for `AdaptToTraffic` (goal 7): with the default target of a scale, the insights and the status line do not
contradict each other. -/
def C144_claim : Prop := ∀ (size : Size) (s : Shown ℝ), s.targetCoherence = size.defaultTargetCoherence →
  ¬ Spec.Contradict (insightShade s) (metricsShade 7 s)

/-- **C144, the insights** depend on the coherence in relation to the target only, and never get worse as the coherence grows. -/
theorem C144_insight (s : Shown ℝ) (ht : 0 < s.targetCoherence) :
    (insightShade s = .green ↔ s.targetCoherence ≤ s.coherence) ∧
    (insightShade s = .red ↔ s.coherence / s.targetCoherence < 9 / 10) ∧
    (insightShade s = .yellow ↔ 9 / 10 ≤ s.coherence / s.targetCoherence ∧ s.coherence / s.targetCoherence < 1) := by
  have key : insightShade s = if s.targetCoherence ≤ s.coherence then .green
      else if s.targetCoherence * (9 / 10) ≤ s.coherence then .yellow else .red := by
    unfold insightShade; norm_num
  have e1 : s.coherence / s.targetCoherence < 9 / 10 ↔ s.coherence < s.targetCoherence * (9 / 10) := by rw [div_lt_iff₀ ht, mul_comm]
  have e2 : 9 / 10 ≤ s.coherence / s.targetCoherence ↔ s.targetCoherence * (9 / 10) ≤ s.coherence := by rw [le_div_iff₀ ht, mul_comm]
  have e3 : s.coherence / s.targetCoherence < 1 ↔ s.coherence < s.targetCoherence := by rw [div_lt_one ht]
  rw [key, e1, e2, e3]
  split_ifs with h1 h2
  · simp [h1]; linarith
  · simp [h1, h2]; linarith
  · simp [h1, h2, not_le.1 h2]

/-- **C144, what holds**: if the target is between 0.6 and 8/9 the insights and the status line never contradict each other, whatever the agents do.
The default targets of the scales small, medium and large are in this range. Outside of it there are coherences at which they do. -/
theorem C144_agree_partial (t : ℝ) (h0 : 0 < t) :
    (∀ s : Shown ℝ, s.targetCoherence = t → ¬ Spec.Contradict (insightShade s) (metricsShade 7 s)) ↔ 0.6 ≤ t ∧ t ≤ 8 / 9 := by
  have key : ∀ s : Shown ℝ, insightShade s = if s.targetCoherence ≤ s.coherence then .green
      else if s.targetCoherence * (9 / 10) ≤ s.coherence then .yellow else .red := by
    intro s; unfold insightShade; norm_num
  have key2 : ∀ s : Shown ℝ, metricsShade 7 s = if 8 / 10 ≤ s.coherence ∧ 30 < (sharePercent (activeCount s) s.agents.length : ℝ) then .green
      else if 6 / 10 ≤ s.coherence then .yellow else .red := by
    intro s; unfold metricsShade; norm_num
  constructor
  · intro h
    constructor
    · by_contra hc
      have hc := not_le.1 hc
      apply h ⟨t, t, false, []⟩ rfl
      left
      rw [key, key2]
      norm_num at hc ⊢
      rw [if_neg (by rintro ⟨h, -⟩; linarith), if_neg (by linarith)]
    · by_contra hc
      have hc := not_le.1 hc
      apply h ⟨8 / 10, t, false, [⟨0, .burst⟩]⟩ rfl
      right
      rw [key, key2]
      norm_num [sharePercent, activeCount, GoMath.ofInt_real]
      rw [if_neg (by linarith), if_neg (by linarith)]
  · rintro ⟨h1, h2⟩ s rfl
    rw [key, key2]
    rintro (⟨ha, hb⟩ | ⟨ha, hb⟩)
    · split_ifs at ha hb with a b c
      norm_num at h1
      linarith
    · split_ifs at ha hb with a b c
      · linarith [c.1]

/-- **C144, refuted**: with the default target 0.9 of the smallest scale, at coherence 0.8 and with all agents busy, the status is green and the insights say
that the agents are scattered. -/
theorem C144_refuted : ¬ C144_claim := by
  intro h
  have := (C144_agree_partial 0.9 (by norm_num)).1 (fun s hs => h 0 s (hs.trans (by norm_num [Size.defaultTargetCoherence])))
  norm_num at this

/-- The three scales within the range. -/
example : ∀ size ∈ ([1, 2, 3] : List Size), ∀ s : Shown ℝ, s.targetCoherence = size.defaultTargetCoherence →
    ¬ Spec.Contradict (insightShade s) (metricsShade 7 s) := by
  intro size hs s ht
  refine (C144_agree_partial size.defaultTargetCoherence ?_).2 ?_ s ht <;>
    · fin_cases hs <;> norm_num [Size.defaultTargetCoherence]

/-! ### C140, the counts -/

/-- **C140, counts of the schedule**: every agent is counted once, as early, punctual or late by its phase. -/
theorem C140_counts (s : Shown ℝ) :
    (timingCounts s).1 + (timingCounts s).2.1 + (timingCounts s).2.2 = s.agents.length ∧
    (timingCounts s).1 = s.agents.countP (fun a => decide (a.phase ≤ -0.1)) ∧
    (timingCounts s).2.1 = s.agents.countP (fun a => decide (|a.phase| < 0.1)) ∧
    (timingCounts s).2.2 = s.agents.countP (fun a => decide (0.1 ≤ a.phase)) := by
  have onTime : ∀ p : ℝ, timing p = .onTime ↔ |p| < 0.1 := by
    intro p; unfold timing; rw [GoMath.abs_real]; split_ifs with h1 h2 <;> simp [h1]
  have early : ∀ p : ℝ, timing p = .early ↔ p ≤ -0.1 := by
    intro p; unfold timing; rw [GoMath.abs_real]
    split_ifs with h1 h2
    · simpa using (abs_lt.1 h1).1
    · rw [abs_of_neg h2] at h1
      simp only [true_iff]; linarith [not_lt.1 h1]
    · simp only [false_iff, not_le]
      linarith [not_lt.1 h2, (by norm_num : (0 : ℝ) < 0.1)]
  have late : ∀ p : ℝ, timing p = .late ↔ 0.1 ≤ p := by
    intro p; unfold timing; rw [GoMath.abs_real]
    split_ifs with h1 h2
    · simpa using (abs_lt.1 h1).2
    · simp only [false_iff, not_le]
      linarith [(by norm_num : (0 : ℝ) < 0.1)]
    · rw [abs_of_nonneg (not_lt.1 h2)] at h1
      simp only [true_iff]; exact not_lt.1 h1
  refine ⟨?_, ?_, ?_, ?_⟩
  · unfold timingCounts
    induction s.agents with
    | nil => rfl
    | cons a l ih =>
      simp only [List.countP_cons, List.length_cons] at ih ⊢
      rcases h : timing a.phase <;> simp <;> omega
  · unfold timingCounts; simp only [early]
  · unfold timingCounts; simp only [onTime]
  · unfold timingCounts; simp only [late]

end Verif
