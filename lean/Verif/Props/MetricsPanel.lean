import Verif.Model.Metrics
import Verif.Props.Gauges
import Verif.Props.MonitorRate
import Verif.Props.PanelsDouble

/-! # C149: the metrics panel -/

set_option autoImplicit false
set_option linter.unusedSectionVars false

namespace Verif
open GoMath Spec

/-! ### Status and colour -/

section
variable {α : Type} [Zero α] [One α] [Add α] [Sub α] [Mul α] [Div α] [Neg α] [LT α] [LE α]
  [DecidableLT α] [DecidableLE α] [BEq α] [OfScientific α] [GoMath α]

/-- The texts that say that all is well. -/
def Spec.goodNews : List String :=
  ["In sync!", "BALANCED", "CONSENSUS!", "PREDICTABLE", "EFFICIENT", "ON SCHEDULE", "RESILIENT", "RESPONSIVE"]

/-- The texts that say that it is not. -/
def Spec.badNews : List String :=
  ["Not synced", "IMBALANCED", "NO CONSENSUS", "UNPREDICTABLE", "HIGH DRAIN", "OFF SCHEDULE", "VULNERABLE", "SLOW"]

/-- A colour is the right one for a text: green for good news, red for bad news, yellow otherwise. -/
abbrev Spec.RightColour (c : Shade) (t : String) : Prop :=
  (c = .green ↔ t ∈ goodNews) ∧ (c = .red ↔ t ∈ badNews) ∧ (c = .yellow ↔ t ∉ goodNews ∧ t ∉ badNews)

theorem colour_ite {P : Prop} [Decidable P] {c c' : Shade} {t t' : String} (h : RightColour c t) (h' : RightColour c' t') :
    RightColour (if P then c else c') (if P then t else t') := by
  by_cases hP : P
  · rw [if_pos hP, if_pos hP]; exact h
  · rw [if_neg hP, if_neg hP]; exact h'

theorem other_goal (goal : GoalType) (s : Shown α) (h : ¬ (1 ≤ goal ∧ goal ≤ 7)) :
    metricsStatus goal s = metricsStatus 0 s ∧ metricsShade goal s = metricsShade 0 s := by
  constructor
  · unfold metricsStatus
    split <;> first | rfl | exact absurd (by decide) h
  · unfold metricsShade
    split <;> first | rfl | exact absurd (by decide) h

/-- **C149, colour.** For every goal, known or not, and for all numbers (NaN included) the status is green exactly if it says that all is well, red exactly
if it says that it is not, and yellow otherwise. -/
theorem C149_colour (goal : GoalType) (s : Shown α) : RightColour (metricsShade goal s) (metricsStatus goal s) := by
  by_cases h : 1 ≤ goal ∧ goal ≤ 7
  · obtain ⟨h1, h2⟩ := h
    have h7 : goal = 1 ∨ goal = 2 ∨ goal = 3 ∨ goal = 4 ∨ goal = 5 ∨ goal = 6 ∨ goal = 7 := by
      unfold GoalType at *; omega
    rcases h7 with rfl | rfl | rfl | rfl | rfl | rfl | rfl
    · exact colour_ite (P := s.coherence > 0.5) (by decide +kernel) (colour_ite (by decide +kernel) (by decide +kernel))
    · exact colour_ite (P := s.coherence ≥ 0.95) (by decide +kernel) (colour_ite (by decide +kernel) (by decide +kernel))
    · exact colour_ite (P := s.coherence ≥ 0.9) (by decide +kernel) (colour_ite (by decide +kernel) (by decide +kernel))
    · exact colour_ite (P := (sharePercent (idleCount s) s.agents.length : α) > 70.0) (by decide +kernel)
        (colour_ite (by decide +kernel) (by decide +kernel))
    · exact colour_ite (P := s.coherence ≥ 0.9) (by decide +kernel) (colour_ite (by decide +kernel) (by decide +kernel))
    · exact colour_ite (P := s.disrupted = true) (by decide +kernel)
        (colour_ite (by decide +kernel) (colour_ite (by decide +kernel) (by decide +kernel)))
    · exact colour_ite (P := s.coherence ≥ 0.8 ∧ (sharePercent (activeCount s) s.agents.length : α) > 30.0) (by decide +kernel)
        (colour_ite (by decide +kernel) (by decide +kernel))
  · rw [(other_goal goal s h).1, (other_goal goal s h).2]
    exact colour_ite (P := s.coherence ≥ 0.9) (by decide +kernel) (colour_ite (by decide +kernel) (by decide +kernel))

end

/-! ### The percentage beside the status -/

/-- `fmt` rounds to a nearest whole number of the digits printed. -/
def Spec.NearestReal (fix : ℝ → ℤ) : Prop := ∀ x, |(fix x : ℝ) - x| ≤ 1 / 2

theorem Spec.nearestReal_le {fix : ℝ → ℤ} (h : NearestReal fix) {n : ℤ} {x : ℝ} (hx : (n : ℝ) ≤ x) : n ≤ fix x := by
  have := (abs_le.1 (h x)).1
  have h2 : ((n - 1 : ℤ) : ℝ) < fix x := by push_cast; linarith
  have := Int.cast_lt.1 h2
  omega

theorem Spec.nearestReal_ge {fix : ℝ → ℤ} (h : NearestReal fix) {n : ℤ} {x : ℝ} (hx : n ≤ fix x) : (n : ℝ) - 1 / 2 ≤ x := by
  have := (abs_le.1 (h x)).2
  have h2 : (n : ℝ) ≤ fix x := by exact_mod_cast hx
  linarith

/-- The number of units of the last digit printed: the goals 0, 4 and 7 print whole per cents, the others tenths. -/
noncomputable def Spec.printed (fix : ℝ → ℤ) (goal : GoalType) (s : Shown ℝ) : Option ℤ :=
  (metricsPercent goal s).map fun p => fix (p * if goal = 0 ∨ goal = 4 ∨ goal = 7 then 1 else 10)

/-- The full claim, kept in view: the number printed beside the status is in line with it: "In sync!" beside 90 % and more, and "CONSENSUS!" beside 95.0 %
and more. -/
def C149_claim : Prop := ∀ fix : ℝ → ℤ, NearestReal fix → ∀ s : Shown ℝ,
  (metricsStatus 0 s = "In sync!" ↔ ∃ p, printed fix 0 s = some p ∧ 90 ≤ p) ∧
  (metricsStatus 2 s = "CONSENSUS!" ↔ ∃ p, printed fix 2 s = some p ∧ 950 ≤ p)

theorem ite3_first {P Q : Prop} [Decidable P] [Decidable Q] {a b c : String} (h1 : a ≠ b) (h2 : a ≠ c) :
    (if P then a else if Q then b else c) = a ↔ P := by
  split_ifs <;> simp_all [h1.symm, h2.symm]

theorem ite3_last {P Q : Prop} [Decidable P] [Decidable Q] {a b c : String} (h1 : a ≠ c) (h2 : b ≠ c) :
    (if P then a else if Q then b else c) = c ↔ ¬ P ∧ ¬ Q := by
  split_ifs <;> simp_all

theorem status0 (s : Shown ℝ) : metricsStatus 0 s = "In sync!" ↔ 0.9 ≤ s.coherence :=
  ite3_first (P := s.coherence ≥ 0.9) (Q := s.coherence ≥ 0.7) (by decide +kernel) (by decide +kernel)
theorem status2 (s : Shown ℝ) : metricsStatus 2 s = "CONSENSUS!" ↔ 0.95 ≤ s.coherence :=
  ite3_first (P := s.coherence ≥ 0.95) (Q := s.coherence ≥ 0.8) (by decide +kernel) (by decide +kernel)
theorem status3 (s : Shown ℝ) : metricsStatus 3 s = "PREDICTABLE" ↔ 0.9 ≤ s.coherence :=
  ite3_first (P := s.coherence ≥ 0.9) (Q := s.coherence ≥ 0.7) (by decide +kernel) (by decide +kernel)
theorem status3' (s : Shown ℝ) : metricsStatus 3 s = "UNPREDICTABLE" ↔ s.coherence < 0.7 :=
  (ite3_last (P := s.coherence ≥ 0.9) (Q := s.coherence ≥ 0.7) (by decide +kernel) (by decide +kernel)).trans
    ⟨fun h => not_le.1 h.2, fun h => ⟨not_le.2 (lt_trans h (by norm_num)), not_le.2 h⟩⟩
theorem status5 (s : Shown ℝ) : metricsStatus 5 s = "ON SCHEDULE" ↔ 0.9 ≤ s.coherence :=
  ite3_first (P := s.coherence ≥ 0.9) (Q := s.coherence ≥ 0.7) (by decide +kernel) (by decide +kernel)
theorem status6 (s : Shown ℝ) (hd : s.disrupted = false) : metricsStatus 6 s = "RESILIENT" ↔ 0.8 ≤ s.coherence := by
  change (if s.disrupted then "RECOVERING" else if s.coherence ≥ 0.8 then "RESILIENT" else if s.coherence ≥ 0.6 then "PARTIAL" else "VULNERABLE") = _ ↔ _
  rw [hd, if_neg (by decide)]
  exact ite3_first (P := s.coherence ≥ 0.8) (Q := s.coherence ≥ 0.6) (by decide +kernel) (by decide +kernel)

/-- The claim is false, however `fmt` breaks ties: with a coherence of 0.897 the panel prints 90 % beside "Syncing...". -/
theorem C149_refuted : ¬ C149_claim := fun h => by
  have hr : NearestReal fun x => round x := fun x => by rw [abs_sub_comm]; exact abs_sub_round x
  have h1 := (h _ hr ⟨0.897, 0.9, false, []⟩).1
  rw [status0] at h1
  have := h1.2 ⟨_, rfl, nearestReal_le_of _ hr⟩
  norm_num at this
where
  nearestReal_le_of (fix : ℝ → ℤ) (h : NearestReal fix) : (90 : ℤ) ≤ fix ((0.897 : ℝ) * 100.0 * if (0 : GoalType) = 0 ∨ (0 : GoalType) = 4 ∨ (0 : GoalType) = 7 then 1 else 10) := by
    have := (abs_le.1 (h ((0.897 : ℝ) * 100.0 * if (0 : GoalType) = 0 ∨ (0 : GoalType) = 4 ∨ (0 : GoalType) = 7 then 1 else 10))).1
    rw [if_pos (Or.inl rfl)] at this ⊢
    have h2 : ((89 : ℤ) : ℝ) < fix ((0.897 : ℝ) * 100.0 * 1) := by push_cast; norm_num at this ⊢; linarith
    have := Int.cast_lt.1 h2
    omega

/-- **C149, percentage (partial).** A good status is never beside a number below its threshold, and a number from the threshold on says that the coherence
is at most half a unit of the last digit below it. Missing: the coherences in that half unit, where the claim is false. -/
theorem C149_percent_partial (fix : ℝ → ℤ) (hf : NearestReal fix) (s : Shown ℝ) :
    (∃ p, printed fix 0 s = some p ∧ (metricsStatus 0 s = "In sync!" → 90 ≤ p) ∧ (90 ≤ p → 0.895 ≤ s.coherence)) ∧
    (∃ p, printed fix 2 s = some p ∧ (metricsStatus 2 s = "CONSENSUS!" → 950 ≤ p) ∧ (950 ≤ p → 0.9495 ≤ s.coherence)) ∧
    (∃ p, printed fix 5 s = some p ∧ (metricsStatus 5 s = "ON SCHEDULE" → 900 ≤ p) ∧ (900 ≤ p → 0.8995 ≤ s.coherence)) ∧
    (s.disrupted = false →
      ∃ p, printed fix 6 s = some p ∧ (metricsStatus 6 s = "RESILIENT" → 800 ≤ p) ∧ (800 ≤ p → 0.7995 ≤ s.coherence)) := by
  have key : ∀ (k : ℝ) (n : ℤ) (t t' : ℝ), t * 100.0 * k = n → t' * 100.0 * k = n - 1 / 2 → 0 < k →
      (t ≤ s.coherence → n ≤ fix (s.coherence * 100.0 * k)) ∧ (n ≤ fix (s.coherence * 100.0 * k) → t' ≤ s.coherence) := by
    intro k n t t' h1 h2 hk
    refine ⟨fun h => nearestReal_le hf ?_, fun h => ?_⟩
    · rw [← h1]; exact mul_le_mul_of_nonneg_right (mul_le_mul_of_nonneg_right h (by norm_num)) hk.le
    · have := nearestReal_ge hf h
      rw [← h2] at this
      exact le_of_mul_le_mul_right (le_of_mul_le_mul_right this hk) (by norm_num)
  refine ⟨⟨_, rfl, ?_⟩, ⟨_, rfl, ?_⟩, ⟨_, rfl, ?_⟩, fun hd => ⟨_, rfl, ?_⟩⟩
  · rw [status0, if_pos (by decide)]; exact key 1 90 _ _ (by norm_num) (by norm_num) (by norm_num)
  · rw [status2, if_neg (by decide)]; exact key 10 950 _ _ (by norm_num) (by norm_num) (by norm_num)
  · rw [status5, if_neg (by decide)]; exact key 10 900 _ _ (by norm_num) (by norm_num) (by norm_num)
  · rw [status6 s hd, if_neg (by decide)]; exact key 10 800 _ _ (by norm_num) (by norm_num) (by norm_num)

/-! ### The figures made up from the coherence -/

/-- **C149, latency.** The median is 10 ms; the 95th percentile is between 10 and 30 ms, exactly two jitters above the median, and falls when the coherence
rises. "PREDICTABLE" is at most 12 ms, "UNPREDICTABLE" more than 16 ms. -/
theorem C149_latency (s : Shown ℝ) (h : Sound s) :
    (latencies s).1 = 10 ∧ 10 ≤ (latencies s).2.1 ∧ (latencies s).2.1 ≤ 30 ∧
    (latencies s).2.1 = (latencies s).1 + 2 * (latencies s).2.2 ∧
    (metricsStatus 3 s = "PREDICTABLE" ↔ (latencies s).2.1 ≤ 12) ∧ (metricsStatus 3 s = "UNPREDICTABLE" ↔ 16 < (latencies s).2.1) ∧
    ∀ s' : Shown ℝ, s.coherence < s'.coherence ↔ (latencies s').2.1 < (latencies s).2.1 := by
  obtain ⟨h0, h1⟩ := h.coherence
  rw [status3, status3']
  have e : ∀ s : Shown ℝ, latencies s = (10, 10 + (1 - s.coherence) * 20, (1 - s.coherence) * 20 / 2) := fun s => by
    unfold latencies; norm_num
  simp only [e]
  refine ⟨trivial, by linarith, by linarith, by ring, ⟨fun h => ?_, fun h => ?_⟩, ⟨fun h => ?_, fun h => ?_⟩,
    fun s' => ⟨fun h => by linarith, fun h => by linarith⟩⟩ <;> norm_num at h ⊢ <;> linarith

/-- **C149, drift.** The drift is between 0 and 1000 ms, 0 exactly for perfect coherence, and "ON SCHEDULE" says that it is at most 100 ms. -/
theorem C149_drift (s : Shown ℝ) (h : Sound s) :
    0 ≤ timingDrift s ∧ timingDrift s ≤ 1000 ∧ (timingDrift s = 0 ↔ s.coherence = 1) ∧
    (metricsStatus 5 s = "ON SCHEDULE" ↔ timingDrift s ≤ 100) := by
  obtain ⟨h0, h1⟩ := h.coherence
  rw [status5]
  unfold timingDrift
  norm_num
  exact ⟨by linarith, by linarith, ⟨fun h => by linarith, fun h => by linarith⟩, ⟨fun h => by linarith, fun h => by linarith⟩⟩

/-- **C149, battery.** The battery lasts 12 hours if no agent is idle, 36 if all are, in proportion between; more than 28.8 hours is "EFFICIENT", at most 24
"HIGH DRAIN". -/
theorem C149_battery (s : Shown ℝ) (h : Sound s) :
    batteryHours s = 12 + 24 * (quiet s / s.agents.length) ∧ 12 ≤ batteryHours s ∧ batteryHours s ≤ 36 ∧
    (metricsStatus 4 s = "EFFICIENT" ↔ 28.8 < batteryHours s) ∧ (metricsStatus 4 s = "HIGH DRAIN" ↔ batteryHours s ≤ 24) := by
  have hb : batteryHours s = 12 + 24 * (quiet s / s.agents.length) := by
    unfold batteryHours
    rw [sharePercent_real, idleCount_eq]
    norm_num
    ring
  have hn : (0 : ℝ) < s.agents.length := by exact_mod_cast h.pos
  have hq : (quiet s : ℝ) / s.agents.length ≤ 1 := by
    rw [div_le_one hn]; exact_mod_cast quiet_le s
  have hq0 : 0 ≤ (quiet s : ℝ) / s.agents.length := by positivity
  have hsh : (sharePercent (idleCount s) s.agents.length : ℝ) = (quiet s : ℝ) / s.agents.length * 100 := by
    rw [sharePercent_real, idleCount_eq]
  have e1 : metricsStatus 4 s = "EFFICIENT" ↔ 70.0 < (quiet s : ℝ) / s.agents.length * 100 := by
    rw [← hsh]
    exact ite3_first (P := (sharePercent (idleCount s) s.agents.length : ℝ) > 70.0)
      (Q := (sharePercent (idleCount s) s.agents.length : ℝ) > 50.0) (by decide +kernel) (by decide +kernel)
  have e2 : metricsStatus 4 s = "HIGH DRAIN" ↔ (quiet s : ℝ) / s.agents.length * 100 ≤ 50.0 := by
    rw [← hsh]
    exact (ite3_last (P := (sharePercent (idleCount s) s.agents.length : ℝ) > 70.0)
      (Q := (sharePercent (idleCount s) s.agents.length : ℝ) > 50.0) (by decide +kernel) (by decide +kernel)).trans
      ⟨fun h => not_lt.1 h.2, fun h => ⟨not_lt.2 (le_trans h (by norm_num)), not_lt.2 h⟩⟩
  rw [e1, e2, hb]
  generalize (quiet s : ℝ) / s.agents.length = q at *
  norm_num
  exact ⟨hq0, by linarith, ⟨fun h => by linarith, fun h => by linarith⟩, ⟨fun h => by linarith, fun h => by linarith⟩⟩

/-- **C149, load.** The loads of all servers add up to 100 %. -/
theorem C149_load (s : Shown ℝ) (h : Sound s) : (s.agents.map fun _ => loadPerServer s).sum = 100 := by
  have hn : (s.agents.length : ℝ) ≠ 0 := by exact_mod_cast h.pos.ne'
  rw [List.map_const', List.sum_replicate, nsmul_eq_mul]
  unfold loadPerServer
  rw [GoMath.ofInt_real, Int.cast_natCast]
  norm_num
  field_simp

/-! ### Voting rounds -/

section
variable [Rounding] [LibM]

/-- **C149, rounds.** In doubles too the rounds are the elapsed time in half seconds, rounded down, for the first 24 days. -/
theorem C149_rounds (d : ℕ) (h : d < 2 ^ 21 * 1000000000) : votingRounds F64 d = ((d / 500000000 : ℕ) : ℤ) := by
  have hu := ulp_pos
  have hη := eta_pos
  have hηu := eta_le_ulp
  have hu1 : ulp * 2 ^ 25 < 4 / 1000000000 := by unfold ulp; rw [zpow_neg]; norm_num
  obtain ⟨a, ea, ha⟩ := fin_nat (d / 1000000000) (by omega)
  obtain ⟨b, eb, hb⟩ := fin_nat (d % 1000000000) (by omega)
  have e1 : (1e9 : F64) = .fin ⟨1000000000, isDouble_ofNat 1000000000 (by norm_num)⟩ := lit_fin _ _ _ (by norm_num)
  have e2 : (2.0 : F64) = .fin ⟨2, isDouble_ofNat 2 (by norm_num)⟩ := lit_fin _ _ _ (by norm_num)
  have hdm := Nat.div_add_mod d 1000000000
  have hml := Nat.mod_lt d (show 0 < 1000000000 by norm_num)
  have hsec : d / 1000000000 < 2 ^ 21 := by omega
  generalize hs : d / 1000000000 = sec at *
  generalize hm : d % 1000000000 = ns at *
  have hns : (ns : ℝ) ≤ 999999999 := by exact_mod_cast (by omega : ns ≤ 999999999)
  have hsr : (sec : ℝ) ≤ 2 ^ 21 := by exact_mod_cast hsec.le
  have hn0 : (0 : ℝ) ≤ ns := Nat.cast_nonneg _
  have hs0 : (0 : ℝ) ≤ sec := Nat.cast_nonneg _
  have hov : ∀ x : ℝ, 0 ≤ x → x ≤ 1073741824 → |x| < 2 ^ (1023 : ℤ) := by
    intro x h0 h1
    rw [abs_of_nonneg h0]
    have : (2 : ℝ) ^ (31 : ℤ) ≤ 2 ^ (1023 : ℤ) := zpow_le_zpow_right₀ (by norm_num) (by norm_num)
    rw [show (2 : ℝ) ^ (31 : ℤ) = 2147483648 by norm_num] at this
    exact lt_of_le_of_lt h1 (lt_of_lt_of_le (by norm_num) this)
  -- the quotient
  obtain ⟨q, eq, hq⟩ := F64.ofReal_err (x := (ns : ℝ) / 1000000000) (hov _ (by positivity) (by linarith))
  rw [abs_of_nonneg (by positivity : (0 : ℝ) ≤ ns / 1000000000)] at hq
  have hq' := abs_le.1 hq
  have q1 : ulp * ((ns : ℝ) / 1000000000) ≤ ulp := mul_le_of_le_one_right hu.le (by linarith)
  have qlow : ∀ y : ℝ, IsDouble y → y ≤ (ns : ℝ) / 1000000000 → y ≤ q.1 := by
    intro y hy hle
    obtain ⟨z, hz, ez, h1, -⟩ := F64.ofReal_between hy (isDouble_ofNat 1000000000 (by norm_num)) hle (by linarith)
    rw [eq] at ez
    obtain rfl : q = ⟨z, hz⟩ := by simpa using ez
    exact h1
  have q0 : 0 ≤ q.1 := qlow 0 isDouble_zero (by positivity)
  -- the sum
  have hulp : ulp ≤ 1 := by linarith
  obtain ⟨t, et, ht⟩ := F64.ofReal_err (x := (sec : ℝ) + q.1) (hov _ (by linarith) (by linarith))
  rw [abs_of_nonneg (by linarith : 0 ≤ (sec : ℝ) + q.1)] at ht
  have ht' := abs_le.1 ht
  have t1 : ulp * ((sec : ℝ) + q.1) ≤ ulp * (2 ^ 21 + 3) := mul_le_mul_of_nonneg_left (by linarith) hu.le
  have tlow : ∀ y : ℝ, IsDouble y → y ≤ (sec : ℝ) + q.1 → y ≤ t.1 := by
    intro y hy hle
    obtain ⟨z, hz, ez, h1, -⟩ := F64.ofReal_between hy (isDouble_ofNat 4000000000 (by norm_num)) hle (by linarith)
    rw [et] at ez
    obtain rfl : t = ⟨z, hz⟩ := by simpa using ez
    exact h1
  have t0 : 0 ≤ t.1 := tlow 0 isDouble_zero (by linarith)
  -- the double of it
  obtain ⟨r, er, hr⟩ := F64.ofReal_err (x := t.1 * 2) (hov _ (by linarith) (by linarith))
  rw [abs_of_nonneg (by linarith : 0 ≤ t.1 * 2)] at hr
  have hr' := abs_le.1 hr
  have r1 : ulp * (t.1 * 2) ≤ ulp * (2 ^ 22 + 100) := mul_le_mul_of_nonneg_left (by linarith) hu.le
  have rlow : ∀ y : ℝ, IsDouble y → y ≤ t.1 * 2 → y ≤ r.1 := by
    intro y hy hle
    obtain ⟨z, hz, ez, h1, -⟩ := F64.ofReal_between hy (isDouble_ofNat 4000000000 (by norm_num)) hle (by linarith)
    rw [er] at ez
    obtain rfl : r = ⟨z, hz⟩ := by simpa using ez
    exact h1
  have hval : (durationSeconds (d : ℤ) : F64) * 2.0 = .fin r := by
    have h1 : (d : ℤ).tdiv 1000000000 = (sec : ℤ) := by rw [← hs]; rfl
    have h2 : (d : ℤ).tmod 1000000000 = (ns : ℤ) := by rw [← hm]; rfl
    unfold durationSeconds
    rw [h1, h2, ea, eb, e1, e2]
    change F64.mul (F64.add (.fin a) (F64.div (.fin b) (.fin ⟨1000000000, _⟩))) _ = _
    have hd : F64.div (.fin b) (.fin ⟨1000000000, isDouble_ofNat 1000000000 (by norm_num)⟩) = F64.ofReal (b.1 / 1000000000) := by
      unfold F64.div
      simp
    rw [hd, hb, eq]
    change F64.mul (F64.ofReal (a.1 + q.1)) _ = _
    rw [ha, et]
    exact er
  unfold votingRounds
  rw [hval]
  have hk : d / 500000000 = 2 * sec + ns / 500000000 := by omega
  rw [hk]
  have hj : ns / 500000000 ≤ 1 := by omega
  have hsd : IsDouble (sec : ℝ) := by rw [← ha]; exact a.2
  have low : ((2 * sec + ns / 500000000 : ℕ) : ℝ) ≤ r.1 := by
    have hyd : IsDouble ((2 * sec + ns / 500000000 : ℕ) : ℝ) := by
      obtain ⟨w, -, hw⟩ := fin_nat (2 * sec + ns / 500000000) (by omega)
      rw [← hw]; exact w.2
    refine rlow _ hyd ?_
    rcases Nat.lt_or_ge ns 500000000 with hlt | hge
    · rw [Nat.div_eq_of_lt hlt]
      push_cast
      have := tlow sec hsd (by linarith)
      linarith
    · have h1 : ns / 500000000 = 1 := by omega
      rw [h1]
      push_cast
      have hhd : IsDouble ((sec : ℝ) + 1 / 2) := by
        refine ⟨(2 * sec + 1 : ℕ), -1, ?_, by norm_num, by norm_num, ?_⟩
        · rw [abs_of_nonneg (by positivity)]; exact_mod_cast (by omega : 2 * sec + 1 < 2 ^ 53)
        · push_cast; rw [zpow_neg]; norm_num; ring
      have hq2 := qlow (1 / 2) ⟨1, -1, by norm_num, by norm_num, by norm_num, by norm_num⟩ (by
        have : (500000000 : ℝ) ≤ ns := by exact_mod_cast hge
        linarith)
      have := tlow _ hhd (by linarith)
      linarith
  have up : r.1 < ((2 * sec + ns / 500000000 : ℕ) : ℝ) + 1 := by
    have hgap : ((ns : ℝ) / 1000000000) * 2 ≤ ((ns / 500000000 : ℕ) : ℝ) + 1 - 2 / 1000000000 := by
      have h1 : ns + 1 ≤ 500000000 * (ns / 500000000) + 500000000 := by omega
      have h2 : (ns : ℝ) + 1 ≤ 500000000 * ((ns / 500000000 : ℕ) : ℝ) + 500000000 := by exact_mod_cast h1
      linarith
    push_cast at hgap ⊢
    generalize ((ns / 500000000 : ℕ) : ℝ) = j at *
    generalize (ns : ℝ) / 1000000000 = x at *
    linarith
  have := F64.toInt_between r ((2 * sec + ns / 500000000 : ℕ) : ℤ) ((2 * sec + ns / 500000000 : ℕ) : ℤ) (by positivity) (by omega)
    (by exact_mod_cast low) (by exact_mod_cast up)
  omega

/-- **C149, empty swarm.** In doubles a swarm without agents has infinitely loaded servers, and its idle share and battery are NaN beside "HIGH DRAIN". -/
theorem C149_empty (s : Shown F64) (h : s.agents = []) :
    loadPerServer s = .pinf ∧ metricsPercent 4 s = some .nan ∧ batteryHours s = .nan ∧ metricsStatus 4 s = "HIGH DRAIN" := by
  have e0 : (ofInt ((0 : ℕ) : ℤ) : F64) = .fin ⟨0, isDouble_zero⟩ := by
    change F64.ofReal _ = _
    exact lit_fin _ _ _ (by simp)
  have e100 : (100.0 : F64) = .fin ⟨100, isDouble_ofNat 100 (by norm_num)⟩ := lit_fin _ _ _ (by norm_num)
  have hz : (sharePercent (idleCount s) s.agents.length : F64) = .nan := by
    unfold sharePercent idleCount
    rw [h]
    simp only [List.countP_nil, List.length_nil]
    rw [e0]
    change F64.mul (F64.div (.fin ⟨0, _⟩) (.fin ⟨0, _⟩)) _ = _
    simp [F64.div, F64.infSign, F64.mul]
  refine ⟨?_, ?_, ?_, ?_⟩
  · unfold loadPerServer
    rw [h, List.length_nil, e0, e100]
    change F64.div (.fin ⟨100, _⟩) (.fin ⟨0, _⟩) = _
    simp [F64.div, F64.infSign]
  · change some (sharePercent (idleCount s) s.agents.length : F64) = _
    rw [hz]
  · unfold batteryHours
    rw [hz]
    change F64.mul _ (F64.add (F64.div .nan _) _) = _
    have h1 : ∀ x, F64.div .nan x = .nan := fun x => by cases x <;> rfl
    have h2 : ∀ x, F64.add .nan x = .nan := fun x => by cases x <;> rfl
    have h3 : ∀ x, F64.mul x .nan = .nan := fun x => by cases x <;> rfl
    rw [h1, h2, h3]
  · change (if (sharePercent (idleCount s) s.agents.length : F64) > 70.0 then _ else if (sharePercent (idleCount s) s.agents.length : F64) > 50.0 then _
      else _) = _
    have hn : ∀ x : F64, ¬ F64.nan > x := fun x h => by
      change F64.lt x .nan at h
      cases x <;> exact h
    rw [hz, if_neg (hn _), if_neg (hn _)]

end

/-! ### Recovery time -/

/-- The full claim, kept in view: while the swarm recovers, the recovery time is the time since the disruption. -/
def C149_recovery_claim : Prop := ∀ (s : Shown ℝ) (now disruption : ℤ) (lastBatch : Option ℤ), s.disrupted = true → disruption ≤ now →
  (∀ b, lastBatch = some b → b ≤ now) → recoveryText s now lastBatch = .elapsed (now - disruption)

/-- The claim is false: without a batch since the start or the last reset, the panel shows 292 years. -/
theorem C149_recovery_refuted : ¬ C149_recovery_claim := fun h => by
  have := h ⟨0.5, 0.9, true, []⟩ 10 0 none rfl (by norm_num) (by simp)
  simp [recoveryText, sinceTime] at this

/-- **C149, recovery time (partial).** What is shown instead: during a disruption the time since the last batch, whenever the disruption was. It is the time
since the disruption exactly if the last batch was sent at that moment. Without a batch it is the longest duration of Go. Otherwise the text says what the
status does. -/
theorem C149_recovery_partial (s : Shown ℝ) (now : ℤ) (lastBatch : Option ℤ) :
    (s.disrupted = true → ∀ b, lastBatch = some b → ∀ t, recoveryText s now lastBatch = .elapsed (now - t) ↔ t = b) ∧
    (s.disrupted = true → lastBatch = none → recoveryText s now lastBatch = .elapsed 9223372036854775807) ∧
    ((∃ d, recoveryText s now lastBatch = .elapsed d) ↔ metricsStatus 6 s = "RECOVERING") ∧
    (recoveryText s now lastBatch = .belowOne ↔ metricsStatus 6 s = "RESILIENT") ∧
    (recoveryText s now lastBatch = .aboutTwo ↔ metricsStatus 6 s = "PARTIAL") ∧
    (recoveryText s now lastBatch = .notAvailable ↔ metricsStatus 6 s = "VULNERABLE") := by
  refine ⟨?_, ?_, ?_⟩
  · rintro hd b rfl t
    simp only [recoveryText, hd, if_true, sinceTime, RecoveryText.elapsed.injEq]
    omega
  · rintro hd rfl
    simp [recoveryText, hd, sinceTime]
  · change (_ ↔ (if s.disrupted then "RECOVERING" else if s.coherence ≥ 0.8 then "RESILIENT" else if s.coherence ≥ 0.6 then "PARTIAL" else "VULNERABLE")
        = _) ∧ (_ ↔ (if s.disrupted then _ else _) = _) ∧ (_ ↔ (if s.disrupted then _ else _) = _) ∧ (_ ↔ (if s.disrupted then _ else _) = _)
    have n1 : "RECOVERING" ≠ "RESILIENT" := by decide +kernel
    have n2 : "RECOVERING" ≠ "PARTIAL" := by decide +kernel
    have n3 : "RECOVERING" ≠ "VULNERABLE" := by decide +kernel
    have n4 : "RESILIENT" ≠ "PARTIAL" := by decide +kernel
    have n5 : "RESILIENT" ≠ "VULNERABLE" := by decide +kernel
    have n6 : "PARTIAL" ≠ "VULNERABLE" := by decide +kernel
    unfold recoveryText
    generalize "RECOVERING" = w1 at *
    generalize "RESILIENT" = w2 at *
    generalize "PARTIAL" = w3 at *
    generalize "VULNERABLE" = w4 at *
    split_ifs <;> simp [n1, n2, n3, n4, n5, n6, n1.symm, n2.symm, n3.symm, n4.symm, n5.symm, n6.symm]

/-- **C149, flags.** Each of the three lines shows its flag. -/
theorem C149_flags (p d r : Bool) : (statusLines p d r).map Prod.snd = [p, d, r] ∧ ((statusLines p d r).map Prod.fst).Nodup := by
  cases p <;> cases d <;> cases r <;> decide

/-- The hypotheses are met by a swarm of two agents, one of them idle: the battery lasts 24 hours. -/
example : Sound (⟨0.92, 0.9, false, [⟨0, .quiet⟩, ⟨1, .burst⟩]⟩ : Shown ℝ) ∧
    batteryHours (⟨0.92, 0.9, false, [⟨0, .quiet⟩, ⟨1, .burst⟩]⟩ : Shown ℝ) = 24 := by
  have hs : Sound (⟨0.92, 0.9, false, [⟨0, .quiet⟩, ⟨1, .burst⟩]⟩ : Shown ℝ) := ⟨by norm_num, by norm_num, by simp⟩
  refine ⟨hs, ?_⟩
  rw [(C149_battery _ hs).1]
  simp [quiet]
  norm_num

/-- A minute has 120 rounds. -/
example [Rounding] [LibM] : votingRounds F64 60000000000 = 120 := C149_rounds 60000000000 (by norm_num)

end Verif
