import Verif.Props.ConsensusPanel
import Verif.Props.Pull

/-!
# C104: the panels of the demo that show single agents
-/

set_option autoImplicit false
set_option linter.unusedSectionVars false

namespace Verif
open GoMath Spec

local notation "π" => Real.pi

namespace Spec

/-- The distance of a phase in `[0, 2π)` from phase 0, either way round. -/
noncomputable def fromZero (p : ℝ) : ℝ := min p (2 * π - p)

/-- Everything the panels show of one agent: schedule, latency, health with and without a disruption, and dot; and the indicators for all goals. -/
structure SameShown (p q : ℝ) : Prop where
  timing : timing p = timing q
  latency : latencyBin p = latencyBin q
  health : ∀ b, health b p = health b q
  dot : dotShade p = dotShade q
  sync : ∀ goal : GoalType, syncShade goal p = syncShade goal q

end Spec

theorem fromZero_circ (p : ℝ) (h0 : 0 ≤ p) (h1 : p < 2 * π) : IsCircDist p 0 (fromZero p) := by
  unfold fromZero
  rcases h0.eq_or_lt with rfl | h0
  · have := (IsForward.mk le_rfl Real.two_pi_pos ⟨0, by simp⟩ : IsForward 0 0 0).circ
    simpa using this
  · have := (IsForward.mk (by linarith) (by linarith) ⟨-1, by push_cast; ring⟩ : IsForward p 0 (2 * π - p)).circ
    rw [min_comm, show 2 * π - (2 * π - p) = p by ring] at this
    exact this

/-- **C104** Timing: an agent is on time during the first tenth of a radian after phase 0 and late everywhere else; no agent is ever early. -/
theorem C104_timing (p : ℝ) (h0 : 0 ≤ p) : (timing p = .onTime ↔ p < 0.1) ∧ (timing p = .late ↔ 0.1 ≤ p) ∧ timing p ≠ .early := by
  unfold timing
  rw [GoMath.abs_real, abs_of_nonneg h0]
  by_cases h : p < 0.1
  · rw [if_pos h]; exact ⟨by simp [h], by simp [h], by simp⟩
  · rw [if_neg h, if_neg (not_lt.2 h0)]
    exact ⟨by simp [h], by simp [not_lt.1 h], by simp⟩

/-- **C104** Latency: the bin of an agent grows with its phase, one bin every two radians from the second one on; the first bin is never used. -/
theorem C104_latency (p : ℝ) (h0 : 0 ≤ p) (h1 : p < 2 * π) :
    1 ≤ latencyBin p ∧ latencyBin p ≤ 4 ∧ ∀ k : ℤ, 1 ≤ k → k ≤ 4 → (latencyBin p = k ↔ 2 * (k - 1) ≤ p ∧ p < 2 * k) := by
  have hp := Real.pi_lt_d2
  have e : latencyBin p = 1 + ⌊p / 2⌋ := by
    have hf : ⌊p / 2⌋ < 4 := by rw [Int.floor_lt]; push_cast; linarith
    unfold latencyBin
    simp only [GoMath.toInt_real, GoMath.abs_real]
    rw [abs_of_nonneg h0, rtrunc_floor _ (by positivity)]
    have : ((10.0 : ℝ) + p * 5.0) / 10.0 = 1 + p / 2 := by norm_num; ring
    rw [this, add_comm (1:ℝ), Int.floor_add_one, add_comm ⌊p / 2⌋, if_neg (by omega)]
  have f0 : 0 ≤ ⌊p / 2⌋ := Int.floor_nonneg.2 (by positivity)
  have hf : ⌊p / 2⌋ < 4 := by rw [Int.floor_lt]; push_cast; linarith
  refine ⟨by omega, by omega, fun k _ _ => ?_⟩
  rw [e, show (1 + ⌊p / 2⌋ = k) ↔ ⌊p / 2⌋ = k - 1 from ⟨fun h => by omega, fun h => by omega⟩, Int.floor_eq_iff]
  push_cast
  constructor
  · rintro ⟨a, b⟩; constructor <;> linarith
  · rintro ⟨a, b⟩; constructor <;> linarith

theorem addAt_fold {β : Type} (f : β → ℤ) (l : List β) (init : List ℕ) (h : ∀ p ∈ l, 0 ≤ f p ∧ f p < init.length) :
    ∃ r, l.foldl (fun o p => addAt (f p) o) (.ok init) = .ok r ∧ r.length = init.length ∧
      ∀ i : ℕ, r[i]? = init[i]?.map (· + l.countP fun p => decide (f p = i)) := by
  induction l generalizing init with
  | nil => exact ⟨init, rfl, rfl, fun i => by simp⟩
  | cons a l ih =>
    rw [List.foldl_cons]
    have ha := h a (by simp)
    have e : addAt (f a) (.ok init) = .ok (init.modify (f a).toNat (· + 1)) := by
      show (if f a < 0 ∨ (init.length : ℤ) ≤ f a then Outcome.panic else Outcome.ok (init.modify (f a).toNat (· + 1))) = _
      rw [if_neg (by omega)]
    rw [e]
    obtain ⟨r, h1, h2, h3⟩ := ih (init.modify (f a).toNat (· + 1)) fun p hp => by simpa using h p (by simp [hp])
    refine ⟨r, h1, by rw [h2]; simp, fun i => ?_⟩
    rw [h3, List.getElem?_modify, List.countP_cons]
    by_cases hi : f a = (i : ℤ)
    · have : (f a).toNat = i := by omega
      rw [this]
      cases init[i]? with
      | none => simp
      | some x => simp [hi]; omega
    · have : (f a).toNat ≠ i := by omega
      cases init[i]? with
      | none => simp
      | some x => simp [hi, this]

/-- **C104** The latency histogram counts every agent once, in its bin, and never panics. -/
theorem C104_histogram (l : List ℝ) (h : OnCircle l) :
    ∃ r, latencyBins l = .ok r ∧ r.length = 5 ∧ r.sum = l.length ∧ ∀ i : ℕ, i < 5 → r[i]? = some (l.countP fun p => decide (latencyBin p = i)) := by
  obtain ⟨r, h1, h2, h3⟩ := addAt_fold latencyBin l [0, 0, 0, 0, 0] fun p hp => by
    have := C104_latency p (h p hp).1 (h p hp).2
    exact ⟨by omega, by show latencyBin p < 5; omega⟩
  have h3' : ∀ i : ℕ, i < 5 → r[i]? = some (l.countP fun p => decide (latencyBin p = i)) := by
    intro i hi
    rw [h3]
    have : ([0, 0, 0, 0, 0] : List ℕ)[i]? = some 0 := by
      rcases i with _ | _ | _ | _ | _ | i <;> first | rfl | omega
    rw [this]; simp
  refine ⟨r, h1, h2, ?_, h3'⟩
  have hr : r = (List.range 5).map fun i => l.countP fun p => decide (latencyBin p = (i : ℕ)) := by
    apply List.ext_getElem?
    intro i
    by_cases hi : i < 5
    · rw [h3' i hi]; simp [hi]
    · rw [List.getElem?_eq_none (by rw [h2]; simpa using hi), List.getElem?_eq_none (by simpa using hi)]
  rw [hr]
  clear h1 h2 h3 h3' hr
  induction l with
  | nil => simp
  | cons a l ih =>
    have ha := C104_latency a (h a (by simp)).1 (h a (by simp)).2
    have il := ih fun p hp => h p (by simp [hp])
    simp only [List.range_succ, List.range_zero, List.map_append, List.map_cons, List.map_nil, List.nil_append, List.sum_append, List.sum_cons,
      List.sum_nil, List.countP_cons, List.length_cons] at il ⊢
    have hc : latencyBin a = 1 ∨ latencyBin a = 2 ∨ latencyBin a = 3 ∨ latencyBin a = 4 := by omega
    rcases hc with hc | hc | hc | hc <;> simp only [hc] <;> norm_num at il ⊢ <;> omega

/-- **C104** Health: an agent is healthy up to phase 1, then degraded, and beyond phase 2 failed while there is a disruption. -/
theorem C104_health (b : Bool) (p : ℝ) (h0 : 0 ≤ p) :
    (health b p = .healthy ↔ p ≤ 1) ∧ (health b p = .failed ↔ b = true ∧ 2 < p) ∧ (health b p = .degraded ↔ 1 < p ∧ (b = true → p ≤ 2)) := by
  unfold health
  rw [GoMath.abs_real, abs_of_nonneg h0]
  have e2 : (2.0 : ℝ) = 2 := by norm_num
  rw [e2]
  split_ifs with h1 h2
  · have : 1 < p := by linarith [h1.2]
    simp [h1, this]
  · simp only [reduceCtorEq, false_iff, true_iff]
    refine ⟨not_le.2 h2, h1, h2, fun hb => ?_⟩
    by_contra hc
    exact h1 ⟨hb, not_le.1 hc⟩
  · simp only [reduceCtorEq, false_iff, true_iff]
    refine ⟨not_lt.1 h2, h1, fun hc => h2 hc.1⟩

/-- **C104** FULLY RESILIENT is shown exactly when there is no disruption and every agent is within the first radian after phase 0. -/
theorem C104_resilient (s : Shown ℝ) (h : OnCircle (s.agents.map (·.phase))) :
    resilientShown s = true ↔ s.disrupted = false ∧ ∀ a ∈ s.agents, a.phase ≤ 1 := by
  unfold resilientShown
  rw [Bool.and_eq_true, Bool.not_eq_true', decide_eq_true_iff, List.countP_eq_length]
  refine and_congr_right fun _ => forall₂_congr fun a ha => ?_
  rw [decide_eq_true_iff, (C104_health _ _ (h _ (List.mem_map.2 ⟨a, ha, rfl⟩)).1).1]

/-- **C104** So a swarm shown as resilient has a coherence of at least 0.87. -/
theorem C104_resilient_coherent (s : Shown ℝ) (h : OnCircle (s.agents.map (·.phase))) (hn : s.agents ≠ []) (hs : resilientShown s = true) :
    0.875 ≤ measureCoherence (s.agents.map (·.phase)) := by
  obtain ⟨-, hall⟩ := (C104_resilient s h).1 hs
  have hpos : (0 : ℝ) < (s.agents.map (·.phase)).length := by rw [List.length_map]; exact_mod_cast List.length_pos_of_ne_nil hn
  rw [C03_coherence_eq_orderParameter, orderParameter_eq_total, le_div_iff₀ hpos]
  refine le_trans ?_ (re_le_norm_total _ (1 / 2))
  have key : ∀ l : List ℝ, (∀ p ∈ l, 0 ≤ p ∧ p ≤ 1) → 0.875 * (l.length : ℝ) ≤ (l.map fun p => Real.cos (p - 1 / 2)).sum := by
    intro l hl
    induction l with
    | nil => simp
    | cons a l ih =>
      have ha := hl a (by simp)
      have hc := Real.one_sub_sq_div_two_le_cos (x := a - 1 / 2)
      have hi := ih fun p hp => hl p (by simp [hp])
      simp only [List.map_cons, List.sum_cons, List.length_cons]
      push_cast
      norm_num at hi ⊢
      nlinarith [ha.1, ha.2]
  refine key _ fun p hp => ?_
  have := h p hp
  obtain ⟨a, ha, rfl⟩ := List.mem_map.1 hp
  exact ⟨this.1, hall a ha⟩

/-- **C104** The indicators that are right: for the goals that want agents together, green means a distance below half a radian from phase 0, either way
round; for DistributeLoad (1) and RecoverFromFailure (6) red means the same; for SaveEnergy (4) yellow means a distance below 0.3 and, apart from that, green a
distance below half a radian from phase π. -/
theorem C104_indicator (p : ℝ) (h0 : 0 ≤ p) (h1 : p < 2 * π) :
    (∀ goal : GoalType, goal = 0 ∨ goal = 3 ∨ goal = 5 ∨ goal = 7 → (syncShade goal p = .green ↔ fromZero p < 0.5)) ∧
    (∀ goal : GoalType, goal = 1 ∨ goal = 6 → (syncShade goal p = .red ↔ fromZero p < 0.5)) ∧
    (syncShade 4 p = .yellow ↔ fromZero p < 0.3) ∧ (syncShade 4 p = .green ↔ π - fromZero p < 0.5) := by
  have hp := Real.pi_gt_three
  have e0 : |p| = p := abs_of_nonneg h0
  have e1 : |p - 2 * π| = 2 * π - p := by rw [abs_of_nonpos (by linarith)]; ring
  have hz : ∀ x : ℝ, (p < x ∨ 2 * π - p < x) ↔ fromZero p < x := fun x => by unfold fromZero; rw [min_lt_iff]
  have epi : |p - π| = π - fromZero p := by
    unfold fromZero
    rcases le_total p π with h | h
    · rw [abs_of_nonpos (by linarith), min_eq_left (by linarith)]; ring
    · rw [abs_of_nonneg (by linarith), min_eq_right (by linarith)]; ring
  refine ⟨?_, ?_, ?_, ?_⟩
  · have : ∀ goal : GoalType, goal = 0 ∨ goal = 3 ∨ goal = 5 ∨ goal = 7 → syncShade goal p =
        if GoMath.abs p < 0.5 ∨ GoMath.abs (p - piMul 2) < 0.5 then .green else if GoMath.abs p < 1 then .yellow else .red := by
      rintro goal (rfl | rfl | rfl | rfl) <;> rfl
    intro goal hg
    rw [this goal hg, GoMath.abs_real, GoMath.abs_real, GoMath.piMul_real, show (((2 : ℚ) : ℝ) * π) = 2 * π by norm_num, e0, e1]
    simp only [hz]
    exact ite_green (by split_ifs <;> decide)
  · have : ∀ goal : GoalType, goal = 1 ∨ goal = 6 → syncShade goal p =
        if GoMath.abs p < 0.5 ∨ GoMath.abs (p - piMul 2) < 0.5 then .red
        else if GoMath.abs (p - piMul 1) < 0.5 ∨ GoMath.abs (p - piMul (1 / 2)) < 0.5 ∨ GoMath.abs (p - piMul (3 / 2)) < 0.5 then .green
        else .yellow := by
      rintro goal (rfl | rfl) <;> rfl
    intro goal hg
    rw [this goal hg, GoMath.abs_real, GoMath.abs_real, GoMath.piMul_real, show (((2 : ℚ) : ℝ) * π) = 2 * π by norm_num, e0, e1]
    simp only [hz]
    split_ifs <;> simp_all
  · show (if GoMath.abs p < 0.3 ∨ GoMath.abs (p - piMul 2) < 0.3 then Shade.yellow else if GoMath.abs (p - piMul 1) < 0.5 then .green else .red) = _ ↔ _
    rw [GoMath.abs_real, GoMath.abs_real, GoMath.piMul_real, show (((2 : ℚ) : ℝ) * π) = 2 * π by norm_num, e0, e1]
    simp only [hz]
    split_ifs <;> simp_all
  · show (if GoMath.abs p < 0.3 ∨ GoMath.abs (p - piMul 2) < 0.3 then Shade.yellow else if GoMath.abs (p - piMul 1) < 0.5 then .green else .red) = _ ↔ _
    rw [GoMath.abs_real, GoMath.abs_real, GoMath.abs_real, GoMath.piMul_real, GoMath.piMul_real, show (((2 : ℚ) : ℝ) * π) = 2 * π by norm_num,
      show (((1 : ℚ) : ℝ) * π) = π by norm_num, e0, e1, epi]
    simp only [hz]
    by_cases hc : fromZero p < 0.3
    · rw [if_pos hc]
      simp only [reduceCtorEq, false_iff, not_lt]
      norm_num at hc ⊢; linarith
    · rw [if_neg hc]
      exact ite_green (by decide)

/-- What the panels show of an agent depends on its distance from phase 0, and not on the side. -/
def C104_claim : Prop := ∀ p q : ℝ, 0 ≤ p → p < 2 * π → 0 ≤ q → q < 2 * π → fromZero p = fromZero q → SameShown p q

/-- **C104** Every panel fails the claim, with one pair of agents, 0.05 before and after phase 0: the one is on time, fast, healthy and synchronised, the
other late, in the slowest bin, failed and far; and 0.7 before and after phase 0 the indicator is red and yellow. -/
theorem C104_sides : fromZero 0.05 = fromZero (2 * π - 0.05) ∧
    timing (0.05 : ℝ) = .onTime ∧ timing (2 * π - 0.05) = .late ∧
    latencyBin (0.05 : ℝ) = 1 ∧ latencyBin (2 * π - 0.05) = 4 ∧
    health true (0.05 : ℝ) = .healthy ∧ health true (2 * π - 0.05) = .failed ∧
    dotShade (0.05 : ℝ) = .green ∧ dotShade (2 * π - 0.05) = .red ∧
    fromZero 0.7 = fromZero (2 * π - 0.7) ∧ syncShade 0 (0.7 : ℝ) = .yellow ∧ syncShade 0 (2 * π - 0.7) = .red := by
  have hp := Real.pi_gt_d2
  have hp2 := Real.pi_lt_d2
  norm_num at hp hp2
  have a0 : (0 : ℝ) ≤ 2 * π - 0.05 := by norm_num; linarith
  have b0 : (0 : ℝ) ≤ 2 * π - 0.7 := by norm_num; linarith
  refine ⟨?_, (C104_timing _ (by norm_num)).1.2 (by norm_num), (C104_timing _ a0).2.1.2 (by norm_num; linarith), ?_, ?_, ?_, ?_, ?_, ?_, ?_, ?_, ?_⟩
  · unfold fromZero; rw [min_comm, show 2 * π - (2 * π - 0.05) = 0.05 by ring]
  · exact ((C104_latency 0.05 (by norm_num) (by norm_num; linarith)).2.2 1 (by norm_num) (by norm_num)).2 (by norm_num)
  · exact ((C104_latency (2 * π - 0.05) a0 (by norm_num)).2.2 4 (by norm_num) (by norm_num)).2 (by norm_num; constructor <;> linarith)
  · exact (C104_health true _ (by norm_num)).1.2 (by norm_num)
  · exact (C104_health true _ a0).2.1.2 ⟨rfl, by norm_num; linarith⟩
  · unfold dotShade; rw [GoMath.abs_real, if_pos (by rw [abs_of_pos (by norm_num)]; norm_num)]
  · unfold dotShade
    rw [GoMath.abs_real, abs_of_nonneg a0, if_neg (by norm_num; linarith), if_neg (by norm_num; linarith)]
  · unfold fromZero; rw [min_comm, show 2 * π - (2 * π - 0.7) = 0.7 by ring]
  · show (if GoMath.abs (0.7 : ℝ) < 0.5 ∨ GoMath.abs (0.7 - piMul 2 : ℝ) < 0.5 then Shade.green else if GoMath.abs (0.7 : ℝ) < 1 then .yellow else .red) = _
    simp only [GoMath.abs_real, GoMath.piMul_real]
    rw [if_neg, if_pos]
    · norm_num [abs_of_pos]
    · rw [not_or, not_lt, not_lt]
      refine ⟨by rw [abs_of_pos (by norm_num)]; norm_num, ?_⟩
      rw [abs_of_nonpos (by norm_num; linarith)]
      norm_num; linarith
  · show (if GoMath.abs (2 * π - 0.7 : ℝ) < 0.5 ∨ GoMath.abs (2 * π - 0.7 - piMul 2 : ℝ) < 0.5 then Shade.green
      else if GoMath.abs (2 * π - 0.7 : ℝ) < 1 then .yellow else .red) = _
    simp only [GoMath.abs_real, GoMath.piMul_real]
    rw [if_neg, if_neg]
    · rw [not_lt, abs_of_nonneg b0]; norm_num; linarith
    · rw [not_or, not_lt, not_lt]
      refine ⟨by rw [abs_of_nonneg b0]; norm_num; linarith, ?_⟩
      rw [show (2 * π - 0.7 - ((2 : ℚ) : ℝ) * π) = -0.7 by norm_num, abs_neg, abs_of_pos (by norm_num)]
      norm_num

/-- An agent 0.05 before phase 0 is late, one 0.05 after it on time. -/
theorem C104_refuted : ¬ C104_claim := by
  intro h
  have hp := Real.pi_gt_three
  have hs := C104_sides
  have := (h 0.05 (2 * π - 0.05) (by norm_num) (by norm_num; linarith) (by norm_num; linarith) (by norm_num) hs.1).timing
  rw [hs.2.1, hs.2.2.1] at this
  cases this

/-- A synchronised swarm at phase 2, of coherence 1, is not shown as resilient. -/
example : let s : Shown ℝ := { coherence := 1, targetCoherence := 0.2, disrupted := false, agents := List.replicate 20 ⟨2, .steady⟩ }
    OnCircle (s.agents.map (·.phase)) ∧ resilientShown s = false := by
  intro s
  have hp := Real.pi_gt_three
  have ho : OnCircle (s.agents.map (·.phase)) := by
    intro p hp'
    simp only [s, List.map_replicate] at hp'
    rw [List.eq_of_mem_replicate hp']; constructor <;> linarith
  refine ⟨ho, ?_⟩
  rw [← Bool.not_eq_true, C104_resilient s ho]
  rintro ⟨-, h⟩
  have := h ⟨2, .steady⟩ (by simp [s])
  norm_num at this

end Verif
