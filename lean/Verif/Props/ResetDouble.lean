import Verif.Props.DisruptDouble
import Verif.Props.Bars

/-!
# C87 in doubles: the swarm after a reset of the demo
-/

set_option autoImplicit false
set_option linter.unusedSectionVars false

namespace Verif
open GoMath Spec

variable [Rounding] [LibM]

local notation "π" => Real.pi

theorem wide_err {x : ℝ} (h : |x| ≤ 10 ^ 8) : ∃ d : Dbl, F64.ofReal x = .fin d ∧ |d.1 - x| ≤ 1 / 10 ^ 7 := by
  have hu := ulp_pos
  have hus : ulp ≤ 1 / 9000000000000000 := by unfold ulp; rw [zpow_neg]; norm_num
  have heu := eta_le_ulp
  obtain ⟨d, e, hd⟩ := F64.ofReal_err (x := x) (small_lt_1023 (h.trans (by
    have : (2 : ℝ) ^ (200 : ℤ) = 2 ^ 200 := by norm_cast
    rw [this]; norm_num)))
  refine ⟨d, e, hd.trans ?_⟩
  have : ulp * |x| ≤ 1 / 9000000000000000 * 10 ^ 8 := mul_le_mul hus h (abs_nonneg _) (by norm_num)
  norm_num at this ⊢; linarith

theorem wrap_near (x : Dbl) (h : |x.1| ≤ 10 ^ 8) : ∃ r : Dbl, wrapPhase (F64.fin x) = .fin r ∧ 0 ≤ r.1 ∧ r.1 < 2 * π ∧ Near r.1 x.1 (3 / 10 ^ 7) := by
  obtain ⟨r, er, r0, r1, hr⟩ := C134_wrap x
  refine ⟨r, er, r0, r1, hr.mono ?_⟩
  have : (2 : ℝ) ^ (-53 : ℤ) ≤ 1 / 10 ^ 15 := by rw [zpow_neg]; norm_num
  have h2 : (2 * |x.1| + 22) * (2 : ℝ) ^ (-53 : ℤ) ≤ (2 * 10 ^ 8 + 22) * (1 / 10 ^ 15) := by gcongr
  refine h2.trans (by norm_num)

/-- The phases that a reset computes are those of exact arithmetic up to `10^-6`, for up to a million agents. -/
theorem reset_phase_double (g : GoalType) (n i : ℕ) (hi : i < n) (hn : n ≤ 10 ^ 6) :
    ∃ r : Dbl, wrapPhase (resetPhase g n i : F64) = .fin r ∧ 0 ≤ r.1 ∧ r.1 < 2 * π ∧ Near r.1 (resetPhase g n i) (1 / 10 ^ 6) := by
  have hiR : (i : ℝ) ≤ 10 ^ 6 := by
    have : i ≤ 10 ^ 6 := by omega
    exact_mod_cast this
  have hnR : (n : ℝ) ≤ 10 ^ 6 := by exact_mod_cast hn
  have hn1 : (1 : ℝ) ≤ n := by
    have : 1 ≤ n := by omega
    exact_mod_cast this
  have b53 : (10 : ℕ) ^ 6 < 2 ^ 53 := by norm_num
  have done : ∀ (x : F64) (X : ℝ), (∃ d : Dbl, x = .fin d ∧ |d.1 - X| ≤ 7 / 10 ^ 7) → |X| ≤ 10 ^ 7 →
      ∃ r : Dbl, wrapPhase x = .fin r ∧ 0 ≤ r.1 ∧ r.1 < 2 * π ∧ Near r.1 X (1 / 10 ^ 6) := by
    rintro x X ⟨d, rfl, hd⟩ hX
    have h8 : |d.1| ≤ 10 ^ 8 := by
      have := abs_sub_abs_le_abs_sub d.1 X
      norm_num at this hd hX ⊢; linarith
    obtain ⟨r, er, r0, r1, hr⟩ := wrap_near d h8
    refine ⟨r, er, r0, r1, (hr.trans (Near.of_abs hd)).mono (by norm_num)⟩
  have lit : ∀ X : ℝ, |X| ≤ 100 → ∃ d : Dbl, F64.ofReal X = .fin d ∧ |d.1 - X| ≤ 1 / 10 ^ 13 := fun X h => tiny_err h
  have zero : ∃ d : Dbl, (0 : F64) = .fin d ∧ |d.1 - 0| ≤ 7 / 10 ^ 7 := ⟨⟨0, isDouble_zero⟩, rfl, by norm_num⟩
  have opp : ∃ d : Dbl, (3.14159 : F64) = .fin d ∧ |d.1 - 3.14159| ≤ 7 / 10 ^ 7 := by
    obtain ⟨d, e, hd⟩ := lit 3.14159 (by rw [abs_of_pos] <;> norm_num)
    exact ⟨d, e, hd.trans (by norm_num)⟩
  have oppB : |(3.14159 : ℝ)| ≤ 10 ^ 7 := by rw [abs_of_pos] <;> norm_num
  obtain ⟨I, eI, hI⟩ := fin_nat i (by omega)
  obtain ⟨N, eN, hN⟩ := fin_nat n (by omega)
  unfold resetPhase
  by_cases h1 : g = 1 ∨ g = 4 ∨ g = 7
  · rw [if_pos h1, if_pos h1]; exact done _ _ zero (by norm_num)
  rw [if_neg h1, if_neg h1]
  by_cases h3 : g = 3
  · rw [if_pos h3, if_pos h3]
    by_cases hp : i % 2 = 0
    · rw [if_pos hp, if_pos hp]; exact done _ _ zero (by norm_num)
    · rw [if_neg hp, if_neg hp]; exact done _ _ opp oppB
  rw [if_neg h3, if_neg h3]
  by_cases h5 : g = 5
  · rw [if_pos h5, if_pos h5]
    obtain ⟨L, eL, hL⟩ := lit 1.7 (by rw [abs_of_pos] <;> norm_num)
    obtain ⟨L1, L2⟩ := abs_le.1 hL
    norm_num at L1 L2
    have i0 : (0 : ℝ) ≤ i := by positivity
    have hprod : |(i : ℝ) * L.1 - i * 1.7| ≤ 1 / 10 ^ 7 := by
      rw [← mul_sub, abs_mul, abs_of_nonneg i0]
      have := mul_le_mul hiR hL (abs_nonneg _) (by norm_num)
      refine this.trans (by norm_num)
    obtain ⟨x, ex, hx⟩ := wide_err (x := (i : ℝ) * L.1) (by rw [abs_le]; constructor <;> nlinarith)
    refine done _ _ ⟨x, ?_, ?_⟩ ?_
    · rw [eI, show (1.7 : F64) = F64.ofReal 1.7 from rfl, eL, F64.mul_fin, hI, ex]
    · rw [GoMath.ofInt_real, Int.cast_natCast]
      have := abs_sub_le x.1 (i * L.1) (i * 1.7)
      norm_num at this hx hprod ⊢; linarith
    · rw [GoMath.ofInt_real, Int.cast_natCast, abs_of_nonneg (by positivity)]; norm_num; linarith
  rw [if_neg h5, if_neg h5]
  by_cases h6 : g = 6
  · rw [if_pos h6, if_pos h6]
    by_cases hp : i < n / 2
    · rw [if_pos hp, if_pos hp]; exact done _ _ zero (by norm_num)
    · rw [if_neg hp, if_neg hp]; exact done _ _ opp oppB
  rw [if_neg h6, if_neg h6]
  obtain ⟨L, eL, hL⟩ := lit 6.28318 (by rw [abs_of_pos] <;> norm_num)
  obtain ⟨L1, L2⟩ := abs_le.1 hL
  norm_num at L1 L2
  have n0 : (0 : ℝ) < n := by linarith
  have i0 : (0 : ℝ) ≤ i := by positivity
  have hq : |L.1 / n - 6.28318 / n| ≤ 1 / 10 ^ 13 := by
    rw [← sub_div, abs_div, abs_of_pos n0, div_le_iff₀ n0]
    refine hL.trans ?_
    norm_num at hn1 ⊢; linarith
  have hqb : |L.1 / n| ≤ 7 := by
    rw [abs_of_nonneg (div_nonneg (by linarith) n0.le), div_le_iff₀ n0]; linarith
  obtain ⟨Q, eQ, hQ⟩ := tiny_err (x := L.1 / n) (by linarith)
  have hQ2 : |Q.1 - 6.28318 / n| ≤ 2 / 10 ^ 13 := by
    have := abs_sub_le Q.1 (L.1 / n) (6.28318 / n)
    norm_num at this hQ hq ⊢; linarith
  have hprod : |(i : ℝ) * Q.1 - i * (6.28318 / n)| ≤ 2 / 10 ^ 7 := by
    rw [← mul_sub, abs_mul, abs_of_nonneg i0]
    have := mul_le_mul hiR hQ2 (abs_nonneg _) (by norm_num)
    refine this.trans (by norm_num)
  have hQb : |Q.1| ≤ 8 := by
    have := abs_sub_abs_le_abs_sub Q.1 (L.1 / n)
    norm_num at hQ; linarith
  have hin : (i : ℝ) ≤ n := by exact_mod_cast hi.le
  obtain ⟨x, ex, hx⟩ := wide_err (x := (i : ℝ) * Q.1) (by
    rw [abs_mul, abs_of_nonneg i0]
    have := mul_le_mul hiR hQb (abs_nonneg _) (by norm_num)
    norm_num at this ⊢; linarith)
  refine done _ _ ⟨x, ?_, ?_⟩ ?_
  · rw [eI, eN, show (6.28318 : F64) = F64.ofReal 6.28318 from rfl, eL, F64.div_fin (by rw [hN]; exact n0.ne'), hN, eQ, F64.mul_fin, hI, ex]
  · rw [GoMath.ofInt_real, GoMath.ofInt_real, Int.cast_natCast, Int.cast_natCast]
    have := abs_sub_le x.1 (i * Q.1) (i * (6.28318 / n))
    norm_num at this hx hprod ⊢; linarith
  · rw [GoMath.ofInt_real, GoMath.ofInt_real, Int.cast_natCast, Int.cast_natCast, abs_of_nonneg (by positivity)]
    have : (6.28318 : ℝ) / n ≤ 6.28318 := div_le_self (by norm_num) hn1
    have h2 := mul_le_mul hiR this (by positivity) (by norm_num)
    norm_num at h2 ⊢; linarith

/-- The measured coherence after a reset is that of the phases of exact arithmetic, up to `10^-6` and the error of the measurement. -/
theorem reset_close (ε : ℝ) (hε : LibWithin ε) (g : GoalType) (agents : List (Agent F64)) (h1 : agents ≠ []) (hn : agents.length ≤ 10 ^ 6) :
    ∃ z : Dbl, agentsCoherence (simReset g agents) = .fin z ∧
      |z.1 - orderParameter ((List.range agents.length).map fun i => resetPhase g agents.length i)| ≤ 1 / 10 ^ 6 + coherenceError ε agents.length := by
  have hr : ∀ i : ℕ, ∃ r : Dbl, i < agents.length → wrapPhase (resetPhase g agents.length i : F64) = .fin r ∧ Near r.1 (resetPhase g agents.length i) (1 / 10 ^ 6) := by
    intro i
    by_cases hi : i < agents.length
    · obtain ⟨r, e, -, -, h⟩ := reset_phase_double g agents.length i hi hn
      exact ⟨r, fun _ => ⟨e, h⟩⟩
    · exact ⟨⟨0, isDouble_zero⟩, fun h => absurd h hi⟩
  choose r hr using hr
  have hlen : 0 < agents.length := List.length_pos_iff.2 h1
  have e : (simReset g agents).map (fun a => a.state.phase) = ((List.range agents.length).map r).map F64.fin := by
    apply List.ext_getElem (by simp [simReset])
    intro i h1 h2
    have hi : i < agents.length := by simpa [simReset] using h1
    simp only [simReset, List.getElem_map, List.getElem_mapIdx, List.getElem_range, Agent.setPhase]
    exact (hr i hi).1
  have hne : (List.range agents.length).map r ≠ [] := by
    intro h
    have := congrArg List.length h
    rw [List.length_map, List.length_range, List.length_nil] at this
    omega
  obtain ⟨z, ez, -, hz⟩ := C133_accurate ε ((List.range agents.length).map r) (fun d _ => hε d) (by
    rw [List.length_map, List.length_range]
    exact lt_of_le_of_lt hn (by norm_num)) hne
  refine ⟨z, by unfold agentsCoherence; rw [e, ez], ?_⟩
  have key : |orderParameter (((List.range agents.length).map r).map Subtype.val) - orderParameter ((List.range agents.length).map fun i => resetPhase g agents.length i)| ≤
      1 / 10 ^ 6 := by
    refine order_near ?_ (by simpa using hne)
    rw [List.map_map, List.forall₂_map_left_iff, List.forall₂_map_right_iff]
    exact List.forall₂_same.2 fun i hi => (hr i (List.mem_range.1 hi)).2
  rw [List.length_map, List.length_range] at hz
  have := abs_sub_le z.1 (orderParameter (((List.range agents.length).map r).map Subtype.val)) (orderParameter ((List.range agents.length).map fun i => resetPhase g agents.length i))
  linarith

/-- **C87, in doubles.** The coherences after a reset, for up to a million agents. -/
theorem C87_coherence_double (ε : ℝ) (hε : LibWithin ε) (g : GoalType) (agents : List (Agent F64)) (h2 : 2 ≤ agents.length) (hn : agents.length ≤ 10 ^ 6) :
    ∃ z : Dbl, agentsCoherence (simReset g agents) = .fin z ∧
    ((g = 1 ∨ g = 4 ∨ g = 7) → |z.1 - 1| ≤ 1e-6 + coherenceError ε agents.length) ∧
    ((g = 3 ∨ g = 6) → |z.1 - (agents.length % 2 : ℕ) / agents.length| ≤ 4e-6 + coherenceError ε agents.length) ∧
    (g = 5 → z.1 ≤ 1.4 / agents.length + 1e-6 + coherenceError ε agents.length) ∧
    ((g = 0 ∨ g = 2) → z.1 ≤ 3e-6 + coherenceError ε agents.length) := by
  obtain ⟨z, ez, hz⟩ := reset_close ε hε g agents (List.length_pos_iff.1 (by omega)) hn
  refine ⟨z, ez, fun h => ?_, fun h => ?_, ?_, fun h => ?_⟩
  · rw [reset_together g h _ (by omega)] at hz; norm_num at hz ⊢; exact hz
  · have a := reset_opposed g h agents.length (by omega)
    have := abs_sub_le z.1 (orderParameter ((List.range agents.length).map fun i => resetPhase g agents.length i)) ((agents.length % 2 : ℕ) / agents.length)
    norm_num at a hz this ⊢; linarith
  · rintro rfl
    have a := reset_rhythm agents.length (by omega)
    have b := (abs_le.1 hz).2
    norm_num at a b ⊢; linarith
  · have a := reset_spread g (by rcases h with rfl | rfl <;> decide) agents.length h2
    have b := (abs_le.1 hz).2
    norm_num at a b ⊢; linarith

theorem demoTarget_double (g : GoalType) (s : Size) : ∃ t : Dbl, (demoTarget g s : F64) = .fin t ∧ |t.1 - demoTarget g s| ≤ 1 / 10 ^ 13 := by
  have lit : ∀ X : ℝ, |X| ≤ 100 → ∃ d : Dbl, F64.ofReal X = .fin d ∧ |d.1 - X| ≤ 1 / 10 ^ 13 := fun X h => tiny_err h
  unfold demoTarget
  split_ifs
  · exact lit 0.2 (by rw [abs_of_pos] <;> norm_num)
  · exact lit 0.6 (by rw [abs_of_pos] <;> norm_num)
  · exact lit 0.4 (by rw [abs_of_pos] <;> norm_num)
  · unfold Size.defaultTargetCoherence
    split
    all_goals refine lit _ ?_; rw [abs_of_pos] <;> norm_num

/-- **C87, in doubles, what holds.** With a library accurate to a thousandth, the target is missed after a reset for every goal but two and met for those two, at every
scale, exactly as in exact arithmetic. Missing: goals 6 and 7 (`C87_refuted`). -/
theorem C87_reset_double_partial (ε : ℝ) (hε : LibWithin ε) (hs : ε ≤ 1 / 1000) (g : GoalType) (s : Size) (agents : List (Agent F64))
    (h : (agents.length : ℤ) = s.defaultAgentCount) :
    ((g = 1 ∨ g = 4 ∨ g = 7) → (demoTarget g s : F64) < agentsCoherence (simReset g agents)) ∧
    (¬ (g = 1 ∨ g = 4 ∨ g = 7) → agentsCoherence (simReset g agents) < (demoTarget g s : F64)) := by
  obtain ⟨hn, hev⟩ := agentCount_cases s _ h
  have hmax : agents.length ≤ 10 ^ 6 := by
    unfold Size.defaultAgentCount at h
    split at h <;> omega
  have hE : coherenceError ε agents.length ≤ 1 / 100 := by
    unfold coherenceError
    have a : (agents.length : ℝ) ≤ 10 ^ 6 := by exact_mod_cast hmax
    have : (2 : ℝ) ^ (-53 : ℤ) ≤ 1 / 10 ^ 15 := by rw [zpow_neg]; norm_num
    have h2 : (3 / 4 * (agents.length : ℝ) + 8) * (2 : ℝ) ^ (-53 : ℤ) ≤ (3 / 4 * 10 ^ 6 + 8) * (1 / 10 ^ 15) := by gcongr
    norm_num at h2 ⊢; linarith
  obtain ⟨t1, t2⟩ := target_bounds s
  obtain ⟨t, et, ht⟩ := demoTarget_double g s
  obtain ⟨ht1, ht2⟩ := abs_le.1 ht
  norm_num at ht1 ht2
  obtain ⟨z, ez, hz⟩ := reset_close ε hε g agents (List.length_pos_iff.1 (by omega)) hmax
  obtain ⟨hz1, hz2⟩ := abs_le.1 hz
  norm_num at hz1 hz2
  rw [et, ez]
  have hn' : (20 : ℝ) ≤ agents.length := by exact_mod_cast hn
  constructor
  · intro hg
    rw [reset_together g hg _ (by omega)] at hz1
    have hd : (demoTarget g s : ℝ) ≤ 0.9 := by
      unfold demoTarget
      split_ifs <;> first | exact t2 | norm_num
    show t.1 < z.1
    norm_num at hd; linarith
  · intro hg
    push Not at hg
    show z.1 < t.1
    by_cases h36 : g = 3 ∨ g = 6
    · have a := reset_opposed g h36 agents.length (by omega)
      rw [hev] at a
      have a := (abs_le.1 a).2
      have hd : (0.2 : ℝ) ≤ demoTarget g s := by
        unfold demoTarget
        split_ifs <;> first | (norm_num; done) | (refine le_trans ?_ t1; norm_num)
      norm_num at a hd; linarith
    · push Not at h36
      have hd : (0.55 : ℝ) ≤ demoTarget g s := by
        unfold demoTarget
        rw [if_neg (by tauto)]
        split_ifs with c2 c3
        · norm_num
        · exact absurd c3 hg.2.1
        · exact t1
      by_cases h5 : g = 5
      · subst h5
        have a := reset_rhythm agents.length (by omega)
        have h8 : (1.4 : ℝ) / agents.length ≤ 1.4 / 20 := by
          apply div_le_div_of_nonneg_left <;> linarith
        norm_num at a h8 hd; linarith
      · have a := reset_spread g ⟨hg.1, h36.1, hg.2.1, h5, h36.2, hg.2.2⟩ agents.length (by omega)
        norm_num at a hd; linarith

example : ∃ (agents : List (Agent F64)), (agents.length : ℤ) = Size.defaultAgentCount 3 ∧ 2 ≤ agents.length ∧ agents.length ≤ 10 ^ 6 :=
  ⟨List.replicate 1000 Agent.zero, by rw [List.length_replicate]; rfl, by rw [List.length_replicate]; norm_num, by rw [List.length_replicate]; norm_num⟩

end Verif
