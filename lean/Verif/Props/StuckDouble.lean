import Verif.Props.DecisionDouble
import Verif.Props.LocalAccuracy
import Verif.Props.AgentArc

/-! # C124 in doubles: agents that never move -/

set_option autoImplicit false
set_option linter.unusedSectionVars false

namespace Verif
open GoMath Spec Rounding

section
variable [Rounding] [LibM]

/-- Small numbers are rounded with a small error. -/
theorem small_err {x : ℝ} (h : |x| ≤ 100) : ∃ d : Dbl, F64.ofReal x = .fin d ∧ |d.1 - x| ≤ 1 / 1000000 := by
  have hu := ulp_pos
  have hus : ulp ≤ 1 / 10000000000 := by unfold ulp; rw [zpow_neg]; norm_num
  have heu := eta_le_ulp
  obtain ⟨d, e, hd⟩ := F64.ofReal_err (x := x) (small_lt_1023 (by
    have : (100 : ℝ) ≤ 2 ^ (200 : ℤ) := by norm_num
    linarith))
  refine ⟨d, e, hd.trans ?_⟩
  have : ulp * |x| ≤ ulp * 100 := mul_le_mul_of_nonneg_left h hu.le
  linarith

/-- The computed difference of two phases is a number between 0.433 and 4. -/
def Spec.FarD (g p : F64) : Prop := ∃ D : Dbl, phaseDifference g p = .fin D ∧ 0.433 ≤ |D.1| ∧ |D.1| ≤ 4

/-- The proposal of a default nudge from far away: what it costs and brings. -/
theorem far_priced (cur goal : State F64) (ctx : Context F64) (h : FarD goal.phase cur.phase) :
    ∃ B C : ℝ, Priced (phaseNudgePropose (0.3 : F64) cur goal ctx).1 B C ∧ |B| ≤ 2 ∧ B ≤ 1.2934 ∧ 0.2597 ≤ C := by
  obtain ⟨D, eD, d1, d2⟩ := h
  have hpi1 := Real.pi_gt_d2
  have hpi2 := Real.pi_lt_d4
  norm_num at hpi1 hpi2
  obtain ⟨R, eR, hR⟩ := small_err (x := (0.3 : ℝ)) (by rw [abs_of_pos (by norm_num)]; norm_num)
  have hR' := abs_le.1 hR
  have hDR : |D.1 * R.1 - D.1 * 0.3| ≤ 4 / 1000000 := by
    rw [← mul_sub, abs_mul]
    nlinarith [abs_nonneg D.1, abs_nonneg (R.1 - 0.3)]
  have hD3 : |D.1 * 0.3| = |D.1| * 0.3 := by rw [abs_mul, abs_of_pos (by norm_num : (0 : ℝ) < 0.3)]
  have hDRb : |D.1 * R.1| ≤ 2 := by
    have := abs_sub_abs_le_abs_sub (D.1 * R.1) (D.1 * 0.3)
    norm_num at *; linarith
  obtain ⟨V, eV, hV⟩ := small_err (x := D.1 * R.1) (by linarith)
  have hVb : |(|V.1|) - |D.1| * 0.3| ≤ 5 / 1000000 := by
    rw [← hD3]
    have := abs_sub_le V.1 (D.1 * R.1) (D.1 * 0.3)
    exact (abs_abs_sub_abs_le _ _).trans (by linarith)
  have hVb' := abs_le.1 hVb
  obtain ⟨A, eA, hA⟩ := F64.abs_fin V
  have e2 : (2.0 : F64) = .fin ⟨2, isDouble_ofNat 2 (by norm_num)⟩ := by
    change F64.ofReal (2.0 : ℝ) = _
    rw [show (2.0 : ℝ) = 2 by norm_num, F64.ofReal_of_isDouble]
  obtain ⟨C, eC, hC⟩ := small_err (x := A.1 * 2) (by rw [hA, abs_of_nonneg (by positivity)]; norm_num at *; linarith)
  rw [hA] at hC
  have hC' := abs_le.1 hC
  -- benefit
  obtain ⟨P, eP, hP⟩ := small_err (x := Real.pi) (by rw [abs_of_pos Real.pi_pos]; linarith)
  have hP' := abs_le.1 hP
  have hPpos : 3.13 < P.1 := by norm_num at *; linarith
  obtain ⟨E, eD', hE⟩ := F64.abs_fin D
  have hq0 : 0 ≤ |D.1| / P.1 := div_nonneg (abs_nonneg _) (by linarith)
  have hq1 : 0.13781 ≤ |D.1| / P.1 := by
    rw [le_div_iff₀ (by linarith)]; norm_num at *; linarith
  have hq2 : |D.1| / P.1 ≤ 1.3 := by
    rw [div_le_iff₀ (by linarith)]; norm_num at *; linarith
  obtain ⟨Q, eQ, hQ⟩ := small_err (x := E.1 / P.1) (by rw [hE, abs_of_nonneg hq0]; linarith)
  rw [hE] at hQ
  have hQ' := abs_le.1 hQ
  obtain ⟨X, eX, hX⟩ := small_err (x := 1 - Q.1) (by rw [abs_le]; constructor <;> linarith)
  have hX' := abs_le.1 hX
  have d15 : IsDouble (3 / 2 : ℝ) := ⟨3, -1, by norm_num, by norm_num, by norm_num, by norm_num⟩
  have e15 : (1.5 : F64) = .fin ⟨3 / 2, d15⟩ := by
    change F64.ofReal (1.5 : ℝ) = _
    rw [show (1.5 : ℝ) = 3 / 2 by norm_num, F64.ofReal_of_isDouble]
  obtain ⟨B, eB, hB⟩ := small_err (x := X.1 * (3 / 2)) (by rw [abs_le]; constructor <;> linarith)
  have hB' := abs_le.1 hB
  refine ⟨B.1, C.1, ⟨B, C, ?_, ?_, rfl, rfl, ?_⟩, ?_, ?_, ?_⟩
  · change (1 - GoMath.abs (phaseDifference goal.phase cur.phase) / F64.ofReal (((1 : ℚ) : ℝ) * Real.pi)) * (1.5 : F64) = _
    rw [eD, eD', show (((1 : ℚ) : ℝ) * Real.pi) = Real.pi by norm_num, eP, F64.div_fin (by linarith), eQ]
    change (F64.fin ⟨1, isDouble_one⟩ - F64.fin Q) * (1.5 : F64) = _
    rw [F64.sub_fin, eX, e15, F64.mul_fin, eB]
  · change GoMath.abs (phaseDifference goal.phase cur.phase * (0.3 : F64)) * (2.0 : F64) = _
    rw [eD, show (0.3 : F64) = F64.ofReal 0.3 from rfl, eR, F64.mul_fin, eV, eA, e2, F64.mul_fin, eC]
  · have h2 : |B.1| ≤ 2 := abs_le.2 ⟨by linarith, by linarith⟩
    exact h2.trans (by
      calc (2 : ℝ) = 2 ^ 1 := (pow_one _).symm
        _ ≤ 2 ^ 1000 := pow_le_pow_right₀ (by norm_num) (by norm_num))
  · exact abs_le.2 ⟨by linarith, by linarith⟩
  · norm_num at *; linarith
  · norm_num at *; linarith

/-- **C124 in doubles, out of reach.** An agent with the default nudge that has looked around and computes a difference of at least 0.433 radians from its
goal accepts nothing but to stay put, and proposing leaves it as it was. -/
theorem C124_far_double (a : Agent F64) (phaseOf : ℕ → F64) (now : ℤ) (goal : State F64) (d1 d2 : F64) (hs : a.strategy = .basic (.phaseNudge 0.3))
    (hst : a.context.stability = 0.5) (hf : FarD a.state.localGoal a.state.phase) :
    ∃ act ok, a.proposeAdjustment phaseOf now goal d1 d2 = .ok ((act, ok), a) ∧ act.type = "maintain" ∧ (a.applyAction act).2.state.phase = a.state.phase := by
  have happ : ∀ act : Action F64, act.type = "maintain" → (a.applyAction act).2.state.phase = a.state.phase := by
    intro act ht
    unfold Agent.applyAction
    split_ifs
    · rfl
    · have : applyUpdate act = some fun s => { s with energy := fmax 0 (s.energy - act.cost) } := by
        unfold applyUpdate
        rw [ht, if_neg (by decide +kernel), if_pos rfl]
      rw [this]
  suffices ∃ act ok, a.proposeAdjustment phaseOf now goal d1 d2 = .ok ((act, ok), a) ∧ act.type = "maintain" by
    obtain ⟨act, ok, e, t⟩ := this
    exact ⟨act, ok, e, t, happ act t⟩
  unfold Agent.proposeAdjustment
  split_ifs
  · exact ⟨_, _, rfl, rfl⟩
  dsimp only
  rw [hs]
  dsimp only [AgentStrategy.propose, Strat.propose]
  set cur : State F64 := { phase := a.state.phase, frequency := a.state.frequency, coherence := a.localCoherence phaseOf } with hcur
  set tgt : State F64 := { phase := a.state.localGoal, frequency := a.state.frequency, coherence := goal.coherence } with htgt
  set p := phaseNudgePropose (0.3 : F64) cur tgt a.context with hp
  obtain ⟨B, C, hpr, b1, b2, c1⟩ := far_priced cur tgt a.context hf
  have ea : ({ a with strategy := .basic (.phaseNudge 0.3) } : Agent F64) = a := by rw [← hs]
  refine ⟨(judgeProposal decide' a.state.energy cur a.context p.1 p.2 d2).1, (judgeProposal decide' a.state.energy cur a.context p.1 p.2 d2).2, ?_, ?_⟩
  · rw [ea]
  -- the choice between the nudge and staying put
  have hu := ulp_pos
  have he := eta_pos
  have hus : ulp ≤ 1 / 10000000000 := by unfold ulp; rw [zpow_neg]; norm_num
  have heu := eta_le_ulp
  obtain ⟨L, eL, hL⟩ := small_err (x := (0.1 : ℝ)) (by rw [abs_of_pos (by norm_num)]; norm_num)
  have hL' := abs_le.1 hL
  have dh : IsDouble (1 / 2 : ℝ) := ⟨1, -1, by norm_num, by norm_num, by norm_num, by norm_num⟩
  have eh : (0.5 : F64) = .fin ⟨1 / 2, dh⟩ := by
    change F64.ofReal (0.5 : ℝ) = _
    rw [show (0.5 : ℝ) = 1 / 2 by norm_num, F64.ofReal_of_isDouble]
  set stay : Action F64 := { type := "maintain", value := 0, cost := 0.1, benefit := a.context.stability } with hstay
  have hstp : Priced stay (1 / 2) L.1 := by
    refine ⟨⟨1 / 2, dh⟩, L, by rw [hstay]; exact hst.trans eh, eL, rfl, rfl, ?_⟩
    rw [abs_of_pos (by norm_num)]
    exact (by norm_num : (1 / 2 : ℝ) ≤ 1).trans (one_le_pow₀ (by norm_num))
  have hne : p.1 ≠ stay := by
    intro h
    have := congrArg Action.type h
    revert this
    change "phase_nudge" ≠ "maintain"
    decide +kernel
  classical
  have hchoice : (decide' cur [p.1, stay]).1 = stay := by
    obtain ⟨m1, m2, -⟩ := C11_double cur [p.1, stay] (by simp) (fun x => if x = stay then 1 / 2 else B) (fun x => if x = stay then L.1 else C) (by
      intro x hx
      rcases List.mem_cons.1 hx with rfl | hx
      · rw [if_neg hne, if_neg hne]; exact hpr
      · obtain rfl := List.mem_singleton.1 hx
        rw [if_pos rfl, if_pos rfl]; exact hstp)
    rcases List.mem_cons.1 m1 with e | e
    · exfalso
      have m3 := m2 stay (by simp)
      simp only [e, if_true, if_neg hne] at m3
      clear m1 m2
      norm_num at b2 c1
      have hC1 : max C (1 / 10) = C := max_eq_left (by linarith)
      rw [hC1] at m3
      have hm1 : 1 / 10 ≤ max L.1 (1 / 10) := le_max_right _ _
      have hm2 : max L.1 (1 / 10) ≤ 100002 / 1000000 := by
        have := hL'.2
        norm_num at this
        exact max_le (by linarith) (by norm_num)
      generalize max L.1 (1 / 10) = M at m3 hm1 hm2
      have r1 : 49998 / 10000 ≤ 1 / 2 / M := by
        rw [le_div_iff₀ (by linarith)]; linarith
      have r2 : 1 / 2 / M ≤ 5 := by
        rw [div_le_iff₀ (by linarith)]; linarith
      have cpos : 0 < C := by linarith
      have r3 : B / C ≤ 4981 / 1000 := by
        rw [div_le_iff₀ cpos]; linarith
      have r4 : |B / C| ≤ 8 := by
        rw [abs_div, abs_of_pos cpos, div_le_iff₀ cpos]; linarith
      rw [abs_of_pos (by linarith : 0 < 1 / 2 / M)] at m3
      generalize 1 / 2 / M = x at m3 r1 r2
      generalize |B / C| = y at m3 r4
      have r5 : 3 * ulp * (x + y) ≤ 3 * ulp * 13 := mul_le_mul_of_nonneg_left (by linarith) (by linarith)
      linarith
    · exact List.mem_singleton.1 e
  unfold judgeProposal
  dsimp only
  rw [hchoice]
  split_ifs <;> rfl

/-! ### Networks -/

/-- Specification: everybody in the group nudges, and computes a large difference from its goal and from the goal it would see by looking around. -/
structure Spec.StuckD (S : Set ℕ) (h : ℕ → Agent F64) : Prop where
  closed : ∀ i ∈ S, ∀ j ∈ (h i).neighborList, j ∈ S
  still : ∀ i ∈ S, (h i).strategy = .basic (.phaseNudge 0.3) ∧ (h i).context.stability = 0.5 ∧
    FarD (h i).state.localGoal (h i).state.phase ∧
    FarD ((h i).updateContext fun j => (h j).state.phase).state.localGoal (h i).state.phase

theorem context_frame_double (a : Agent F64) (f : ℕ → F64) :
    (a.updateContext f).state.phase = a.state.phase ∧ (a.updateContext f).strategy = a.strategy ∧ (a.updateContext f).neighborList = a.neighborList ∧
    (a.updateContext f).context.stability = 0.5 ∧ (a.neighborList = [] → (a.updateContext f).state.localGoal = a.state.localGoal) := by
  unfold Agent.updateContext
  dsimp only
  by_cases h : a.neighborList.length = 0
  · rw [if_pos h]; exact ⟨rfl, rfl, rfl, rfl, fun _ => rfl⟩
  · rw [if_neg h]; exact ⟨rfl, rfl, rfl, rfl, fun e => absurd (by rw [e]; rfl) h⟩

theorem perceived_congr_double (a b : Agent F64) (f g : ℕ → F64) (h1 : b.state.phase = a.state.phase)
    (h2 : b.neighborList = a.neighborList) (h3 : a.neighborList = [] → b.state.localGoal = a.state.localGoal)
    (h4 : ∀ j ∈ a.neighborList, g j = f j) :
    (b.updateContext g).state.localGoal = (a.updateContext f).state.localGoal := by
  unfold Agent.updateContext
  dsimp only
  rw [h2, h1, List.map_congr_left h4]
  by_cases hl : a.neighborList.length = 0
  · rw [if_pos hl, if_pos hl]; exact h3 (List.length_eq_zero_iff.1 hl)
  · rw [if_neg hl, if_neg hl]

theorem stuck_put (S : Set ℕ) (h : ℕ → Agent F64) (hg : StuckD S h) (i : ℕ) (b : Agent F64)
    (hb : i ∈ S → b.neighborList = (h i).neighborList ∧ b.strategy = (h i).strategy ∧ b.context.stability = 0.5 ∧
      b.state.phase = (h i).state.phase ∧ (b.state.localGoal = (h i).state.localGoal ∨
        b.state.localGoal = ((h i).updateContext fun j => (h j).state.phase).state.localGoal)) :
    StuckD S (putAgent h i b) ∧ ∀ j ∈ S, (putAgent h i b j).state.phase = (h j).state.phase := by
  have hph : ∀ j ∈ S, (putAgent h i b j).state.phase = (h j).state.phase := by
    intro j hj
    unfold putAgent
    split_ifs with hji
    · subst hji; exact (hb hj).2.2.2.1
    · rfl
  refine ⟨⟨?_, ?_⟩, hph⟩
  · intro j hj k hk
    unfold putAgent at hk
    split_ifs at hk with hji
    · subst hji; rw [(hb hj).1] at hk; exact hg.closed j hj k hk
    · exact hg.closed j hj k hk
  · intro j hj
    obtain ⟨s1, s2, s3, s4⟩ := hg.still j hj
    by_cases hji : j = i
    · subst hji
      obtain ⟨b1, b2, b3, b4, b5⟩ := hb hj
      have e0 : putAgent h j b j = b := by simp [putAgent]
      have e1 : (b.updateContext fun k => (putAgent h j b k).state.phase).state.localGoal =
          ((h j).updateContext fun k => (h k).state.phase).state.localGoal := by
        apply perceived_congr_double _ _ _ _ b4 b1
        · intro hnil
          rcases b5 with h5 | h5
          · exact h5
          · rw [h5]; exact (context_frame_double (h j) _).2.2.2.2 hnil
        · intro k hk; exact hph k (hg.closed j hj k hk)
      rw [e0]
      refine ⟨by rw [b2]; exact s1, b3, ?_, by rw [e1, b4]; exact s4⟩
      rw [b4]
      rcases b5 with h5 | h5
      · rw [h5]; exact s3
      · rw [h5]; exact s4
    · have e0 : putAgent h i b j = h j := by simp [putAgent, hji]
      have e1 : ((h j).updateContext fun k => (putAgent h i b k).state.phase).state.localGoal =
          ((h j).updateContext fun k => (h k).state.phase).state.localGoal :=
        perceived_congr_double _ _ _ _ rfl rfl (fun _ => rfl) fun k hk => hph k (hg.closed j hj k hk)
      rw [e0, e1]
      exact ⟨s1, s2, s3, s4⟩

theorem netCall_stuck_double (S : Set ℕ) (h : ℕ → Agent F64) (hg : StuckD S h) (e : NetCall F64) (h' : ℕ → Agent F64)
    (he : netCall h e = .ok h') : StuckD S h' ∧ ∀ i ∈ S, (h' i).state.phase = (h i).state.phase := by
  cases e with
  | perceive i =>
    cases he
    refine stuck_put S h hg i _ fun hi => ?_
    obtain ⟨f1, f2, f3, f4, -⟩ := context_frame_double (h i) fun j => (h j).state.phase
    exact ⟨f3, f2, f4, f1, Or.inr rfl⟩
  | act i now goal d1 d2 =>
    by_cases hi : i ∈ S
    · obtain ⟨s1, s2, s3, -⟩ := hg.still i hi
      obtain ⟨act, ok, e1, ht, hph⟩ := C124_far_double (h i) (fun j => (h j).state.phase) now goal d1 d2 s1 s2 s3
      simp only [netCall, e1] at he
      cases ok with
      | true =>
        cases he
        have fr : ((h i).applyAction act).2.neighborList = (h i).neighborList ∧ ((h i).applyAction act).2.strategy = (h i).strategy ∧
            ((h i).applyAction act).2.context = (h i).context ∧ ((h i).applyAction act).2.state.localGoal = (h i).state.localGoal := by
          unfold Agent.applyAction
          split_ifs
          · exact ⟨rfl, rfl, rfl, rfl⟩
          · have : applyUpdate act = some fun s => { s with energy := fmax 0 (s.energy - act.cost) } := by
              unfold applyUpdate
              rw [ht, if_neg (by decide +kernel), if_pos rfl]
            rw [this]
            exact ⟨rfl, rfl, rfl, rfl⟩
        exact stuck_put S h hg i _ fun _ => ⟨fr.1, fr.2.1, by rw [fr.2.2.1]; exact s2, hph, Or.inl fr.2.2.2⟩
      | false =>
        cases he
        exact stuck_put S h hg i _ fun _ => ⟨rfl, rfl, s2, rfl, Or.inl rfl⟩
    · unfold netCall at he
      dsimp only at he
      split at he
      · cases he
      · cases he; exact stuck_put S h hg i _ fun hi' => absurd hi' hi
      · cases he; exact stuck_put S h hg i _ fun hi' => absurd hi' hi

/-- **C124 in doubles, frozen networks.** If everybody in a group of agents with the default nudge computes a difference of at least 0.433 radians from its
goal, then nobody in the group ever moves: after every history of looking around and acting that ends, with any random numbers, every phase is what it was,
to the last bit. -/
theorem C124_frozen_double (S : Set ℕ) (calls : List (NetCall F64)) (h h' : ℕ → Agent F64) (hg : StuckD S h) (hr : netRun h calls = .ok h') :
    ∀ i ∈ S, (h' i).state.phase = (h i).state.phase := by
  induction calls generalizing h with
  | nil => cases hr; exact fun _ _ => rfl
  | cons e es ih =>
    unfold netRun at hr
    split at hr
    · cases hr
    · rename_i h1 e1
      obtain ⟨g1, p1⟩ := netCall_stuck_double S h hg e h1 e1
      intro i hi
      rw [ih h1 g1 hr i hi, p1 i hi]

/-- The goal an agent sees that knows one other agent, farther away than 0.435 radians. -/
theorem single_far (ε : ℝ) (e1 : ε ≤ 1 / 10000) (hε : ∀ d : Dbl, TrigWithin ε d) (hat : ∀ y x : Dbl, AtanWithin ε y x) (a : Agent F64) (m q : Dbl)
    (hm : a.state.phase = .fin m) (hm7 : |m.1| ≤ 7) (hq7 : |q.1| ≤ 7) (n : ℕ) (hn : a.neighborList = [n]) (f : ℕ → F64) (hf : f n = .fin q)
    (hfar : ¬ Near q.1 m.1 0.435) : FarD (a.updateContext f).state.localGoal a.state.phase := by
  have hpi1 := Real.pi_gt_d2
  have hpi2 := Real.pi_lt_d2
  norm_num at hpi1 hpi2
  have hε0 : 0 ≤ ε := (abs_nonneg _).trans (hε m).1
  have hcongr : (a.updateContext f).state.localGoal = (a.updateContext fun _ => .fin q).state.localGoal :=
    perceived_congr_double a a _ _ rfl rfl (fun _ => rfl) fun j hj => by
      rw [hn] at hj; obtain rfl := List.mem_singleton.1 hj; exact hf
  obtain ⟨g, eg, g0, g1, hg⟩ := C145_goal ε (by linarith) hε hat a m hm hm7 (fun _ => q) (fun _ _ => hq7) (by rw [hn]; norm_num) (by rw [hn]; simp)
    q.1 0 (by norm_num) (fun _ _ => ⟨0, by simp⟩)
  rw [hn] at hg
  rw [hcongr, eg, hm]
  have hus : (2 : ℝ) ^ (-53 : ℤ) ≤ 1 / 10000000000 := by rw [zpow_neg]; norm_num
  have hus0 : (0 : ℝ) < 2 ^ (-53 : ℤ) := by positivity
  generalize (2 : ℝ) ^ (-53 : ℤ) = u at hus hus0 hg
  by_cases hs : ¬ (GoMath.abs (F64.fin g) < (1e-10 : F64) ∧ GoMath.abs (F64.fin m - piMul (3 / 2)) < (1e-10 : F64)) ∧
      ¬ (GoMath.abs (F64.fin g - piMul (3 / 2)) < (1e-10 : F64) ∧ GoMath.abs (F64.fin m) < (1e-10 : F64))
  · obtain ⟨D, eD, hD, hnear⟩ := C135_difference ε ⟨hε, fun d => hat _ _⟩ g m (by rw [abs_of_nonneg g0]; linarith) (by linarith) hs
    refine ⟨D, eD, ?_, by linarith⟩
    by_contra hlt
    apply hfar
    obtain ⟨k, hk⟩ := hnear
    obtain ⟨j, hj⟩ := hg
    refine ⟨-(k + j), ?_⟩
    have hus2 : (2 : ℝ) ^ (-53 : ℤ) ≤ 1 / 10000000000 := by rw [zpow_neg]; norm_num
    generalize (2 : ℝ) ^ (-53 : ℤ) = v at hk hus2
    have hid : q.1 - m.1 + ((-(k + j) : ℤ) : ℝ) * (2 * Real.pi) =
        D.1 - (D.1 - (g.1 - m.1) + k * (2 * Real.pi)) - (g.1 - q.1 + j * (2 * Real.pi)) := by push_cast; ring
    rw [hid]
    have t1 := abs_sub (D.1 - (D.1 - (g.1 - m.1) + k * (2 * Real.pi))) (g.1 - q.1 + j * (2 * Real.pi))
    have t2 := abs_sub D.1 (D.1 - (g.1 - m.1) + k * (2 * Real.pi))
    simp only [List.length_singleton, Nat.cast_one] at hj
    norm_num at hlt hj ⊢
    linarith
  · have hspecial : phaseDifference (F64.fin g) (F64.fin m) = piMul (-1 / 2) ∨ phaseDifference (F64.fin g) (F64.fin m) = piMul (1 / 2) := by
      unfold phaseDifference
      dsimp only
      by_cases h1 : GoMath.abs (F64.fin g) < (1e-10 : F64) ∧ GoMath.abs (F64.fin m - piMul (3 / 2)) < (1e-10 : F64)
      · rw [if_pos h1]; exact Or.inl rfl
      · by_cases h2 : GoMath.abs (F64.fin g - piMul (3 / 2)) < (1e-10 : F64) ∧ GoMath.abs (F64.fin m) < (1e-10 : F64)
        · rw [if_neg h1, if_pos h2]; exact Or.inr rfl
        · exact absurd ⟨h1, h2⟩ hs
    have hval : ∀ x : ℝ, |x| = Real.pi / 2 → ∃ D : Dbl, F64.ofReal x = .fin D ∧ 0.433 ≤ |D.1| ∧ |D.1| ≤ 4 := by
      intro x hx
      obtain ⟨D, eD, hD⟩ := small_err (x := x) (by rw [hx]; linarith)
      have t1 := abs_sub_abs_le_abs_sub D.1 x
      have t2 := abs_sub_abs_le_abs_sub x D.1
      rw [abs_sub_comm x] at t2
      exact ⟨D, eD, by norm_num; linarith, by linarith⟩
    rcases hspecial with e | e
    · obtain ⟨D, eD, hD⟩ := hval (((-1 / 2 : ℚ) : ℝ) * Real.pi) (by
        rw [abs_mul, abs_of_pos Real.pi_pos]; push_cast; rw [show |(-1 / 2 : ℝ)| = 1 / 2 by rw [abs_of_neg (by norm_num)]; norm_num]; ring)
      exact ⟨D, e.trans eD, hD⟩
    · obtain ⟨D, eD, hD⟩ := hval (((1 / 2 : ℚ) : ℝ) * Real.pi) (by
        rw [abs_mul, abs_of_pos Real.pi_pos]; push_cast; rw [show |(1 / 2 : ℝ)| = 1 / 2 by rw [abs_of_pos] <;> norm_num]; ring)
      exact ⟨D, e.trans eD, hD⟩

/-- **C124 in doubles, two agents.** With a library accurate to 1/10000: two agents with the default nudge that know only each other and are more than 0.435
radians apart never approach each other once they have looked, whatever happens, for ever. -/
theorem C124_pair_double (ε : ℝ) (e1 : ε ≤ 1 / 10000) (hε : ∀ d : Dbl, TrigWithin ε d) (hat : ∀ y x : Dbl, AtanWithin ε y x) (h h' : ℕ → Agent F64)
    (m0 m1 : Dbl) (h0 : (h 0).neighborList = [1]) (h1 : (h 1).neighborList = [0]) (s0 : (h 0).strategy = .basic (.phaseNudge 0.3))
    (s1 : (h 1).strategy = .basic (.phaseNudge 0.3)) (p0 : (h 0).state.phase = .fin m0) (p1 : (h 1).state.phase = .fin m1) (b0 : |m0.1| ≤ 7) (b1 : |m1.1| ≤ 7)
    (hfar : ¬ Near m0.1 m1.1 0.435) (calls : List (NetCall F64)) (hr : netRun h (.perceive 0 :: .perceive 1 :: calls) = .ok h') :
    (h' 0).state.phase = (h 0).state.phase ∧ (h' 1).state.phase = (h 1).state.phase := by
  have hfar' : ¬ Near m1.1 m0.1 0.435 := by
    rintro ⟨k, hk⟩
    refine hfar ⟨-k, ?_⟩
    rw [← abs_neg]
    refine le_trans (le_of_eq ?_) hk
    congr 1; push_cast; ring
  set k1 := putAgent h 0 ((h 0).updateContext fun j => (h j).state.phase) with hk1
  set k2 := putAgent k1 1 ((k1 1).updateContext fun j => (k1 j).state.phase) with hk2
  have hr2 : netRun k2 calls = .ok h' := hr
  have a0 : k1 0 = (h 0).updateContext fun j => (h j).state.phase := by simp [hk1, putAgent]
  have a1 : k1 1 = h 1 := by simp [hk1, putAgent]
  have c0 : k2 0 = k1 0 := by simp [hk2, putAgent]
  have c1 : k2 1 = (k1 1).updateContext fun j => (k1 j).state.phase := by simp [hk2, putAgent]
  obtain ⟨f1, f2, f3, f4, -⟩ := context_frame_double (h 0) fun j => (h j).state.phase
  obtain ⟨g1, g2, g3, g4, -⟩ := context_frame_double (k1 1) fun j => (k1 j).state.phase
  have q0 : (k2 0).state.phase = .fin m0 := by rw [c0, a0, f1, p0]
  have q1 : (k2 1).state.phase = .fin m1 := by rw [c1, g1, a1, p1]
  have n0 : (k2 0).neighborList = [1] := by rw [c0, a0, f3, h0]
  have n1 : (k2 1).neighborList = [0] := by rw [c1, g3, a1, h1]
  have hstuck : StuckD {0, 1} k2 := by
    constructor
    · rintro i (rfl | rfl) j hj
      · rw [n0] at hj; simp at hj; subst hj; exact Or.inr rfl
      · rw [n1] at hj; simp at hj; subst hj; exact Or.inl rfl
    · rintro i (rfl | rfl)
      · refine ⟨by rw [c0, a0, f2, s0], by rw [c0, a0]; exact f4, ?_,
          single_far ε e1 hε hat _ m0 m1 q0 b0 b1 1 n0 _ q1 hfar'⟩
        have := single_far ε e1 hε hat (h 0) m0 m1 p0 b0 b1 1 h0 (fun j => (h j).state.phase) p1 hfar'
        rw [p0] at this
        rw [q0, c0, a0]; exact this
      · refine ⟨by rw [c1, g2, a1, s1], by rw [c1]; exact g4, ?_,
          single_far ε e1 hε hat _ m1 m0 q1 b1 b0 0 n1 _ q0 hfar⟩
        have := single_far ε e1 hε hat (k1 1) m1 m0 (by rw [a1, p1]) b1 b0 0 (by rw [a1, h1]) (fun j => (k1 j).state.phase)
          (show (k1 0).state.phase = _ by rw [a0, f1, p0]) hfar
        rw [a1, p1] at this
        rw [q1, c1, a1]; exact this
  have := C124_frozen_double {0, 1} calls k2 h' hstuck hr2
  exact ⟨by rw [this 0 (Or.inl rfl), q0, p0], by rw [this 1 (Or.inr rfl), q1, p1]⟩

end

/-- The hypotheses can be met: with the correctly rounded library, agents at 0 and 1. -/
example [Rounding] : letI := LibM.rounded
    (2 : ℝ) ^ (-51 : ℤ) ≤ 1 / 10000 ∧ (∀ d : Dbl, TrigWithin ((2 : ℝ) ^ (-51 : ℤ)) d) ∧ (∀ y x : Dbl, AtanWithin ((2 : ℝ) ^ (-51 : ℤ)) y x) ∧
    ¬ Near (0 : ℝ) 1 0.435 := by
  let := LibM.rounded
  refine ⟨by norm_num, accurate_rounded.trig, atanWithin_rounded, ?_⟩
  rintro ⟨k, hk⟩
  have hpi := Real.pi_gt_three
  obtain ⟨k1, k2⟩ := abs_le.1 hk
  norm_num at k1 k2
  rcases le_or_gt k 0 with h | h
  · have : (k : ℝ) ≤ 0 := by exact_mod_cast h
    nlinarith
  · have : (1 : ℝ) ≤ k := by exact_mod_cast h
    nlinarith

end Verif
