import Verif.Props.AgentSteps

/-!
# C139: energy bounds how far an agent moves

Nothing in the program gives energy back to an agent (`SetEnergy` and the token manager's `Release` have no caller), so
what an agent has at the start bounds all its movements.
-/

set_option autoImplicit false
set_option linter.unusedSectionVars false

namespace Verif
open GoMath Spec

/-- What happens to a network of agents: they look around and act (`NetCall`), and something outside sets a phase (as
disruptions, adjustments and resets do, by `SetPhase`). -/
inductive LifeCall where
  | net (c : NetCall ℝ)
  | place (i : ℕ) (phase : ℝ)

/-- One event. -/
noncomputable def lifeCall (h : ℕ → Agent ℝ) : LifeCall → Outcome (ℕ → Agent ℝ)
  | .net c => netCall h c
  | .place i p => .ok (putAgent h i ((h i).setPhase p))

/-- A history of events. -/
noncomputable def lifeRun (h : ℕ → Agent ℝ) : List LifeCall → Outcome (ℕ → Agent ℝ)
  | [] => .ok h
  | c :: cs => match lifeCall h c with
    | .panic => .panic
    | .ok h' => lifeRun h' cs

namespace Spec

/-- The distance of two angles on the circle. -/
noncomputable def arcDist (a b : ℝ) : ℝ := ⨅ k : ℤ, |b - a + k * (2 * Real.pi)|

/-- How far agent `i` moves on its own in a history, all movements added up. -/
noncomputable def travelled (i : ℕ) (h : ℕ → Agent ℝ) : List LifeCall → ℝ
  | [] => 0
  | c :: cs => match lifeCall h c with
    | .panic => 0
    | .ok h' =>
      (match c with | .net _ => arcDist (h i).state.phase (h' i).state.phase | .place _ _ => 0) + travelled i h' cs

/-- The least energy a strategy charges for a movement of one radian. -/
noncomputable def price : AgentStrategy ℝ → ℝ
  | .basic (.phaseNudge _) => 2
  | .basic (.frequencyLock _) => 3
  | .basic (.energyAware _) => 3 / 2
  | .basic (.pulse _) => 4
  | .adaptive _ => 3 / 2

end Spec

theorem price_pos (s : AgentStrategy ℝ) : 0 < price s := by
  rcases s with (_ | _ | _ | _) | _ <;> simp only [price] <;> norm_num

theorem arcDist_le {a b δ : ℝ} (h : SameAngle b (a + δ)) : arcDist a b ≤ |δ| := by
  obtain ⟨k, hk⟩ := h.symm
  refine (ciInf_le ⟨0, by rintro _ ⟨j, rfl⟩; exact abs_nonneg _⟩ k).trans (le_of_eq ?_)
  congr 1
  linarith

theorem arcDist_self (a : ℝ) : arcDist a a ≤ 0 := by simpa using arcDist_le (δ := 0) (by simpa using SameAngle.refl a)

theorem arcDist_nonneg (a b : ℝ) : 0 ≤ arcDist a b := Real.iInf_nonneg fun _ => abs_nonneg _

/-- What a plain strategy proposes costs at least its price. -/
theorem plain_price (s : Strat ℝ) (now : ℤ) (cur tgt : State ℝ) (ctx : Context ℝ) :
    price (.basic s) * |(s.propose now cur tgt ctx).1.1.value| ≤ (s.propose now cur tgt ctx).1.1.cost ∧
    price (.basic (s.propose now cur tgt ctx).2) = price (.basic s) := by
  have hpi := Real.pi_lt_d2
  cases s with
  | phaseNudge r =>
    simp only [Strat.propose, phaseNudgePropose, GoMath.abs_real, price]
    exact ⟨by norm_num; linarith, trivial⟩
  | frequencyLock r =>
    simp only [Strat.propose, frequencyLockPropose, GoMath.abs_real, price]
    exact ⟨by norm_num; linarith, trivial⟩
  | energyAware t =>
    simp only [Strat.propose, energyAwarePropose, GoMath.abs_real, price]
    split_ifs with hh
    · exact ⟨by norm_num, trivial⟩
    · refine ⟨?_, trivial⟩
      rw [GoMath.fmax_real]
      refine le_trans ?_ (le_max_left _ _)
      have hle := abs_phaseDifference_le tgt.phase cur.phase
      rw [abs_mul, show |(0.1 : ℝ)| = 1 / 10 by norm_num [abs_of_pos]]
      norm_num
      linarith
  | pulse p =>
    simp only [Strat.propose, Pulse.propose, GoMath.abs_real]
    split_ifs with hh
    · exact ⟨by simp only [price]; norm_num, rfl⟩
    · simp only [price]; exact ⟨by norm_num; linarith, trivial⟩

theorem price_ge (s : Strat ℝ) : 3 / 2 ≤ price (.basic s) := by cases s <;> simp only [price] <;> norm_num

/-- What any strategy proposes costs at least its price, and the price stays. -/
theorem strategy_price (s s' : AgentStrategy ℝ) (now : ℤ) (cur tgt : State ℝ) (ctx : Context ℝ) (p : Action ℝ) (conf : ℝ)
    (h : s.propose now cur tgt ctx = .ok ((p, conf), s')) :
    price s * |p.value| ≤ p.cost ∧ price s' = price s := by
  cases s with
  | basic b =>
    simp only [AgentStrategy.propose, Outcome.ok.injEq, Prod.mk.injEq] at h
    obtain ⟨h1, h2⟩ := plain_price b now cur tgt ctx
    rw [h.1] at h1
    rw [← h.2]
    exact ⟨h1, h2⟩
  | adaptive l =>
    simp only [AgentStrategy.propose] at h
    unfold adaptivePropose at h
    by_cases hl : l.length = 0
    · rw [if_pos (by simpa using hl)] at h
      simp only [Outcome.ok.injEq, Prod.mk.injEq] at h
      obtain ⟨⟨rfl, -⟩, rfl⟩ := h
      simp [Action.maintain0]
    · rw [if_neg (by simpa using hl)] at h
      dsimp only at h
      split_ifs at h
      all_goals
        split at h
        · rename_i x _
          simp only [Outcome.ok.injEq, Prod.mk.injEq] at h
          obtain ⟨h1, -⟩ := plain_price x.1 now cur tgt ctx
          rw [h.1] at h1
          rw [← h.2]
          exact ⟨(mul_le_mul_of_nonneg_right (price_ge x.1) (abs_nonneg _)).trans h1, rfl⟩
        · cases h

/-- One event: the movement is paid for, the price stays, and energy is not gained. -/
theorem life_step (i : ℕ) (h h' : ℕ → Agent ℝ) (c : LifeCall) (hc : lifeCall h c = .ok h') :
    price (h' i).strategy = price (h i).strategy ∧ (h' i).state.energy ≤ (h i).state.energy ∧
    (0 ≤ (h i).state.energy → 0 ≤ (h' i).state.energy) ∧
    ((∀ j p, c ≠ .place j p) → ∃ δ, price (h i).strategy * |δ| ≤ (h i).state.energy - (h' i).state.energy ∧
      SameAngle (h' i).state.phase ((h i).state.phase + δ)) := by
  have same : ∀ (g : ℕ → Agent ℝ), (g i).strategy = (h i).strategy → (g i).state.energy = (h i).state.energy →
      (g i).state.phase = (h i).state.phase →
      price (g i).strategy = price (h i).strategy ∧ (g i).state.energy ≤ (h i).state.energy ∧
      (0 ≤ (h i).state.energy → 0 ≤ (g i).state.energy) ∧
      ((∀ j p, c ≠ .place j p) → ∃ δ, price (h i).strategy * |δ| ≤ (h i).state.energy - (g i).state.energy ∧
        SameAngle (g i).state.phase ((h i).state.phase + δ)) := by
    intro g h1 h2 h3
    rw [h1, h2, h3]
    exact ⟨rfl, le_rfl, id, fun _ => ⟨0, by simp, by simpa using SameAngle.refl _⟩⟩
  cases c with
  | place j p =>
    simp only [lifeCall, Outcome.ok.injEq] at hc
    subst hc
    have e1 : (putAgent h j ((h j).setPhase p) i).strategy = (h i).strategy := by
      unfold putAgent; split_ifs with e
      · subst e; rfl
      · rfl
    have e2 : (putAgent h j ((h j).setPhase p) i).state.energy = (h i).state.energy := by
      unfold putAgent; split_ifs with e
      · subst e; rfl
      · rfl
    rw [e1, e2]
    exact ⟨rfl, le_rfl, id, fun hh => absurd rfl (hh j p)⟩
  | net c =>
    cases c with
    | perceive j =>
      simp only [lifeCall, netCall, Outcome.ok.injEq] at hc
      subst hc
      by_cases e : i = j
      · subst e
        obtain ⟨f1, f2, f3, f4⟩ := updateContext_frame (h i) fun j => (h j).state.phase
        have e0 : putAgent h i ((h i).updateContext fun j => (h j).state.phase) i =
            (h i).updateContext fun j => (h j).state.phase := by simp [putAgent]
        refine same _ (by rw [e0]; exact f2) ?_ (by rw [e0]; exact f1)
        rw [e0]
        unfold Agent.updateContext
        dsimp only
        split_ifs <;> rfl
      · have e0 : putAgent h j ((h j).updateContext fun j => (h j).state.phase) i = h i := by simp [putAgent, e]
        exact same _ (by rw [e0]) (by rw [e0]) (by rw [e0])
    | act j now goal d1 d2 =>
      obtain ⟨act, ok, s, e1, e2, -⟩ := C38_accepted_applies (h j) (fun j => (h j).state.phase) now goal d1 d2
      simp only [lifeCall, netCall, e1] at hc
      by_cases e : i = j
      · subst e
        cases ok with
        | false =>
          simp only [Outcome.ok.injEq] at hc
          subst hc
          have e0 : putAgent h i { h i with strategy := s } i = { h i with strategy := s } := by simp [putAgent]
          have hs : price s = price (h i).strategy := by
            unfold Agent.proposeAdjustment at e1
            split_ifs at e1 with hd
            · simp only [Outcome.ok.injEq, Prod.mk.injEq] at e1
              have := congrArg Agent.strategy e1.2
              dsimp only at this
              rw [this]
            · dsimp only at e1
              split at e1
              · cases e1
              · rename_i p conf s' hp
                simp only [Outcome.ok.injEq, Prod.mk.injEq] at e1
                have := congrArg Agent.strategy e1.2
                dsimp only at this
                rw [← this]
                exact (strategy_price _ _ _ _ _ _ _ _ hp).2
          rw [e0]
          exact ⟨hs, le_rfl, id, fun _ => ⟨0, by simp, by simpa using SameAngle.refl _⟩⟩
        | true =>
          simp only [Outcome.ok.injEq] at hc
          subst hc
          obtain ⟨g0, g1, g2, g3⟩ := C36_success _ _ _ (e2 rfl)
          have e0 : putAgent h i ((Agent.applyAction { h i with strategy := s } act).2) i =
            (Agent.applyAction { h i with strategy := s } act).2 := by simp [putAgent]
          have gf := (C36_success_frame _ _ _ (e2 rfl)).2
          obtain ⟨-, p, conf, s', acc, p1, p2, -, -⟩ := (C38_acceptance (h i) _ now goal d1 d2 act).1 ⟨_, e1⟩
          obtain ⟨q1, q2⟩ := strategy_price _ _ _ _ _ _ _ _ p1
          have hs : s = s' := by
            unfold Agent.proposeAdjustment at e1
            split_ifs at e1 with hd
            · simp only [Outcome.ok.injEq, Prod.mk.injEq] at e1
              exact absurd e1.1.2 (by simp)
            · dsimp only at e1
              rw [p1] at e1
              simp only [Outcome.ok.injEq, Prod.mk.injEq] at e1
              have := congrArg Agent.strategy e1.2
              dsimp only at this
              exact this.symm
          subst hs
          have hpaid : price (h i).strategy * |act.value| ≤ act.cost := by
            have hm := decide_mem (s := { phase := (h i).state.phase, frequency := (h i).state.frequency, coherence := (h i).localCoherence fun j => (h j).state.phase })
              (options := [p, ⟨"maintain", 0, 0.1, (h i).context.stability⟩]) (by simp)
            rw [p2] at hm
            simp only [List.mem_cons, List.not_mem_nil, or_false] at hm
            rcases hm with rfl | rfl
            · exact q1
            · norm_num
          have hcost : 0 ≤ act.cost := (mul_nonneg (price_pos _).le (abs_nonneg _)).trans hpaid
          rw [e0]
          refine ⟨?_, ?_, fun _ => g1, fun _ => ?_⟩
          · rw [gf]; exact q2
          · rw [g0]; dsimp only; linarith
          · rw [g0]
            by_cases ht : act.type = "maintain"
            · refine ⟨0, ?_, ?_⟩
              · simp only [abs_zero, mul_zero]; linarith
              · rw [g2 ht, add_zero]; exact SameAngle.refl _
            · exact ⟨act.value, by linarith, (g3 ht).1⟩
      · cases ok <;>
        · simp only [Outcome.ok.injEq] at hc
          subst hc
          refine same _ ?_ ?_ ?_ <;> simp [putAgent, e]

/-- **C139.** Over every history of a network - agents looking around and acting in any order with any random numbers,
phases set from outside at any moment - all the movements an agent makes on its own, added up and multiplied by the price
of its strategy, are at most the energy it has used; it never has more energy than before, and never less than none. -/
theorem C139_budget (i : ℕ) (cs : List LifeCall) (h h' : ℕ → Agent ℝ) (hr : lifeRun h cs = .ok h') :
    price (h i).strategy * travelled i h cs ≤ (h i).state.energy - (h' i).state.energy ∧
    (h' i).state.energy ≤ (h i).state.energy ∧ (0 ≤ (h i).state.energy → 0 ≤ (h' i).state.energy) := by
  induction cs generalizing h with
  | nil =>
    simp only [lifeRun, Outcome.ok.injEq] at hr
    subst hr
    simp [travelled]
  | cons c cs ih =>
    simp only [lifeRun] at hr
    cases hc : lifeCall h c with
    | panic => rw [hc] at hr; cases hr
    | ok h1 =>
      rw [hc] at hr
      obtain ⟨s1, s2, s3, s4⟩ := life_step i h h1 c hc
      obtain ⟨i1, i2, i3⟩ := ih h1 hr
      rw [s1] at i1
      have hp := price_pos (h i).strategy
      refine ⟨?_, i2.trans s2, fun h0 => i3 (s3 h0)⟩
      simp only [travelled, hc]
      cases c with
      | place j p => simp only [zero_add]; linarith
      | net c =>
        obtain ⟨δ, d1, d2⟩ := s4 (by simp)
        have := mul_le_mul_of_nonneg_left (arcDist_le d2) hp.le
        dsimp only
        rw [mul_add]
        linarith

/-- Nothing in a history panics, so the hypotheses below are met by every history. -/
theorem C139_total (cs : List LifeCall) (h : ℕ → Agent ℝ) : ∃ h', lifeRun h cs = .ok h' := by
  induction cs generalizing h with
  | nil => exact ⟨h, rfl⟩
  | cons c cs ih =>
    obtain ⟨h1, e1⟩ : ∃ h1, lifeCall h c = .ok h1 := by
      cases c with
      | net c => exact netCall_total h c
      | place i p => exact ⟨_, rfl⟩
    obtain ⟨h', e'⟩ := ih h1
    exact ⟨h', by simp only [lifeRun, e1, e']⟩

/-- **C139** So an agent never travels farther than its energy divided by the price of its strategy. -/
theorem C139_range (i : ℕ) (cs : List LifeCall) (h h' : ℕ → Agent ℝ) (hr : lifeRun h cs = .ok h')
    (h0 : 0 ≤ (h i).state.energy) : travelled i h cs ≤ (h i).state.energy / price (h i).strategy := by
  obtain ⟨h1, -, h3⟩ := C139_budget i cs h h' hr
  rw [le_div_iff₀ (price_pos _)]
  linarith [h3 h0]

/-- A new agent (energy 100, nudging) travels at most fifty radians, about eight turns, in its whole life. -/
example (cs : List LifeCall) : travelled 0 (fun _ => Agent.initial "a" 0 0 0) cs ≤ 50 := by
  obtain ⟨h', hr⟩ := C139_total cs fun _ => Agent.initial "a" 0 0 0
  refine (C139_range 0 cs _ h' hr (by simp only [Agent.initial]; norm_num)).trans (le_of_eq ?_)
  simp only [Agent.initial, price]
  norm_num

/-- **C139** An agent without energy never moves again on its own: whatever happens, it stays where it was put. -/
theorem C139_exhausted (i : ℕ) (cs : List (NetCall ℝ)) (h h' : ℕ → Agent ℝ)
    (hr : lifeRun h (cs.map .net) = .ok h') (h0 : (h i).state.energy = 0) :
    SameAngle (h' i).state.phase (h i).state.phase ∧ (h' i).state.energy = 0 := by
  induction cs generalizing h with
  | nil =>
    simp only [List.map_nil, lifeRun, Outcome.ok.injEq] at hr
    subst hr
    exact ⟨SameAngle.refl _, h0⟩
  | cons c cs ih =>
    simp only [List.map_cons, lifeRun] at hr
    cases hc : lifeCall h (.net c) with
    | panic => rw [hc] at hr; cases hr
    | ok h1 =>
      rw [hc] at hr
      obtain ⟨-, s2, s3, s4⟩ := life_step i h h1 _ hc
      have e0 : (h1 i).state.energy = 0 := le_antisymm (h0 ▸ s2) (s3 h0.ge)
      obtain ⟨δ, d1, d2⟩ := s4 (by simp)
      rw [h0, e0, sub_zero] at d1
      have hδ : δ = 0 := by
        have hp := price_pos (h i).strategy
        have : |δ| ≤ 0 := by
          by_contra hc
          have := mul_pos hp (not_le.1 hc)
          linarith
        exact abs_nonpos_iff.1 this
      rw [hδ, add_zero] at d2
      obtain ⟨i1, i2⟩ := ih h1 hr e0
      exact ⟨i1.trans d2, i2⟩

end Verif
