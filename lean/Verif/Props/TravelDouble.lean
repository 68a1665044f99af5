import Verif.Props.StepDouble
import Verif.Props.EnergyDouble
import Verif.Props.AgentTravel
import Verif.Props.SwarmOps

/-! # C139 in doubles: energy bounds how far an agent moves, up to rounding -/

set_option autoImplicit false
set_option linter.unusedSectionVars false

namespace Verif
open GoMath Spec Rounding

section
variable [Rounding] [LibM]

/-- What happens to one agent: it looks around (its neighbours being anywhere, also nowhere), decides and acts, or something outside sets its phase. -/
inductive LifeD where
  | act (seen phaseOf : ℕ → F64) (now : ℤ) (goal : State F64) (d1 d2 : F64)
  | place (phase : Dbl)

/-- One event. -/
noncomputable def lifeD (a : Agent F64) : LifeD → Agent F64
  | .act seen phaseOf now goal d1 d2 => match (a.updateContext seen).proposeAdjustment phaseOf now goal d1 d2 with
    | .ok ((act, true), b) => (b.applyAction act).2
    | .ok ((_, false), b) => b
    | .panic => a
  | .place p => a.setPhase (.fin p)

/-- A history. -/
noncomputable def lifeAll (a : Agent F64) : List LifeD → Agent F64
  | [] => a
  | c :: cs => lifeAll (lifeD a c) cs

/-- How far the agent moves on its own in one event. -/
noncomputable def Spec.ownMove (a : Agent F64) : LifeD → ℝ
  | .place _ => 0
  | .act seen phaseOf now goal d1 d2 => arcDist a.state.phase.val (lifeD a (.act seen phaseOf now goal d1 d2)).state.phase.val

/-- How far the agent moves on its own in a history. -/
noncomputable def Spec.travelledD (a : Agent F64) : List LifeD → ℝ
  | [] => 0
  | c :: cs => Spec.ownMove a c + Spec.travelledD (lifeD a c) cs

/-- The least energy a plain strategy charges for a movement of one radian, as over the reals. -/
noncomputable def Spec.plainPrice : Strat F64 → ℝ
  | .phaseNudge _ => 2
  | .frequencyLock _ => 3
  | .energyAware _ => 3 / 2
  | .pulse _ => 4

/-- The same for any strategy. -/
noncomputable def Spec.priceD : AgentStrategy F64 → ℝ
  | .basic s => plainPrice s
  | .adaptive _ => 3 / 2

theorem plainPrice_ge (s : Strat F64) : 3 / 2 ≤ plainPrice s := by cases s <;> simp only [plainPrice] <;> norm_num

theorem priceD_ge (s : AgentStrategy F64) : 3 / 2 ≤ priceD s := by
  cases s
  · exact plainPrice_ge _
  · exact le_rfl

theorem priceD_le (s : AgentStrategy F64) : priceD s ≤ 4 := by
  rcases s with (_ | _ | _ | _) | _ <;> simp only [priceD, plainPrice] <;> norm_num

/-- Numbers up to 2000 are rounded with a small error. -/
theorem thousands_err {x : ℝ} (h : |x| ≤ 2000) : ∃ d : Dbl, F64.ofReal x = .fin d ∧ |d.1 - x| ≤ 1 / 10 ^ 12 := by
  have hu := ulp_pos
  have hus : ulp * 2001 ≤ 1 / 10 ^ 12 := by unfold ulp; rw [zpow_neg]; norm_num
  have heu := eta_le_ulp
  obtain ⟨d, e, hd⟩ := F64.ofReal_err (x := x) (small_lt_1023 (by
    have : (2000 : ℝ) ≤ 2 ^ (200 : ℤ) := by norm_num
    linarith))
  refine ⟨d, e, hd.trans ?_⟩
  have : ulp * |x| ≤ ulp * 2000 := mul_le_mul_of_nonneg_left h hu.le
  linarith

/-- A multiple of a value that does not exceed the energy is almost that multiple. -/
theorem cost_of (v : F64) (k E : Dbl) (hk : 1 ≤ k.1) (hE : E.1 ≤ 1000) (h : ¬ GoMath.abs v * F64.fin k > F64.fin E) (hn : v ≠ .nan) :
    ∃ V C : Dbl, v = .fin V ∧ GoMath.abs v * F64.fin k = .fin C ∧ 0 ≤ C.1 ∧ k.1 * |V.1| ≤ C.1 + 1 / 10 ^ 12 := by
  have hk0 : 0 < k.1 := by linarith
  have hpk : F64.mul .pinf (F64.fin k) = .pinf := by
    unfold F64.mul
    dsimp only
    unfold F64.infSign
    rw [if_pos hk0]
  have hinf : ¬ ¬ F64.mul .pinf (F64.fin k) > F64.fin E := by
    rw [hpk]; exact fun hh => hh trivial
  cases v with
  | nan => exact absurd rfl hn
  | pinf => exact absurd h hinf
  | ninf => exact absurd h hinf
  | fin V =>
    obtain ⟨A, eA, hA⟩ := F64.abs_fin V
    rw [eA, F64.mul_fin, hA] at h ⊢
    have h0 : 0 ≤ |V.1| * k.1 := by positivity
    have hle : |V.1| * k.1 ≤ 2000 := by
      by_contra hc
      have d2 : IsDouble (2000 : ℝ) := isDouble_ofNat 2000 (by norm_num)
      have := F64.ofReal_mono (show (2000 : ℝ) ≤ |V.1| * k.1 by linarith)
      rw [F64.ofReal_of_isDouble d2] at this
      refine h ?_
      cases e : F64.ofReal (|V.1| * k.1) with
      | nan => rw [e] at this; exact this
      | ninf => rw [e] at this; exact this.elim
      | pinf => trivial
      | fin C =>
        rw [e] at this
        have this : (2000 : ℝ) ≤ C.1 := this
        exact (show E.1 < C.1 by linarith)
    obtain ⟨C, eC, hC⟩ := thousands_err (x := |V.1| * k.1) (by rw [abs_of_nonneg h0]; exact hle)
    refine ⟨V, C, rfl, eC, ?_, ?_⟩
    · have := F64.ofReal_mono h0
      rw [eC, F64.ofReal_of_isDouble isDouble_zero] at this
      exact this
    · have := (abs_le.1 hC).1
      norm_num at this ⊢
      linarith

/-- What a plain strategy proposes, if it has a score and can be paid, costs its price. -/
theorem plain_price_double (s : Strat F64) (now : ℤ) (cur tgt : State F64) (ctx : Context F64) (M E : Dbl) (hE : E.1 ≤ 1000)
    (hsc : F64.fin M ≤ actionScore (s.propose now cur tgt ctx).1.1) (hc : ¬ (s.propose now cur tgt ctx).1.1.cost > F64.fin E) :
    ∃ V C : Dbl, (s.propose now cur tgt ctx).1.1.value = .fin V ∧ (s.propose now cur tgt ctx).1.1.cost = .fin C ∧ 0 ≤ C.1 ∧
      plainPrice s * |V.1| ≤ C.1 + 1 / 10 ^ 12 := by
  have two : (2.0 : F64) = .fin ⟨2, isDouble_ofNat 2 (by norm_num)⟩ := by
    change F64.ofReal (2.0 : ℝ) = _
    rw [show (2.0 : ℝ) = 2 by norm_num, F64.ofReal_of_isDouble]
  have three : (3.0 : F64) = .fin ⟨3, isDouble_ofNat 3 (by norm_num)⟩ := by
    change F64.ofReal (3.0 : ℝ) = _
    rw [show (3.0 : ℝ) = 3 by norm_num, F64.ofReal_of_isDouble]
  have four : (4.0 : F64) = .fin ⟨4, isDouble_ofNat 4 (by norm_num)⟩ := by
    change F64.ofReal (4.0 : ℝ) = _
    rw [show (4.0 : ℝ) = 4 by norm_num, F64.ofReal_of_isDouble]
  obtain ⟨L, eL, hL⟩ := tiny_err (x := (0.1 : ℝ)) (by rw [abs_of_pos (by norm_num)]; norm_num)
  obtain ⟨L1, L2⟩ := abs_le.1 hL
  norm_num at L1 L2
  have nanCost : ∀ (b : F64) (k : Dbl), ¬ F64.fin M ≤ b / fmax (GoMath.abs (F64.nan) * F64.fin k) (0.1 : F64) := by
    intro b k h
    have : b / fmax (GoMath.abs (F64.nan) * F64.fin k) (0.1 : F64) = .nan := by
      rw [show (0.1 : F64) = F64.ofReal 0.1 from rfl, eL]
      cases b <;> rfl
    rw [this] at h; exact h
  have dh : IsDouble (1 / 2 : ℝ) := ⟨1, -1, by norm_num, by norm_num, by norm_num, by norm_num⟩
  have eh : (0.5 : F64) = .fin ⟨1 / 2, dh⟩ := by
    change F64.ofReal (0.5 : ℝ) = _
    rw [show (0.5 : ℝ) = 1 / 2 by norm_num, F64.ofReal_of_isDouble]
  have idle : ∃ V C : Dbl, (0 : F64) = .fin V ∧ (0.1 : F64) = .fin C ∧ 0 ≤ C.1 ∧ plainPrice s * |V.1| ≤ C.1 + 1 / 10 ^ 12 :=
    ⟨_, L, rfl, eL, by linarith, by rw [abs_zero, mul_zero]; norm_num; linarith⟩
  cases s with
  | phaseNudge r =>
    simp only [Strat.propose, phaseNudgePropose, actionScore, plainPrice] at hsc hc ⊢
    rw [two] at hsc hc ⊢
    exact cost_of _ _ E (by norm_num) hE hc (fun e => by rw [e] at hsc; exact nanCost _ _ hsc)
  | frequencyLock r =>
    simp only [Strat.propose, frequencyLockPropose, actionScore, plainPrice] at hsc hc ⊢
    rw [three] at hsc hc ⊢
    exact cost_of _ _ E (by norm_num) hE hc (fun e => by rw [e] at hsc; exact nanCost _ _ hsc)
  | energyAware t =>
    simp only [Strat.propose, energyAwarePropose, actionScore, plainPrice] at hsc hc idle ⊢
    by_cases hh : GoMath.abs (phaseDifference tgt.phase cur.phase) < (0.1 : F64)
    · rw [if_pos hh]; exact idle
    · rw [if_neg hh] at hsc hc ⊢
      dsimp only at hsc hc ⊢
      rcases phaseDifference_cases tgt.phase cur.phase with e | ⟨D, e, hD⟩
      · exfalso
        rw [e] at hsc
        have : ∀ b : F64, b / fmax (fmax (0.5 : F64) (GoMath.abs (F64.nan * (0.1 : F64)))) (0.1 : F64) = .nan := by
          intro b
          rw [eh, show (0.1 : F64) = F64.ofReal 0.1 from rfl, eL]
          cases b <;> rfl
        rw [this] at hsc
        exact hsc
      · rw [e] at hc ⊢
        have hpi2 := Real.pi_lt_d2
        norm_num at hpi2
        have hpd := piDouble_bounds
        have hpl := piDouble_lt_pi
        have hDL : |D.1 * L.1| ≤ 3155 / 10000 := by
          rw [abs_mul, abs_of_pos (show 0 < L.1 by linarith)]
          have h1 : |D.1| ≤ 63 / 20 := by linarith
          have h2 : |D.1| * L.1 ≤ 63 / 20 * L.1 := mul_le_mul_of_nonneg_right h1 (by linarith)
          linarith
        obtain ⟨V, eV, hV⟩ := tiny_err (x := D.1 * L.1) (by linarith)
        obtain ⟨A, eA, hA⟩ := F64.abs_fin V
        obtain ⟨m, em, hm⟩ := fmax_fin ⟨1 / 2, dh⟩ A
        have hm2 : 1 / 2 ≤ m.1 := by rw [hm]; exact le_max_left _ _
        refine ⟨V, m, by rw [show (0.1 : F64) = F64.ofReal 0.1 from rfl, eL, F64.mul_fin, eV],
          by rw [show (0.1 : F64) = F64.ofReal 0.1 from rfl, eL, F64.mul_fin, eV, eA, eh, em], by linarith, ?_⟩
        have hVa : |V.1| ≤ 316 / 1000 := by
          have t := abs_sub_abs_le_abs_sub V.1 (D.1 * L.1)
          norm_num at hV
          linarith
        norm_num
        linarith
  | pulse p =>
    simp only [Strat.propose, Pulse.propose, actionScore, plainPrice] at hsc hc idle ⊢
    by_cases hh : now - p.lastPulse < p.period
    · rw [if_pos hh]; exact idle
    · rw [if_neg hh] at hsc hc ⊢
      dsimp only at hsc hc ⊢
      rw [four] at hsc hc ⊢
      exact cost_of _ _ E (by norm_num) hE hc (fun e => by rw [e] at hsc; exact nanCost _ _ hsc)

/-- What any strategy proposes, if it is chosen and can be paid, costs its price; and the price stays. -/
theorem chosen_price_double (s s' : AgentStrategy F64) (now : ℤ) (cur tgt : State F64) (ctx : Context F64) (hst : ctx.stability = 0.5) (q : Action F64) (conf : F64)
    (h : s.propose now cur tgt ctx = .ok ((q, conf), s')) (E : Dbl) (hE : E.1 ≤ 1000) (act : Action F64) (acc : F64)
    (hd : decide' cur [q, ⟨"maintain", 0, 0.1, ctx.stability⟩] = (act, acc)) (hc : ¬ act.cost > F64.fin E) :
    ∃ V C : Dbl, act.value = .fin V ∧ act.cost = .fin C ∧ 0 ≤ C.1 ∧ priceD s * |V.1| ≤ C.1 + 1 / 10 ^ 12 := by
  obtain ⟨M, eM, hM⟩ := maintain_score ctx.stability hst
  have hM4 : 4 ≤ M.1 := by norm_num at hM; linarith
  obtain ⟨L, eL, hL⟩ := tiny_err (x := (0.1 : ℝ)) (by rw [abs_of_pos (by norm_num)]; norm_num)
  obtain ⟨L1, L2⟩ := abs_le.1 hL
  norm_num at L1 L2
  obtain ⟨rfl | ⟨rfl, hsc⟩, -⟩ := chosen_of_two cur _ _ M eM hM4 act acc hd
  · exact ⟨_, L, rfl, eL, by linarith, by rw [abs_zero, mul_zero]; norm_num; linarith⟩
  cases s with
  | basic b =>
    simp only [AgentStrategy.propose, Outcome.ok.injEq, Prod.mk.injEq] at h
    have hq : act = (b.propose now cur tgt ctx).1.1 := by rw [h.1]
    subst hq
    exact plain_price_double b now cur tgt ctx M E hE hsc hc
  | adaptive l =>
    simp only [AgentStrategy.propose] at h
    unfold adaptivePropose at h
    by_cases hl : l.length = 0
    · rw [if_pos (by simpa using hl)] at h
      simp only [Outcome.ok.injEq, Prod.mk.injEq] at h
      obtain ⟨⟨rfl, -⟩, -⟩ := h
      exact ⟨_, _, rfl, rfl, le_rfl, by rw [abs_zero, mul_zero]; norm_num⟩
    · rw [if_neg (by simpa using hl)] at h
      dsimp only at h
      split_ifs at h
      all_goals
        split at h
        · rename_i x _
          simp only [Outcome.ok.injEq, Prod.mk.injEq] at h
          have hq : act = (x.1.propose now cur tgt ctx).1.1 := by rw [h.1]
          subst hq
          obtain ⟨V, C, v1, v2, v3, v4⟩ := plain_price_double x.1 now cur tgt ctx M E hE hsc hc
          exact ⟨V, C, v1, v2, v3, (mul_le_mul_of_nonneg_right (plainPrice_ge x.1) (abs_nonneg _)).trans v4⟩
        · cases h

/-- The price stays. -/
theorem price_stays (s s' : AgentStrategy F64) (now : ℤ) (cur tgt : State F64) (ctx : Context F64) (q : Action F64) (conf : F64)
    (h : s.propose now cur tgt ctx = .ok ((q, conf), s')) : priceD s' = priceD s := by
  cases s with
  | basic b =>
    simp only [AgentStrategy.propose, Outcome.ok.injEq, Prod.mk.injEq] at h
    rw [← h.2]
    cases b with
    | pulse p => simp only [Strat.propose]; rfl
    | _ => rfl
  | adaptive l =>
    simp only [AgentStrategy.propose] at h
    unfold adaptivePropose at h
    by_cases hl : l.length = 0
    · rw [if_pos (by simpa using hl)] at h
      simp only [Outcome.ok.injEq, Prod.mk.injEq] at h
      obtain ⟨-, rfl⟩ := h
      rfl
    · rw [if_neg (by simpa using hl)] at h
      dsimp only at h
      split_ifs at h
      all_goals
        split at h
        · simp only [Outcome.ok.injEq, Prod.mk.injEq] at h
          rw [← h.2]; rfl
        · cases h

/-- Adding a step of any length to a phase. -/
theorem stride_phase (b : Agent F64) (act : Action F64) (c : F64) (p V : Dbl) (hp : b.state.phase = .fin p) (hp7 : |p.1| ≤ 7) (hV : act.value = .fin V)
    (hB : |V.1| ≤ 800) (h : (b.applyAction act).1 = .ok c) :
    ∃ r : Dbl, (b.applyAction act).2.state.phase = .fin r ∧ |r.1| ≤ 7 ∧ ∃ δ : ℝ, |δ| ≤ |V.1| ∧ Near r.1 (p.1 + δ) (2 / 10 ^ 12) := by
  obtain ⟨s, es, hs⟩ := thousands_err (x := p.1 + V.1) (by
    have := abs_add_le p.1 V.1
    linarith)
  obtain ⟨h1, h2⟩ := C36_phase_double b act c p V s hp hV (by rw [F64.add_fin, es]) h
  by_cases ht : act.type = "maintain"
  · exact ⟨p, h1 ht, hp7, 0, by rw [abs_zero]; exact abs_nonneg _, 0, by norm_num⟩
  · obtain ⟨r, er, r0, r1, k, hk⟩ := h2 ht
    have hpi := Real.pi_lt_d2
    refine ⟨r, er, by rw [abs_of_nonneg r0]; linarith, V.1, le_rfl, k, ?_⟩
    have hs8 : |s.1| ≤ 808 := by
      have t1 := abs_sub_abs_le_abs_sub s.1 (p.1 + V.1)
      have t2 := abs_add_le p.1 V.1
      norm_num at hs
      linarith
    have hu : (2 : ℝ) ^ (-53 : ℤ) ≤ 12 / 10 ^ 17 := by rw [zpow_neg]; norm_num
    have hu0 : (0 : ℝ) < 2 ^ (-53 : ℤ) := by positivity
    generalize (2 : ℝ) ^ (-53 : ℤ) = u at hk hu hu0
    have e : r.1 - (p.1 + V.1) + k * (2 * Real.pi) = (r.1 - s.1 + k * (2 * Real.pi)) + (s.1 - (p.1 + V.1)) := by ring
    rw [e]
    have t := abs_add_le (r.1 - s.1 + k * (2 * Real.pi)) (s.1 - (p.1 + V.1))
    have hb : (2 * |s.1| + 22) * u ≤ 1638 * u := mul_le_mul_of_nonneg_right (by linarith) hu0.le
    norm_num at hs hu ⊢
    linarith

theorem energy_of (a : Agent F64) (f : ℕ → F64) : (a.updateContext f).state.energy = a.state.energy := by
  unfold Agent.updateContext
  dsimp only
  by_cases h : a.neighborList.length = 0
  · rw [if_pos h]
  · rw [if_neg h]

theorem thousand_lt : (1000 : ℝ) < 2 ^ (1023 : ℤ) := by
  have h : (2 : ℝ) ^ (10 : ℤ) ≤ 2 ^ (1023 : ℤ) := zpow_le_zpow_right₀ (by norm_num) (by norm_num)
  generalize (2 : ℝ) ^ (1023 : ℤ) = x at *
  norm_num at h
  linarith

/-- One event: the movement is paid for up to 1e-11, the price stays, and energy is not gained. -/
theorem life_step_double (a : Agent F64) (c : LifeD) (p e : Dbl) (hp : a.state.phase = .fin p) (hp7 : |p.1| ≤ 7) (he : a.state.energy = .fin e)
    (e0 : 0 ≤ e.1) (e1 : e.1 ≤ 1000) : ∃ p' e' : Dbl, (lifeD a c).state.phase = .fin p' ∧ |p'.1| ≤ 7 ∧ (lifeD a c).state.energy = .fin e' ∧ 0 ≤ e'.1 ∧
      e'.1 ≤ e.1 ∧ priceD (lifeD a c).strategy = priceD a.strategy ∧
      ((∀ q, c ≠ .place q) → priceD a.strategy * arcDist p.1 p'.1 ≤ e.1 - e'.1 + 1 / 10 ^ 11) := by
  have hpr := priceD_ge a.strategy
  have hpl := priceD_le a.strategy
  cases c with
  | place q =>
    obtain ⟨r, er, r0, r1, -⟩ := C134_wrap q
    have hpi := Real.pi_lt_d2
    exact ⟨r, e, er, by rw [abs_of_nonneg r0]; linarith, he, e0, le_rfl, rfl, fun h => absurd rfl (h q)⟩
  | act seen phaseOf now goal d1 d2 =>
    obtain ⟨u1, u2, -, st1, -⟩ := context_frame_double a seen
    have u3 := energy_of a seen
    have stay : priceD a.strategy * arcDist p.1 p.1 ≤ e.1 - e.1 + 1 / 10 ^ 11 := by
      have := arcDist_self p.1
      have h0 := arcDist_nonneg p.1 p.1
      have : arcDist p.1 p.1 = 0 := le_antisymm this h0
      rw [this]; norm_num
    rw [← u1] at hp
    rw [← u3] at he
    rw [← u2] at hpr hpl stay ⊢
    simp only [lifeD]
    generalize a.updateContext seen = w at *
    obtain ⟨act, ok, s, f1, f2, -⟩ := C38_accepted_applies w phaseOf now goal d1 d2
    rw [f1]
    have hs : priceD s = priceD w.strategy := by
      have e1 := f1
      unfold Agent.proposeAdjustment at e1
      split_ifs at e1 with hd
      · simp only [Outcome.ok.injEq, Prod.mk.injEq] at e1
        have := congrArg Agent.strategy e1.2
        dsimp only at this
        rw [this]
      · dsimp only at e1
        split at e1
        · cases e1
        · rename_i q conf s' hq
          simp only [Outcome.ok.injEq, Prod.mk.injEq] at e1
          have := congrArg Agent.strategy e1.2
          dsimp only at this
          rw [← this]
          exact price_stays _ _ _ _ _ _ _ _ hq
    cases ok with
    | false => exact ⟨p, e, hp, hp7, he, e0, le_rfl, hs, fun _ => stay⟩
    | true =>
      have ha := f2 rfl
      obtain ⟨-, q, conf, s', acc, g1, g2, g3, -⟩ := (C38_acceptance w phaseOf now goal d1 d2 act).1 ⟨_, f1⟩
      rw [he] at g3
      obtain ⟨V, C, v1, v2, v3, v4⟩ := chosen_price_double _ _ _ _ _ _ st1 q conf g1 e e1 act acc g2 g3
      have hCe : C.1 ≤ e.1 := by rw [v2] at g3; exact not_lt.1 (show ¬ e.1 < C.1 from g3)
      obtain ⟨r, er, hr7, δ, hδ, k, hk⟩ := stride_phase { w with strategy := s } act _ p V hp hp7 v1 (by
        norm_num at v4
        nlinarith [abs_nonneg V.1]) ha
      obtain ⟨cs, e', c1, c2, c3, c4, c5, c6⟩ := C148_accounting { w with strategy := s } [act] e he e0 (by
        exact lt_of_le_of_lt e1 thousand_lt) (by
        intro x hx
        rw [List.mem_singleton] at hx
        subst hx
        exact ⟨C, v2, v3⟩)
      have ec : cs = [C] := by
        simp only [applyAllD, ha, v2] at c1
        cases cs with
        | nil => cases c1
        | cons x xs =>
          simp only [List.map_cons, List.cons.injEq, F64.fin.injEq] at c1
          have : xs = [] := List.map_eq_nil_iff.1 c1.2.symm
          rw [this, ← c1.1]
      subst ec
      simp only [List.map_cons, List.map_nil, List.sum_cons, List.sum_nil, add_zero, List.length_singleton, Nat.cast_one, one_mul] at c6
      refine ⟨r, e', er, hr7, by simpa only [applyAllD] using c2, c4, c5, ?_, fun _ => ?_⟩
      · dsimp only
        have : ((Agent.applyAction { w with strategy := s } act).2).strategy = s := by
          unfold Agent.applyAction
          split_ifs
          · rfl
          · split <;> rfl
        rw [this, hs]
      · have hu : ulp * e.1 ≤ 2 / 10 ^ 13 := by
          have : ulp * 1000 ≤ 2 / 10 ^ 13 := by unfold ulp; rw [zpow_neg]; norm_num
          have h2 := mul_le_mul_of_nonneg_left e1 ulp_pos.le
          norm_num at this ⊢
          linarith
        have hη : eta ≤ 1 / 10 ^ 15 := by
          have h1 := eta_le_ulp
          have : ulp ≤ 1 / 10 ^ 15 := by unfold ulp; rw [zpow_neg]; norm_num
          linarith
        have hd : arcDist p.1 r.1 ≤ |δ| + 2 / 10 ^ 12 := by
          refine (arcDist_le (δ := r.1 - p.1 + k * (2 * Real.pi)) ⟨-k, by push_cast; ring⟩).trans ?_
          have e : r.1 - p.1 + k * (2 * Real.pi) = (r.1 - (p.1 + δ) + k * (2 * Real.pi)) + δ := by ring
          rw [e]
          have t := abs_add_le (r.1 - (p.1 + δ) + k * (2 * Real.pi)) δ
          linarith
        have hc6 := (abs_le.1 c6).2
        have : priceD w.strategy * arcDist p.1 r.1 ≤ priceD w.strategy * (|V.1| + 2 / 10 ^ 12) :=
          mul_le_mul_of_nonneg_left (by linarith) (by linarith)
        rw [mul_add] at this
        have h4 : priceD w.strategy * (2 / 10 ^ 12) ≤ 8 / 10 ^ 12 := by
          have := mul_le_mul_of_nonneg_right hpl (show (0 : ℝ) ≤ 2 / 10 ^ 12 by norm_num)
          norm_num at this ⊢
          linarith
        norm_num at this h4 v4 hu hη ⊢
        linarith

/-- **C139, in doubles.** Whatever happens to an agent with at most 1000 units of energy, wherever its neighbours are and however long it goes on: energy never
rises, and the agent's own movements, all added up, cost at least their price, up to 1e-11 per event. -/
theorem C139_budget_double (a : Agent F64) (cs : List LifeD) (p e : Dbl) (hp : a.state.phase = .fin p) (hp7 : |p.1| ≤ 7) (he : a.state.energy = .fin e)
    (e0 : 0 ≤ e.1) (e1 : e.1 ≤ 1000) : ∃ p' e' : Dbl, (lifeAll a cs).state.phase = .fin p' ∧ |p'.1| ≤ 7 ∧ (lifeAll a cs).state.energy = .fin e' ∧ 0 ≤ e'.1 ∧
      e'.1 ≤ e.1 ∧ priceD a.strategy * travelledD a cs ≤ e.1 - e'.1 + cs.length / 10 ^ 11 := by
  induction cs generalizing a p e with
  | nil => exact ⟨p, e, hp, hp7, he, e0, le_rfl, by simp [travelledD]⟩
  | cons c cs ih =>
    obtain ⟨p', e', h1, h2, h3, h4, h5, h6, h7⟩ := life_step_double a c p e hp hp7 he e0 e1
    obtain ⟨p'', e'', g1, g2, g3, g4, g5, g6⟩ := ih (lifeD a c) p' e' h1 h2 h3 h4 (by linarith)
    refine ⟨p'', e'', g1, g2, g3, g4, by linarith, ?_⟩
    rw [h6] at g6
    have key : priceD a.strategy * Spec.ownMove a c ≤
        e.1 - e'.1 + 1 / 10 ^ 11 := by
      cases c with
      | place q => simp only [ownMove, mul_zero]; norm_num; linarith
      | act => dsimp only [ownMove]; rw [h1, hp]; exact h7 (by intro q hq; cases hq)
    simp only [travelledD, mul_add, List.length_cons, Nat.cast_add, Nat.cast_one, add_div]
    linarith

/-- **C139, in doubles, the range.** -/
theorem C139_range_double (a : Agent F64) (cs : List LifeD) (p e : Dbl) (hp : a.state.phase = .fin p) (hp7 : |p.1| ≤ 7) (he : a.state.energy = .fin e)
    (e0 : 0 ≤ e.1) (e1 : e.1 ≤ 1000) : travelledD a cs ≤ (e.1 + cs.length / 10 ^ 11) / priceD a.strategy := by
  obtain ⟨p', e', -, -, -, h1, -, h2⟩ := C139_budget_double a cs p e hp hp7 he e0 e1
  have := priceD_ge a.strategy
  rw [le_div_iff₀ (by linarith), mul_comm]
  linarith

/-- An agent with 100 units and a nudging strategy, over any history. -/
example (a : Agent F64) (r : F64) (cs : List LifeD) (h1 : a.state.phase = 0) (h2 : a.state.energy = .fin hundredD) (hs : a.strategy = .basic (.phaseNudge r))
    (hn : cs.length ≤ 1000000) : travelledD a cs ≤ 50.00001 := by
  have h := C139_range_double a cs ⟨0, isDouble_zero⟩ hundredD h1 (by norm_num) h2 (by norm_num [hundredD]) (by norm_num [hundredD])
  rw [hs] at h
  simp only [priceD, plainPrice, hundredD] at h
  have hR : (cs.length : ℝ) ≤ 1000000 := by exact_mod_cast hn
  refine h.trans ?_
  norm_num
  linarith

end
end Verif
