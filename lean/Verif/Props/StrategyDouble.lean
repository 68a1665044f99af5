import Verif.Props.PatternsDouble
import Verif.Props.Strategy
import Verif.Model.Agent

/-!
# C13 in doubles: bounds of proposals whatever the rounding
-/

set_option autoImplicit false
set_option linter.unusedSectionVars false

namespace Verif
variable [Rounding] [LibM]
open Rounding GoMath Spec

namespace Spec

/-- A proposal in doubles that is safe to hand to an agent: the change is at most the double nearest to π, the cost a finite
number of at most 13 and not negative, the confidence in [0, 1]. -/
structure SaneDouble (p : Action F64 × F64) : Prop where
  known : p.1.type ∈ knownTypes
  value : ∃ v : Dbl, p.1.value = .fin v ∧ |v.1| ≤ piDouble
  cost : ∃ c : Dbl, p.1.cost = .fin c ∧ 0 ≤ c.1 ∧ c.1 ≤ 13
  conf : F64.In01 p.2

/-- The parameter ranges the constructors establish, in doubles. -/
def InRangeDouble : Strat F64 → Prop
  | .phaseNudge r => F64.In01 r
  | .frequencyLock r => F64.In01 r
  | .energyAware _ => True
  | .pulse p => F64.In01 p.amplitude

end Spec

theorem value_double (d : Dbl) (hd : |d.1| ≤ piDouble) (r : F64) (hr : F64.In01 r) :
    ∃ v : Dbl, F64.fin d * r = .fin v ∧ |v.1| ≤ piDouble := by
  obtain ⟨y, hy, rfl, y0, y1⟩ := hr
  have hp := piDouble_bounds
  have hle : |d.1 * y| ≤ piDouble := by
    rw [abs_mul, abs_of_nonneg y0]
    calc |d.1| * y ≤ |d.1| * 1 := mul_le_mul_of_nonneg_left y1 (abs_nonneg _)
      _ ≤ piDouble := by linarith
  obtain ⟨h1, h2⟩ := abs_le.1 hle
  obtain ⟨z, hz, e, z1, z2⟩ := F64.ofReal_between piDouble_isDouble.neg piDouble_isDouble h1 h2
  exact ⟨⟨z, hz⟩, by rw [F64.mul_fin]; exact e, abs_le.2 ⟨z1, z2⟩⟩

theorem cost_double (v : Dbl) (hv : |v.1| ≤ piDouble) (k : ℕ) (hk : k ≤ 4) (q : ℝ) (hq : q = k) :
    ∃ c : Dbl, GoMath.abs (F64.fin v) * F64.ofReal q = .fin c ∧ 0 ≤ c.1 ∧ c.1 ≤ 13 := by
  obtain ⟨w, ew, hw⟩ := F64.abs_fin v
  have hp := piDouble_bounds
  have hpi := Real.pi_lt_d2
  have hk' : (k : ℝ) ≤ 4 := by exact_mod_cast hk
  have hpd : piDouble ≤ 3.25 := by
    have := piDouble_lt_pi
    linarith
  have dk : IsDouble (k : ℝ) := by
    simpa using isDouble_int (n := (k : ℤ)) (by rw [abs_of_nonneg (by omega)]; omega)
  rw [ew, hq, F64.ofReal_of_isDouble dk, F64.mul_fin]
  obtain ⟨z, hz, e, z1, z2⟩ := F64.ofReal_between (x := w.1 * (k : ℝ)) isDouble_zero (isDouble_ofNat 13 (by norm_num))
    (by rw [hw]; positivity) (by rw [hw]; nlinarith [abs_nonneg v.1, (Nat.cast_nonneg k : (0:ℝ) ≤ k)])
  exact ⟨⟨z, hz⟩, e, z1, by simpa using z2⟩

/-- **C13 in doubles.** Every built-in strategy with in-range parameters makes sane proposals also in doubles, whatever
the rounding and the library, for any two finite phases whose difference does not overflow; and it stays in range. -/
theorem C13_propose_sane_double (s : Strat F64) (hs : InRangeDouble s) (now : ℤ) (cur tgt : State F64) (ctx : Context F64)
    (a b : Dbl) (ha : tgt.phase = .fin a) (hb : cur.phase = .fin b) (hab : ∃ d, F64.fin a - F64.fin b = .fin d)
    (hc : F64.In01 ctx.localCoherence) :
    SaneDouble (s.propose now cur tgt ctx).1 ∧ InRangeDouble (s.propose now cur tgt ctx).2 := by
  obtain ⟨d, ed, hd⟩ := F64.phaseDifference_pi a b hab
  have hp := piDouble_bounds
  have half : F64.In01 (0.5 : F64) := F64.in01_ofReal (x := 0.5) (by norm_num) (by norm_num)
  have zero : ∃ v : Dbl, (0 : F64) = .fin v ∧ |v.1| ≤ piDouble := ⟨_, rfl, by simp; linarith⟩
  have tenth : ∃ c : Dbl, (0.1 : F64) = .fin c ∧ 0 ≤ c.1 ∧ c.1 ≤ 13 := by
    obtain ⟨y, hy, e, y0, y1⟩ := F64.in01_ofReal (x := 0.1) (by norm_num) (by norm_num)
    exact ⟨⟨y, hy⟩, e, y0, by dsimp only; linarith⟩
  cases s with
  | phaseNudge r =>
    obtain ⟨v, ev, hv⟩ := value_double d hd r hs
    refine ⟨⟨by simp [Strat.propose, phaseNudgePropose, knownTypes], ?_, ?_, ?_⟩, hs⟩ <;>
      simp only [Strat.propose, phaseNudgePropose, ha, hb, ed, ev]
    · exact ⟨v, rfl, hv⟩
    · exact cost_double v hv 2 (by norm_num) 2.0 (by norm_num)
    · obtain ⟨x, hx, ex, x0, x1⟩ := one_sub_in01 hc
      obtain ⟨y, hy, ey, y0, y1⟩ := half
      rw [ex, ey]
      obtain ⟨m, em, hm⟩ := fmax_fin ⟨y, hy⟩ ⟨x, hx⟩
      exact ⟨m.1, m.2, em, by rw [hm]; exact y0.trans (le_max_left _ _), by rw [hm]; exact max_le y1 x1⟩
  | frequencyLock r =>
    obtain ⟨v, ev, hv⟩ := value_double d hd r hs
    refine ⟨⟨by simp [Strat.propose, frequencyLockPropose, knownTypes], ?_, ?_, ?_⟩, hs⟩ <;>
      simp only [Strat.propose, frequencyLockPropose, ha, hb, ed, ev]
    · exact ⟨v, rfl, hv⟩
    · exact cost_double v hv 3 (by norm_num) 3.0 (by norm_num)
    · obtain ⟨x, hx, ex, x0, x1⟩ := hc
      obtain ⟨y, hy, rfl, y0, y1⟩ := (hs : F64.In01 r)
      rw [ex, F64.mul_fin]
      exact F64.in01_ofReal (mul_nonneg x0 y0) (mul_le_one₀ x1 y0 y1)
  | energyAware t =>
    refine ⟨?_, trivial⟩
    simp only [Strat.propose, energyAwarePropose, ha, hb, ed]
    split_ifs
    · exact ⟨by simp [knownTypes], zero, tenth, half⟩
    · obtain ⟨v, ev, hv⟩ := value_double d hd (0.1 : F64) (F64.in01_ofReal (x := 0.1) (by norm_num) (by norm_num))
      refine ⟨by simp [knownTypes], ⟨v, ev, hv⟩, ?_, F64.in01_ofReal (x := 0.3) (by norm_num) (by norm_num)⟩
      dsimp only
      obtain ⟨w, ew, hw⟩ := F64.abs_fin v
      obtain ⟨y, hy, ey, y0, y1⟩ := half
      rw [ev, ew, ey]
      obtain ⟨m, em, hm⟩ := fmax_fin ⟨y, hy⟩ w
      have hpi := Real.pi_lt_d2
      have hpd := piDouble_lt_pi
      exact ⟨m, em, by rw [hm]; exact y0.trans (le_max_left _ _),
        by rw [hm]; exact max_le (by dsimp only; linarith) (by rw [hw]; linarith)⟩
  | pulse p =>
    have hs' : F64.In01 p.amplitude := hs
    simp only [Strat.propose, Pulse.propose]
    split_ifs
    · exact ⟨⟨by simp [knownTypes], zero, tenth, F64.in01_ofReal (x := 0.3) (by norm_num) (by norm_num)⟩, hs'⟩
    · obtain ⟨v, ev, hv⟩ := value_double d hd p.amplitude hs'
      refine ⟨⟨by simp [knownTypes], ?_, ?_, hs'⟩, hs'⟩ <;> simp only [ha, hb, ed, ev]
      · exact ⟨v, rfl, hv⟩
      · exact cost_double v hv 4 (by norm_num) 4.0 (by norm_num)

/-- The constructors establish the range in doubles from every rate but NaN. -/
theorem C13_clampRate_double (r : F64) (h : r ≠ .nan) : F64.In01 (clampRate r) := by
  unfold clampRate
  cases r with
  | nan => exact absurd rfl h
  | pinf => 
    change F64.In01 (if (1 : ℝ) < 0 then F64.fin ⟨0, isDouble_zero⟩ else F64.fin ⟨1, isDouble_one⟩)
    rw [if_neg (by norm_num)]
    exact ⟨1, isDouble_one, rfl, zero_le_one, le_rfl⟩
  | ninf => exact ⟨0, isDouble_zero, rfl, le_rfl, zero_le_one⟩
  | fin d =>
    change F64.In01 (F64.max (F64.fin ⟨0, isDouble_zero⟩) (if (1 : ℝ) < d.1 then F64.fin ⟨1, isDouble_one⟩ else F64.fin d))
    split_ifs with h1
    · change F64.In01 (if (1 : ℝ) < 0 then F64.fin ⟨0, isDouble_zero⟩ else F64.fin ⟨1, isDouble_one⟩)
      rw [if_neg (by norm_num)]
      exact ⟨1, isDouble_one, rfl, zero_le_one, le_rfl⟩
    · change F64.In01 (if d.1 < 0 then F64.fin ⟨0, isDouble_zero⟩ else F64.fin d)
      split_ifs with h0
      · exact ⟨0, isDouble_zero, rfl, le_rfl, zero_le_one⟩
      · exact ⟨d.1, d.2, rfl, not_lt.1 h0, not_lt.1 h1⟩

/-- NaN gets past the constructors. A phase-nudge strategy made with it proposes a change and a cost of NaN, whatever the
states; every agent accepts that proposal, because NaN is not greater than its energy, and afterwards its phase is NaN. -/
theorem C13_nan_rate (now : ℤ) (cur tgt : State F64) (ctx : Context F64) (ag : Agent F64) :
    let p := ((Strat.phaseNudge (clampRate F64.nan)).propose now cur tgt ctx).1.1
    p.value = F64.nan ∧ p.cost = F64.nan ∧ (ag.applyAction p).1 = .ok F64.nan
    ∧ (ag.applyAction p).2.state.phase = F64.nan ∧ (ag.applyAction p).2.state.energy = F64.nan := by
  have hc : clampRate F64.nan = F64.nan := rfl
  have hv : ∀ x : F64, x * F64.nan = F64.nan := fun x => by cases x <;> rfl
  have hw : ∀ x : F64, F64.nan * x = F64.nan := fun x => by cases x <;> rfl
  have hs : ∀ x : F64, x - F64.nan = F64.nan := fun x => by cases x <;> rfl
  have hp : ∀ x : F64, x + F64.nan = F64.nan := fun x => by cases x <;> rfl
  have ha : GoMath.abs F64.nan = F64.nan := rfl
  have hl : ∀ x : F64, ¬ F64.nan > x := fun x => by cases x <;> exact id
  have hm : fmax (0 : F64) F64.nan = F64.nan := rfl
  have hwr : wrapPhase F64.nan = F64.nan := by
    have h1 : ∀ x : F64, F64.nan + x = F64.nan := fun x => by cases x <;> rfl
    have h2 : ∀ y : F64, GoMath.mod F64.nan y = F64.nan := fun y => by cases y <;> rfl
    simp only [wrapPhase, h2, h1]
  simp [Strat.propose, phaseNudgePropose, hc, hv, ha, hw, Agent.applyAction, applyUpdate, hl, hp, hs, hwr]
  exact hm

/-- Non-vacuity: a pulse of amplitude three is in range, and a swarm's phases meet the hypotheses. -/
example : InRangeDouble (.pulse (newPulse 5 (F64.fin ⟨3, by simpa using isDouble_ofNat 3 (by norm_num)⟩) 0)) :=
  C13_clampRate_double _ (by simp)

example : ∃ (s : Strat F64) (cur tgt : State F64) (ctx : Context F64) (a b : Dbl),
    InRangeDouble s ∧ tgt.phase = .fin a ∧ cur.phase = .fin b ∧ (∃ d, F64.fin a - F64.fin b = .fin d)
    ∧ F64.In01 ctx.localCoherence ∧ a ≠ b := by
  have h := F64.in01_ofReal (x := 0.5) (by norm_num) (by norm_num)
  refine ⟨.frequencyLock (F64.ofReal 0.5), { phase := .fin ⟨1, isDouble_one⟩, frequency := 0, coherence := 0 },
    { phase := .fin ⟨0, isDouble_zero⟩, frequency := 0, coherence := 0 }, { neighbors := 3, density := 0, stability := 0, progress := 0, localCoherence := F64.ofReal 0.5 },
    ⟨0, isDouble_zero⟩, ⟨1, isDouble_one⟩, h, rfl, rfl, ?_, h, fun e => by simpa using congrArg Subtype.val e⟩
  obtain ⟨z, hz, e, -, -⟩ := F64.ofReal_between (x := 0 - 1) isDouble_one.neg isDouble_zero (by norm_num) (by norm_num)
  exact ⟨⟨z, hz⟩, by rw [F64.sub_fin]; exact e⟩

end Verif
