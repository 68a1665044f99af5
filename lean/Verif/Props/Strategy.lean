import Verif.Lemmas.Phase
import Verif.Model.Strategy
import Mathlib.Analysis.Real.Pi.Bounds

/-!
# C13–C17: strategies and goal blending
-/

set_option autoImplicit false
set_option linter.unusedSectionVars false

namespace Verif
open Real Spec

/-! ## C13 Bounds of proposals -/

/-- Specification: the action types an agent can carry out (see `C36`). -/
def Spec.knownTypes : List String :=
  ["adjust_phase", "phase_nudge", "frequency_lock", "energy_save", "pulse", "maintain"]

/-- Specification: a proposal that is safe to hand to an agent. -/
structure Spec.Sane (p : Action ℝ × ℝ) : Prop where
  known : p.1.type ∈ knownTypes
  value_le : |p.1.value| ≤ π
  cost_nonneg : 0 ≤ p.1.cost
  conf_nonneg : 0 ≤ p.2
  conf_le : p.2 ≤ 1

/-- Specification: the parameter ranges the constructors establish. -/
def Spec.InRange : Strat ℝ → Prop
  | .phaseNudge r => 0 ≤ r ∧ r ≤ 1
  | .frequencyLock r => 0 ≤ r ∧ r ≤ 1
  | .energyAware _ => True
  | .pulse p => 0 ≤ p.amplitude ∧ p.amplitude ≤ 1

theorem abs_diff_mul_le {a b r : ℝ} (h0 : 0 ≤ r) (h1 : r ≤ 1) : |phaseDifference a b * r| ≤ π := by
  rw [abs_mul, abs_of_nonneg h0]
  have := abs_phaseDifference_le a b
  have := abs_nonneg (phaseDifference a b)
  nlinarith

/-- Constructor clamping puts any rate into `[0, 1]`, and keeps those already there. -/
theorem C13_clampRate (r : ℝ) : 0 ≤ clampRate r ∧ clampRate r ≤ 1 ∧ (0 ≤ r → r ≤ 1 → clampRate r = r) := by
  unfold clampRate
  simp only [GoMath.fmax_real, GoMath.fmin_real]
  refine ⟨le_max_left _ _, max_le (by norm_num) (min_le_left _ _), fun h0 h1 => ?_⟩
  rw [min_eq_right h1, max_eq_right h0]

/-- Every built-in strategy with in-range parameters makes sane proposals, at any time, for any states; and it stays in
range. -/
theorem C13_propose_sane (s : Strat ℝ) (hs : InRange s) (now : ℤ) (cur tgt : State ℝ) (ctx : Context ℝ)
    (h0 : 0 ≤ ctx.localCoherence) (h1 : ctx.localCoherence ≤ 1) :
    Sane (s.propose now cur tgt ctx).1 ∧ InRange (s.propose now cur tgt ctx).2 := by
  have hpi := Real.pi_pos
  cases s with
  | phaseNudge r =>
    obtain ⟨r0, r1⟩ := hs
    refine ⟨⟨?_, abs_diff_mul_le r0 r1, ?_, ?_, ?_⟩, r0, r1⟩
    · simp [Strat.propose, phaseNudgePropose, knownTypes]
    · simp only [Strat.propose, phaseNudgePropose, GoMath.abs_real]; positivity
    · simp only [Strat.propose, phaseNudgePropose, GoMath.fmax_real]
      exact le_trans (by norm_num) (le_max_left _ _)
    · simp only [Strat.propose, phaseNudgePropose, GoMath.fmax_real]
      exact max_le (by norm_num) (by linarith)
  | frequencyLock r =>
    obtain ⟨r0, r1⟩ := hs
    refine ⟨⟨?_, abs_diff_mul_le r0 r1, ?_, ?_, ?_⟩, r0, r1⟩
    · simp [Strat.propose, frequencyLockPropose, knownTypes]
    · simp only [Strat.propose, frequencyLockPropose, GoMath.abs_real]; positivity
    · simp only [Strat.propose, frequencyLockPropose]; positivity
    · simp only [Strat.propose, frequencyLockPropose]; nlinarith
  | energyAware t =>
    refine ⟨?_, trivial⟩
    simp only [Strat.propose, energyAwarePropose, GoMath.abs_real, GoMath.fmax_real]
    split_ifs with h
    · exact ⟨by simp [knownTypes], by simp; exact hpi.le, by norm_num, by norm_num, by norm_num⟩
    · refine ⟨by simp [knownTypes], abs_diff_mul_le (by norm_num) (by norm_num), ?_, by norm_num, by norm_num⟩
      exact le_trans (by norm_num) (le_max_left _ _)
  | pulse p =>
    obtain ⟨r0, r1⟩ := hs
    simp only [Strat.propose, Pulse.propose, GoMath.abs_real]
    split_ifs with h
    · exact ⟨⟨by simp [knownTypes], by simp; exact hpi.le, by norm_num, by norm_num, by norm_num⟩, r0, r1⟩
    · exact ⟨⟨by simp [knownTypes], abs_diff_mul_le r0 r1, by positivity, r0, r1⟩, r0, r1⟩

example : InRange (.pulse (newPulse 5 (3 : ℝ) 0)) := ⟨(C13_clampRate 3).1, (C13_clampRate 3).2.1⟩

/-! ## C14 Contraction of phase nudging -/

/-- The phase of an agent after carrying out one phase nudge (phase-changing branch of `ApplyAction`,
emerge/agent/agent.go:440-472: `WrapPhase(phase + action.Value)`). -/
noncomputable def nudgeStep (rate : ℝ) (tgt : State ℝ) (ctx : Context ℝ) (p : ℝ) : ℝ :=
  wrapPhase (p + (phaseNudgePropose rate ⟨p, 0, 0⟩ tgt ctx).1.value)

theorem shortestRotation_of {a b d : ℝ} (h : SameAngle (a + d) b) (h1 : -π < d) (h2 : d ≤ π) :
    ShortestRotation a b d := by
  refine ⟨h, h1, h2, fun d' h' => ?_⟩
  obtain ⟨k, hk⟩ := h
  obtain ⟨l, hl⟩ := h'
  have e : d' = d + (l - k) * (2 * π) := by linarith
  have hp := Real.pi_pos
  rcases lt_trichotomy (l - k) 0 with hneg | hz | hpos
  · have : ((l - k : ℤ) : ℝ) ≤ -1 := by exact_mod_cast (by omega : l - k ≤ -1)
    push_cast at this
    have : d' ≤ -π := by rw [e]; nlinarith
    rw [abs_of_neg (by linarith : d' < 0)]
    rw [abs_le]; constructor <;> linarith
  · have : ((l - k : ℤ) : ℝ) = 0 := by rw [hz]; simp
    push_cast at this
    rw [e, this]; simp
  · have : (1 : ℝ) ≤ ((l - k : ℤ) : ℝ) := by exact_mod_cast hpos
    push_cast at this
    have : π ≤ d' := by rw [e]; nlinarith
    rw [abs_of_nonneg (by linarith : 0 ≤ d')]
    rw [abs_le]; constructor <;> linarith

/-- One nudge multiplies the signed shortest rotation to the target by `1 - r`: the agent moves towards the target by
the shorter arc and does not cross it. -/
theorem C14_nudge_contracts (r : ℝ) (h0 : 0 ≤ r) (h1 : r ≤ 1) (tgt : State ℝ) (ctx : Context ℝ) (p d : ℝ)
    (hns : ¬ SpecialPair tgt.phase p) (hd : ShortestRotation p tgt.phase d) :
    ShortestRotation (nudgeStep r tgt ctx p) tgt.phase ((1 - r) * d) := by
  have hpd : phaseDifference tgt.phase p = d := by
    have h := phaseDifference_shortestRotation hns
    obtain ⟨k, hk⟩ := h.lands
    obtain ⟨l, hl⟩ := hd.lands
    have e : phaseDifference tgt.phase p = d + (k - l) * (2 * π) := by linarith
    have hp := Real.pi_pos
    have a1 := h.gt
    have a2 := h.le
    have a3 := hd.gt
    have a4 := hd.le
    have h1 : ((k - l : ℤ) : ℝ) < 1 := by
      by_contra hc; push Not at hc; push_cast at hc; nlinarith
    have h2 : (-1 : ℝ) < ((k - l : ℤ) : ℝ) := by
      by_contra hc; push Not at hc; push_cast at hc; nlinarith
    have h1' : k - l < 1 := by exact_mod_cast h1
    have h2' : -1 < k - l := by exact_mod_cast h2
    have : k = l := by omega
    rw [e, this]; ring
  have hp := Real.pi_pos
  have hgt := hd.gt
  have hle := hd.le
  have hval : (phaseNudgePropose r ⟨p, 0, 0⟩ tgt ctx).1.value = d * r := by
    simp only [phaseNudgePropose, hpd]
  apply shortestRotation_of
  · unfold nudgeStep
    rw [hval]
    have := (wrapPhase_sameAngle (p + d * r)).add_right ((1 - r) * d)
    refine this.trans ?_
    have e : p + d * r + (1 - r) * d = p + d := by ring
    rw [e]; exact hd.lands
  · rcases le_total 0 d with h | h <;> nlinarith
  · rcases le_total 0 d with h | h <;> nlinarith

/-- If the target is at least `1e-10` away from `0` and `3π/2`, `n` nudges leave the fraction `(1-r)^n` of the initial
rotation, wherever the agent starts. -/
theorem C14_nudge_iterate (r : ℝ) (h0 : 0 ≤ r) (h1 : r ≤ 1) (tgt : State ℝ) (ctx : Context ℝ) (p d : ℝ)
    (ht0 : 1e-10 ≤ |tgt.phase|) (ht1 : 1e-10 ≤ |tgt.phase - 3 * π / 2|) (hd : ShortestRotation p tgt.phase d) (n : ℕ) :
    ShortestRotation ((nudgeStep r tgt ctx)^[n] p) tgt.phase ((1 - r) ^ n * d) := by
  have hns : ∀ q, ¬ SpecialPair tgt.phase q := by
    rintro q (⟨h, -⟩ | ⟨h, -⟩) <;> linarith
  induction n generalizing p d with
  | zero => simpa using hd
  | succ n ih =>
    rw [Function.iterate_succ_apply]
    have := ih _ _ (C14_nudge_contracts r h0 h1 tgt ctx p d (hns p) hd)
    rw [pow_succ, mul_assoc]
    exact this

/-- **C14 for every target** (also 0, the target of all clients). As long as no nudge starts a quarter turn away from the target, `n` nudges leave the
fraction `(1-r)^n` of the initial rotation. -/
theorem C14_nudge_iterate_any (r : ℝ) (h0 : 0 ≤ r) (h1 : r ≤ 1) (tgt : State ℝ) (ctx : Context ℝ) (p d : ℝ)
    (hd : ShortestRotation p tgt.phase d) (n : ℕ) (hq : ∀ k < n, 2e-10 ≤ |(1 - r) ^ k * |d| - π / 2|) :
    ShortestRotation ((nudgeStep r tgt ctx)^[n] p) tgt.phase ((1 - r) ^ n * d) := by
  have hpi := Real.pi_gt_three
  have hns : ∀ q e : ℝ, ShortestRotation q tgt.phase e → SpecialPair tgt.phase q → |(|e| - π / 2)| < 2e-10 := by
    intro q e he hs
    obtain ⟨k, hk⟩ := he.lands
    have hlo := he.gt
    have hhi := he.le
    rcases hs with ⟨ht, hq'⟩ | ⟨ht, hq'⟩
    all_goals
      rw [abs_lt] at ht hq'
    · have hk1 : k = 1 := by
        have a1 : (k : ℝ) < 2 := by
          by_contra hc
          nlinarith
        have a2 : (0 : ℝ) < k := by
          by_contra hc
          nlinarith
        have : k < 2 := by exact_mod_cast a1
        have : 0 < k := by exact_mod_cast a2
        omega
      subst hk1
      push_cast at hk
      rw [abs_of_nonneg (by linarith : (0:ℝ) ≤ e), abs_lt]
      constructor <;> linarith
    · have hk1 : k = -1 := by
        have a1 : (k : ℝ) < 0 := by
          by_contra hc
          nlinarith
        have a2 : (-2 : ℝ) < k := by
          by_contra hc
          nlinarith
        have : k < 0 := by exact_mod_cast a1
        have : -2 < k := by exact_mod_cast a2
        omega
      subst hk1
      push_cast at hk
      rw [abs_of_nonpos (by linarith : e ≤ 0), abs_lt]
      constructor <;> linarith
  induction n generalizing p d with
  | zero => simpa using hd
  | succ n ih =>
    rw [Function.iterate_succ_apply]
    have hsp : ¬ SpecialPair tgt.phase p := fun hs => by
      have := hns p d hd hs
      have := hq 0 (by omega)
      simp only [pow_zero, one_mul] at this
      linarith
    have hr : |(1 - r) * d| = (1 - r) * |d| := by rw [abs_mul, abs_of_nonneg (by linarith)]
    have := ih _ _ (C14_nudge_contracts r h0 h1 tgt ctx p d hsp hd) (fun k hk => by
      rw [hr, ← mul_assoc, ← pow_succ]
      exact hq (k + 1) (by omega))
    rw [pow_succ, mul_assoc]
    exact this

/-- From less than a quarter turn away the nudges always contract, whatever the target. -/
theorem C14_nudge_quarter (r : ℝ) (h0 : 0 ≤ r) (h1 : r ≤ 1) (tgt : State ℝ) (ctx : Context ℝ) (p d : ℝ)
    (hd : ShortestRotation p tgt.phase d) (hq : |d| ≤ π / 2 - 2e-10) (n : ℕ) :
    ShortestRotation ((nudgeStep r tgt ctx)^[n] p) tgt.phase ((1 - r) ^ n * d) := by
  refine C14_nudge_iterate_any r h0 h1 tgt ctx p d hd n fun k _ => ?_
  have hk : (1 - r) ^ k ≤ 1 := pow_le_one₀ (by linarith) (by linarith)
  have hm : (1 - r) ^ k * |d| ≤ |d| := mul_le_of_le_one_left (abs_nonneg d) hk
  rw [abs_of_nonpos (by norm_num at hq ⊢; linarith)]
  norm_num at hq ⊢
  linarith

/-- Non-vacuity: towards 0 from one radian. -/
example : |(-1 : ℝ)| ≤ π / 2 - 2e-10 := by
  have := Real.pi_gt_three
  norm_num
  linarith

/-- From the exact pair (target 0, agent at 3π/2) the nudge goes the wrong way: the distance grows from π/2 to
(1 + r)·π/2. -/
theorem C14_nudge_wrong_way (r : ℝ) (h0 : 0 ≤ r) (h1 : r ≤ 1) (ctx : Context ℝ) (f : ℤ) (c : ℝ) :
    IsCircDist 0 (3 * π / 2) (π / 2) ∧
    IsCircDist 0 (nudgeStep r ⟨0, f, c⟩ ctx (3 * π / 2)) ((1 + r) * (π / 2)) := by
  have hp := Real.pi_pos
  have circ : ∀ q d : ℝ, 0 ≤ d → d ≤ π → SameAngle q (-d) → IsCircDist 0 q d := by
    rintro q d hd0 hd1 ⟨k, rfl⟩
    refine ⟨⟨k, ?_⟩, fun l => ?_⟩
    · rw [show (0 : ℝ) - (-d + k * (2 * π)) + k * (2 * π) = d by ring, abs_of_nonneg hd0]
    · have e : (0 : ℝ) - (-d + k * (2 * π)) + l * (2 * π) = d + ((l - k : ℤ) : ℝ) * (2 * π) := by push_cast; ring
      rw [e]
      rcases le_or_gt 0 (l - k) with h | h
      · have : (0 : ℝ) ≤ ((l - k : ℤ) : ℝ) := by exact_mod_cast h
        rw [abs_of_nonneg (by positivity)]; nlinarith
      · have : ((l - k : ℤ) : ℝ) ≤ -1 := by exact_mod_cast (by omega : l - k ≤ -1)
        rw [abs_of_nonpos (by nlinarith)]; nlinarith
  constructor
  · exact circ _ _ (by linarith) (by linarith) ⟨1, by push_cast; ring⟩
  · have hval : (phaseNudgePropose r ⟨3 * π / 2, 0, 0⟩ ⟨0, f, c⟩ ctx).1.value = -(π / 2) * r := by
      simp only [phaseNudgePropose]
      rw [phaseDifference_eq, if_pos (by norm_num)]
    apply circ _ _ (by positivity) (by nlinarith)
    unfold nudgeStep
    rw [hval]
    refine (wrapPhase_sameAngle _).trans ⟨1, ?_⟩
    push_cast; ring

example : ∃ p d : ℝ, ShortestRotation p 1 d ∧ d ≠ 0 ∧ (1e-10 : ℝ) ≤ |(1 : ℝ)| ∧ (1e-10 : ℝ) ≤ |1 - 3 * π / 2| := by
  have := Real.pi_gt_three
  refine ⟨0, 1, shortestRotation_of ⟨0, by simp⟩ (by linarith) (by linarith), by norm_num, by norm_num, ?_⟩
  rw [abs_of_neg (by linarith)]; norm_num; linarith

/-! ## C15 Pulse spacing -/

section
variable {α : Type} [Zero α] [One α] [Add α] [Sub α] [Mul α] [Div α] [Neg α] [LT α] [LE α] [DecidableLT α] [DecidableLE α] [BEq α] [OfScientific α] [GoMath α]

/-- Run a pulse strategy over a sequence of calls; each call has its time, states and context. The result lists time and
proposed action. -/
def pulseRun (s : Pulse α) : List (ℤ × State α × State α × Context α) → List (ℤ × Action α)
  | [] => []
  | (t, cur, tgt, ctx) :: rest =>
    let r := s.propose t cur tgt ctx
    (t, r.1.1) :: pulseRun r.2 rest

/-- Times at which a pulse was proposed. -/
def pulseTimes (l : List (ℤ × Action α)) : List ℤ := (l.filter fun x => x.2.type == "pulse").map Prod.fst

/-- Any two pulses are at least one period apart (and the first is at least one period after the last recorded one);
between pulses only `maintain` with zero phase change is proposed. -/
theorem C15_pulse_spacing (s : Pulse α) (calls : List (ℤ × State α × State α × Context α))
    (hmono : (calls.map Prod.fst).Pairwise (· ≤ ·)) :
    (s.lastPulse :: pulseTimes (pulseRun s calls)).Pairwise (fun a b => a + s.period ≤ b) ∧
    ∀ x ∈ pulseRun s calls, x.2.type ≠ "pulse" → x.2.type = "maintain" ∧ x.2.value = 0 := by
  induction calls generalizing s with
  | nil => simp [pulseRun, pulseTimes]
  | cons c rest ih =>
    obtain ⟨t, cur, tgt, ctx⟩ := c
    rw [List.map_cons, List.pairwise_cons] at hmono
    -- times occurring in the rest of the run
    have hsub : ∀ (s : Pulse α) (l : List (ℤ × State α × State α × Context α)),
        ∀ u ∈ pulseTimes (pulseRun s l), u ∈ l.map Prod.fst := by
      intro s l
      induction l generalizing s with
      | nil => simp [pulseRun, pulseTimes]
      | cons c l ih =>
        obtain ⟨t, cur, tgt, ctx⟩ := c
        intro u hu
        simp only [pulseRun, pulseTimes, List.filter_cons] at hu
        split_ifs at hu
        · simp only [List.map_cons, List.mem_cons] at hu ⊢
          rcases hu with h | h
          · exact Or.inl h
          · exact Or.inr (ih _ u h)
        · simp only [List.map_cons, List.mem_cons]
          exact Or.inr (ih _ u hu)
    by_cases h : t - s.lastPulse < s.period
    · have hr : s.propose t cur tgt ctx =
          ((⟨"maintain", 0, 0.1, ctx.stability * 0.5⟩, 0.3), s) := by
        unfold Pulse.propose; rw [if_pos h]
      obtain ⟨i1, i2⟩ := ih s hmono.2
      have hnp : (("maintain" : String) == "pulse") = false := by decide
      constructor
      · simp only [pulseRun, hr, pulseTimes, List.filter_cons, hnp]
        exact i1
      · intro x hx
        simp only [pulseRun, hr, List.mem_cons] at hx
        rcases hx with rfl | hx
        · intro _; exact ⟨rfl, rfl⟩
        · exact i2 x hx
    · have hr : s.propose t cur tgt ctx =
          ((⟨"pulse", phaseDifference tgt.phase cur.phase * s.amplitude,
            GoMath.abs (phaseDifference tgt.phase cur.phase * s.amplitude) * 4.0, 2.0⟩, s.amplitude),
            { s with lastPulse := t }) := by
        unfold Pulse.propose; rw [if_neg h]
      obtain ⟨i1, i2⟩ := ih { s with lastPulse := t } hmono.2
      constructor
      · simp only [pulseRun, hr, pulseTimes, List.filter_cons, beq_self_eq_true, if_true, List.map_cons]
        rw [List.pairwise_cons]
        refine ⟨?_, i1⟩
        intro b hb
        rcases List.mem_cons.mp hb with rfl | hb
        · omega
        · have := hmono.1 b (hsub _ rest b hb)
          omega
      · intro x hx
        simp only [pulseRun, hr, List.mem_cons] at hx
        rcases hx with rfl | hx
        · intro hc; exact absurd rfl hc
        · exact i2 x hx

/-- A call made at least one period after the last pulse does produce a pulse. -/
theorem C15_pulse_due (s : Pulse α) (t : ℤ) (cur tgt : State α) (ctx : Context α) (h : s.lastPulse + s.period ≤ t) :
    (s.propose t cur tgt ctx).1.1.type = "pulse" ∧ (s.propose t cur tgt ctx).2.lastPulse = t := by
  unfold Pulse.propose
  rw [if_neg (by omega)]
  exact ⟨rfl, rfl⟩

example (c : State α) (x : Context α) :
    (([(1, c, c, x), (7, c, c, x), (7, c, c, x)] : List (ℤ × State α × State α × Context α)).map Prod.fst).Pairwise
      (· ≤ ·) := by simp

/-! ## C16 Adaptive strategy -/

/-- The adaptive strategy never panics and delegates to the selected strategy, the first one for an out-of-range
selection, or proposes to maintain when it has none. -/
theorem C16_adaptive_total {β γ : Type} (strategies : List β) (selector : Context α → ℤ) (run : β → γ) (maintain : γ)
    (ctx : Context α) :
    (strategies = [] → adaptivePropose strategies selector run maintain ctx = .ok maintain) ∧
    (∀ (i : ℕ) (h : i < strategies.length), selector ctx = i →
      adaptivePropose strategies selector run maintain ctx = .ok (run strategies[i])) ∧
    (∀ b rest, strategies = b :: rest → (selector ctx < 0 ∨ strategies.length ≤ selector ctx) →
      adaptivePropose strategies selector run maintain ctx = .ok (run b)) ∧
    adaptivePropose strategies selector run maintain ctx ≠ .panic := by
  have h1 : strategies = [] → adaptivePropose strategies selector run maintain ctx = .ok maintain := by
    rintro rfl; simp [adaptivePropose]
  have h2 : ∀ (i : ℕ) (h : i < strategies.length), selector ctx = i →
      adaptivePropose strategies selector run maintain ctx = .ok (run strategies[i]) := by
    intro i h hs
    have hne : strategies.length ≠ 0 := by omega
    have hr : ¬ ((i : ℤ) < 0 ∨ (i : ℤ) ≥ strategies.length) := by omega
    simp only [adaptivePropose, hs, if_neg hne, if_neg hr, Int.toNat_natCast]
    rw [if_neg (by omega), List.getElem?_eq_getElem h]
  have h3 : ∀ b rest, strategies = b :: rest → (selector ctx < 0 ∨ strategies.length ≤ selector ctx) →
      adaptivePropose strategies selector run maintain ctx = .ok (run b) := by
    rintro b rest rfl h
    simp only [adaptivePropose, ge_iff_le, if_pos h]
    simp
  refine ⟨h1, h2, h3, ?_⟩
  cases hl : strategies with
  | nil => rw [← hl, h1 hl]; simp
  | cons b rest =>
    by_cases hs : selector ctx < 0 ∨ strategies.length ≤ selector ctx
    · rw [← hl, h3 b rest hl hs]; simp
    · push Not at hs
      rw [← hl, h2 (selector ctx).toNat (by omega) (by omega)]; simp

/-- The default selector always picks an existing strategy: the first when stable, the second when coherent, otherwise
the third — or the last one there is. -/
theorem C16_defaultSelector_valid (len : ℕ) (hl : 0 < len) (ctx : Context α) :
    0 ≤ defaultSelector len ctx ∧ defaultSelector len ctx < len ∧
    (ctx.stability > 0.7 → defaultSelector len ctx = 0) ∧
    (¬ ctx.stability > 0.7 → ctx.localCoherence > 0.5 → 2 ≤ len → defaultSelector len ctx = 1) ∧
    (¬ ctx.stability > 0.7 → ¬ ctx.localCoherence > 0.5 → 3 ≤ len → defaultSelector len ctx = 2) := by
  unfold defaultSelector
  refine ⟨?_, ?_, ?_, ?_, ?_⟩
  · split_ifs <;> omega
  · split_ifs <;> omega
  · intro h; rw [if_pos h]
  · intro h1 h2 h3; rw [if_neg h1, if_pos h2]; omega
  · intro h1 h2 h3; rw [if_neg h1, if_neg h2]; omega

end

/-! ## C17 Blending -/

/-- Blending keeps the local frequency, gives a phase in `[0, 2π)` obtained by rotating along the shortest arc by the
weight's fraction, and a coherence that is the weighted mean. -/
theorem C17_blend (l g : State ℝ) (w : ℝ) (h0 : 0 ≤ w) (h1 : w ≤ 1) :
    let b := blend l g w
    b.frequency = l.frequency ∧ 0 ≤ b.phase ∧ b.phase < 2 * π ∧
    b.coherence = (1 - w) * l.coherence + w * g.coherence ∧
    (min l.coherence g.coherence ≤ b.coherence ∧ b.coherence ≤ max l.coherence g.coherence) ∧
    (¬ SpecialPair g.phase l.phase →
      ∃ d, ShortestRotation l.phase g.phase d ∧ SameAngle b.phase (l.phase + w * d)) := by
  have e : blend l g w = ⟨wrapPhase (l.phase + phaseDifference g.phase l.phase * w), l.frequency,
      l.coherence * (1 - w) + g.coherence * w⟩ := by
    unfold blend
    rw [if_neg (not_lt.mpr h0), if_neg (not_lt.mpr h1)]
  rw [e]
  refine ⟨rfl, wrapPhase_nonneg _, wrapPhase_lt _, by ring, ⟨?_, ?_⟩, fun hs => ?_⟩
  · have := min_le_left l.coherence g.coherence
    have := min_le_right l.coherence g.coherence
    simp only
    nlinarith
  · have := le_max_left l.coherence g.coherence
    have := le_max_right l.coherence g.coherence
    simp only
    nlinarith
  · refine ⟨_, phaseDifference_shortestRotation hs, ?_⟩
    rw [mul_comm w]
    exact wrapPhase_sameAngle _

/-- Weights outside `[0, 1]` act like the nearest bound. -/
theorem C17_blend_clamps (l g : State ℝ) (w : ℝ) :
    (w < 0 → blend l g w = blend l g 0) ∧ (1 < w → blend l g w = blend l g 1) := by
  constructor
  · intro h; unfold blend; rw [if_pos h, if_neg (lt_irrefl _), if_neg (by norm_num)]
  · intro h
    unfold blend
    rw [if_neg (by linarith), if_pos h, if_neg (by norm_num), if_neg (by norm_num)]

/-- Weight 0 keeps the local angle and coherence. -/
theorem C17_blend_zero (l g : State ℝ) :
    SameAngle (blend l g 0).phase l.phase ∧ (blend l g 0).coherence = l.coherence := by
  unfold blend
  rw [if_neg (lt_irrefl _), if_neg (by norm_num)]
  simp only [mul_zero, add_zero, sub_zero, mul_one]
  exact ⟨wrapPhase_sameAngle _, trivial⟩

/-- The claim for full weight: the blended phase is the global angle. -/
def C17_claim : Prop := ∀ l g : State ℝ, SameAngle (blend l g 1).phase g.phase

/-- What holds of it: weight 1 reaches the global angle outside the special pairs of C02 (missing: those pairs, where it
is false, see `C17_refuted`), and always the global coherence. -/
theorem C17_blend_one_partial (l g : State ℝ) :
    (¬ SpecialPair g.phase l.phase → SameAngle (blend l g 1).phase g.phase) ∧
    (blend l g 1).coherence = g.coherence := by
  unfold blend
  rw [if_neg (by norm_num), if_neg (by norm_num)]
  simp only [mul_one, sub_self, mul_zero, zero_add]
  exact ⟨fun hs => (wrapPhase_sameAngle _).trans (phaseDifference_shortestRotation hs).lands, trivial⟩

/-- At the special pair, full weight lands on the opposite side of the circle instead of the global phase. -/
theorem C17_blend_special (cl cg : ℝ) (fl fg : ℤ) :
    SameAngle (blend ⟨3 * π / 2, fl, cl⟩ ⟨0, fg, cg⟩ (1 : ℝ)).phase π ∧ ¬ SameAngle π 0 := by
  constructor
  · unfold blend
    rw [if_neg (by norm_num), if_neg (by norm_num)]
    simp only [mul_one]
    rw [phaseDifference_eq, if_pos (by norm_num)]
    exact (wrapPhase_sameAngle _).trans ⟨0, by push_cast; ring⟩
  · rintro ⟨k, hk⟩
    have hp := Real.pi_pos
    have h2 : (1 : ℝ) = 2 * k := by
      have : π * 1 = π * (2 * k) := by linarith
      exact mul_left_cancel₀ hp.ne' this
    have : (1 : ℤ) = 2 * k := by exact_mod_cast h2
    omega

/-- With full weight, 3π/2 blended with 0 lands at π. -/
theorem C17_refuted : ¬ C17_claim := fun h =>
  (C17_blend_special 0 0 1 1).2 ((C17_blend_special 0 0 1 1).1.symm.trans (h _ _))

example : ∃ l g : State ℝ, ¬ SpecialPair g.phase l.phase ∧ ¬ SameAngle l.phase g.phase := by
  have hp := Real.pi_gt_three
  refine ⟨⟨1, 1, 0⟩, ⟨2, 1, 1⟩, ?_, ?_⟩
  · rintro (⟨h, -⟩ | ⟨-, h⟩) <;> norm_num at h
  · rintro ⟨k, hk⟩
    simp only at hk
    rcases le_or_gt 0 k with h | h
    · have : (0 : ℝ) ≤ k := by exact_mod_cast h
      nlinarith
    · have : (k : ℝ) ≤ -1 := by exact_mod_cast (by omega : k ≤ -1)
      nlinarith

end Verif
