import Verif.Props.Agent
import Verif.Props.StrategyCost

/-!
# C123: agents that steer by their neighbours stay within the arc they started on
-/

set_option autoImplicit false
set_option linter.unusedSectionVars false

namespace Verif
open GoMath Spec

/-! ## Vocabulary -/

/-- Specification: the angle `x` lies on the arc that starts at `c` and extends over `L` radians. -/
def Spec.OnArc (c L x : ℝ) : Prop := ∃ y, c ≤ y ∧ y ≤ c + L ∧ SameAngle x y

/-- Specification: the parameters of the strategy are in the ranges the constructors establish. -/
def Spec.StrategyInRange : AgentStrategy ℝ → Prop
  | .basic b => InRange b
  | .adaptive l => ∀ b ∈ l, InRange b

/-- What can happen to a network of agents: agent `i` looks at its neighbours (`UpdateContext`), or it proposes an
adjustment (`ProposeAdjustment` with the two random numbers) and, if this is accepted, applies it (`ApplyAction`). -/
inductive NetCall (α : Type) where
  | perceive (i : ℕ)
  | act (i : ℕ) (now : ℤ) (goal : State α) (d1 d2 : α)

section
variable {α : Type} [Zero α] [One α] [Add α] [Sub α] [Mul α] [Div α] [Neg α] [LT α] [LE α] [DecidableLT α] [DecidableLE α] [BEq α] [OfScientific α] [GoMath α]

/-- The heap with agent `i` replaced. -/
def putAgent (h : ℕ → Agent α) (i : ℕ) (a : Agent α) : ℕ → Agent α := fun j => if j = i then a else h j

/-- One call on a heap of agents. Neighbours are addresses into the heap. -/
def netCall (h : ℕ → Agent α) : NetCall α → Outcome (ℕ → Agent α)
  | .perceive i => .ok (putAgent h i ((h i).updateContext fun j => (h j).state.phase))
  | .act i now goal d1 d2 =>
    match (h i).proposeAdjustment (fun j => (h j).state.phase) now goal d1 d2 with
    | .panic => .panic
    | .ok ((act, true), a) => .ok (putAgent h i (a.applyAction act).2)
    | .ok ((_, false), a) => .ok (putAgent h i a)

/-- A history of calls; a panic ends it. -/
def netRun (h : ℕ → Agent α) : List (NetCall α) → Outcome (ℕ → Agent α)
  | [] => .ok h
  | c :: cs => match netCall h c with
    | .panic => .panic
    | .ok h' => netRun h' cs

end

/-- Specification: every agent of the group `S` has its neighbours in the group, a strategy in range, and its phase and
its local goal on the arc. -/
structure Spec.Gathered (S : Set ℕ) (c L : ℝ) (h : ℕ → Agent ℝ) : Prop where
  closed : ∀ i ∈ S, ∀ j ∈ (h i).neighborList, j ∈ S
  ranged : ∀ i ∈ S, StrategyInRange (h i).strategy
  phase : ∀ i ∈ S, OnArc c L (h i).state.phase
  goal : ∀ i ∈ S, OnArc c L (h i).state.localGoal

/-! ## The mean direction of vectors in a cone -/

/-- The direction of a sum of unit vectors that all point into `[a, b]` points into `[a, b]`. -/
theorem arg_in_cone (a b : ℝ) (ha : a ≤ 0) (hb : 0 ≤ b) (hab : b - a < Real.pi) (l : List ℝ) (hl : l ≠ [])
    (h : ∀ x ∈ l, ∃ y, a ≤ y ∧ y ≤ b ∧ SameAngle x y) (n : ℝ) (hn : 0 < n) :
    a ≤ Complex.arg ⟨(l.map Real.cos).sum / n, (l.map Real.sin).sum / n⟩ ∧
    Complex.arg ⟨(l.map Real.cos).sum / n, (l.map Real.sin).sum / n⟩ ≤ b := by
  set z : ℂ := ⟨(l.map Real.cos).sum / n, (l.map Real.sin).sum / n⟩ with hz
  have hp := Real.pi_pos
  -- projections on a direction
  have hre : ∀ t : ℝ, z.re * Real.cos t + z.im * Real.sin t = (l.map fun x => Real.cos (x - t)).sum / n := by
    intro t
    simp only [hz]
    rw [div_mul_eq_mul_div, div_mul_eq_mul_div, ← add_div]
    congr 1
    clear hl h hz z
    induction l with
    | nil => simp
    | cons x xs ih => simp only [List.map_cons, List.sum_cons]; rw [← ih, Real.cos_sub]; ring
  have him : ∀ t : ℝ, z.im * Real.cos t - z.re * Real.sin t = (l.map fun x => Real.sin (x - t)).sum / n := by
    intro t
    simp only [hz]
    rw [div_mul_eq_mul_div, div_mul_eq_mul_div, ← sub_div]
    congr 1
    clear hl h hz z hre
    induction l with
    | nil => simp
    | cons x xs ih => simp only [List.map_cons, List.sum_cons]; rw [← ih, Real.sin_sub]; ring
  have hpos : 0 < z.re * Real.cos ((a + b) / 2) + z.im * Real.sin ((a + b) / 2) := by
    rw [hre]
    refine div_pos ?_ hn
    apply List.sum_pos
    · intro v hv
      obtain ⟨x, hx, rfl⟩ := List.mem_map.1 hv
      obtain ⟨y, y1, y2, hy⟩ := h x hx
      have := hy.add_right (-((a + b) / 2))
      rw [← sub_eq_add_neg, ← sub_eq_add_neg] at this
      rw [this.cos_eq]
      exact Real.cos_pos_of_mem_Ioo ⟨by linarith, by linarith⟩
    · simpa using hl
  have hz0 : z ≠ 0 := by
    intro e; rw [e] at hpos; simp at hpos
  have hnorm : 0 < ‖z‖ := norm_pos_iff.2 hz0
  set θ := Complex.arg z with hθ
  have e1 : z.re = ‖z‖ * Real.cos θ := by rw [Complex.cos_arg hz0]; field_simp
  have e2 : z.im = ‖z‖ * Real.sin θ := by rw [Complex.sin_arg]; field_simp
  have t1 := Complex.neg_pi_lt_arg z
  have t2 := Complex.arg_le_pi z
  rw [← hθ] at t1 t2
  have hc : 0 < Real.cos (θ - (a + b) / 2) := by
    rw [e1, e2] at hpos
    rw [Real.cos_sub]
    have : ‖z‖ * (Real.cos θ * Real.cos ((a + b) / 2) + Real.sin θ * Real.sin ((a + b) / 2)) > 0 := by linarith
    exact (pos_iff_pos_of_mul_pos this).1 hnorm
  have hs1 : 0 ≤ Real.sin (θ - a) := by
    have h0 : 0 ≤ z.im * Real.cos a - z.re * Real.sin a := by
      rw [him]
      refine div_nonneg (List.sum_nonneg ?_) hn.le
      intro v hv
      obtain ⟨x, hx, rfl⟩ := List.mem_map.1 hv
      obtain ⟨y, y1, y2, hy⟩ := h x hx
      have := hy.add_right (-a)
      rw [← sub_eq_add_neg, ← sub_eq_add_neg] at this
      rw [this.sin_eq]
      exact Real.sin_nonneg_of_nonneg_of_le_pi (by linarith) (by linarith)
    rw [e1, e2] at h0
    rw [Real.sin_sub]
    by_contra hcon
    push Not at hcon
    nlinarith
  have hs2 : Real.sin (θ - b) ≤ 0 := by
    have h0 : z.im * Real.cos b - z.re * Real.sin b ≤ 0 := by
      rw [him]
      have : 0 ≤ -((l.map fun x => Real.sin (x - b)).sum) := by
        rw [List.sum_neg, List.map_map]
        refine List.sum_nonneg ?_
        intro v hv
        obtain ⟨x, hx, rfl⟩ := List.mem_map.1 hv
        obtain ⟨y, y1, y2, hy⟩ := h x hx
        have := hy.add_right (-b)
        rw [← sub_eq_add_neg, ← sub_eq_add_neg] at this
        simp only [Function.comp]
        rw [this.sin_eq]
        have := Real.sin_nonpos_of_nonpos_of_neg_pi_le (x := y - b) (by linarith) (by linarith)
        linarith
      exact div_nonpos_of_nonpos_of_nonneg (by linarith) hn.le
    rw [e1, e2] at h0
    rw [Real.sin_sub]
    by_contra hcon
    push Not at hcon
    nlinarith
  -- the direction is within a quarter turn of the middle of the cone
  have hm : |θ - (a + b) / 2| < Real.pi / 2 := by
    by_contra hcon
    push Not at hcon
    have hle : |θ - (a + b) / 2| ≤ Real.pi + Real.pi / 2 := by
      rw [abs_le]; constructor <;> linarith
    have := Real.cos_nonpos_of_pi_div_two_le_of_le hcon hle
    rw [Real.cos_abs] at this
    linarith
  obtain ⟨m1, m2⟩ := abs_lt.1 hm
  constructor
  · by_contra hcon
    push Not at hcon
    have := Real.sin_neg_of_neg_of_neg_pi_lt (x := θ - a) (by linarith) (by linarith)
    linarith
  · by_contra hcon
    push Not at hcon
    have := Real.sin_pos_of_pos_of_lt_pi (x := θ - b) (by linarith) (by linarith)
    linarith

theorem phaseSums_eq (my : ℝ) (l : List ℝ) :
    phaseSums my l = ((l.map fun p => p - my).map Real.cos |>.sum, (l.map fun p => p - my).map Real.sin |>.sum) := by
  have : ∀ (l : List ℝ) (x y : ℝ),
      l.foldl (fun (s : ℝ × ℝ) p => (s.1 + cos (p - my), s.2 + sin (p - my))) (x, y) =
        (x + ((l.map fun p => p - my).map Real.cos).sum, y + ((l.map fun p => p - my).map Real.sin).sum) := by
    intro l
    induction l with
    | nil => intro x y; simp
    | cons p ps ih =>
      intro x y
      simp only [List.foldl_cons, List.map_cons, List.sum_cons]
      rw [ih]
      simp only [GoMath.cos_real, GoMath.sin_real, add_assoc]
  unfold phaseSums
  rw [this]; simp

/-- **C123, looking around.** If an agent and its neighbours (at least one) are on an arc shorter than half a turn, then so
is the goal it takes on. -/
theorem C123_perceived_goal (a : Agent ℝ) (phaseOf : ℕ → ℝ) (c L : ℝ) (hL : L < Real.pi) (hne : a.neighborList ≠ [])
    (hp : OnArc c L a.state.phase) (hn : ∀ j ∈ a.neighborList, OnArc c L (phaseOf j)) :
    OnArc c L (a.updateContext phaseOf).state.localGoal := by
  obtain ⟨y, y1, y2, hy⟩ := hp
  have hl : a.neighborList.length ≠ 0 := fun h => hne (List.length_eq_zero_iff.1 h)
  have hpos : (0 : ℝ) < a.neighborList.length := by exact_mod_cast Nat.pos_of_ne_zero hl
  have hcoh := (C39_local_coherence a phaseOf).2
  have hr : 0 ≤ (a.updateContext phaseOf).context.localCoherence ∧
      (a.updateContext phaseOf).context.localCoherence ≤ 1 := by
    rw [hcoh, ← C03_coherence_eq_orderParameter]; exact C03_coherence_range _
  have hcone := arg_in_cone (c - y) (c + L - y) (by linarith) (by linarith) (by linarith)
    ((a.neighborList.map phaseOf).map fun p => p - a.state.phase) (by simpa using hne)
    (by
      intro x hx
      obtain ⟨q, hq, rfl⟩ := List.mem_map.1 hx
      obtain ⟨j, hj, rfl⟩ := List.mem_map.1 hq
      obtain ⟨w, w1, w2, hw⟩ := hn j hj
      refine ⟨w - y, by linarith, by linarith, ?_⟩
      obtain ⟨k, hk⟩ := hw
      obtain ⟨m, hm⟩ := hy
      exact ⟨k - m, by rw [hk, hm]; push_cast; ring⟩)
    a.neighborList.length hpos
  generalize hθ : Complex.arg ⟨_, _⟩ = θ at hcone
  have e : (a.updateContext phaseOf).state.localGoal =
      wrapPhase (a.state.phase + θ * (0.5 + 0.5 * (a.updateContext phaseOf).context.localCoherence)) := by
    unfold Agent.updateContext
    dsimp only
    rw [if_neg hl]
    simp only [GoMath.ofInt_real, GoMath.atan2_real, Int.cast_natCast]
    rw [phaseSums_eq, ← hθ]
  rw [e]
  set K := (a.updateContext phaseOf).context.localCoherence
  obtain ⟨k0, k1⟩ := hr
  obtain ⟨c1, c2⟩ := hcone
  have hk0 : (0 : ℝ) ≤ 0.5 + 0.5 * K := by norm_num; linarith
  have hk1 : (0.5 : ℝ) + 0.5 * K ≤ 1 := by norm_num; linarith
  refine ⟨y + θ * (0.5 + 0.5 * K), ?_, ?_, ?_⟩
  · rcases le_total 0 θ with h | h <;> nlinarith
  · rcases le_total 0 θ with h | h <;> nlinarith
  · exact (wrapPhase_sameAngle _).trans (hy.add_right _)

/-! ## Acting -/

/-- A built-in strategy in range proposes to move by a fraction of the difference to the target. -/
theorem strat_fraction (s : Strat ℝ) (hs : InRange s) (now : ℤ) (cur tgt : State ℝ) (ctx : Context ℝ) :
    (∃ r, 0 ≤ r ∧ r ≤ 1 ∧ (s.propose now cur tgt ctx).1.1.value = phaseDifference tgt.phase cur.phase * r) ∧
    InRange (s.propose now cur tgt ctx).2 := by
  cases s with
  | phaseNudge r => exact ⟨⟨r, hs.1, hs.2, rfl⟩, hs⟩
  | frequencyLock r => exact ⟨⟨r, hs.1, hs.2, rfl⟩, hs⟩
  | energyAware t =>
    refine ⟨?_, hs⟩
    simp only [Strat.propose, energyAwarePropose]
    split_ifs
    · exact ⟨0, le_rfl, zero_le_one, by simp⟩
    · exact ⟨0.1, by norm_num, by norm_num, rfl⟩
  | pulse p =>
    simp only [Strat.propose, Pulse.propose]
    split_ifs
    · exact ⟨⟨0, le_rfl, zero_le_one, by simp⟩, hs⟩
    · exact ⟨⟨p.amplitude, hs.1, hs.2, rfl⟩, hs⟩

theorem strategy_fraction (s : AgentStrategy ℝ) (hs : StrategyInRange s) (now : ℤ) (cur tgt : State ℝ) (ctx : Context ℝ) :
    ∃ p c s', s.propose now cur tgt ctx = .ok ((p, c), s') ∧ StrategyInRange s' ∧
      ∃ r, 0 ≤ r ∧ r ≤ 1 ∧ p.value = phaseDifference tgt.phase cur.phase * r := by
  cases s with
  | basic b => exact ⟨_, _, _, rfl, (strat_fraction b hs now cur tgt ctx).2, (strat_fraction b hs now cur tgt ctx).1⟩
  | adaptive l =>
    simp only [AgentStrategy.propose]
    unfold adaptivePropose
    by_cases hl : l.length = 0
    · rw [if_pos (by simpa using hl)]
      exact ⟨_, _, _, rfl, hs, 0, le_rfl, zero_le_one, by simp [Action.maintain0]⟩
    · rw [if_neg (by simpa using hl)]
      dsimp only
      generalize hi : (if defaultSelector l.length ctx < 0 ∨ defaultSelector l.length ctx ≥ (l.zipIdx.length : ℤ) then
        (0 : ℤ) else defaultSelector l.length ctx) = i
      have hb : 0 ≤ i ∧ i < l.length := by
        rw [← hi, List.length_zipIdx]
        split_ifs with hh
        · omega
        · push Not at hh; exact hh
      rw [if_neg (by omega)]
      have hlt : i.toNat < l.zipIdx.length := by rw [List.length_zipIdx]; omega
      rw [List.getElem?_eq_getElem hlt]
      have hmem : (l.zipIdx[i.toNat]).1 ∈ l := by
        rw [List.getElem_zipIdx]; exact List.getElem_mem _
      obtain ⟨f1, f2⟩ := strat_fraction _ (hs _ hmem) now cur tgt ctx
      refine ⟨_, _, _, rfl, ?_, f1⟩
      intro b hb'
      rcases List.mem_or_eq_of_mem_set hb' with h | h
      · exact hs b h
      · rw [h]; exact f2

/-- Two angles on an arc of at most 1.57 radians are no special pair, and their difference is that of their places on
the arc. -/
theorem difference_on_arc {c L g p : ℝ} (hL : L ≤ 1.57) (hg : OnArc c L g) (hp : OnArc c L p) :
    ∃ x y, c ≤ x ∧ x ≤ c + L ∧ SameAngle g x ∧ c ≤ y ∧ y ≤ c + L ∧ SameAngle p y ∧ phaseDifference g p = x - y := by
  obtain ⟨x, x1, x2, hx⟩ := hg
  obtain ⟨y, y1, y2, hy⟩ := hp
  have hpi := Real.pi_gt_d6
  have hpi2 := Real.pi_lt_d6
  norm_num at hL hpi hpi2
  refine ⟨x, y, x1, x2, hx, y1, y2, hy, ?_⟩
  refine difference_eq ?_ (shortestRotation_of ?_ (by linarith) (by linarith))
  · obtain ⟨k, hk⟩ := hx
    obtain ⟨m, hm⟩ := hy
    have key : ∀ n : ℤ, ∀ u : ℝ, |u| < 2 * 1e-10 → |(3 * Real.pi / 2 + u) + n * (2 * Real.pi)| ≤ 1.57 → False := by
      intro n u hu hn
      norm_num at hu hn
      obtain ⟨u1, u2⟩ := abs_lt.1 hu
      obtain ⟨n1, n2⟩ := abs_le.1 hn
      rcases le_or_gt n (-2) with h | h
      · have : (n : ℝ) ≤ -2 := by exact_mod_cast h
        nlinarith
      · rcases le_or_gt 0 n with h' | h'
        · have : (0 : ℝ) ≤ n := by exact_mod_cast h'
          nlinarith
        · have : n = -1 := by omega
          rw [this] at n1 n2
          push_cast at n1 n2
          linarith
    rintro (⟨s1, s2⟩ | ⟨s1, s2⟩)
    · obtain ⟨a1, a2⟩ := abs_lt.1 s1
      obtain ⟨b1, b2⟩ := abs_lt.1 s2
      apply key (k - m) ((p - 3 * Real.pi / 2) - g)
      · rw [abs_lt]; constructor <;> linarith
      · have e : 3 * Real.pi / 2 + (p - 3 * Real.pi / 2 - g) + ((k - m : ℤ) : ℝ) * (2 * Real.pi) = y - x := by
          rw [hk, hm]; push_cast; ring
        rw [e, abs_le]; norm_num; constructor <;> linarith
    · obtain ⟨a1, a2⟩ := abs_lt.1 s1
      obtain ⟨b1, b2⟩ := abs_lt.1 s2
      apply key (m - k) ((g - 3 * Real.pi / 2) - p)
      · rw [abs_lt]; constructor <;> linarith
      · have e : 3 * Real.pi / 2 + (g - 3 * Real.pi / 2 - p) + ((m - k : ℤ) : ℝ) * (2 * Real.pi) = x - y := by
          rw [hk, hm]; push_cast; ring
        rw [e, abs_le]; norm_num; constructor <;> linarith
  · have h := hy.add_right (x - y)
    rw [add_sub_cancel] at h
    exact h.trans hx.symm

/-- What an accepted proposal does to the phase, and that nothing else the group depends on changes. -/
theorem act_on_arc (a : Agent ℝ) (phaseOf : ℕ → ℝ) (now : ℤ) (goal : State ℝ) (d1 d2 c L : ℝ) (hL : L ≤ 1.57)
    (hs : StrategyInRange a.strategy) (hp : OnArc c L a.state.phase) (hg : OnArc c L a.state.localGoal) :
    ∃ act ok b, a.proposeAdjustment phaseOf now goal d1 d2 = .ok ((act, ok), b) ∧
      StrategyInRange b.strategy ∧ b.state = a.state ∧ b.neighborList = a.neighborList ∧
      OnArc c L (b.applyAction act).2.state.phase ∧ (b.applyAction act).2.state.localGoal = a.state.localGoal ∧
      (b.applyAction act).2.strategy = b.strategy ∧ (b.applyAction act).2.neighborList = a.neighborList := by
  -- applying an action that moves by a fraction of the difference, or maintains
  have key : ∀ (b : Agent ℝ) (act : Action ℝ), b.state = a.state → b.neighborList = a.neighborList →
      (act.type = "maintain" ∨ ∃ r, 0 ≤ r ∧ r ≤ 1 ∧ act.value = phaseDifference a.state.localGoal a.state.phase * r) →
      OnArc c L (b.applyAction act).2.state.phase ∧ (b.applyAction act).2.state.localGoal = a.state.localGoal ∧
      (b.applyAction act).2.strategy = b.strategy ∧ (b.applyAction act).2.neighborList = a.neighborList := by
    intro b act hb hnl hact
    cases hres : (b.applyAction act).1 with
    | error e =>
      rw [C36_failure_unchanged b act e hres, hb]
      exact ⟨hp, rfl, rfl, hnl⟩
    | ok cost =>
      obtain ⟨-, hfr⟩ := C36_success_frame b act cost hres
      obtain ⟨-, -, hm, hmv⟩ := C36_success b act cost hres
      refine ⟨?_, ?_, ?_, ?_⟩
      · by_cases ht : act.type = "maintain"
        · rw [hm ht, hb]; exact hp
        · rcases hact with h | ⟨r, r0, r1, hv⟩
          · exact absurd h ht
          obtain ⟨hsame, -, -⟩ := hmv ht
          obtain ⟨x, y, x1, x2, hx, y1, y2, hy, hd⟩ := difference_on_arc hL hg hp
          rw [hb, hv, hd] at hsame
          refine ⟨y + (x - y) * r, by nlinarith, by nlinarith, hsame.trans (hy.add_right _)⟩
      · rw [hfr, hb]
      · rw [hfr]
      · rw [hfr]; exact hnl
  unfold Agent.proposeAdjustment
  by_cases h1 : d1 < a.behavior.stubbornness
  · rw [if_pos h1]
    exact ⟨_, _, a, rfl, hs, rfl, rfl, key a _ rfl rfl (Or.inl rfl)⟩
  rw [if_neg h1]
  dsimp only
  obtain ⟨p, conf, s', hp', hs', r, r0, r1, hv⟩ := strategy_fraction a.strategy hs now
    { phase := a.state.phase, frequency := a.state.frequency, coherence := a.localCoherence phaseOf }
    { phase := a.state.localGoal, frequency := a.state.frequency, coherence := goal.coherence } a.context
  rw [hp']
  dsimp only
  obtain ⟨j1, j2⟩ := judge_spec decide' a.state.energy
    { phase := a.state.phase, frequency := a.state.frequency, coherence := a.localCoherence phaseOf } a.context p conf d2
    (fun o ho => decide_mem _ o ho)
  generalize judgeProposal decide' a.state.energy
    { phase := a.state.phase, frequency := a.state.frequency, coherence := a.localCoherence phaseOf } a.context p conf d2
    = res at *
  obtain ⟨act, ok⟩ := res
  refine ⟨act, ok, { a with strategy := s' }, rfl, hs', rfl, rfl, key _ act rfl rfl ?_⟩
  cases ok with
  | false =>
    have e := j2 rfl
    dsimp only at e
    rw [e]; exact Or.inl rfl
  | true =>
    rcases (j1 rfl).1 with e | e
    · dsimp only at e; rw [e]; exact Or.inr ⟨r, r0, r1, hv⟩
    · dsimp only at e; rw [e]; exact Or.inl rfl

/-! ## The theorems -/

theorem updateContext_frame (a : Agent ℝ) (phaseOf : ℕ → ℝ) :
    (a.updateContext phaseOf).state.phase = a.state.phase ∧ (a.updateContext phaseOf).strategy = a.strategy ∧
    (a.updateContext phaseOf).neighborList = a.neighborList ∧
    (a.neighborList = [] → (a.updateContext phaseOf).state.localGoal = a.state.localGoal) := by
  unfold Agent.updateContext
  dsimp only
  by_cases h : a.neighborList.length = 0
  · rw [if_pos h]; exact ⟨rfl, rfl, rfl, fun _ => rfl⟩
  · rw [if_neg h]; exact ⟨rfl, rfl, rfl, fun e => absurd (by rw [e]; rfl) h⟩

/-- One call keeps the group gathered on the same arc. -/
theorem netCall_gathered (S : Set ℕ) (c L : ℝ) (hL : L ≤ 1.57) (h : ℕ → Agent ℝ) (hg : Gathered S c L h) (e : NetCall ℝ)
    (h' : ℕ → Agent ℝ) (he : netCall h e = .ok h') : Gathered S c L h' := by
  have hLpi : L < Real.pi := by have := Real.pi_gt_three; norm_num at hL; linarith
  -- replacing one agent
  have put : ∀ (i : ℕ) (b : Agent ℝ),
      (i ∈ S → b.neighborList = (h i).neighborList ∧ StrategyInRange b.strategy ∧ OnArc c L b.state.phase ∧
        OnArc c L b.state.localGoal) → Gathered S c L (putAgent h i b) := by
    intro i b hb
    constructor
    · intro j hj k hk
      unfold putAgent at hk
      split_ifs at hk with hji
      · subst hji; rw [(hb hj).1] at hk; exact hg.closed j hj k hk
      · exact hg.closed j hj k hk
    · intro j hj
      unfold putAgent
      split_ifs with hji
      · subst hji; exact (hb hj).2.1
      · exact hg.ranged j hj
    · intro j hj
      unfold putAgent
      split_ifs with hji
      · subst hji; exact (hb hj).2.2.1
      · exact hg.phase j hj
    · intro j hj
      unfold putAgent
      split_ifs with hji
      · subst hji; exact (hb hj).2.2.2
      · exact hg.goal j hj
  cases e with
  | perceive i =>
    cases he
    refine put i _ fun hi => ?_
    obtain ⟨f1, f2, f3, f4⟩ := updateContext_frame (h i) fun j => (h j).state.phase
    refine ⟨f3, by rw [f2]; exact hg.ranged i hi, by rw [f1]; exact hg.phase i hi, ?_⟩
    by_cases hne : (h i).neighborList = []
    · rw [f4 hne]; exact hg.goal i hi
    · exact C123_perceived_goal (h i) _ c L hLpi hne (hg.phase i hi)
        fun j hj => hg.phase j (hg.closed i hi j hj)
  | act i now goal d1 d2 =>
    by_cases hi : i ∈ S
    · obtain ⟨act, ok, b, e1, e2, e3, e4, e5, e6, e7, e8⟩ := act_on_arc (h i) (fun j => (h j).state.phase) now goal d1 d2 c L
        hL (hg.ranged i hi) (hg.phase i hi) (hg.goal i hi)
      simp only [netCall, e1] at he
      cases ok with
      | true =>
        cases he
        exact put i _ fun _ => ⟨e8, by rw [e7]; exact e2, e5, by rw [e6]; exact hg.goal i hi⟩
      | false =>
        cases he
        exact put i _ fun _ => ⟨e4, e2, by rw [e3]; exact hg.phase i hi, by rw [e3]; exact hg.goal i hi⟩
    · unfold netCall at he
      dsimp only at he
      split at he
      · cases he
      · cases he; exact put i _ fun hi' => absurd hi' hi
      · cases he; exact put i _ fun hi' => absurd hi' hi

/-- The full claim, kept in view: agents gathered on an arc shorter than half a turn never leave it by looking at their
neighbours and acting. -/
def C123_claim : Prop := ∀ (S : Set ℕ) (c L : ℝ) (h : ℕ → Agent ℝ) (calls : List (NetCall ℝ)), L < Real.pi →
  Gathered S c L h → ∃ h', netRun h calls = .ok h' ∧ Gathered S c L h'

/-- **C123 (partial).** Agents gathered on an arc of at most 1.57 radians (a quarter turn is 1.5708) never leave it,
whatever the history of perceiving and acting, the times, the random numbers, and what agents outside the group do; and
no history panics. Missing: arcs between 1.57 and π, on which the claim is false (`C123_refuted`). -/
theorem C123_gathered_partial (S : Set ℕ) (c L : ℝ) (hL : L ≤ 1.57) (calls : List (NetCall ℝ)) (h : ℕ → Agent ℝ)
    (hg : Gathered S c L h) : ∃ h', netRun h calls = .ok h' ∧ Gathered S c L h' := by
  induction calls generalizing h with
  | nil => exact ⟨h, rfl, hg⟩
  | cons e es ih =>
    have hok : ∃ h', netCall h e = .ok h' := by
      cases e with
      | perceive i => exact ⟨_, rfl⟩
      | act i now goal d1 d2 =>
        obtain ⟨act, ok, s, e1, -, -⟩ := C38_accepted_applies (h i) (fun j => (h j).state.phase) now goal d1 d2
        unfold netCall
        dsimp only
        rw [e1]
        cases ok <;> exact ⟨_, rfl⟩
    obtain ⟨h1, e1⟩ := hok
    obtain ⟨h2, e2, e3⟩ := ih h1 (netCall_gathered S c L hL h hg e h1 e1)
    exact ⟨h2, by unfold netRun; rw [e1]; exact e2, e3⟩

/-- A new agent at `3π/2` whose goal is 0, a quarter turn ahead. -/
noncomputable def lateAgent : Agent ℝ :=
  { Agent.initial "late" 0 0 0 with
    state := { (Agent.initial "late" 0 0 0 : Agent ℝ).state with phase := 3 * Real.pi / 2, localGoal := 0 } }

theorem lateAgent_backwards : ∃ h', netRun (fun _ => lateAgent) [.act 0 0 ⟨0, 1, 1⟩ 0.5 0] = .ok h' ∧
    SameAngle (h' 0).state.phase (1.35 * Real.pi) := by
  have hpi := Real.pi_gt_three
  have hpi4 := Real.pi_lt_d2
  norm_num at hpi4
  have hd : phaseDifference (0 : ℝ) (3 * Real.pi / 2) = -(Real.pi / 2) := by
    rw [phaseDifference_eq, if_pos]
    norm_num
  set act : Action ℝ := ⟨"phase_nudge", -(Real.pi / 2) * 0.3, |-(Real.pi / 2) * 0.3| * 2.0, (1 - |-(Real.pi / 2)| / Real.pi) * 1.5⟩
    with hact
  have hscore : 0 < actionScore act := by
    rw [actionScore_real]
    show 0 < (1 - |-(Real.pi / 2)| / Real.pi) * 1.5 / max (|-(Real.pi / 2) * 0.3| * 2.0) (1 / 10)
    have h1 : |-(Real.pi / 2)| = Real.pi / 2 := by rw [abs_neg, abs_of_pos (by positivity)]
    rw [h1]
    have h2 : Real.pi / 2 / Real.pi = 1 / 2 := by field_simp
    rw [h2]
    apply div_pos (by norm_num)
    exact lt_of_lt_of_le (by norm_num) (le_max_right _ _)
  obtain ⟨b, hb⟩ := (C38_acceptance lateAgent (fun _ => lateAgent.state.phase) 0 ⟨0, 1, 1⟩ 0.5 0 act).2 (by
    refine ⟨by show ¬ (0.5 : ℝ) < 0.2; norm_num, act, 1, lateAgent.strategy, fmin (fmax (actionScore act / 2.0) 0) 1, ?_, ?_, ?_, ?_⟩
    · show Outcome.ok ((phaseNudgePropose _ _ _ _), _) = _
      unfold phaseNudgePropose
      have : phaseDifference lateAgent.state.localGoal lateAgent.state.phase = -(Real.pi / 2) := hd
      dsimp only
      rw [this]
      simp only [lateAgent, Agent.initial, Context.zero, GoMath.abs_real, GoMath.fmax_real, GoMath.piMul_real, hact]
      norm_num
      rfl
    · unfold decide'
      simp only [List.foldl_cons, List.foldl_nil]
      have hm : actionScore act > -maxFloat := by
        have := maxDouble_pos
        show -maxDouble < _
        linarith
      rw [if_pos hm, if_neg]
      dsimp only [lateAgent, Agent.initial, Context.zero, actionScore] at hscore ⊢
      rw [zero_div]
      exact not_lt.2 hscore.le
    · show ¬ |-(Real.pi / 2) * 0.3| * 2.0 > (100.0 : ℝ)
      rw [abs_mul, abs_neg, abs_of_pos (by positivity), abs_of_pos (by norm_num)]
      norm_num
      linarith
    · simp only [GoMath.fmin_real, GoMath.fmax_real, one_mul]
      norm_num
      exact hscore)
  obtain ⟨act', ok, s, e1, e2, -⟩ := C38_accepted_applies lateAgent (fun _ => lateAgent.state.phase) 0 ⟨0, 1, 1⟩ 0.5 0
  rw [hb] at e1
  simp only [Outcome.ok.injEq, Prod.mk.injEq] at e1
  obtain ⟨⟨rfl, rfl⟩, rfl⟩ := e1
  have hsame := ((C36_success _ _ _ (e2 rfl)).2.2.2 (by rw [hact]; decide)).1
  refine ⟨_, by unfold netRun netRun netCall; dsimp only; rw [hb], ?_⟩
  simp only [putAgent, if_true]
  refine hsame.trans ⟨0, ?_⟩
  show 3 * Real.pi / 2 + -(Real.pi / 2) * 0.3 = _
  norm_num
  ring

/-- The claim is false: the hard-wired special case of the phase difference sends an agent at `3π/2` with goal 0
backwards, out of the arc between them. -/
theorem C123_refuted : ¬ C123_claim := fun hcl => by
  have hpi := Real.pi_gt_three
  obtain ⟨h1, e1, g1⟩ := hcl {0} (3 * Real.pi / 2) (Real.pi / 2) (fun _ => lateAgent) [.act 0 0 ⟨0, 1, 1⟩ 0.5 0] (by linarith)
    ⟨by
      intro i _ j hj
      simp [lateAgent, Agent.initial, Agent.neighborList, NeighborStorage.new, NeighborStorage.all] at hj,
     by
      intro i _
      show (0 : ℝ) ≤ 0.3 ∧ (0.3 : ℝ) ≤ 1
      norm_num,
     fun i _ => ⟨3 * Real.pi / 2, le_rfl, by linarith, SameAngle.refl _⟩,
     fun i _ => ⟨2 * Real.pi, by linarith, by linarith, -1, by show (0 : ℝ) = _; push_cast; ring⟩⟩
  obtain ⟨h2, e2, s2⟩ := lateAgent_backwards
  rw [e1] at e2
  cases e2
  obtain ⟨y, y1, y2, k, hk⟩ := g1.phase 0 rfl
  obtain ⟨m, hm⟩ := s2
  rw [hk] at hm
  have h : y = 1.35 * Real.pi + ((m - k : ℤ) : ℝ) * (2 * Real.pi) := by push_cast; linarith
  norm_num at h
  rcases le_or_gt (m - k) 0 with hh | hh
  · have : ((m : ℝ) - k) ≤ 0 := by exact_mod_cast hh
    nlinarith
  · have : (1 : ℝ) ≤ (m : ℝ) - k := by exact_mod_cast hh
    nlinarith

/-- Two agents connected to each other, at 0 and 1, with goals to match. -/
noncomputable def twoAgents : ℕ → Agent ℝ := fun i =>
  if i = 0 then { (Agent.initial "a" 0 0 0).connectTo "b" (some 1) with
    state := { (Agent.initial "a" 0 0 0 : Agent ℝ).state with phase := 0, localGoal := 1 } }
  else { (Agent.initial "b" 0 0 0).connectTo "a" (some 0) with
    state := { (Agent.initial "b" 0 0 0 : Agent ℝ).state with phase := 1, localGoal := 0 } }

theorem twoAgents_lists : (twoAgents 0).neighborList = [1] ∧ (twoAgents 1).neighborList = [0] := by
  simp [twoAgents, Agent.connectTo, Agent.initial, Agent.neighborList, NeighborStorage.new, NeighborStorage.store,
    NeighborStorage.find, NeighborStorage.all]

/-- The hypotheses are met by the two agents, on the arc from 0 to 1. -/
example : Gathered {0, 1} 0 1 twoAgents := by
  obtain ⟨l0, l1⟩ := twoAgents_lists
  refine ⟨?_, ?_, ?_, ?_⟩
  · rintro i (rfl | rfl) j hj
    · rw [l0] at hj; simp at hj; subst hj; exact Or.inr rfl
    · rw [l1] at hj; simp at hj; subst hj; exact Or.inl rfl
  · rintro i (rfl | rfl) <;>
    · show (0 : ℝ) ≤ 0.3 ∧ (0.3 : ℝ) ≤ 1
      norm_num
  · rintro i (rfl | rfl)
    · exact ⟨0, le_rfl, by norm_num, SameAngle.refl _⟩
    · exact ⟨1, by norm_num, by norm_num, SameAngle.refl _⟩
  · rintro i (rfl | rfl)
    · exact ⟨1, by norm_num, by norm_num, SameAngle.refl _⟩
    · exact ⟨0, le_rfl, by norm_num, SameAngle.refl _⟩

end Verif
