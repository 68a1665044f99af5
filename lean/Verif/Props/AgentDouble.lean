import Verif.Props.EnergyDouble
import Verif.Props.PhaseAccuracy
import Verif.Props.PatternsDouble
import Verif.Props.Pattern
import Verif.Props.Bars
import Verif.Props.Grading

/-! # Agents and pattern gaps in doubles: densities (C39), phases and NaN energies (C36, C148), gaps (C07) -/

set_option autoImplicit false
set_option linter.unusedSectionVars false

namespace Verif
open GoMath Spec Rounding

variable [Rounding] [LibM]

/-! ## Densities -/

/-- An integer below `2^53` in absolute value is a double. -/
theorem fin_int (n : ℤ) (h : |n| < 2 ^ 53) : ∃ d : Dbl, (GoMath.ofInt n : F64) = .fin d ∧ d.1 = n := by
  refine ⟨⟨n, isDouble_int h⟩, ?_, rfl⟩
  exact F64.ofReal_of_isDouble (isDouble_int h)

/-- A quotient that exceeds 1 by more than half a unit in the last place rounds to more than 1. -/
theorem one_lt_rnd {x : ℝ} (h : 1 + 2 ^ (-53 : ℤ) < x) : 1 < rnd x := by
  have dn : IsDouble (1 + 2 ^ (-52 : ℤ)) := ⟨2 ^ 52 + 1, -52, by norm_num, by norm_num, by norm_num, by push_cast; rw [zpow_neg]; norm_num⟩
  have e2 : (2 : ℝ) ^ (-52 : ℤ) = 2 * 2 ^ (-53 : ℤ) := by rw [← zpow_one_add₀ (by norm_num)]; norm_num
  have hp : (0 : ℝ) < 2 ^ (-53 : ℤ) := by positivity
  rcases le_total (1 + 2 ^ (-52 : ℤ)) x with hx | hx
  · have := le_rnd dn hx
    linarith
  · by_contra hle
    have hle := not_lt.1 hle
    have hn := nearest x _ dn
    rw [abs_of_nonneg (by linarith : (0 : ℝ) ≤ 1 + 2 ^ (-52 : ℤ) - x), abs_of_nonpos (by linarith)] at hn
    linarith

/-- **C39 in doubles.** The density that `UpdateContext` computes for an agent with neighbours is the quotient of their number by the
assumed maximum `M`, rounded once, if `M` is not 0, and plus infinity if it is. It lies in `[0, 1]` exactly if the agent has at most `M`
neighbours; what the exact numbers say about `M = 0` (a density of 0) is only their convention for a division by zero. -/
theorem C39_density_double (a : Agent F64) (phaseOf : ℕ → F64) (M : ℤ)
    (hM : M = if a.assumedMaxNeighbors = 0 then a.swarmSize - 1 else a.assumedMaxNeighbors) (hl : a.neighborList ≠ [])
    (hn : a.neighborList.length < 2 ^ 53) (hm : |M| < 2 ^ 53) :
    (M = 0 → (a.updateContext phaseOf).context.density = .pinf) ∧
    (M ≠ 0 → ∃ d : Dbl, (a.updateContext phaseOf).context.density = .fin d ∧ d.1 = rnd ((a.neighborList.length : ℝ) / M)) ∧
    (0 ≤ (a.updateContext phaseOf).context.density ∧ (a.updateContext phaseOf).context.density ≤ 1 ↔
      (a.neighborList.length : ℤ) ≤ M) := by
  have hpos := List.length_pos_of_ne_nil hl
  have e : (a.updateContext phaseOf).context.density = ofInt a.neighborList.length / ofInt M := by
    unfold Agent.updateContext
    dsimp only
    rw [if_neg (fun h => hl (List.length_eq_zero_iff.1 h)), hM]
  rw [e]
  generalize a.neighborList.length = n at *
  obtain ⟨dn, en, vn⟩ := fin_nat n hn
  obtain ⟨dm, em, vm⟩ := fin_int M hm
  have n1 : (1 : ℝ) ≤ n := by exact_mod_cast hpos
  have n2 : (n : ℝ) < 2 ^ 53 := by exact_mod_cast hn
  have hmr : |(M : ℝ)| < 2 ^ 53 := by exact_mod_cast hm
  rw [en, em]
  by_cases h0 : M = 0
  · have hi : F64.fin dn / F64.fin dm = F64.pinf := by
      show F64.div _ _ = _
      unfold F64.div F64.infSign; dsimp only
      rw [if_pos (by rw [vm, h0, Int.cast_zero]), if_pos (by rw [vn]; linarith)]
    refine ⟨fun _ => hi, fun h => absurd h0 h, ?_⟩
    rw [hi]
    constructor
    · rintro ⟨-, h⟩; exact h.elim
    · intro h; omega
  · have hr0 : (M : ℝ) ≠ 0 := by exact_mod_cast h0
    have hM1 : (1 : ℝ) ≤ |(M : ℝ)| := by
      have : (1 : ℤ) ≤ |M| := Int.one_le_abs h0
      exact_mod_cast this
    have hq : |(n : ℝ) / M| ≤ 2 ^ 53 := by
      rw [abs_div, abs_of_nonneg (by linarith : (0 : ℝ) ≤ n), div_le_iff₀ (by linarith)]
      nlinarith
    have d53 : IsDouble (2 ^ 53) := ⟨1, 53, by norm_num, by norm_num, by norm_num, by norm_num⟩
    obtain ⟨d, ed, vd⟩ : ∃ d : Dbl, F64.fin dn / F64.fin dm = .fin d ∧ d.1 = rnd ((n : ℝ) / M) := by
      have hov : |(n : ℝ) / M| < overflow := by
        have : (2 : ℝ) ^ 53 < 2 ^ (1023 : ℤ) := by
          rw [show (2 : ℝ) ^ 53 = 2 ^ (53 : ℤ) by norm_num]
          exact zpow_lt_zpow_right₀ (by norm_num) (by norm_num)
        have h2 := F64.two1023_lt_overflow
        exact lt_trans (lt_of_le_of_lt hq this) h2
      refine ⟨⟨rnd ((n : ℝ) / M), isDouble _⟩, ?_, rfl⟩
      rw [F64.div_fin (by rw [vm]; exact hr0), vn, vm]
      unfold F64.ofReal
      rw [if_pos hov]
    refine ⟨fun h => absurd h h0, fun _ => ⟨d, ed, vd⟩, ?_⟩
    rw [ed]
    show (0 ≤ d.1 ∧ d.1 ≤ 1) ↔ _
    rw [vd]
    rcases lt_or_gt_of_ne h0 with h | h
    · have h' : (M : ℝ) < 0 := by exact_mod_cast h
      have dneg : IsDouble (-2 ^ (-53 : ℤ)) := ⟨-1, -53, by norm_num, by norm_num, by norm_num, by push_cast; ring⟩
      have : (n : ℝ) / M ≤ -2 ^ (-53 : ℤ) := by
        rw [div_le_iff_of_neg h']
        have : -(M : ℝ) < 2 ^ 53 := by rwa [abs_of_neg h'] at hmr
        rw [zpow_neg]
        norm_num
        linarith
      have := rnd_le dneg this
      have hp : (0 : ℝ) < 2 ^ (-53 : ℤ) := by positivity
      constructor
      · rintro ⟨h1, -⟩; linarith
      · intro h2; omega
    · have h' : (0 : ℝ) < M := by exact_mod_cast h
      have hmu : (M : ℝ) < 2 ^ 53 := by rwa [abs_of_pos h'] at hmr
      constructor
      · rintro ⟨-, h1⟩
        by_contra hgt
        have h2 : (M : ℝ) + 1 ≤ n := by exact_mod_cast (by omega : M + 1 ≤ (n : ℤ))
        have : 1 + (2 : ℝ) ^ (-53 : ℤ) < n / M := by
          rw [lt_div_iff₀ h']
          have : (2 : ℝ) ^ (-53 : ℤ) * M < 1 := by
            rw [zpow_neg, inv_mul_lt_iff₀ (by positivity)]
            norm_num
            linarith
          linarith
        exact absurd h1 (not_le.2 (one_lt_rnd this))
      · intro h2
        have h2' : (n : ℝ) ≤ M := by exact_mod_cast h2
        exact ⟨le_rnd isDouble_zero (by positivity), rnd_le isDouble_one (by rw [div_le_one h']; exact h2')⟩

/-! ## Phases and NaN energies -/

/-- **C36 in doubles.** A successful action other than `"maintain"`, from a finite phase and with a finite value whose sum is finite: the
new phase is a double in `[0, 2π)` and is, on the circle, the old phase plus the value up to the roundings of the sum and of the
wrapping. -/
theorem C36_phase_double (a : Agent F64) (act : Action F64) (c : F64) (p v s : Dbl) (hp : a.state.phase = .fin p)
    (hv : act.value = .fin v) (hs : F64.fin p + F64.fin v = .fin s) (h : (a.applyAction act).1 = .ok c) :
    (act.type = "maintain" → (a.applyAction act).2.state.phase = .fin p) ∧
    (act.type ≠ "maintain" → ∃ r : Dbl, (a.applyAction act).2.state.phase = .fin r ∧ 0 ≤ r.1 ∧ r.1 < 2 * Real.pi ∧
      Near r.1 s.1 ((2 * |s.1| + 22) * 2 ^ (-53 : ℤ))) := by
  unfold Agent.applyAction at h ⊢
  by_cases hc : act.cost > a.state.energy
  · rw [if_pos hc] at h; cases h
  rw [if_neg hc] at h ⊢
  unfold applyUpdate at h ⊢
  obtain ⟨r, er, r0, r1, hr⟩ := C134_wrap s
  split_ifs at h ⊢ with h1 h2
  · refine ⟨?_, fun _ => ⟨r, ?_, r0, r1, hr⟩⟩
    · intro h3
      rw [h3] at h1
      exact absurd h1 (by decide +kernel)
    · show wrapPhase (a.state.phase + act.value) = _
      rw [hp, hv, hs, er]
  · exact ⟨fun _ => hp, fun h3 => absurd h2 h3⟩

/-- The actions that `ApplyAction` knows. -/
def Spec.known (act : Action F64) : Bool :=
  ["adjust_phase", "phase_nudge", "frequency_lock", "energy_save", "pulse", "maintain"].contains act.type

theorem known_iff (act : Action F64) : known act = true ↔ act.type ∈ knownTypes := by
  unfold known
  rw [List.contains_iff_mem]
  rfl

theorem fmax_nan (x : F64) : fmax (0 : F64) (F64.nan - x) = .nan := rfl

/-- **C148, an energy that is not a number.** It is never used up: whatever actions are applied, every one of a known type succeeds and
reports its full cost, and the energy is still not a number. -/
theorem C148_nan (a : Agent F64) (acts : List (Action F64)) (he : a.state.energy = .nan) :
    (applyAllD a acts).1 = (acts.filter known).map Action.cost ∧ (applyAllD a acts).2.state.energy = .nan := by
  induction acts generalizing a with
  | nil => exact ⟨rfl, he⟩
  | cons act acts ih =>
    have hn : ¬ act.cost > a.state.energy := by rw [he]; exact fun h => h.elim
    by_cases hk : act.type ∈ knownTypes
    · have hr := (C36_outcome a act).2.2 hn hk
      have hee : (a.applyAction act).2.state.energy = .nan := by
        unfold Agent.applyAction at hr ⊢
        rw [if_neg hn] at hr ⊢
        unfold applyUpdate at hr ⊢
        split_ifs at hr ⊢
        · show fmax 0 (a.state.energy - act.cost) = _
          rw [he]; rfl
        · show fmax 0 (a.state.energy - act.cost) = _
          rw [he]; rfl
      obtain ⟨i1, i2⟩ := ih _ hee
      rw [List.filter_cons_of_pos ((known_iff act).2 hk)]
      simp only [applyAllD, hr, i1, List.map_cons]
      exact ⟨trivial, i2⟩
    · have hr := (C36_outcome a act).2.1 hn hk
      have hu := C36_failure_unchanged a act _ hr
      rw [List.filter_cons_of_neg (fun h => hk ((known_iff act).1 h))]
      simp only [applyAllD, hr, hu]
      exact ih a he

/-- **C148, a cost that is not a number.** It is never too high: the action succeeds whatever the energy is, and leaves an energy that is
not a number. -/
theorem C148_nan_cost (a : Agent F64) (act : Action F64) (hc : act.cost = .nan) (hk : act.type ∈ knownTypes) :
    (a.applyAction act).1 = .ok .nan ∧ (a.applyAction act).2.state.energy = .nan := by
  have hn : ¬ act.cost > a.state.energy := by rw [hc]; cases a.state.energy <;> exact fun h => h.elim
  have hr := (C36_outcome a act).2.2 hn hk
  rw [hc] at hr
  refine ⟨hr, ?_⟩
  unfold Agent.applyAction at hr ⊢
  rw [if_neg hn] at hr ⊢
  unfold applyUpdate at hr ⊢
  split_ifs at hr ⊢
  · show fmax 0 (a.state.energy - act.cost) = _
    rw [hc]; cases a.state.energy <;> rfl
  · show fmax 0 (a.state.energy - act.cost) = _
    rw [hc]; cases a.state.energy <;> rfl

/-! ## Gaps between patterns -/

/-- Two different doubles differ by at least the smallest double. -/
theorem double_gap {x y : ℝ} (hx : IsDouble x) (hy : IsDouble y) (h : y < x) : (2 : ℝ) ^ (-1074 : ℤ) ≤ x - y := by
  obtain ⟨m, e, -, he, -, rfl⟩ := hx
  obtain ⟨n, f, -, hf, -, rfl⟩ := hy
  obtain ⟨i, rfl⟩ : ∃ i : ℕ, e = -1074 + i := ⟨(e + 1074).toNat, by omega⟩
  obtain ⟨j, rfl⟩ : ∃ j : ℕ, f = -1074 + j := ⟨(f + 1074).toNat, by omega⟩
  rw [zpow_add₀ (by norm_num), zpow_add₀ (by norm_num), zpow_natCast, zpow_natCast] at h ⊢
  have hp : (0 : ℝ) < 2 ^ (-1074 : ℤ) := by positivity
  generalize (2 : ℝ) ^ (-1074 : ℤ) = q at *
  have h' : q * (((n * 2 ^ j : ℤ)) : ℝ) < q * ((m * 2 ^ i : ℤ) : ℝ) := by push_cast; linarith
  have h2 : n * 2 ^ j + 1 ≤ m * 2 ^ i := by
    have := lt_of_mul_lt_mul_left h' hp.le
    have : n * 2 ^ j < m * 2 ^ i := by exact_mod_cast this
    omega
  have h3 : ((n * 2 ^ j : ℤ) : ℝ) + 1 ≤ ((m * 2 ^ i : ℤ) : ℝ) := by exact_mod_cast h2
  have h4 := mul_le_mul_of_nonneg_left h3 hp.le
  push_cast at h4
  nlinarith

/-- A difference of phases in doubles is not a number or at most the double nearest to π. -/
theorem phaseDifference_cases (x y : F64) : phaseDifference x y = .nan ∨ ∃ d : Dbl, phaseDifference x y = .fin d ∧ |d.1| ≤ piDouble := by
  have hp := Real.pi_lt_d2
  have hp3 := Real.pi_gt_three
  have hpd := piDouble_bounds
  unfold phaseDifference
  have hdn : IsDouble (-piDouble) := piDouble_isDouble.neg
  dsimp only
  split_ifs
  · obtain ⟨y, hy, e, h1, h2⟩ := F64.ofReal_between hdn piDouble_isDouble (x := ((-1 / 2 : ℚ) : ℝ) * Real.pi)
      (by push_cast; linarith) (by push_cast; linarith)
    exact .inr ⟨⟨y, hy⟩, e, abs_le.2 ⟨h1, h2⟩⟩
  · obtain ⟨y, hy, e, h1, h2⟩ := F64.ofReal_between hdn piDouble_isDouble (x := ((1 / 2 : ℚ) : ℝ) * Real.pi)
      (by push_cast; linarith) (by push_cast; linarith)
    exact .inr ⟨⟨y, hy⟩, e, abs_le.2 ⟨h1, h2⟩⟩
  · cases x - y with
    | nan => exact .inl rfl
    | pinf => exact .inl rfl
    | ninf => exact .inl rfl
    | fin x =>
      obtain ⟨d, hd, hle⟩ := LibM.atan2_le (LibM.sin x) (LibM.cos x)
      refine .inr ⟨d, hd, ?_⟩
      rw [← rnd_pi]
      obtain ⟨h1, h2⟩ := abs_le.1 hle
      refine abs_le.2 ⟨?_, le_rnd d.2 h2⟩
      have := le_rnd (x := Real.pi) d.2.neg (by linarith)
      linarith

/-- What is below a double minus something is below the double. -/
theorem lt_of_lt_sub {c t d : Dbl} (hd : 0 ≤ d.1) (h : F64.fin c < F64.fin t - F64.fin d) : c.1 < t.1 := by
  rw [F64.sub_fin] at h
  unfold F64.ofReal at h
  split_ifs at h with h1 h2
  · have h' : c.1 < rnd (t.1 - d.1) := h
    have := rnd_le t.2 (show t.1 - d.1 ≤ t.1 by linarith)
    linarith
  · have := t.2.abs_lt_overflow
    rw [abs_of_pos h2] at h1
    linarith [le_abs_self t.1]
  · exact h.elim

/-- **C07 in doubles.** A pattern with a finite phase has no gap to itself, whatever its frequency and coherence are. -/
theorem C07_self_double (hm : LibM.Exact) (p : TargetPattern F64) (a : Dbl) (ha : p.phase = .fin a) (h63 : p.frequency < 2 ^ 63) :
    identifyGaps' p p = [] := by
  have l1 : ∃ d : Dbl, (0.1 : F64) = .fin d ∧ 0 ≤ d.1 := by
    obtain ⟨d, dd, e, h, -⟩ := F64.ofReal_between isDouble_zero isDouble_one (x := (0.1 : ℝ)) (by norm_num) (by norm_num)
    exact ⟨⟨d, dd⟩, e, h⟩
  have l2 : ∃ d : Dbl, (0.05 : F64) = .fin d ∧ 0 ≤ d.1 := by
    obtain ⟨d, dd, e, h, -⟩ := F64.ofReal_between isDouble_zero isDouble_one (x := (0.05 : ℝ)) (by norm_num) (by norm_num)
    exact ⟨⟨d, dd⟩, e, h⟩
  obtain ⟨d1, e1, n1⟩ := l1
  obtain ⟨d2, e2, n2⟩ := l2
  unfold identifyGaps'
  dsimp only
  rw [ha, phaseDifference_self hm, abs_zero_double, e1, e2]
  rw [if_neg (show ¬ (F64.fin d1 < 0) from not_lt.2 n1)]
  rw [if_neg, if_neg]
  · rfl
  · cases hc : p.coherence with
    | nan => exact fun h => h.elim
    | pinf => exact fun h => h.elim
    | ninf => exact fun h => h.elim
    | fin c =>
      exact fun h => lt_irrefl _ (lt_of_lt_sub n2 h)
  · rintro ⟨h0, -, h⟩
    obtain ⟨d, ed⟩ : ∃ d : Dbl, (ofInt p.frequency : F64) = .fin d ∧ 0 < d.1 := by
      refine ⟨_, ofInt_fin h0.le h63, ?_⟩
      have : (1 : ℝ) ≤ rnd (p.frequency : ℝ) := le_rnd isDouble_one (by exact_mod_cast h0)
      exact lt_of_lt_of_le one_pos this
    rw [ed.1, F64.div_fin ed.2.ne', div_self ed.2.ne', F64.ofReal_of_isDouble isDouble_one, F64.one_def, sub_self_double] at h
    change F64.fin d2 < GoMath.abs (0 : F64) at h
    rw [abs_zero_double] at h
    exact absurd h (not_lt.2 n2)

/-- **C07 in doubles.** Every reported gap has a positive severity, whatever the two patterns contain; that of a gap in phase is at most 1. -/
theorem C07_severity_double (c t : TargetPattern F64) (g : PatternGap F64) (hg : g ∈ identifyGaps' c t) :
    0 < g.severity ∧ (g.type = .phase → ∃ d : Dbl, g.severity = .fin d ∧ d.1 ≤ 1) := by
  have d16 : IsDouble (1 / 64) := ⟨1, -6, by norm_num, by norm_num, by norm_num, by norm_num⟩
  obtain ⟨d1, e1, n1⟩ : ∃ d : Dbl, (0.1 : F64) = .fin d ∧ 1 / 64 ≤ d.1 := by
    obtain ⟨d, dd, e, h, -⟩ := F64.ofReal_between d16 isDouble_one (x := (0.1 : ℝ)) (by norm_num) (by norm_num)
    exact ⟨⟨d, dd⟩, e, h⟩
  obtain ⟨d2, e2, n2⟩ : ∃ d : Dbl, (0.05 : F64) = .fin d ∧ 1 / 64 ≤ d.1 := by
    obtain ⟨d, dd, e, h, -⟩ := F64.ofReal_between d16 isDouble_one (x := (0.05 : ℝ)) (by norm_num) (by norm_num)
    exact ⟨⟨d, dd⟩, e, h⟩
  have hpd := piDouble_bounds
  have hp := Real.pi_lt_d2
  have hp3 := Real.pi_gt_three
  unfold identifyGaps' at hg
  dsimp only at hg
  rw [e1, e2, List.mem_append, List.mem_append] at hg
  rcases hg with (hg | hg) | hg
  · split_ifs at hg with h
    · rw [List.mem_singleton] at hg
      subst hg
      dsimp only
      rcases phaseDifference_cases t.phase c.phase with hn | ⟨d, ed, hd⟩
      · rw [hn] at h; exact h.elim
      obtain ⟨v, ev, hv⟩ := F64.abs_fin d
      rw [ed, ev] at h ⊢
      have h' : d1.1 < v.1 := h
      have dq : IsDouble (1 / 512) := ⟨1, -9, by norm_num, by norm_num, by norm_num, by norm_num⟩
      have hpos : (0 : ℝ) < piDouble := by linarith
      obtain ⟨q, dq', eq, q0, q1⟩ := F64.ofReal_between dq isDouble_one (x := v.1 / piDouble)
        (by rw [le_div_iff₀ hpos]; linarith) (by rw [div_le_one hpos, hv]; exact hd)
      rw [F64.piMul_one, F64.div_fin (by dsimp only; linarith), eq]
      exact ⟨show (0 : ℝ) < q by linarith, fun _ => ⟨_, rfl, q1⟩⟩
    · cases hg
  · split_ifs at hg with h
    · rw [List.mem_singleton] at hg
      subst hg
      dsimp only
      refine ⟨?_, fun h => by cases h⟩
      have h3 := h.2.2
      generalize GoMath.abs ((ofInt c.frequency : F64) / ofInt t.frequency - 1) = x at h3
      cases x with
      | nan => exact h3.elim
      | pinf => trivial
      | ninf => exact h3.elim
      | fin x => exact lt_trans (show (0 : ℝ) < d2.1 by linarith) h3
    · cases hg
  · split_ifs at hg with h
    · rw [List.mem_singleton] at hg
      subst hg
      dsimp only
      refine ⟨?_, fun h => by cases h⟩
      cases ht : t.coherence with
      | nan => rw [ht] at h; cases hc : c.coherence <;> rw [hc] at h <;> exact h.elim
      | pinf => cases hc : c.coherence <;> rw [hc, ht] at h <;> first | exact h.elim | trivial
      | ninf => cases hc : c.coherence <;> rw [hc, ht] at h <;> exact h.elim
      | fin t' =>
        cases hc : c.coherence with
        | nan => rw [hc] at h; exact h.elim
        | pinf => 
          rw [hc, ht, F64.sub_fin] at h
          unfold F64.ofReal at h
          split_ifs at h <;> exact h.elim
        | ninf => trivial
        | fin c' =>
          rw [hc, ht] at h
          have hlt := lt_of_lt_sub (by linarith) h
          have hge := double_gap t'.2 c'.2 hlt
          have dmin : IsDouble ((2 : ℝ) ^ (-1074 : ℤ)) := ⟨1, -1074, by norm_num, by norm_num, by norm_num, by norm_num⟩
          have hmin : (0 : ℝ) < 2 ^ (-1074 : ℤ) := by positivity
          rw [F64.sub_fin]
          unfold F64.ofReal
          split_ifs with h1 h2
          · exact lt_of_lt_of_le hmin (le_rnd dmin hge)
          · trivial
          · exact absurd (lt_of_lt_of_le hmin hge) h2
    · cases hg

/-! ## Examples -/

/-- An agent with one neighbour that has been told of a swarm of one, so that it assumes at most 0 neighbours. -/
noncomputable def crowdedAgent : Agent F64 := { ((Agent.initial "me" 0 0 0 : Agent F64).connectTo "you" (some 1)) with swarmSize := 1 }

theorem crowdedAgent_list : crowdedAgent.neighborList = [1] := by
  simp [crowdedAgent, Agent.connectTo, Agent.initial, Agent.neighborList, NeighborStorage.new, NeighborStorage.store,
    NeighborStorage.find, NeighborStorage.all]

/-- the hypotheses of `C39_density_double` are met, and this agent has an infinite density -/
example : crowdedAgent.neighborList ≠ [] ∧ crowdedAgent.neighborList.length < 2 ^ 53 ∧
    (crowdedAgent.updateContext fun _ => 0).context.density = .pinf := by
  have h0 : crowdedAgent.neighborList ≠ [] := by rw [crowdedAgent_list]; simp
  have h1 : crowdedAgent.neighborList.length < 2 ^ 53 := by rw [crowdedAgent_list]; norm_num
  refine ⟨h0, h1, (C39_density_double crowdedAgent _ 0 ?_ h0 h1 (by norm_num)).1 rfl⟩
  simp [crowdedAgent, Agent.connectTo, Agent.initial]

/-- the hypotheses of `C36_phase_double` are met: the witness of C148, at phase 1, nudged by 0 -/
example : let a : Agent F64 := { hundredAgent with state := { hundredAgent.state with phase := .fin ⟨1, isDouble_one⟩ } }
    ∃ p v s : Dbl, a.state.phase = .fin p ∧ tinyAction.value = .fin v ∧ F64.fin p + F64.fin v = .fin s ∧
      (a.applyAction tinyAction).1 = .ok tinyAction.cost := by
  refine ⟨⟨1, isDouble_one⟩, ⟨0, isDouble_zero⟩, ⟨1, isDouble_one⟩, rfl, rfl, ?_, ?_⟩
  · rw [F64.add_fin, add_zero, F64.ofReal_of_isDouble isDouble_one]
  · refine (C36_outcome _ _).2.2 ?_ (by simp [knownTypes, tinyAction])
    show ¬ ((100 : ℝ) < 2 ^ (-50 : ℤ))
    rw [zpow_neg]; norm_num

/-- the hypotheses of `C148_nan` and `C148_nan_cost` are met: a cost that is not a number makes the energy one that is not, after which
an action that costs more than any agent has is paid for -/
example : ∃ act : Action F64, act.cost = .nan ∧ act.type ∈ knownTypes ∧ (hundredAgent.applyAction act).2.state.energy = .nan ∧
    (applyAllD (hundredAgent.applyAction act).2 [⟨"pulse", 0, .pinf, 0⟩]).1 = [.pinf] := by
  refine ⟨⟨"pulse", 0, .nan, 0⟩, rfl, by simp [knownTypes], ?_, ?_⟩
  · exact (C148_nan_cost _ _ rfl (by simp [knownTypes])).2
  · rw [(C148_nan _ _ (C148_nan_cost _ _ rfl (by simp [knownTypes])).2).1]
    simp [known]

/-- the hypotheses of `C07_self_double` are met -/
example : let _ : Rounding := Rounding.some; let _ : LibM := LibM.some
    LibM.Exact ∧ ∃ (p : TargetPattern F64) (a : Dbl), p.phase = .fin a ∧ 0 < p.frequency ∧ p.frequency < 2 ^ 63 ∧ p.coherence = .fin a := by
  intro _ _
  exact ⟨⟨rfl, rfl, rfl⟩, ⟨.fin ⟨1, isDouble_one⟩, 5, 1, .fin ⟨1, isDouble_one⟩, [], 1⟩, ⟨1, isDouble_one⟩, rfl, by norm_num,
    by norm_num, rfl⟩

/-- the hypothesis of `C07_severity_double` is met: an infinite target coherence is a gap -/
example : ∃ c t : TargetPattern F64, ∃ g ∈ identifyGaps' c t, g.severity = .pinf := by
  refine ⟨⟨0, 0, 1, 0, [], 1⟩, ⟨0, 0, 1, .pinf, [], 1⟩, ⟨.coherence, 0, .pinf, .pinf⟩, ?_, rfl⟩
  unfold identifyGaps'
  refine List.mem_append_right _ ?_
  dsimp only
  rw [if_pos]
  · exact List.mem_singleton.2 rfl
  · show (0 : F64) < F64.pinf - (0.05 : F64)
    obtain ⟨d, dd, e, -⟩ := F64.ofReal_between isDouble_zero isDouble_one (x := (0.05 : ℝ)) (by norm_num) (by norm_num)
    rw [show (0.05 : F64) = .fin ⟨d, dd⟩ from e]
    trivial

end Verif
