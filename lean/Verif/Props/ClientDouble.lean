import Verif.Props.Client
import Verif.Props.SyncBudget
import Verif.Props.TablesDouble
import Verif.Props.Completion

/-!
# C80 in doubles: which clients count perfect synchronisation as success
-/

set_option autoImplicit false
set_option linter.unusedSectionVars false

namespace Verif
open GoMath Spec Rounding

section
variable [Rounding] [LibM]

/-- The library is exact where Go's is: the sine of 0 is 0, its cosine is 1 and the angle of (1, 0) is 0. -/
structure Spec.ExactAtZero : Prop where
  cos : LibM.cos ⟨0, isDouble_zero⟩ = ⟨1, isDouble_one⟩
  sin : LibM.sin ⟨0, isDouble_zero⟩ = ⟨0, isDouble_zero⟩
  atan2 : LibM.atan2 ⟨0, isDouble_zero⟩ ⟨1, isDouble_one⟩ = .fin ⟨0, isDouble_zero⟩

theorem natDouble (n : ℕ) (h : n < 2 ^ 53) : IsDouble (n : ℝ) := by
  have := isDouble_int (n := (n : ℤ)) (by rw [abs_of_nonneg (by positivity)]; exact_mod_cast h)
  simpa using this

theorem addZero (d : Dbl) : (F64.fin d + 0 : F64) = .fin d := by
  rw [F64.zero_def, F64.add_fin]
  dsimp only
  rw [add_zero]; exact F64.ofReal_of_isDouble d.2

theorem zeroAdd (d : Dbl) : (0 + F64.fin d : F64) = .fin d := by
  rw [F64.zero_def, F64.add_fin]
  dsimp only
  rw [zero_add]; exact F64.ofReal_of_isDouble d.2

theorem zeroDiv (d : Dbl) (h : d.1 ≠ 0) : (0 / F64.fin d : F64) = 0 := by
  rw [F64.zero_def, F64.div_fin h]
  dsimp only
  rw [zero_div]; exact F64.ofReal_of_isDouble isDouble_zero

theorem mulZero (d : Dbl) : (F64.fin d * 0 : F64) = 0 := by
  rw [F64.zero_def, F64.mul_fin]
  dsimp only
  rw [mul_zero]; exact F64.ofReal_of_isDouble isDouble_zero

theorem natAddOne (n : ℕ) (h : n + 1 < 2 ^ 53) :
    (F64.fin ⟨(n : ℝ), natDouble n (by omega)⟩ + 1 : F64) = .fin ⟨((n + 1 : ℕ) : ℝ), natDouble _ h⟩ := by
  rw [F64.one_def, F64.add_fin]
  dsimp only
  have : ((n : ℝ) + 1) = ((n + 1 : ℕ) : ℝ) := by push_cast; ring
  rw [this]
  exact F64.ofReal_of_isDouble _

theorem cosZero (hz : ExactAtZero) : (GoMath.cos (0 : F64)) = 1 := by
  show F64.fin (LibM.cos _) = _
  rw [hz.cos]; rfl

theorem sinZero (hz : ExactAtZero) : (GoMath.sin (0 : F64)) = 0 := by
  show F64.fin (LibM.sin _) = _
  rw [hz.sin]; rfl

theorem sums_zeros (hz : ExactAtZero) (n k : ℕ) (h : k + n < 2 ^ 53) :
    (List.replicate n (0 : F64)).foldl (fun (s : F64 × F64) p => (s.1 + GoMath.cos p, s.2 + GoMath.sin p))
      (.fin ⟨(k : ℝ), natDouble k (by omega)⟩, 0) = (.fin ⟨((k + n : ℕ) : ℝ), natDouble _ h⟩, 0) := by
  induction n generalizing k with
  | zero => simp
  | succ n ih =>
    rw [List.replicate_succ, List.foldl_cons]
    dsimp only
    rw [cosZero hz, sinZero hz, natAddOne k (by omega)]
    have e0 : (0 + 0 : F64) = 0 := addZero _
    rw [e0, ih (k + 1) (by omega)]
    have e : k + 1 + n = k + (n + 1) := by omega
    simp only [e]

theorem meanSums_zeros_double (hz : ExactAtZero) (n k : ℕ) (h : k + n < 2 ^ 53) :
    (List.replicate n (0 : F64)).foldl (fun (s : F64 × F64) p => (s.1 + GoMath.sin p, s.2 + GoMath.cos p))
      (0, .fin ⟨(k : ℝ), natDouble k (by omega)⟩) = (0, .fin ⟨((k + n : ℕ) : ℝ), natDouble _ h⟩) := by
  induction n generalizing k with
  | zero => simp
  | succ n ih =>
    rw [List.replicate_succ, List.foldl_cons]
    dsimp only
    rw [cosZero hz, sinZero hz, natAddOne k (by omega)]
    have e0 : (0 + 0 : F64) = 0 := addZero _
    rw [e0, ih (k + 1) (by omega)]
    have e : k + 1 + n = k + (n + 1) := by omega
    simp only [e]

theorem ofNatF (n : ℕ) (h : n < 2 ^ 53) : (ofInt (n : ℤ) : F64) = .fin ⟨(n : ℝ), natDouble n h⟩ := by
  show F64.ofReal ((n : ℤ) : ℝ) = _
  rw [Int.cast_natCast]
  exact F64.ofReal_of_isDouble _

theorem divSelf (d : Dbl) (h : d.1 ≠ 0) : (F64.fin d / F64.fin d : F64) = 1 := by
  rw [F64.div_fin h, div_self h, F64.one_def]
  exact F64.ofReal_of_isDouble isDouble_one

/-- Agents at phase 0 are measured with coherence exactly 1. -/
theorem coherence_zeros_double (hz : ExactAtZero) (n : ℕ) (hn : n ≠ 0) (h : n ≤ 2 ^ 26) : measureCoherence (List.replicate n (0 : F64)) = 1 := by
  unfold measureCoherence
  rw [if_neg (by simpa using hn)]
  dsimp only
  have h53 : 0 + n < 2 ^ 53 := by omega
  have hs := sums_zeros hz n 0 h53
  have e0 : F64.fin ⟨((0 : ℕ) : ℝ), natDouble 0 (by omega)⟩ = 0 := by rw [F64.zero_def]; simp
  rw [e0] at hs
  rw [hs]
  dsimp only
  have hsq : IsDouble ((n : ℝ) * n) := by
    have := natDouble (n * n) (by nlinarith)
    push_cast at this; exact this
  simp only [Nat.zero_add, List.length_replicate]
  rw [F64.mul_fin]
  dsimp only
  rw [F64.ofReal_of_isDouble hsq]
  have e00 : (0 * 0 : F64) = 0 := mulZero _
  rw [e00, addZero]
  have hsqrt : (GoMath.sqrt (F64.fin ⟨(n : ℝ) * n, hsq⟩) : F64) = .fin ⟨(n : ℝ), natDouble n (by omega)⟩ := by
    show (if (n : ℝ) * n < 0 then F64.nan else F64.ofReal (Real.sqrt ((n : ℝ) * n))) = _
    rw [if_neg (not_lt.2 (by positivity)), Real.sqrt_mul_self (by positivity)]
    exact F64.ofReal_of_isDouble _
  rw [hsqrt, ofNatF n (by omega)]
  exact divSelf _ (by simpa using hn)

theorem mean_zeros_double (hz : ExactAtZero) (n : ℕ) (hn : n ≠ 0) (h : n < 2 ^ 53) : meanPhase (List.replicate n (0 : F64)) = 0 := by
  unfold meanPhase
  dsimp only
  have h53 : 0 + n < 2 ^ 53 := by omega
  have hs := meanSums_zeros_double hz n 0 h53
  have e0 : F64.fin ⟨((0 : ℕ) : ℝ), natDouble 0 (by omega)⟩ = 0 := by rw [F64.zero_def]; simp
  rw [e0] at hs
  rw [hs]
  dsimp only
  simp only [Nat.zero_add, List.length_replicate]
  rw [ofNatF n h, zeroDiv _ (by simpa using hn), divSelf _ (by simpa using hn)]
  show LibM.atan2 _ _ = _
  exact hz.atan2

theorem piDbl : ∃ p : Dbl, (piMul 1 : F64) = .fin p ∧ 0 < p.1 := by
  obtain ⟨y, h, e, h1, -⟩ := F64.ofReal_between (x := ((1 : ℚ) : ℝ) * Real.pi) (isDouble_ofNat 3 (by norm_num))
    (isDouble_ofNat 4 (by norm_num)) (by have := Real.pi_gt_three; push_cast; linarith)
    (by have := Real.pi_lt_d2; push_cast; linarith)
  exact ⟨⟨y, h⟩, e, by show 0 < y; linarith⟩

theorem absZero : (GoMath.abs (0 : F64)) = 0 := by
  show (if (0 : ℝ) < 0 then _ else _) = _
  rw [if_neg (lt_irrefl _)]; rfl

theorem convergence_zeros_double (n : ℕ) (hn : n ≠ 0) (h : n < 2 ^ 53) : phaseConvergence (List.replicate n (0 : F64)) 0 = 1 := by
  obtain ⟨p, ep, p0⟩ := piDbl
  have e00 : (0 - 0 : F64) = 0 := by
    rw [F64.zero_def, F64.sub_fin]
    dsimp only
    rw [sub_zero]; exact F64.ofReal_of_isDouble isDouble_zero
  have h0 : targetDistance (0 : F64) 0 = 0 := by
    unfold targetDistance
    dsimp only
    rw [e00, absZero, ep, if_neg (show ¬ (F64.fin p < 0) from not_lt.2 p0.le)]
  have hs : ∀ (m : ℕ), (List.replicate m (0 : F64)).foldl (fun s p => s + targetDistance 0 p) 0 = 0 := by
    intro m
    induction m with
    | zero => rfl
    | succ m ih =>
      have ea : (0 + 0 : F64) = 0 := addZero _
      rw [List.replicate_succ, List.foldl_cons, h0, ea, ih]
  unfold phaseConvergence
  rw [if_neg (by simpa using hn)]
  dsimp only
  rw [hs, List.length_replicate, ofNatF n h, zeroDiv _ (by simpa using hn), ep, zeroDiv _ p0.ne']
  have e10 : (1 - 0 : F64) = 1 := by
    rw [F64.zero_def, F64.one_def, F64.sub_fin]
    dsimp only
    rw [sub_zero]; exact F64.ofReal_of_isDouble isDouble_one
  rw [e10]
  exact if_neg (show ¬ ((1 : ℝ) < 0) by norm_num)

theorem difference_zero (hz : ExactAtZero) : phaseDifference (0 : F64) 0 = 0 := by
  have e00 : (0 - 0 : F64) = 0 := by
    rw [F64.zero_def, F64.sub_fin]
    dsimp only
    rw [sub_zero]; exact F64.ofReal_of_isDouble isDouble_zero
  obtain ⟨q, hq, eq, q1, -⟩ := F64.ofReal_between (x := ((3 / 2 : ℚ) : ℝ) * Real.pi) (isDouble_ofNat 4 (by norm_num))
    (isDouble_ofNat 5 (by norm_num)) (by have := Real.pi_gt_three; push_cast; linarith)
    (by have := Real.pi_lt_d2; push_cast; linarith)
  obtain ⟨ε, hε, eε, -, ε1⟩ := F64.ofReal_between (x := (1e-10 : ℝ)) isDouble_zero isDouble_one (by norm_num) (by norm_num)
  have hpi : (piMul (3 / 2) : F64) = .fin ⟨q, hq⟩ := eq
  have heps : (1e-10 : F64) = .fin ⟨ε, hε⟩ := eε
  have hsub : (0 - piMul (3 / 2) : F64) = .fin ⟨-q, hq.neg⟩ := by
    rw [hpi, F64.zero_def, F64.sub_fin]
    dsimp only
    rw [zero_sub]; exact F64.ofReal_of_isDouble _
  have habs : GoMath.abs (0 - piMul (3 / 2) : F64) = .fin ⟨q, hq⟩ := by
    rw [hsub]
    show (if -q < 0 then F64.neg (.fin ⟨-q, hq.neg⟩) else _) = _
    rw [if_pos (by linarith)]
    show F64.fin ⟨- -q, _⟩ = _
    congr 2; exact neg_neg q
  have hn : ¬ (GoMath.abs (0 - piMul (3 / 2) : F64) < 1e-10) := by
    rw [habs, heps]
    exact not_lt.2 (show ε ≤ q by linarith)
  unfold phaseDifference
  dsimp only
  rw [if_neg (fun h => hn h.2), if_neg (fun h => hn h.1), e00, sinZero hz, cosZero hz]
  exact hz.atan2

/-- The pattern of perfectly synchronised agents, in doubles. -/
noncomputable def perfectPatternD (f : ℤ) : TargetPattern F64 :=
  { phase := 0, frequency := f, amplitude := 1, coherence := 1, waveform := [], stability := 0.5 }

theorem pattern_perfect_double (hz : ExactAtZero) (l : List (Agent F64)) (f : ℤ) (h0 : l ≠ []) (hl : l.length < 2 ^ 53)
    (h : ∀ a ∈ l, a.state.phase = 0 ∧ a.state.frequency = f) : measureSystemPattern l 1 = perfectPatternD f := by
  have hl0 : l.length ≠ 0 := fun e => h0 (List.length_eq_zero_iff.1 e)
  have hp : l.map (·.state.phase) = List.replicate l.length 0 := List.eq_replicate_iff.2 ⟨by simp, fun x hx => by
    obtain ⟨a, ha, rfl⟩ := List.mem_map.1 hx; exact (h a ha).1⟩
  unfold measureSystemPattern
  rw [if_neg hl0, hp, mean_zeros_double hz _ hl0 hl, foldl_freq l f 0 (fun a ha => (h a ha).2), zero_add,
    Int.mul_tdiv_cancel_left _ (by exact_mod_cast hl0)]
  rfl

theorem missing_fin (c : Dbl) (h0 : 0 ≤ c.1) (h1 : c.1 ≤ 1) : ∃ m : Dbl, GoMath.abs (F64.fin c - 1) = .fin m ∧ 0 ≤ m.1 ∧ m.1 ≤ 1 ∧
    m.1 = -rnd (c.1 - 1) := by
  have hle : rnd (c.1 - 1) ≤ 0 := rnd_le isDouble_zero (by linarith)
  have hge : -1 ≤ rnd (c.1 - 1) := le_rnd isDouble_one.neg (by linarith)
  obtain ⟨y, hy, e, -, -⟩ := F64.ofReal_between (x := c.1 - 1) isDouble_one.neg isDouble_zero (by linarith) (by linarith)
  have ey : y = rnd (c.1 - 1) := by
    unfold F64.ofReal at e
    split_ifs at e
    injection e with e; exact (congrArg Subtype.val e).symm
  subst ey
  refine ⟨⟨-rnd (c.1 - 1), hy.neg⟩, ?_, by show 0 ≤ -rnd (c.1 - 1); linarith, by show -rnd (c.1 - 1) ≤ 1; linarith, rfl⟩
  rw [F64.one_def, F64.sub_fin, e]
  show (if rnd (c.1 - 1) < 0 then F64.neg (.fin ⟨_, hy⟩) else _) = _
  split_ifs with h
  · rfl
  · have : rnd (c.1 - 1) = 0 := le_antisymm hle (not_lt.1 h)
    congr 2
    rw [this, neg_zero]

theorem distance_perfect_double (hz : ExactAtZero) (t : TargetPattern F64) (hp : t.phase = 0) (c : Dbl) (hc : t.coherence = .fin c)
    (h0 : 0 ≤ c.1) (h1 : c.1 ≤ 1) (hf : t.frequency < 2 ^ 63) :
    patternDistance (some (perfectPatternD t.frequency)) (some t) = 0.3 * GoMath.abs (F64.fin c - 1) := by
  obtain ⟨p, ep, p0⟩ := piDbl
  obtain ⟨m, em, m0, m1, -⟩ := missing_fin c h0 h1
  obtain ⟨a, ea, ha⟩ : App (0.3 : F64) 0.3 (1 / 10 ^ 13) := by lit
  obtain ⟨b, eb, -⟩ : App (0.4 : F64) 0.4 (1 / 10 ^ 13) := by lit
  have hfreq : (if t.frequency > 0 then fmin (GoMath.abs (ofInt (t.frequency - t.frequency)) / ofInt t.frequency) 1 else (0 : F64)) = 0 := by
    split_ifs with hpos
    · have ez : (ofInt (t.frequency - t.frequency) : F64) = 0 := by
        rw [sub_self]; show F64.ofReal ((0 : ℤ) : ℝ) = _
        rw [Int.cast_zero]; exact zero_eq_ofReal.symm
      have hr : (1 : ℝ) ≤ rnd (t.frequency : ℝ) := le_rnd isDouble_one (by exact_mod_cast hpos)
      rw [ez, absZero, ofInt_fin hpos.le hf, zeroDiv _ (by show rnd _ ≠ 0; linarith)]
      show (if (0 : ℝ) < 1 then _ else _) = _
      rw [if_pos one_pos]; rfl
    · rfl
  unfold patternDistance perfectPatternD
  dsimp only
  rw [hp, difference_zero hz, absZero, ep, zeroDiv _ p0.ne', hfreq, hc, em, ea, eb, mulZero, mulZero]
  have e00 : (0 + 0 : F64) = 0 := addZero _
  rw [e00, F64.mul_fin]
  rw [abs_le] at ha
  obtain ⟨ha1, ha2⟩ := ha
  norm_num at ha1 ha2
  obtain ⟨y, hy, e, -, -⟩ := F64.ofReal_between (x := a.1 * m.1) isDouble_zero isDouble_one (mul_nonneg (by linarith) m0)
    (mul_le_one₀ (by linarith) m0 m1)
  rw [e, zeroAdd]

theorem perfect_count {s : Swarm F64} {n : ℕ} {order : SyncMap ℕ → SyncMap ℕ} (hp : ∀ m, (order m).Perm m)
    (h : (s.collectAgents order).map (fun a => (s.heap a).state.phase) = List.replicate n 0) : n = (s.collectAgents id).length := by
  have := congrArg List.length h
  rw [List.length_map, List.length_replicate, (collect_perm s order hp).length_eq] at this
  exact this.symm

theorem mul_nonneg_double {x : F64} (h : 0 ≤ x) {k : ℝ} (h1 : 1 ≤ k) (h2 : k ≤ 2) : 0 ≤ x * F64.ofReal k := by
  obtain ⟨y, hy, e, y1, -⟩ := F64.ofReal_between (x := k) isDouble_one (isDouble_ofNat 2 (by norm_num)) h1 h2
  rw [e]
  cases x with
  | nan => exact h.elim
  | ninf => exact h.elim
  | pinf =>
    show (0 : F64) ≤ F64.infSign y
    unfold F64.infSign; rw [if_pos (by linarith)]; trivial
  | fin d =>
    rw [F64.mul_fin, zero_eq_ofReal]
    exact F64.ofReal_mono (mul_nonneg h (show (0 : ℝ) ≤ y by linarith))

theorem sub_le_one {c : Dbl} {x : F64} (h1 : c.1 ≤ 1) (h : 0 ≤ x) : F64.fin c - x ≤ 1 := by
  cases x with
  | nan => exact h.elim
  | ninf => exact h.elim
  | pinf => trivial
  | fin d =>
    have h' : (0 : ℝ) ≤ d.1 := h
    rw [F64.sub_fin, one_eq_ofReal]
    exact F64.ofReal_mono (by linarith)

/-- **C80, in doubles.** When at most 2²⁶ agents are perfectly synchronised on the target phase 0 and the target frequency, the goal counts as
achieved exactly when three tenths of the distance of the target coherence from 1, as the program computes it, is below the pattern threshold. -/
theorem C80_perfect_double (hz : ExactAtZero) (g : Gds F64) (s : Swarm F64) (e : Tick F64) (hs : Spec.Perfect s g.target.frequency)
    (hn : (s.collectAgents id).length ≤ 2 ^ 26) (hf : g.target.frequency < 2 ^ 63) (hp : g.target.phase = 0) (c : Dbl)
    (hc : g.target.coherence = .fin c) (h0 : 0 ≤ c.1) (h1 : c.1 ≤ 1)
    (ht : 0 ≤ g.config.toleranceSmall ∧ 0 ≤ g.config.toleranceMedium ∧ 0 ≤ g.config.toleranceLarge)
    (hg : g.config.phaseConvergenceGoal ≤ 1) :
    g.achieved s e = true ↔ 0.3 * GoMath.abs (F64.fin c - 1) < g.config.patternDistanceThreshold := by
  have hcoh : s.measureCoherence (e.order 2) = 1 := by
    obtain ⟨n, hn0, h⟩ := perfect_phases hs (e.order 2) (e.order_perm 2)
    have := perfect_count (e.order_perm 2) h
    unfold Swarm.measureCoherence
    rw [h, coherence_zeros_double hz n hn0 (by omega)]
  have hpat : s.pattern e = perfectPatternD g.target.frequency := by
    have hsub := rangeAgents_sub s (e.order 0) (e.order 1) (e.order_perm 1)
    unfold Swarm.pattern
    rw [hcoh]
    refine pattern_perfect_double hz _ _ ?_ ?_ fun a ha => ?_
    · have := rangeAgents_ne s (e.order 0) (e.order 1) (e.order_perm 0) (e.order_perm 1) hs.1
      simpa using this
    · rw [List.length_map]
      have := hsub.2.1
      rw [(collect_perm s (e.order 0) (e.order_perm 0)).length_eq] at this
      omega
    · obtain ⟨x, hx, rfl⟩ := List.mem_map.1 ha
      exact hs.2 x ((collect_perm s (e.order 0) (e.order_perm 0)).mem_iff.1 (hsub.1 x hx))
  have hconv : phaseConvergence (s.phases (e.order 5)) g.target.phase = 1 := by
    obtain ⟨n, hn0, h⟩ := perfect_phases hs (e.order 5) (e.order_perm 5)
    have := perfect_count (e.order_perm 5) h
    unfold Swarm.phases
    rw [h, hp, convergence_zeros_double n hn0 (by omega)]
  unfold Gds.achieved
  rw [hpat, hconv, C58_decision]
  have hd := distance_perfect_double hz g.target hp c hc h0 h1 hf
  constructor
  · rintro ⟨-, h, -⟩
    rwa [hd] at h
  · intro h
    refine ⟨⟨_, (isTolerance_iff _ _ _ _).2 rfl, ?_⟩, by rwa [hd], fun _ => hg⟩
    have : 0 ≤ achievementTolerance g.config ((s.allAgents (e.order 4)).length : ℤ) g.target.coherence := by
      unfold achievementTolerance
      dsimp only
      obtain ⟨t1, t2, t3⟩ := ht
      split_ifs <;> first | assumption | exact mul_nonneg_double (by assumption) (by norm_num) (by norm_num)
    show _ ≤ (1 : F64)
    rw [hc] at this ⊢
    exact sub_le_one h1 this

/-! ### Clients -/

theorem threshold_withSize_double (c : GoalConfig F64) (n : ℤ) : (c.withSize n).patternDistanceThreshold = c.patternDistanceThreshold := by
  unfold GoalConfig.withSize; split_ifs <;> rfl

theorem preset_tolerances_double (g : GoalType) (n : ℤ) : 0 ≤ ((configFor g : GoalConfig F64).withSize n).toleranceSmall ∧
    0 ≤ ((configFor g : GoalConfig F64).withSize n).toleranceMedium ∧ 0 ≤ ((configFor g : GoalConfig F64).withSize n).toleranceLarge := by
  have h : 0 ≤ (configFor g : GoalConfig F64).toleranceSmall ∧ 0 ≤ (configFor g : GoalConfig F64).toleranceMedium ∧
      0 ≤ (configFor g : GoalConfig F64).toleranceLarge := by
    rw [zero_eq_ofReal]
    unfold configFor
    split <;> refine ⟨F64.ofReal_mono ?_, F64.ofReal_mono ?_, F64.ofReal_mono ?_⟩ <;> norm_num
  obtain ⟨h1, h2, h3⟩ := h
  unfold GoalConfig.withSize
  split_ifs
  · rw [zero_eq_ofReal]; refine ⟨F64.ofReal_mono ?_, F64.ofReal_mono ?_, F64.ofReal_mono ?_⟩ <;> norm_num
  · rw [zero_eq_ofReal]; refine ⟨F64.ofReal_mono ?_, F64.ofReal_mono ?_, F64.ofReal_mono ?_⟩ <;> norm_num
  · exact ⟨h1, h2, h3⟩
  · exact ⟨mul_nonneg_double h1 (by norm_num) (by norm_num), mul_nonneg_double h2 (by norm_num) (by norm_num), mul_nonneg_double h3 (by norm_num) (by norm_num)⟩
  · exact ⟨mul_nonneg_double h1 (by norm_num) (by norm_num), mul_nonneg_double h2 (by norm_num) (by norm_num), mul_nonneg_double h3 (by norm_num) (by norm_num)⟩

theorem preset_fin_double (g : GoalType) (n : ℤ) : GoalFin 4 ((configFor g : GoalConfig F64).withSize n) := by
  obtain ⟨h, -⟩ := configFor_fin g
  exact withSize_fin ⟨h.phase, h.mod, h.high, h.var.weaken (by norm_num), h.chance, h.interval, h.window, h.affected, h.activation⟩ n

/-- **C80 for clients, in doubles.** For every client that was built and every tick that finds its agents perfectly synchronised on the
target, the run reports success at that tick exactly when three tenths of the missing coherence, as computed, is below the threshold of the goal. -/
theorem C80_client_double (hz : ExactAtZero) (b : Builder F64) (env : SwarmEnv F64) (now : ℤ) (c : Client F64) (hc : b.build env now = .ok c)
    (order : SyncMap ℕ → SyncMap ℕ) (hp : ∀ m, (order m).Perm m) (e : Tick F64) (hs : Spec.Perfect (e.others c.sync.swarm) 1000000000)
    (hcount : ((e.others c.sync.swarm).collectAgents id).length ≤ 2 ^ 26) (x : Dbl) (hx : c.sync.swarm.goalState.coherence = .fin x)
    (hx0 : 0 ≤ x.1) :
    (c.start order [.tick e]).1 = .achieved ↔
      0.3 * GoMath.abs (F64.fin x - 1) < (configFor b.goal : GoalConfig F64).patternDistanceThreshold := by
  obtain ⟨n, -, ⟨addr, hex⟩, h1, h2, h3, h4, y, -, h5, h6⟩ := C73_client b env now c hc order hp
  obtain ⟨lt, lp, lr, el, l0, l1, l2⟩ := limits_fin n
  have hlt1 : lt.1 ≤ 1 := by
    have := (C20_ordered_double n).2.2.2
    rw [el] at this; exact this
  have hpr : x.1 ≤ lp.1 := by
    by_cases h : y > (getCoherenceLimits n : CoherenceLimits F64).practical
    · have := h5 h
      rw [hx, el] at this
      dsimp only at this
      injection this with this; exact (congrArg Subtype.val this).le
    · rw [← h6 h, hx, el] at h
      exact not_lt.1 (show ¬ lp.1 < x.1 from h)
  have ht : adjustTarget n c.sync.swarm.targetPattern = c.sync.swarm.targetPattern := by
    unfold adjustTarget
    refine if_neg ?_
    show ¬ (getCoherenceLimits n : CoherenceLimits F64).theoretical < c.sync.swarm.goalState.coherence
    rw [hx, el]
    exact not_lt.2 (show x.1 ≤ lt.1 by linarith)
  have hv := preset_fin_double b.goal n
  have hvi : 0 < c.sync.config.updateInterval := by
    rw [h2, h1]
    have := hv.interval
    have hm : (0 : ℤ) < millisecond := by unfold millisecond; norm_num
    omega
  have hgoal : c.sync.config.phaseConvergenceGoal ≤ 1 := by
    rw [h2, h1]
    obtain ⟨d, ed, -, d1⟩ := hv.phase
    rw [ed]; exact d1
  have hfac : Spec.SaneFactor ((configFor b.goal : GoalConfig F64).withSize n).maxIterationsFactor := by
    obtain ⟨k, ek, k1, k2⟩ := configFor_factor b.goal
    obtain ⟨d, e, a, b'⟩ := withSize_factor _ n ⟨k, ek, le_trans (by norm_num) k1, k2⟩
    exact ⟨d, e, le_trans (by norm_num) a, b'.trans (by norm_num)⟩
  let g : Gds F64 := { c.sync with target := c.sync.swarm.targetPattern }
  rw [start_tick c order e n (by rw [hex.count]) hvi g rfl ht.symm
    (by
      rw [ht, h2, h1]
      refine budget_pos _ _ _ hfac ?_
      show ¬ (getCoherenceLimits n : CoherenceLimits F64).practical < c.sync.swarm.goalState.coherence
      rw [hx, el]
      exact not_lt.2 hpr),
    C80_perfect_double hz g _ _ (by show Spec.Perfect _ c.sync.swarm.goalState.frequency; rw [h4]; exact hs) hcount
      (by show c.sync.swarm.goalState.frequency < _; rw [h4]; norm_num) h3 x hx hx0 (by linarith) ?_ hgoal]
  · show _ < c.sync.config.patternDistanceThreshold ↔ _
    rw [h2, h1, threshold_withSize_double]
  · show 0 ≤ c.sync.config.toleranceSmall ∧ 0 ≤ c.sync.config.toleranceMedium ∧ 0 ≤ c.sync.config.toleranceLarge
    rw [h2, h1]
    exact preset_tolerances_double b.goal n

/-! ### Defaults -/

theorem rnd_half (x : ℝ) (n : ℤ) (h1 : 0.51 < x) (hn : |n| < 2 ^ 53) (hx : |(n : ℝ) / 2 ^ 53 - x| < 1 / 2 ^ 54) :
    rnd x = n / 2 ^ 53 := by
  have hd : IsDouble ((n : ℝ) / 2 ^ 53) := dyadic n 53 hn (by norm_num)
  have hr := abs_lt.1 ((nearest x _ hd).trans_lt hx)
  have hx' := abs_lt.1 hx
  have hge : (2 : ℝ) ^ (-1 : ℤ) ≤ |rnd x| := by
    rw [abs_of_pos (by norm_num at hr ⊢; linarith [hr.1])]; norm_num at hr ⊢; linarith [hr.1]
  obtain ⟨j, hj⟩ := isDouble_multiple (isDouble x) (-1) hge
  have e : (2 : ℝ) ^ ((-1 : ℤ) - 52) = 1 / 2 ^ 53 := by
    rw [show (-1 : ℤ) - 52 = -53 by norm_num, zpow_neg]; norm_num
  rw [e] at hj
  rw [hj] at hr ⊢
  have a1 : (j : ℝ) < n + 1 := by
    have := hr.2; have := hx'.1
    norm_num at *; linarith
  have a2 : (n : ℝ) < j + 1 := by
    have := hr.1; have := hx'.2
    norm_num at *; linarith
  have b1 : j < n + 1 := by exact_mod_cast a1
  have b2 : n < j + 1 := by exact_mod_cast a2
  obtain rfl : j = n := by omega
  ring

theorem nine_isDouble : IsDouble ((8106479329266893 : ℝ) / 2 ^ 53) := by
  have := dyadic 8106479329266893 53 (by norm_num) (by norm_num); push_cast at this; exact this

theorem nine_tenths : F64.ofReal 0.90 = .fin ⟨8106479329266893 / 2 ^ 53, nine_isDouble⟩ := by
  have hr := rnd_half 0.90 8106479329266893 (by norm_num) (by norm_num) (by norm_num [abs_lt])
  have ho : |(0.90 : ℝ)| < overflow := by
    rw [abs_of_pos (by norm_num)]; exact lt_trans (by norm_num) overflow_gt_one
  unfold F64.ofReal
  rw [if_pos ho]
  congr 2

/-- The tie is broken by rounding: three tenths of the distance of 0.9 from 1 is computed as less than 0.03. -/
theorem tie_below : (0.3 : F64) * GoMath.abs (F64.ofReal 0.90 - 1) < (0.03 : F64) := by
  have hm : IsDouble ((900719925474099 : ℝ) / 2 ^ 53) := by
    have := dyadic 900719925474099 53 (by norm_num) (by norm_num); push_cast at this; exact this
  obtain ⟨m, em, -, -, hmv⟩ := missing_fin ⟨8106479329266893 / 2 ^ 53, nine_isDouble⟩ (by norm_num) (by norm_num)
  have e1 : (8106479329266893 : ℝ) / 2 ^ 53 - 1 = -(900719925474099 / 2 ^ 53) := by norm_num
  dsimp only at hmv
  rw [e1, rnd_eq_self hm.neg, neg_neg] at hmv
  have hq : IsDouble ((8646911284551351 : ℝ) / 2 ^ 58) := by
    have := dyadic 8646911284551351 58 (by norm_num) (by norm_num); push_cast at this; exact this
  have hq' : IsDouble ((8646911284551352 : ℝ) / 2 ^ 58) := by
    have := dyadic 8646911284551352 58 (by norm_num) (by norm_num); push_cast at this; exact this
  rw [nine_tenths, em, weight3, F64.mul_fin]
  dsimp only
  rw [hmv]
  obtain ⟨u, hu, eu, -, u1⟩ := F64.ofReal_between (x := 5404319552844595 / 2 ^ 54 * (900719925474099 / 2 ^ 53)) isDouble_zero hq
    (by norm_num) (by norm_num)
  obtain ⟨v, hv, ev, v1, -⟩ := F64.ofReal_between (x := 0.03) hq' isDouble_one (by norm_num) (by norm_num)
  rw [eu]
  show F64.fin ⟨u, hu⟩ < F64.ofReal 0.03
  rw [ev, F64.lt_fin]
  show u < v
  norm_num at u1 v1
  linarith

/-- The distance as computed, for a literal. -/
theorem missing_app {X : ℝ} (h0 : 0 ≤ X) (h1 : X ≤ 1) : App ((0.3 : F64) * GoMath.abs (F64.ofReal X - 1)) (0.3 * (1 - X)) (1 / 10 ^ 12) := by
  obtain ⟨y, hy, e, y0, y1⟩ := F64.ofReal_between isDouble_zero isDouble_one h0 h1
  obtain ⟨d, ed, hd⟩ := App.ofReal (x := X) (by rw [abs_of_nonneg h0]; linarith)
  obtain ⟨m, em, m0, m1, hmv⟩ := missing_fin ⟨y, hy⟩ y0 y1
  have hdy : d = ⟨y, hy⟩ := by rw [e] at ed; injection ed with ed; exact ed.symm
  subst hdy
  dsimp only at hd hmv
  have h3 : App (0.3 : F64) 0.3 (1 / 10 ^ 13) := by lit
  have hr : |rnd (y - 1) - (y - 1)| ≤ 1 / 10 ^ 13 := by
    have hu := ulp_pos
    have hus : ulp ≤ 1 / 9000000000000000 := by unfold ulp; rw [zpow_neg]; norm_num
    have heu := eta_le_ulp
    have hab : |y - 1| ≤ 1 := by rw [abs_le]; constructor <;> linarith
    refine (rnd_err (small_lt_1023 (hab.trans (by norm_num)))).trans ?_
    have : ulp * |y - 1| ≤ ulp * 1 := mul_le_mul_of_nonneg_left hab hu.le
    norm_num
    linarith
  have hm : App (GoMath.abs (F64.ofReal X - 1)) (1 - X) (2 / 10 ^ 13) := by
    rw [e, em]
    refine ⟨m, rfl, ?_⟩
    rw [hmv]
    rw [abs_le] at hd hr ⊢
    norm_num at hd hr ⊢
    constructor <;> linarith [hd.1, hd.2, hr.1, hr.2]
  exact App.mul h3 hm (A := 0.3) (B := 1) (by rw [abs_of_pos (by norm_num)]) (by rw [abs_le]; constructor <;> linarith) (by norm_num)
    (by norm_num) (by norm_num)

/-- The combinations for which the program does not count perfect synchronisation: those of the exact arithmetic except reaching consensus at the
smallest scale, where the two sides are equal and rounding decides. -/
def Spec.MiscountedD (g : GoalType) (s : Size) : Prop := Spec.Miscounted g s ∧ ¬ (g = 2 ∧ s = 0)

theorem thresholds_ofReal (g : GoalType) :
    (configFor g : GoalConfig F64).patternDistanceThreshold = F64.ofReal (configFor g : GoalConfig ℝ).patternDistanceThreshold := by
  unfold configFor
  split <;> rfl

theorem threshold_le (g : GoalType) : 0 ≤ (configFor g : GoalConfig ℝ).patternDistanceThreshold ∧ (configFor g : GoalConfig ℝ).patternDistanceThreshold ≤ 1 := by
  unfold configFor
  split <;> simp only [minAPIConfig, distLoadConfig, consensusConfig, latencyConfig, energyConfig, rhythmConfig, recoveryConfig,
      trafficConfig, defaultConfig] <;> norm_num

/-- Away from equality rounding does not matter. -/
theorem computed_iff {X T : ℝ} (h0 : 0 ≤ X) (h1 : X ≤ 1) (t0 : 0 ≤ T) (t1 : T ≤ 1) (hfar : 0.001 ≤ |0.3 * (1 - X) - T|) :
    (0.3 : F64) * GoMath.abs (F64.ofReal X - 1) < F64.ofReal T ↔ 0.3 * (1 - X) < T := by
  have ha := missing_app h0 h1
  have hb : App (F64.ofReal T) T (1 / 10 ^ 13) := App.ofReal (by rw [abs_of_nonneg t0]; linarith)
  constructor
  · intro h
    have := (App.lt ha hb).1 h
    by_contra hc
    rw [abs_of_nonneg (by linarith)] at hfar
    norm_num at hfar this
    linarith
  · intro h
    by_contra hc
    have := (App.lt ha hb).2 hc
    rw [abs_of_neg (by linarith)] at hfar
    norm_num at hfar this
    linarith

/-- The table of `C80_default_partial`, with its margins. -/
theorem miscounted_far (x t : ℝ) (G S : ℤ)
    (hg : (t = 0.05 ∧ G = 0) ∨ (0.15 ≤ t ∧ (G = 1 ∨ G = 3 ∨ G = 4 ∨ G = 6 ∨ G = 7)) ∨ (t = 0.03 ∧ G = 2) ∨
      (0.08 ≤ t ∧ t ≤ 0.1 ∧ (G = 5 ∨ G < 0 ∨ 7 < G)))
    (hxs : (x = 0.90 ∧ S = 0) ∨ (x = 0.85 ∧ S = 1) ∨ (x = 0.75 ∧ (S = 2 ∨ S < 0 ∨ 4 < S)) ∨ (0.55 ≤ x ∧ x ≤ 0.65 ∧ (S = 3 ∨ S = 4))) :
    (G = 2 ∧ S = 0) ∨ 0.001 ≤ |0.3 * (1 - x) - t| := by
  rcases hg with ⟨g1, g2⟩ | ⟨g1, g2⟩ | ⟨g1, g2⟩ | ⟨g1, g1', g2⟩ <;>
    rcases hxs with ⟨k1, k2⟩ | ⟨k1, k2⟩ | ⟨k1, k2⟩ | ⟨k1, k1', k2⟩ <;>
    first
      | exact .inl ⟨g2, k2⟩
      | (right; rw [le_abs]; left; linarith)
      | (right; rw [le_abs]; right; linarith)

theorem F64.not_lt_of_le' {a b : F64} (h : a ≤ b) : ¬ b < a := by
  cases a with
  | fin x =>
    cases b with
    | fin y => exact fun h' => absurd (show y.1 < x.1 from h') (not_lt.2 (show x.1 ≤ y.1 from h))
    | _ => first | exact h.elim | exact fun h' => h'.elim
  | _ => cases b <;> first | exact h.elim | exact fun h' => h'.elim

theorem tiny_target (x : ℝ) (S : ℤ) (hS : S = 0)
    (hxs : (x = 0.90 ∧ S = 0) ∨ (x = 0.85 ∧ S = 1) ∨ (x = 0.75 ∧ (S = 2 ∨ S < 0 ∨ 4 < S)) ∨ (0.55 ≤ x ∧ x ≤ 0.65 ∧ (S = 3 ∨ S = 4))) :
    x = 0.90 := by
  rcases hxs with ⟨k, -⟩ | ⟨-, k⟩ | ⟨-, k⟩ | ⟨-, -, k⟩
  · exact k
  all_goals exact absurd hS (by omega)

/-- **C80, which goals and scales, in doubles.** With the default coherence, a run that finds the agents perfectly synchronised on the
target reports success for exactly the goals and scales that the program does not miscount. -/
theorem C80_default_double_partial (hz : ExactAtZero) (b : Builder F64) (hd : b.targetCoherence ≤ 0) (env : SwarmEnv F64) (now : ℤ) (c : Client F64)
    (hc : b.build env now = .ok c) (order : SyncMap ℕ → SyncMap ℕ) (hp : ∀ m, (order m).Perm m) (e : Tick F64)
    (hs : Spec.Perfect (e.others c.sync.swarm) 1000000000) (hcount : ((e.others c.sync.swarm).collectAgents id).length ≤ 2 ^ 26) :
    (c.start order [.tick e]).1 = .achieved ↔ ¬ Spec.MiscountedD b.goal b.scale := by
  obtain ⟨n, hn, -, -, -, -, -, y, h5, h6, h7⟩ := C73_client b env now c hc order hp
  replace h5 := h5.2 hd
  have hsc : ∀ s : ℤ, s = 0 ∨ s = 1 ∨ s = 2 ∨ s = 3 ∨ s = 4 ∨ (s < 0 ∨ 4 < s) := by intro s; omega
  obtain ⟨a0, a1, a2, a3, a4, a5⟩ := hn
  obtain ⟨b0, b1, b2, b3, b4, b5⟩ := h5
  obtain ⟨x, hy, hxs, hpr⟩ : ∃ x : ℝ, y = F64.ofReal x ∧
      ((x = 0.90 ∧ b.scale = 0) ∨ (x = 0.85 ∧ b.scale = 1) ∨ (x = 0.75 ∧ (b.scale = 2 ∨ b.scale < 0 ∨ 4 < b.scale)) ∨
      (0.55 ≤ x ∧ x ≤ 0.65 ∧ (b.scale = 3 ∨ b.scale = 4))) ∧ x ≤ (getCoherenceLimits n : CoherenceLimits ℝ).practical := by
    rcases hsc b.scale with h | h | h | h | h | h
    · exact ⟨0.90, b0 h, .inl ⟨rfl, h⟩, by rw [a0 h]; norm_num [getCoherenceLimits]⟩
    · exact ⟨0.85, b1 h, .inr (.inl ⟨rfl, h⟩), by rw [a1 h]; norm_num [getCoherenceLimits]⟩
    · exact ⟨0.75, b2 h, .inr (.inr (.inl ⟨rfl, .inl h⟩)), by rw [a2 h]; norm_num [getCoherenceLimits]⟩
    · exact ⟨0.65, b3 h, .inr (.inr (.inr ⟨by norm_num, le_rfl, .inl h⟩)), by rw [a3 h]; norm_num [getCoherenceLimits]⟩
    · exact ⟨0.55, b4 h, .inr (.inr (.inr ⟨le_rfl, by norm_num, .inr h⟩)), by rw [a4 h]; norm_num [getCoherenceLimits]⟩
    · exact ⟨0.75, b5 h, .inr (.inr (.inl ⟨rfl, .inr h⟩)), by rw [a5 h]; norm_num [getCoherenceLimits]⟩
  have hx01 : 0 ≤ x ∧ x ≤ 1 := by
    rcases hxs with ⟨k, -⟩ | ⟨k, -⟩ | ⟨k, -⟩ | ⟨k, k', -⟩
    · rw [k]; norm_num
    · rw [k]; norm_num
    · rw [k]; norm_num
    · constructor <;> linarith
  have hco : c.sync.swarm.goalState.coherence = F64.ofReal x := by
    rw [← hy]; apply h7
    rw [hy, limits_ofReal]
    exact F64.not_lt_of_le' (F64.ofReal_mono hpr)
  obtain ⟨z, hz', ez, z0, -⟩ := F64.ofReal_between isDouble_zero isDouble_one hx01.1 hx01.2
  rw [C80_client_double hz b env now c hc order hp e hs hcount ⟨z, hz'⟩ (hco.trans ez) z0, ← ez, thresholds_ofReal]
  have hg := thresholds b.goal
  have ht := threshold_le b.goal
  have htab := miscounted_table x _ b.goal b.scale hg hxs
  rcases miscounted_far x _ b.goal b.scale hg hxs with h | h
  · refine iff_of_true ?_ fun hm => hm.2 h
    have hx : x = 0.90 := tiny_target x b.scale h.2 hxs
    rw [hx, h.1]
    exact tie_below
  · rw [computed_iff hx01.1 hx01.2 ht.1 ht.2 h, htab]
    refine not_congr ⟨fun hm => ⟨hm, ?_⟩, fun hm => hm.1⟩
    rintro ⟨hg2, hs0⟩
    have hx : x = 0.90 := tiny_target x b.scale hs0 hxs
    rw [hx, hg2, show (configFor 2 : GoalConfig ℝ).patternDistanceThreshold = 0.03 from rfl] at h
    norm_num at h

/-! ### Witnesses -/

omit [LibM] in
/-- A correctly rounding library is exact at zero. -/
theorem exactAtZero_rounded : @ExactAtZero LibM.rounded := by
  refine @ExactAtZero.mk LibM.rounded ?_ ?_ ?_
  · exact Subtype.ext (show rnd (Real.cos 0) = 1 by rw [Real.cos_zero]; exact rnd_eq_self isDouble_one)
  · exact Subtype.ext (show rnd (Real.sin 0) = 0 by rw [Real.sin_zero]; exact rnd_eq_self isDouble_zero)
  · refine congrArg F64.fin (Subtype.ext (show signedRnd (Complex.arg ⟨1, 0⟩) = 0 from ?_))
    rw [show (⟨1, 0⟩ : ℂ) = 1 from rfl, Complex.arg_one]
    unfold signedRnd
    rw [if_pos le_rfl]; exact rnd_eq_self isDouble_zero

/-- A tick at which every agent has been brought to the target. -/
noncomputable def perfectTick : Tick F64 :=
  { others := fun s => { s with heap := fun a => { s.heap a with state := ⟨0, 1, 0, 1000000000⟩ } }
    order := fun _ m => m, order_perm := fun _ _ => .refl _, templates := id, templates_perm := fun _ => .refl _
    now := 0, clock := fun _ => 0, word := fun _ _ => 0, pick := fun _ => 0, noise := fun _ => 0, bonus := fun _ => 0, fuel := 0 }

/-- A client can be built for every goal and scale, and its agents can be perfectly synchronised. -/
theorem exists_client_double (g : GoalType) (s : Size) : ∃ (env : SwarmEnv F64) (c : Client F64),
    (Builder.mk g s 0 : Builder F64).build env 0 = .ok c ∧ Spec.Perfect (perfectTick.others c.sync.swarm) 1000000000 ∧
    ((perfectTick.others c.sync.swarm).collectAgents id).length ≤ 2 ^ 26 := by
  have hv : (Builder.mk g s 0 : Builder F64).target.validate = [] := by
    have hd : ∃ d : Dbl, (s.defaultTargetCoherence : F64) = .fin d ∧ 0 ≤ d.1 ∧ d.1 ≤ 1 := by
      unfold Size.defaultTargetCoherence
      split <;> exact lit01 _ (by norm_num) (by norm_num)
    obtain ⟨d, ed, d0, d1⟩ := hd
    have h0 : ¬ ((1000 * millisecond : ℤ) ≤ 0) := by unfold millisecond; norm_num
    have hl : (0 : F64) ≤ 0 := le_refl (0 : ℝ)
    unfold Builder.target State.validate
    dsimp only
    rw [if_neg h0, if_pos hl, ed]
    have hr : ¬ ((F64.fin d : F64) < 0 ∨ (F64.fin d : F64) > 1) :=
      not_or.2 ⟨F64.not_lt_of_le' (show (0 : ℝ) ≤ d.1 from d0), F64.not_lt_of_le' (show d.1 ≤ (1 : ℝ) from d1)⟩
    rw [if_neg hr]
    rfl
  obtain ⟨N, c, h⟩ := build_succeeds _ hv (C23_preset_withSize_double _ _) (SwarmEnv.simple (fun _ _ => 0) fun _ k => k) (fun _ => fair_self _) 0
  have hh := h N le_rfl
  obtain ⟨n, hn, ⟨addr, hx⟩, -⟩ := C73_client _ _ _ c hh id (fun _ => .refl _)
  have hlen := hx.listed.length_eq
  simp only [List.length_map, List.length_range] at hlen
  have hb : 1 ≤ n ∧ n ≤ 2000 := by
    obtain ⟨a0, a1, a2, a3, a4, a5⟩ := hn
    have hsc : s = 0 ∨ s = 1 ∨ s = 2 ∨ s = 3 ∨ s = 4 ∨ (s < 0 ∨ 4 < s) := by
      have : ∀ s : ℤ, s = 0 ∨ s = 1 ∨ s = 2 ∨ s = 3 ∨ s = 4 ∨ (s < 0 ∨ 4 < s) := by intro s; omega
      exact this s
    rcases hsc with h | h | h | h | h | h
    · have := a0 h; omega
    · have := a1 h; omega
    · have := a2 h; omega
    · have := a3 h; omega
    · have := a4 h; omega
    · have := a5 h; omega
  have hc' : ((perfectTick.others c.sync.swarm).collectAgents id).length = n := hlen
  refine ⟨_, c, hh, ⟨?_, fun a _ => ⟨rfl, rfl⟩⟩, by rw [hc']; omega⟩
  intro e
  rw [e] at hc'
  simp only [List.length_nil] at hc'
  omega

/-- **C80 in doubles** is refuted too: the first shorthand of the client library at the medium scale, whatever the rounding and with any
library that is exact at zero. -/
theorem C80_double_refuted (hz : ExactAtZero) : ¬ ∀ (b : Builder F64), b.targetCoherence = 0 → ∀ (env : SwarmEnv F64) (now : ℤ) (c : Client F64),
    b.build env now = .ok c → ∀ (order : SyncMap ℕ → SyncMap ℕ), (∀ m, (order m).Perm m) → ∀ e : Tick F64,
    Spec.Perfect (e.others c.sync.swarm) 1000000000 → (c.start order [.tick e]).1 = .achieved := by
  intro h
  obtain ⟨env, c, hb, hp, hl⟩ := exists_client_double 0 2
  have h1 := h _ rfl env 0 c hb id (fun _ => .refl _) _ hp
  exact (C80_default_double_partial hz _ (le_refl (0 : ℝ)) env 0 c hb id (fun _ => .refl _) _ hp hl).1 h1
    ⟨.inr (.inl ⟨rfl, by decide, by decide⟩), by decide⟩

/-- **C80, the tie.** Reaching consensus with the smallest swarm and the default coherence is counted by the program, although the two sides
of its comparison are equal in exact arithmetic: the success rests on how 0.9, 0.3 and 0.03 round. -/
theorem C80_tie (hz : ExactAtZero) : Spec.Miscounted 2 0 ∧ ∃ (env : SwarmEnv F64) (c : Client F64),
    (Builder.mk 2 0 0 : Builder F64).build env 0 = .ok c ∧ Spec.Perfect (perfectTick.others c.sync.swarm) 1000000000 ∧
    (c.start id [.tick perfectTick]).1 = .achieved := by
  obtain ⟨env, c, hb, hp, hl⟩ := exists_client_double 2 0
  exact ⟨.inl rfl, env, c, hb, hp,
    (C80_default_double_partial hz _ (le_refl (0 : ℝ)) env 0 c hb id (fun _ => .refl _) _ hp hl).2 fun hm => hm.2 ⟨rfl, rfl⟩⟩

omit [LibM] in
/-- With a correctly rounding library: consensus at the tiny scale counts, minimising calls at the medium scale does not. -/
example : letI := LibM.rounded
    ∃ (env env' : SwarmEnv F64) (c c' : Client F64), (Builder.mk 2 0 0 : Builder F64).build env 0 = .ok c ∧
      (Builder.mk 0 2 0 : Builder F64).build env' 0 = .ok c' ∧
      (c.start id [.tick perfectTick]).1 = .achieved ∧ (c'.start id [.tick perfectTick]).1 ≠ .achieved := by
  let := LibM.rounded
  obtain ⟨-, env, c, hb, -, ha⟩ := C80_tie exactAtZero_rounded
  obtain ⟨env', c', hb', hp, hl⟩ := exists_client_double 0 2
  refine ⟨env, env', c, c', hb, hb', ha, fun h1 => ?_⟩
  exact (C80_default_double_partial exactAtZero_rounded _ (le_refl (0 : ℝ)) env' 0 c' hb' id (fun _ => .refl _) _ hp hl).1 h1
    ⟨.inr (.inl ⟨rfl, by decide, by decide⟩), by decide⟩

end
end Verif
