import Verif.Props.SyncSafe
import Verif.Props.Completion

/-!
# C98: pulling the agents of a synchronised but spread swarm to the target phase
-/

set_option autoImplicit false
set_option linter.unusedSectionVars false

namespace Verif
open GoMath Spec
open Real (pi_pos)

local notation "π" => Real.pi

namespace Spec

/-- Going forward (with growing phase) by `d`, less than one turn, leads from `p` to `t`. -/
structure IsForward (p t d : ℝ) : Prop where
  nonneg : 0 ≤ d
  lt : d < 2 * π
  lands : SameAngle t (p + d)

end Spec

theorem isForward_wrap (p t : ℝ) : IsForward p t (wrapPhase (t - p)) where
  nonneg := wrapPhase_nonneg _
  lt := wrapPhase_lt _
  lands := by
    obtain ⟨k, hk⟩ := wrapPhase_sameAngle (t - p)
    exact ⟨-k, by rw [hk]; push_cast; ring⟩

theorem Spec.IsForward.eq_wrap {p t d : ℝ} (h : IsForward p t d) : wrapPhase (t - p) = d := by
  refine wrapPhase_unique ?_ h.nonneg h.lt
  obtain ⟨k, hk⟩ := h.lands
  exact ⟨-k, by rw [hk]; push_cast; ring⟩

theorem Spec.IsForward.circ {p t d : ℝ} (h : IsForward p t d) : IsCircDist p t (min d (2 * π - d)) := by
  obtain ⟨k, hk⟩ := h.lands
  have hp := pi_pos
  rcases le_total d π with hd | hd
  · rw [min_eq_left (by linarith)]
    have : d = |-d| := by rw [abs_neg, abs_of_nonneg h.nonneg]
    rw [this]
    refine isCircDist_of_le ⟨-k, ?_⟩ (by rw [← this]; exact hd)
    rw [hk]; push_cast; ring
  · rw [min_eq_right (by linarith)]
    have : 2 * π - d = |2 * π - d| := by rw [abs_of_nonneg (by linarith [h.lt])]
    rw [this]
    refine isCircDist_of_le ⟨-k - 1, ?_⟩ (by rw [← this]; linarith)
    rw [hk]; push_cast; ring

theorem randFloat64_real_mem (w : ℕ) : 0 ≤ (randFloat64 w : ℝ) ∧ (randFloat64 w : ℝ) < 1 := by
  have h : w % 2 ^ 53 < 2 ^ 53 := Nat.mod_lt _ (by positivity)
  have hc : ((w % 2 ^ 53 : ℕ) : ℝ) < 2 ^ 53 := by exact_mod_cast h
  unfold randFloat64
  simp only [GoMath.ofInt_real, Int.cast_natCast, Int.cast_pow, Int.cast_ofNat]
  exact ⟨by positivity, (div_lt_one (by positivity)).2 hc⟩

theorem setPhase_phase (a : Agent ℝ) (x : ℝ) : (a.setPhase x).state.phase = wrapPhase x := rfl

/-- The factor by which the forward distance shrinks: between `1 - 0.945·scale` and `1 - 0.855·scale`. -/
theorem pull_forward (c : AdjustCtx ℝ) (scale : ℝ) (w : ℕ → ℕ) (a : Agent ℝ) (d : ℝ) (hd : IsForward a.state.phase c.targetPhase d)
    (ht : c.cfg.patternDistanceThreshold < d) (h0 : 0 ≤ scale) (h1 : 0.945 * scale ≤ 1) :
    ∃ k, 0.855 * scale ≤ k ∧ k ≤ 0.945 * scale ∧ IsForward (pullAgent c scale w a).state.phase c.targetPhase (d * (1 - k)) := by
  obtain ⟨r0, r1⟩ := randFloat64_real_mem (w 0)
  refine ⟨scale * 0.9 * (0.95 + randFloat64 (w 0) * 0.1), by nlinarith, by nlinarith, ?_⟩
  have hk0 : 0 ≤ scale * 0.9 * (0.95 + (randFloat64 (w 0) : ℝ) * 0.1) := by positivity
  have hk1 : scale * 0.9 * (0.95 + (randFloat64 (w 0) : ℝ) * 0.1) ≤ 1 := by nlinarith
  unfold pullAgent
  dsimp only
  rw [hd.eq_wrap, GoMath.abs_real, abs_of_nonneg hd.nonneg, if_pos ht, setPhase_phase]
  generalize hk : scale * 0.9 * (0.95 + (randFloat64 (w 0) : ℝ) * 0.1) = k at *
  have e : a.state.phase + d * scale * 0.9 * (0.95 + randFloat64 (w 0) * 0.1) = a.state.phase + d * k := by rw [← hk]; ring
  rw [e]
  refine ⟨mul_nonneg hd.nonneg (by linarith), by nlinarith [hd.nonneg, hd.lt], ?_⟩
  obtain ⟨i, hi⟩ := wrapPhase_sameAngle (wrapPhase (a.state.phase + d * k))
  obtain ⟨j, hj⟩ := wrapPhase_sameAngle (a.state.phase + d * k)
  obtain ⟨l, hl⟩ := hd.lands
  exact ⟨l - i - j, by rw [hi, hj, hl]; push_cast; ring⟩

/-- **C98** A pull never increases the forward distance of an agent to the target phase: an agent within the threshold is left alone, any other comes
closer by a factor between `1 - 0.945·scale` and `1 - 0.855·scale`. -/
theorem C98_forward (c : AdjustCtx ℝ) (scale : ℝ) (w : ℕ → ℕ) (a : Agent ℝ) (d : ℝ) (hd : IsForward a.state.phase c.targetPhase d)
    (h0 : 0 ≤ scale) (h1 : 0.945 * scale ≤ 1) :
    (d ≤ c.cfg.patternDistanceThreshold → pullAgent c scale w a = a) ∧
    (c.cfg.patternDistanceThreshold < d → ∃ d', IsForward (pullAgent c scale w a).state.phase c.targetPhase d' ∧
      d * (1 - 0.945 * scale) ≤ d' ∧ d' ≤ d * (1 - 0.855 * scale)) := by
  constructor
  · intro h
    unfold pullAgent
    dsimp only
    rw [hd.eq_wrap, GoMath.abs_real, abs_of_nonneg hd.nonneg, if_neg (not_lt.2 h)]
  · intro h
    obtain ⟨k, k0, k1, hk⟩ := pull_forward c scale w a d hd h h0 h1
    exact ⟨_, hk, mul_le_mul_of_nonneg_left (by linarith) hd.nonneg, mul_le_mul_of_nonneg_left (by linarith) hd.nonneg⟩

/-- `n` pulls, each with its own random numbers. -/
noncomputable def pulls (c : AdjustCtx ℝ) (scale : ℝ) (w : ℕ → ℕ → ℕ) (a : Agent ℝ) : ℕ → Agent ℝ
  | 0 => a
  | n + 1 => pullAgent c scale (w n) (pulls c scale w a n)

/-- **C98** Repeated pulls bring every agent to the target, from behind: after `n` pulls its forward distance is at most the threshold or
`(1 - 0.855·scale)^n` of what it was. -/
theorem C98_converges (c : AdjustCtx ℝ) (scale : ℝ) (w : ℕ → ℕ → ℕ) (a : Agent ℝ) (d : ℝ) (hd : IsForward a.state.phase c.targetPhase d)
    (h0 : 0 ≤ scale) (h1 : 0.945 * scale ≤ 1) (n : ℕ) :
    ∃ d', IsForward (pulls c scale w a n).state.phase c.targetPhase d' ∧ d' ≤ max c.cfg.patternDistanceThreshold (d * (1 - 0.855 * scale) ^ n) := by
  induction n with
  | zero => exact ⟨d, hd, by simp⟩
  | succ n ih =>
    obtain ⟨d', h, hle⟩ := ih
    obtain ⟨s1, s2⟩ := C98_forward c scale (w n) _ d' h h0 h1
    rcases le_or_gt d' c.cfg.patternDistanceThreshold with ht | ht
    · refine ⟨d', ?_, le_max_of_le_left ht⟩
      simp only [pulls]; rw [s1 ht]; exact h
    · obtain ⟨d'', h2, -, hb⟩ := s2 ht
      refine ⟨d'', h2, le_max_of_le_right ?_⟩
      have hq : 0 ≤ 1 - 0.855 * scale := by nlinarith
      have : d' ≤ d * (1 - 0.855 * scale) ^ n := by
        rcases le_max_iff.1 hle with h' | h'
        · exact absurd h' (not_le.2 ht)
        · exact h'
      calc d'' ≤ d' * (1 - 0.855 * scale) := hb
        _ ≤ d * (1 - 0.855 * scale) ^ n * (1 - 0.855 * scale) := mul_le_mul_of_nonneg_right this hq
        _ = _ := by ring

/-- What a pull is for: the agent ends up closer to the target phase, on the circle. -/
def C98_claim : Prop := ∀ (c : AdjustCtx ℝ) (w : ℕ → ℕ) (a : Agent ℝ) (x x' : ℝ), c.cfg = minAPIConfig → c.spread = true →
  c.cfg.patternDistanceThreshold < x → IsCircDist a.state.phase c.targetPhase x →
  IsCircDist (pullAgent c c.scale w a).state.phase c.targetPhase x' → x' < x

/-- **C98** Exactly when a pull brings an agent closer: when the way forward is at most half a turn, or when the forward distance shrinks
below the old backward distance. -/
theorem C98_closer_partial (c : AdjustCtx ℝ) (scale : ℝ) (w : ℕ → ℕ) (a : Agent ℝ) (d d' x x' : ℝ) (hd : IsForward a.state.phase c.targetPhase d)
    (ht : c.cfg.patternDistanceThreshold < d) (hpos : 0 < d) (h0 : 0 < scale) (h1 : 0.945 * scale ≤ 1)
    (hd' : IsForward (pullAgent c scale w a).state.phase c.targetPhase d')
    (hx : IsCircDist a.state.phase c.targetPhase x) (hx' : IsCircDist (pullAgent c scale w a).state.phase c.targetPhase x') :
    x' < x ↔ d ≤ π ∨ d' < 2 * π - d := by
  obtain ⟨d2, hd2, -, hb⟩ := (C98_forward c scale w a d hd h0.le h1).2 ht
  have e : d2 = d' := by rw [← hd2.eq_wrap, hd'.eq_wrap]
  subst e
  rw [circDist_unique hx hd.circ, circDist_unique hx' hd'.circ]
  have hlt : d2 < d := by nlinarith
  have hp := pi_pos
  constructor
  · intro h
    by_contra hc
    rw [not_or, not_le, not_lt] at hc
    rw [min_eq_right (by linarith : 2 * π - d ≤ d)] at h
    rcases min_lt_iff.1 h with h | h <;> linarith [hc.1, hc.2]
  · rintro (h | h)
    · rw [min_eq_left (by linarith : d ≤ 2 * π - d)]
      exact lt_of_le_of_lt (min_le_left _ _) hlt
    · exact lt_of_le_of_lt (min_le_left _ _) (lt_min hlt h)

/-- A swarm of coherence 0.9 whose phases are spread, with target phase 0. -/
noncomputable def spreadCtx : AdjustCtx ℝ :=
  { cfg := minAPIConfig, phaseAdj := 0, freqAdj := 0, coherence := 0.9, variance := 0.5, targetPhase := 0, targetCoherence := 0.9, sizeNormalized := 1 }

theorem spreadCtx_spread : spreadCtx.spread = true ∧ spreadCtx.scale = 0.9 := by
  have h : spreadCtx.spread = true := by
    simp only [AdjustCtx.spread, spreadCtx, minAPIConfig, Bool.and_eq_true]
    norm_num
  refine ⟨h, ?_⟩
  unfold AdjustCtx.scale
  dsimp only
  rw [if_pos h]
  simp only [spreadCtx, minAPIConfig]
  norm_num

theorem ahead_forward (a : Agent ℝ) (ha : a.state.phase = 0.5) : IsForward a.state.phase spreadCtx.targetPhase (2 * π - 0.5) := by
  have hp := Real.pi_gt_three
  refine ⟨by linarith, by linarith, ⟨-1, ?_⟩⟩
  rw [ha]; simp only [spreadCtx]; push_cast; ring

/-- **C98** An agent half a radian ahead of the target, pulled with the default settings, ends up more than 0.85 radians behind it. -/
theorem C98_sent_round (w : ℕ → ℕ) (a : Agent ℝ) (ha : a.state.phase = 0.5) (x' : ℝ)
    (hx' : IsCircDist (pullAgent spreadCtx spreadCtx.scale w a).state.phase spreadCtx.targetPhase x') : 0.85 < x' := by
  have hp := Real.pi_gt_d2
  have hp4 := Real.pi_lt_d2
  obtain ⟨d', hd', hlo, hhi⟩ := (C98_forward spreadCtx spreadCtx.scale w a _ (ahead_forward a ha)
    (by rw [spreadCtx_spread.2]; norm_num) (by rw [spreadCtx_spread.2]; norm_num)).2 (by
      simp only [spreadCtx, minAPIConfig]; linarith)
  rw [spreadCtx_spread.2] at hlo hhi
  rw [circDist_unique hx' hd'.circ]
  refine lt_min ?_ ?_
  · norm_num at hlo; linarith
  · norm_num at hhi; linarith

/-- The hypotheses of `C98_forward`, `C98_converges` and `C98_closer_partial` are met by the agent of `C98_sent_round`: the way forward is almost a whole
turn, beyond the threshold, and the scale is 0.9. -/
example : ∃ a : Agent ℝ, IsForward a.state.phase spreadCtx.targetPhase (2 * π - 0.5) ∧ spreadCtx.cfg.patternDistanceThreshold < 2 * π - 0.5 ∧
    0 < spreadCtx.scale ∧ 0.945 * spreadCtx.scale ≤ 1 := by
  have hp := Real.pi_gt_three
  refine ⟨{ (Agent.zero : Agent ℝ) with state := { (Agent.zero : Agent ℝ).state with phase := 0.5 } }, ahead_forward _ rfl, ?_, ?_, ?_⟩
  · simp only [spreadCtx, minAPIConfig]; linarith
  · rw [spreadCtx_spread.2]; norm_num
  · rw [spreadCtx_spread.2]; norm_num

/-- An agent half a radian ahead of the target is farther away after a pull. -/
theorem C98_refuted : ¬ C98_claim := by
  intro h
  obtain ⟨a, ha⟩ : ∃ a : Agent ℝ, a.state.phase = 0.5 := ⟨{ (Agent.zero : Agent ℝ) with state := { (Agent.zero : Agent ℝ).state with phase := 0.5 } }, rfl⟩
  have hf := (ahead_forward a ha).circ
  have hp := Real.pi_gt_three
  rw [min_eq_right (by linarith)] at hf
  have hn := (isForward_wrap (pullAgent spreadCtx spreadCtx.scale (fun _ => 0) a).state.phase spreadCtx.targetPhase).circ
  have h1 := h spreadCtx (fun _ => 0) a _ _ rfl spreadCtx_spread.1 (by simp only [spreadCtx, minAPIConfig]; norm_num) hf hn
  have h2 := C98_sent_round (fun _ => 0) a ha _ hn
  linarith

end Verif
