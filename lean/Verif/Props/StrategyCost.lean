import Verif.Props.Strategy

/-!
# C118: what the strategies propose and what it costs
-/

set_option autoImplicit false
set_option linter.unusedSectionVars false

namespace Verif
open Real Spec

namespace Spec

/-- The phase after following `n` proposals. -/
noncomputable def walk (propose : ℝ → Action ℝ) : ℕ → ℝ → ℝ
  | 0, p => p
  | n + 1, p => walk propose n (wrapPhase (p + (propose p).value))

/-- The energy asked for by the first `n` proposals. -/
noncomputable def bill (propose : ℝ → Action ℝ) : ℕ → ℝ → ℝ
  | 0, _ => 0
  | n + 1, p => (propose p).cost + bill propose n (wrapPhase (p + (propose p).value))

/-- The target is none of the phases that `PhaseDifference` treats specially. -/
def PlainTarget (t : ℝ) : Prop := 1e-10 ≤ |t| ∧ 1e-10 ≤ |t - 3 * π / 2|

end Spec

theorem PlainTarget.not_special {t : ℝ} (h : PlainTarget t) (q : ℝ) : ¬ SpecialPair t q := by
  rintro (⟨h', -⟩ | ⟨h', -⟩)
  · linarith [h.1]
  · linarith [h.2]

theorem rotation_unique {a b d e : ℝ} (hd : ShortestRotation a b d) (he : ShortestRotation a b e) : d = e := by
  obtain ⟨k, hk⟩ := hd.lands
  obtain ⟨l, hl⟩ := he.lands
  have h : d = e + (k - l) * (2 * π) := by linarith
  have hp := Real.pi_pos
  have a1 := hd.gt
  have a2 := hd.le
  have a3 := he.gt
  have a4 := he.le
  have h1 : ((k - l : ℤ) : ℝ) < 1 := by
    by_contra hc; push Not at hc; push_cast at hc; nlinarith
  have h2 : (-1 : ℝ) < ((k - l : ℤ) : ℝ) := by
    by_contra hc; push Not at hc; push_cast at hc; nlinarith
  have h1' : k - l < 1 := by exact_mod_cast h1
  have h2' : -1 < k - l := by exact_mod_cast h2
  have : k = l := by omega
  rw [h, this]; ring

theorem difference_eq {t q d : ℝ} (h : ¬ SpecialPair t q) (hd : ShortestRotation q t d) : phaseDifference t q = d :=
  rotation_unique (phaseDifference_shortestRotation h) hd

theorem rotation_step {p t d r : ℝ} (hd : ShortestRotation p t d) (h0 : 0 ≤ r) (h1 : r ≤ 1) : ShortestRotation (wrapPhase (p + d * r)) t ((1 - r) * d) := by
  have hp := Real.pi_pos
  have hgt := hd.gt
  have hle := hd.le
  apply shortestRotation_of
  · refine ((wrapPhase_sameAngle (p + d * r)).add_right ((1 - r) * d)).trans ?_
    have e : p + d * r + (1 - r) * d = p + d := by ring
    rw [e]; exact hd.lands
  · rcases le_total 0 d with h | h <;> nlinarith
  · rcases le_total 0 d with h | h <;> nlinarith

/-- **C118** With `d` the shortest rotation to the target: a nudge, a lock and a due pulse propose the share of `d` given by their rate, at 2, 3 and 4 units of energy
for a radian. -/
theorem C118_rates (r : ℝ) (h0 : 0 ≤ r) (cur tgt : State ℝ) (ctx : Context ℝ) (d : ℝ) (hs : ¬ SpecialPair tgt.phase cur.phase)
    (hd : ShortestRotation cur.phase tgt.phase d) :
    ((phaseNudgePropose r cur tgt ctx).1.value = d * r ∧ (phaseNudgePropose r cur tgt ctx).1.cost = 2 * |d * r| ∧
      (phaseNudgePropose r cur tgt ctx).1.benefit = 3 / 2 * (1 - |d| / π) ∧ (phaseNudgePropose r cur tgt ctx).2 = max (1 / 2) (1 - ctx.localCoherence)) ∧
    ((frequencyLockPropose r cur tgt ctx).1.value = d * r ∧ (frequencyLockPropose r cur tgt ctx).1.cost = 3 * |d * r| ∧
      (frequencyLockPropose r cur tgt ctx).1.benefit = 2 * ctx.localCoherence ∧ (frequencyLockPropose r cur tgt ctx).2 = ctx.localCoherence * r) ∧
    ∀ (s : Pulse ℝ) (now : ℤ), s.amplitude = r → s.lastPulse + s.period ≤ now → (s.propose now cur tgt ctx).1.1.value = d * r ∧
      (s.propose now cur tgt ctx).1.1.cost = 4 * |d * r| ∧ (s.propose now cur tgt ctx).1.1.benefit = 2 ∧ (s.propose now cur tgt ctx).1.2 = r := by
  have e := difference_eq hs hd
  refine ⟨⟨?_, ?_, ?_, ?_⟩, ⟨?_, ?_, ?_, ?_⟩, ?_⟩
  · simp only [phaseNudgePropose, e]
  · simp only [phaseNudgePropose, e, GoMath.abs_real]; norm_num; ring
  · simp only [phaseNudgePropose, e, GoMath.abs_real, GoMath.piMul_real]; norm_num; ring
  · simp only [phaseNudgePropose, GoMath.fmax_real]; norm_num
  · simp only [frequencyLockPropose, e]
  · simp only [frequencyLockPropose, e, GoMath.abs_real]; norm_num; ring
  · simp only [frequencyLockPropose]; norm_num; ring
  · simp only [frequencyLockPropose]
  · rintro s now rfl hn
    have hn' : ¬ now - s.lastPulse < s.period := by omega
    simp only [Pulse.propose, if_neg hn', e, GoMath.abs_real]
    refine ⟨trivial, ?_, by norm_num, trivial⟩
    norm_num; ring

/-- **C118** The energy-aware strategy proposes a tenth of the rotation for half a unit of energy, whatever the distance, and within a tenth of a radian to stay for a
tenth of a unit. -/
theorem C118_energy (cur tgt : State ℝ) (ctx : Context ℝ) (d : ℝ) (hs : ¬ SpecialPair tgt.phase cur.phase) (hd : ShortestRotation cur.phase tgt.phase d) :
    let a := energyAwarePropose cur tgt ctx
    (|d| < 1 / 10 → a.1.value = 0 ∧ a.1.cost = 1 / 10 ∧ a.1.benefit = ctx.stability ∧ a.2 = 1 / 2) ∧
    (1 / 10 ≤ |d| → a.1.value = d * (1 / 10) ∧ a.1.cost = 1 / 2 ∧ a.1.benefit = ctx.progress / 2 ∧ a.2 = 3 / 10) := by
  have e := difference_eq hs hd
  have hp := Real.pi_lt_d2
  have habs : |d| ≤ π := abs_le.2 ⟨hd.gt.le, hd.le⟩
  have e1 : (0.1 : ℝ) = 1 / 10 := by norm_num
  dsimp only
  unfold energyAwarePropose
  simp only [e, GoMath.abs_real, GoMath.fmax_real, e1]
  constructor
  · intro h
    rw [if_pos h]
    exact ⟨rfl, rfl, rfl, by norm_num⟩
  · intro h
    rw [if_neg (not_lt.2 h)]
    refine ⟨rfl, ?_, ?_, by norm_num⟩
    · show max (0.5 : ℝ) |d * (1 / 10)| = 1 / 2
      rw [abs_mul, abs_of_pos (by norm_num : (0 : ℝ) < 1 / 10), max_eq_left]
      norm_num; linarith
    · show ctx.progress * 0.5 = _
      norm_num; ring

/-- Nudging never costs more than two units for each radian of the way. -/
theorem bill_nudge (r : ℝ) (h0 : 0 ≤ r) (h1 : r ≤ 1) (f : ℤ) (c : ℝ) (tgt : State ℝ) (ctx : Context ℝ) (ht : PlainTarget tgt.phase) (n : ℕ) :
    ∀ (p d : ℝ), ShortestRotation p tgt.phase d → bill (fun q => (phaseNudgePropose r ⟨q, f, c⟩ tgt ctx).1) n p = 2 * |d| * (1 - (1 - r) ^ n) ∧
      ShortestRotation (walk (fun q => (phaseNudgePropose r ⟨q, f, c⟩ tgt ctx).1) n p) tgt.phase ((1 - r) ^ n * d) := by
  induction n with
  | zero => intro p d hd; simpa [bill, walk] using hd
  | succ n ih =>
    intro p d hd
    obtain ⟨⟨hv, hc, -⟩, -⟩ := C118_rates r h0 ⟨p, f, c⟩ tgt ctx d (PlainTarget.not_special ht _) hd
    have hst := rotation_step hd h0 h1
    obtain ⟨i1, i2⟩ := ih _ _ hst
    constructor
    · simp only [bill]
      rw [hv, hc, i1, abs_mul, abs_mul, abs_of_nonneg h0, abs_of_nonneg (by linarith : 0 ≤ 1 - r)]
      ring
    · simp only [walk]
      rw [hv, pow_succ, mul_assoc]
      exact i2

section
variable (f : ℤ) (c : ℝ) (tgt : State ℝ) (ctx : Context ℝ)

/-- The energy-aware proposals on the way to `tgt`. -/
noncomputable def Spec.saver (q : ℝ) : Action ℝ := (energyAwarePropose ⟨q, f, c⟩ tgt ctx).1

/-- The distance to the target is below a tenth of a radian. -/
def Spec.There (t p : ℝ) : Prop := ∃ d, ShortestRotation p t d ∧ |d| < 1 / 10

theorem saver_cost_nonneg (n : ℕ) : ∀ p, 0 ≤ bill (saver f c tgt ctx) n p := by
  induction n with
  | zero => intro p; simp [bill]
  | succ n ih =>
    intro p
    have h : 0 ≤ (saver f c tgt ctx p).cost := by
      unfold saver energyAwarePropose
      dsimp only
      split_ifs
      · norm_num
      · exact le_trans (by norm_num) (le_max_left _ _)
    simp only [bill]
    linarith [ih (wrapPhase (p + (saver f c tgt ctx p).value))]

theorem saver_step (ht : PlainTarget tgt.phase) {n : ℕ} {p d : ℝ} (hd : ShortestRotation p tgt.phase d) (h : 1 / 10 ≤ |d|)
    (ha : There tgt.phase (walk (saver f c tgt ctx) n p)) :
    ∃ m q, n = m + 1 ∧ ShortestRotation q tgt.phase (9 / 10 * d) ∧ There tgt.phase (walk (saver f c tgt ctx) m q) ∧
      bill (saver f c tgt ctx) n p = 1 / 2 + bill (saver f c tgt ctx) m q := by
  cases n with
  | zero =>
    obtain ⟨e, he, hl⟩ := ha
    rw [show walk (saver f c tgt ctx) 0 p = p from rfl] at he
    rw [rotation_unique he hd] at hl
    linarith
  | succ m =>
    obtain ⟨hv, hc, -⟩ := (C118_energy ⟨p, f, c⟩ tgt ctx d (PlainTarget.not_special ht _) hd).2 h
    have hst := rotation_step hd (by norm_num : (0 : ℝ) ≤ 1 / 10) (by norm_num)
    refine ⟨m, wrapPhase (p + (saver f c tgt ctx p).value), rfl, ?_, ha, ?_⟩
    · unfold saver; rw [hv]; convert hst using 1; ring
    · simp only [bill]; congr 1

theorem saver_near (ht : PlainTarget tgt.phase) (n : ℕ) : ∀ (p d : ℝ), ShortestRotation p tgt.phase d → 1 / 10 ≤ |d| → |d| ≤ 5 / 4 →
    There tgt.phase (walk (saver f c tgt ctx) n p) → 4 * |d| ≤ bill (saver f c tgt ctx) n p := by
  induction n with
  | zero =>
    intro p d hd h1 h2 ha
    obtain ⟨m, q, hm, -⟩ := saver_step f c tgt ctx ht hd h1 ha
    omega
  | succ n ih =>
    intro p d hd h1 h2 ha
    obtain ⟨m, q, hm, hq, ha', hb⟩ := saver_step f c tgt ctx ht hd h1 ha
    obtain rfl : m = n := by omega
    rw [hb]
    have e : |9 / 10 * d| = 9 / 10 * |d| := by rw [abs_mul, abs_of_pos (by norm_num)]
    by_cases h : 1 / 10 ≤ |9 / 10 * d|
    · have := ih q _ hq h (by rw [e]; linarith) ha'
      rw [e] at this
      linarith
    · have := saver_cost_nonneg f c tgt ctx m q
      rw [e] at h
      linarith

theorem saver_far (ht : PlainTarget tgt.phase) (n : ℕ) : ∀ (p d : ℝ), ShortestRotation p tgt.phase d → 5 / 4 ≤ |d| →
    There tgt.phase (walk (saver f c tgt ctx) n p) → 5 ≤ bill (saver f c tgt ctx) n p := by
  induction n with
  | zero =>
    intro p d hd h1 ha
    obtain ⟨m, q, hm, -⟩ := saver_step f c tgt ctx ht hd (by linarith) ha
    omega
  | succ n ih =>
    intro p d hd h1 ha
    obtain ⟨m, q, hm, hq, ha', hb⟩ := saver_step f c tgt ctx ht hd (by linarith) ha
    obtain rfl : m = n := by omega
    rw [hb]
    have e : |9 / 10 * d| = 9 / 10 * |d| := by rw [abs_mul, abs_of_pos (by norm_num)]
    by_cases h : 5 / 4 ≤ |9 / 10 * d|
    · linarith [ih q _ hq h ha']
    · have := saver_near f c tgt ctx ht m q _ hq (by rw [e]; linarith) (by linarith) ha'
      rw [e] at this
      linarith

/-- **C118** Coming within a tenth of a radian of the target costs the energy-aware strategy more than phase nudging costs on its whole way, at whatever rate. -/
theorem C118_dearer (ht : PlainTarget tgt.phase) (p d : ℝ) (hd : ShortestRotation p tgt.phase d) (h : 1 / 10 ≤ |d|) (n : ℕ)
    (ha : There tgt.phase (walk (saver f c tgt ctx) n p)) (r : ℝ) (h0 : 0 ≤ r) (h1 : r ≤ 1) (m : ℕ) :
    bill (fun q => (phaseNudgePropose r ⟨q, f, c⟩ tgt ctx).1) m p < bill (saver f c tgt ctx) n p := by
  have hp := Real.pi_lt_d2
  have habs : |d| ≤ π := abs_le.2 ⟨hd.gt.le, hd.le⟩
  have hb : bill (fun q => (phaseNudgePropose r ⟨q, f, c⟩ tgt ctx).1) m p ≤ 2 * |d| := by
    rw [(bill_nudge r h0 h1 f c tgt ctx ht m p d hd).1]
    have : 0 ≤ (1 - r) ^ m := pow_nonneg (by linarith) m
    nlinarith [abs_nonneg d]
  refine hb.trans_lt ?_
  rcases le_total |d| (5 / 4) with h2 | h2
  · linarith [saver_near f c tgt ctx ht n p d hd h h2 ha]
  have e : ∀ x : ℝ, |9 / 10 * x| = 9 / 10 * |x| := fun x => by rw [abs_mul, abs_of_pos (by norm_num)]
  have h5 := saver_far f c tgt ctx ht n p d hd h2 ha
  rcases lt_or_ge |d| (1.72 : ℝ) with h3 | h3
  · norm_num at h3; linarith
  norm_num at h3
  obtain ⟨m1, q1, -, hd1, ha1, hb1⟩ := saver_step f c tgt ctx ht hd h ha
  obtain ⟨m2, q2, -, hd2, ha2, hb2⟩ := saver_step f c tgt ctx ht hd1 (by rw [e]; linarith) ha1
  obtain ⟨m3, q3, -, hd3, ha3, hb3⟩ := saver_step f c tgt ctx ht hd2 (by rw [e, e]; linarith) ha2
  have := saver_far f c tgt ctx ht m3 q3 _ hd3 (by rw [e, e, e]; linarith) ha3
  norm_num at hp
  linarith

/-- **C118** The energy-aware strategy does arrive, after at most 33 proposals. -/
theorem C118_arrives (ht : PlainTarget tgt.phase) (p d : ℝ) (hd : ShortestRotation p tgt.phase d) : ∃ n ≤ 33, There tgt.phase (walk (saver f c tgt ctx) n p) := by
  have key : ∀ (n : ℕ) (p d : ℝ), ShortestRotation p tgt.phase d → (9 / 10) ^ n * |d| < 1 / 10 → ∃ k ≤ n, There tgt.phase (walk (saver f c tgt ctx) k p) := by
    intro n
    induction n with
    | zero => intro p d hd h; exact ⟨0, le_rfl, d, hd, by simpa using h⟩
    | succ n ih =>
      intro p d hd h
      by_cases hc : 1 / 10 ≤ |d|
      · obtain ⟨hv, -⟩ := (C118_energy ⟨p, f, c⟩ tgt ctx d (PlainTarget.not_special ht _) hd).2 hc
        have hst := rotation_step hd (by norm_num : (0 : ℝ) ≤ 1 / 10) (by norm_num)
        obtain ⟨k, hk, h'⟩ := ih _ _ hst (by
          rw [abs_mul, abs_of_pos (by norm_num : (0 : ℝ) < 1 - 1 / 10)]
          calc _ = (9 / 10) ^ (n + 1) * |d| := by rw [pow_succ]; norm_num; ring
            _ < _ := h)
        refine ⟨k + 1, by omega, ?_⟩
        simp only [walk]
        unfold saver
        rw [hv]
        exact h'
      · exact ⟨0, by omega, d, hd, not_le.1 hc⟩
  have habs : |d| ≤ π := abs_le.2 ⟨hd.gt.le, hd.le⟩
  have hp := Real.pi_lt_d2
  refine key 33 p d hd ?_
  norm_num at hp ⊢
  linarith

end

/-- "EnergyAware conserves energy while synchronizing" (emerge/strategy/energy_aware.go:9): on some way to the target it needs at most the energy of phase nudging. -/
def C118_claim : Prop := ∀ (f : ℤ) (c : ℝ) (tgt : State ℝ) (ctx : Context ℝ) (p : ℝ), PlainTarget tgt.phase → ∃ n, There tgt.phase (walk (saver f c tgt ctx) n p) ∧
  ∀ m, There tgt.phase (walk (fun q => (phaseNudgePropose 0.3 ⟨q, f, c⟩ tgt ctx).1) m p) →
    bill (saver f c tgt ctx) n p ≤ bill (fun q => (phaseNudgePropose 0.3 ⟨q, f, c⟩ tgt ctx).1) m p

/-- An agent at phase 0 and a target at 1. -/
theorem one_way : PlainTarget 1 ∧ ShortestRotation 0 1 1 := by
  have := Real.pi_gt_three
  refine ⟨⟨by norm_num, ?_⟩, shortestRotation_of ⟨0, by simp⟩ (by linarith) (by linarith)⟩
  rw [abs_of_neg (by linarith)]; norm_num; linarith

/-- **C118** False: it always needs more. -/
theorem C118_refuted : ¬ C118_claim := by
  intro h
  obtain ⟨ht, hd⟩ := one_way
  obtain ⟨n, ha, hn⟩ := h 0 0 ⟨1, 0, 0⟩ ⟨0, 0, 0, 0, 0⟩ 0 ht
  have hb := bill_nudge 0.3 (by norm_num) (by norm_num) 0 0 ⟨1, 0, 0⟩ ⟨0, 0, 0, 0, 0⟩ ht 7 0 1 hd
  have h1 := hn 7 ⟨_, hb.2, by norm_num [abs_of_pos]⟩
  have h2 := C118_dearer 0 0 ⟨1, 0, 0⟩ ⟨0, 0, 0, 0, 0⟩ ht 0 1 hd (by norm_num) n ha 0.3 (by norm_num) (by norm_num) 7
  linarith

/-- The theorems apply to an agent one radian away. -/
example : ∃ n ≤ 33, There 1 (walk (saver 0 0 ⟨1, 0, 0⟩ ⟨0, 0, 0, 0, 0⟩) n 0) ∧
    bill (fun q => (phaseNudgePropose 0.5 ⟨q, 0, 0⟩ ⟨1, 0, 0⟩ ⟨0, 0, 0, 0, 0⟩).1) 1000 0 < bill (saver 0 0 ⟨1, 0, 0⟩ ⟨0, 0, 0, 0, 0⟩) n 0 := by
  obtain ⟨ht, hd⟩ := one_way
  obtain ⟨n, hn, ha⟩ := C118_arrives 0 0 ⟨1, 0, 0⟩ ⟨0, 0, 0, 0, 0⟩ ht 0 1 hd
  exact ⟨n, hn, ha, C118_dearer 0 0 ⟨1, 0, 0⟩ _ ht 0 1 hd (by norm_num) n ha 0.5 (by norm_num) (by norm_num) 1000⟩

end Verif
