import Verif.Props.NudgeRun
import Verif.Props.DecisionDouble
import Verif.Props.PatternsDouble
import Verif.Props.PhaseAccuracy
import Verif.Props.Bars
import Verif.Props.Resource

/-!
# C109 and C111 in doubles: repeated adjustments synchronise a swarm, rounding included
-/

set_option autoImplicit false
set_option linter.unusedSectionVars false

namespace Verif
open GoMath Spec Rounding

section
variable [Rounding] [LibM]

/-! ### Numbers known up to an error -/

/-- `x` is a finite double within `e` of `X`. -/
def Spec.App (x : F64) (X e : ℝ) : Prop := ∃ d : Dbl, x = .fin d ∧ |d.1 - X| ≤ e

theorem App.ofReal {x : ℝ} (h : |x| ≤ 200) : App (F64.ofReal x) x (1 / 10 ^ 13) := by
  have hu := ulp_pos
  have hus : ulp ≤ 1 / 9000000000000000 := by unfold ulp; rw [zpow_neg]; norm_num
  have heu := eta_le_ulp
  obtain ⟨d, e, hd⟩ := F64.ofReal_err (x := x) (small_lt_1023 (by
    have : (200 : ℝ) ≤ 2 ^ (200 : ℤ) := by norm_num
    linarith))
  refine ⟨d, e, hd.trans ?_⟩
  have : ulp * |x| ≤ ulp * 200 := mul_le_mul_of_nonneg_left h hu.le
  norm_num
  linarith

theorem App.fin (d : Dbl) : App (.fin d) d.1 0 := ⟨d, rfl, by simp⟩

theorem App.add {x y : F64} {X Y e f g : ℝ} (hx : App x X e) (hy : App y Y f) (hb : |X + Y| ≤ 100) (he : e + f + 1 / 10 ^ 13 ≤ g) (hg : g ≤ 1) :
    App (x + y) (X + Y) g := by
  obtain ⟨a, rfl, ha⟩ := hx
  obtain ⟨b, rfl, hb'⟩ := hy
  have h1 : |a.1 + b.1 - (X + Y)| ≤ e + f := by
    rw [show a.1 + b.1 - (X + Y) = (a.1 - X) + (b.1 - Y) by ring]
    exact (abs_add_le _ _).trans (by linarith)
  have h2 := abs_sub_abs_le_abs_sub (a.1 + b.1) (X + Y)
  have ht : (0 : ℝ) < 1 / 10 ^ 13 := by norm_num
  obtain ⟨d, ed, hd⟩ := App.ofReal (x := a.1 + b.1) (by linarith)
  refine ⟨d, by rw [F64.add_fin, ed], ?_⟩
  have := abs_sub_le d.1 (a.1 + b.1) (X + Y)
  linarith

theorem App.sub {x y : F64} {X Y e f g : ℝ} (hx : App x X e) (hy : App y Y f) (hb : |X - Y| ≤ 100) (he : e + f + 1 / 10 ^ 13 ≤ g) (hg : g ≤ 1) :
    App (x - y) (X - Y) g := by
  obtain ⟨a, rfl, ha⟩ := hx
  obtain ⟨b, rfl, hb'⟩ := hy
  have h1 : |a.1 - b.1 - (X - Y)| ≤ e + f := by
    rw [show a.1 - b.1 - (X - Y) = (a.1 - X) - (b.1 - Y) by ring]
    exact (abs_sub _ _).trans (by linarith)
  have h2 := abs_sub_abs_le_abs_sub (a.1 - b.1) (X - Y)
  have ht : (0 : ℝ) < 1 / 10 ^ 13 := by norm_num
  obtain ⟨d, ed, hd⟩ := App.ofReal (x := a.1 - b.1) (by linarith)
  refine ⟨d, by rw [F64.sub_fin, ed], ?_⟩
  have := abs_sub_le d.1 (a.1 - b.1) (X - Y)
  linarith

theorem App.mul {x y : F64} {X Y e f g A B : ℝ} (hx : App x X e) (hy : App y Y f) (hA : |X| ≤ A) (hB : |Y| ≤ B) (hAB : A * B ≤ 100)
    (he : e * B + f * A + e * f + 1 / 10 ^ 13 ≤ g) (hg : g ≤ 1) : App (x * y) (X * Y) g := by
  obtain ⟨a, rfl, ha⟩ := hx
  obtain ⟨b, rfl, hb'⟩ := hy
  have e0 := (abs_nonneg _).trans ha
  have f0 := (abs_nonneg _).trans hb'
  have h1 : |a.1 * b.1 - X * Y| ≤ e * B + f * A + e * f := by
    rw [show a.1 * b.1 - X * Y = (a.1 - X) * Y + X * (b.1 - Y) + (a.1 - X) * (b.1 - Y) by ring]
    refine (abs_add_le _ _).trans (add_le_add ((abs_add_le _ _).trans (add_le_add ?_ ?_)) ?_)
    · rw [abs_mul]; exact mul_le_mul ha hB (abs_nonneg _) e0
    · rw [abs_mul, mul_comm f]; exact mul_le_mul hA hb' (abs_nonneg _) ((abs_nonneg _).trans hA)
    · rw [abs_mul]; exact mul_le_mul ha hb' (abs_nonneg _) e0
  have h2 := abs_sub_abs_le_abs_sub (a.1 * b.1) (X * Y)
  have h3 : |X * Y| ≤ A * B := by rw [abs_mul]; exact mul_le_mul hA hB (abs_nonneg _) ((abs_nonneg _).trans hA)
  have ht : (0 : ℝ) < 1 / 10 ^ 13 := by norm_num
  obtain ⟨d, ed, hd⟩ := App.ofReal (x := a.1 * b.1) (by linarith)
  refine ⟨d, by rw [F64.mul_fin, ed], ?_⟩
  have := abs_sub_le d.1 (a.1 * b.1) (X * Y)
  linarith

theorem App.half {x : F64} {X e g : ℝ} (hx : App x X e) (hb : |X| ≤ 100) (he : e + 1 / 10 ^ 13 ≤ g) (hg : g ≤ 1) :
    App (x / (2.0 : F64)) (X / 2) g := by
  obtain ⟨a, rfl, ha⟩ := hx
  have e0 := (abs_nonneg _).trans ha
  have e2 : (2.0 : F64) = .fin ⟨2, isDouble_ofNat 2 (by norm_num)⟩ := by
    have h : (2.0 : ℝ) = 2 := by norm_num
    show F64.ofReal 2.0 = _
    rw [h]; exact F64.ofReal_of_isDouble _
  have h1 : |a.1 / 2 - X / 2| ≤ e := by
    rw [← sub_div, abs_div, abs_two]; linarith
  have h2 := abs_sub_abs_le_abs_sub (a.1 / 2) (X / 2)
  have h3 : |X / 2| ≤ 50 := by rw [abs_div, abs_two]; linarith
  have ht : (0 : ℝ) < 1 / 10 ^ 13 := by norm_num
  obtain ⟨d, ed, hd⟩ := App.ofReal (x := a.1 / 2) (by linarith)
  refine ⟨d, by rw [e2, F64.div_fin (by norm_num), ed], ?_⟩
  have := abs_sub_le d.1 (a.1 / 2) (X / 2)
  linarith

theorem App.lt {x y : F64} {X Y e f : ℝ} (hx : App x X e) (hy : App y Y f) : (x < y → X < Y + (e + f)) ∧ (¬ x < y → Y ≤ X + (e + f)) := by
  obtain ⟨a, rfl, ha⟩ := hx
  obtain ⟨b, rfl, hb⟩ := hy
  rw [abs_le] at ha hb
  rw [F64.lt_fin]
  exact ⟨fun h => by linarith [ha.1, hb.2], fun h => by linarith [not_lt.1 h, ha.2, hb.1]⟩

theorem App.rand (w : ℕ) : ∃ r : ℝ, 0 ≤ r ∧ r < 1 ∧ App (randFloat64 w) r 0 := by
  obtain ⟨h, e⟩ := C32_float_exact w
  have hm : ((w % 2 ^ 53 : ℕ) : ℝ) < 2 ^ 53 := by exact_mod_cast Nat.mod_lt _ (by norm_num)
  exact ⟨_, by positivity, (div_lt_one (by positivity)).2 hm, ⟨_, e, by simp⟩⟩

/-! ### One nudge -/

namespace Spec

/-- What an adjustment has measured, in doubles: the default configuration, no common shift, at least seven agents and a coherence that does not exceed 0.8. -/
structure UsualD (c : AdjustCtx F64) (z q t : Dbl) : Prop where
  cfg : c.cfg = minAPIConfig
  adj : c.phaseAdj = 0
  size : c.sizeNormalized = .fin z
  size0 : 0.0699 ≤ z.1
  size1 : z.1 ≤ 1
  coh : c.coherence = .fin q
  coh0 : 0 ≤ q.1
  coh1 : ¬ (0.8 : F64) < .fin q
  phase : c.targetPhase = .fin t
  phase1 : |t.1| ≤ 7

end Spec

theorem Spec.UsualD.coh_le {c : AdjustCtx F64} {z q t : Dbl} (hc : UsualD c z q t) : q.1 ≤ 0.8 + 1 / 10 ^ 13 := by
  have h8 : App (0.8 : F64) 0.8 (1 / 10 ^ 13) := App.ofReal (by rw [abs_of_pos (by norm_num)]; norm_num)
  have := (App.lt h8 (App.fin q)).2 hc.coh1
  linarith

theorem Spec.UsualD.quiet {c : AdjustCtx F64} {z q t : Dbl} (hc : UsualD c z q t) : c.spread = false ∧ c.settled = false := by
  have hq := hc.coh_le
  constructor
  · unfold AdjustCtx.spread
    rw [hc.cfg, hc.coh, Bool.and_eq_false_iff]
    left
    rw [decide_eq_false_iff_not]
    obtain ⟨d, ed, hd⟩ : App (0.85 : F64) 0.85 (1 / 10 ^ 13) := App.ofReal (by rw [abs_of_pos (by norm_num)]; norm_num)
    show ¬ ((0.85 : F64) ≤ .fin q)
    rw [ed, F64.le_fin]
    rw [abs_le] at hd
    norm_num at hd hq
    linarith
  · unfold AdjustCtx.settled
    rw [hc.cfg, hc.coh, Bool.and_eq_false_iff]
    left
    rw [decide_eq_false_iff_not]
    obtain ⟨d, ed, hd⟩ : App (0.90 : F64) 0.90 (1 / 10 ^ 13) := App.ofReal (by rw [abs_of_pos (by norm_num)]; norm_num)
    show ¬ ((0.90 : F64) < .fin q)
    rw [ed, F64.lt_fin]
    rw [abs_le] at hd
    norm_num at hd hq
    linarith

macro "lit" : tactic => `(tactic| exact App.ofReal (by rw [abs_of_nonneg (by norm_num)]; norm_num))

theorem Spec.UsualD.scale {c : AdjustCtx F64} {z q t : Dbl} (hc : UsualD c z q t) :
    ∃ S : ℝ, App c.scale S (1 / 10 ^ 11) ∧ 0.1 ≤ S ∧ (S ≤ 0.4 ∨ S = 0.75 * (1 - q.1 * 0.15)) := by
  have hq := hc.coh_le
  have hq0 := hc.coh0
  unfold AdjustCtx.scale
  simp only [hc.quiet.1, Bool.false_eq_true, if_false]
  have l1 : App (0.1 : F64) 0.1 (1 / 10 ^ 13) := by lit
  have l2 : App (0.2 : F64) 0.2 (1 / 10 ^ 13) := by lit
  have l3 : App (0.3 : F64) 0.3 (1 / 10 ^ 13) := by lit
  have l4 : App (0.4 : F64) 0.4 (1 / 10 ^ 13) := by lit
  have mono : ∀ {x : F64} {X : ℝ}, App x X (1 / 10 ^ 13) → App x X (1 / 10 ^ 11) := by
    rintro x X ⟨d, ed, hd⟩; exact ⟨d, ed, hd.trans (by norm_num)⟩
  split_ifs
  · exact ⟨_, mono l1, by norm_num, Or.inl (by norm_num)⟩
  · exact ⟨_, mono l2, by norm_num, Or.inl (by norm_num)⟩
  · exact ⟨_, mono l3, by norm_num, Or.inl (by norm_num)⟩
  · exact ⟨_, mono l4, by norm_num, Or.inl (by norm_num)⟩
  · have l15 : App (0.15 : F64) 0.15 (1 / 10 ^ 13) := by lit
    have l75 : App (0.75 : F64) 0.75 (1 / 10 ^ 13) := by lit
    have lone : App (1 : F64) 1 0 := App.fin ⟨1, isDouble_one⟩
    norm_num at hq
    have m1 : App (c.coherence * 0.15) (q.1 * 0.15) (1 / 10 ^ 12) := by
      rw [hc.coh]
      exact App.mul (App.fin q) l15 (A := 1) (B := 1) (by rw [abs_of_nonneg hq0]; linarith) (by rw [abs_of_nonneg] <;> norm_num) (by norm_num)
        (by norm_num) (by norm_num)
    have m2 : App (1 - c.coherence * 0.15) (1 - q.1 * 0.15) (2 / 10 ^ 12) :=
      App.sub lone m1 (by rw [abs_le]; constructor <;> norm_num <;> linarith) (by norm_num) (by norm_num)
    have m3 : App (c.cfg.baseAdjustmentScale * (1 - c.coherence * 0.15)) (0.75 * (1 - q.1 * 0.15)) (1 / 10 ^ 11) := by
      rw [hc.cfg]
      exact App.mul l75 m2 (A := 1) (B := 1) (by rw [abs_of_nonneg] <;> norm_num) (by rw [abs_le]; constructor <;> norm_num <;> linarith) (by norm_num)
        (by norm_num) (by norm_num)
    obtain ⟨a, ea, ha⟩ := m3
    obtain ⟨b, eb, hb⟩ := mono l4
    rw [ea, eb]
    obtain ⟨m, em, hm⟩ := fmax_fin a b
    rw [em]
    refine ⟨max (0.75 * (1 - q.1 * 0.15)) 0.4, ⟨m, rfl, ?_⟩, le_max_of_le_right (by norm_num), ?_⟩
    · rw [hm]
      exact (abs_max_sub_max_le_max _ _ _ _).trans (max_le ha hb)
    · rcases le_total (0.75 * (1 - q.1 * 0.15)) 0.4 with h | h
      · left; rw [max_eq_right h]
      · right; rw [max_eq_left h]

theorem Spec.UsualD.variation {c : AdjustCtx F64} {z q t : Dbl} (hc : UsualD c z q t) (w : ℕ) :
    ∃ V : ℝ, App (c.variation w) V (1 / 10 ^ 11) ∧ |V| ≤ (0.05 + (1 - z.1) * 0.1 + q.1 * 0.15) / 2 := by
  have hq := hc.coh_le
  have hq0 := hc.coh0
  have hz0 := hc.size0
  have hz1 := hc.size1
  norm_num at hq hz0
  obtain ⟨r, r0, r1, hr⟩ := App.rand w
  unfold AdjustCtx.variation
  dsimp only
  rw [hc.cfg, hc.size, hc.coh]
  have l15 : App (0.15 : F64) 0.15 (1 / 10 ^ 13) := by lit
  have l05 : App (0.05 : F64) 0.05 (1 / 10 ^ 13) := by lit
  have l5 : App (0.5 : F64) 0.5 (1 / 10 ^ 13) := by lit
  have lone : App (1 : F64) 1 0 := App.fin ⟨1, isDouble_one⟩
  have m1 : App ((minAPIConfig : GoalConfig F64).variationMax - (minAPIConfig : GoalConfig F64).variationMin) (0.15 - 0.05) (3 / 10 ^ 13) :=
    App.sub l15 l05 (by rw [abs_of_nonneg] <;> norm_num) (by norm_num) (by norm_num)
  have m2 : App (1 - F64.fin z) (1 - z.1) (1 / 10 ^ 13) :=
    App.sub lone (App.fin z) (by rw [abs_le]; constructor <;> linarith) (by norm_num) (by norm_num)
  have m3 := App.mul m2 m1 (A := 1) (B := 1) (g := 1 / 10 ^ 12) (by rw [abs_le]; constructor <;> linarith) (by rw [abs_of_nonneg] <;> norm_num)
    (by norm_num) (by norm_num) (by norm_num)
  have m4 := App.add l05 m3 (g := 2 / 10 ^ 12) (by rw [abs_le]; constructor <;> norm_num <;> nlinarith) (by norm_num) (by norm_num)
  have m5 := App.mul (App.fin q) l15 (A := 1) (B := 1) (g := 1 / 10 ^ 12) (by rw [abs_of_nonneg hq0]; linarith) (by rw [abs_of_nonneg] <;> norm_num)
    (by norm_num) (by norm_num) (by norm_num)
  have m6 := App.add m4 m5 (g := 4 / 10 ^ 12) (by rw [abs_le]; constructor <;> norm_num <;> nlinarith) (by norm_num) (by norm_num)
  have m7 := App.sub hr l5 (g := 1 / 10 ^ 12) (by rw [abs_le]; constructor <;> norm_num <;> linarith) (by norm_num) (by norm_num)
  have hv : |(0.05 : ℝ) + (1 - z.1) * (0.15 - 0.05) + q.1 * 0.15| = 0.05 + (1 - z.1) * 0.1 + q.1 * 0.15 := by
    rw [abs_of_nonneg (by norm_num; nlinarith)]; norm_num
  have hh : |r - 0.5| ≤ 1 / 2 := by rw [abs_le]; constructor <;> norm_num <;> linarith
  have m8 := App.mul m7 m6 (A := 1) (B := 1) (g := 1 / 10 ^ 11) (by linarith) (by rw [hv]; norm_num; linarith) (by norm_num)
    (by norm_num) (by norm_num)
  refine ⟨_, m8, ?_⟩
  rw [abs_mul, hv]
  have : (0 : ℝ) ≤ 0.05 + (1 - z.1) * 0.1 + q.1 * 0.15 := by norm_num; nlinarith
  nlinarith

theorem Spec.UsualD.threshold {c : AdjustCtx F64} {z q t : Dbl} (hc : UsualD c z q t) :
    ∃ T : ℝ, App c.threshold T (1 / 10 ^ 11) ∧ 0.01 ≤ T ∧ T ≤ 0.053 := by
  have hq := hc.coh_le
  have hq0 := hc.coh0
  have hz0 := hc.size0
  have hz1 := hc.size1
  norm_num at hq hz0
  unfold AdjustCtx.threshold
  dsimp only
  rw [hc.size, hc.coh]
  have l1 : App (0.01 : F64) 0.01 (1 / 10 ^ 13) := by lit
  have l2 : App (0.02 : F64) 0.02 (1 / 10 ^ 13) := by lit
  have l3 : App (0.03 : F64) 0.03 (1 / 10 ^ 13) := by lit
  have lone : App (1 : F64) 1 0 := App.fin ⟨1, isDouble_one⟩
  have m2 : App (1 - F64.fin z) (1 - z.1) (1 / 10 ^ 13) :=
    App.sub lone (App.fin z) (by rw [abs_le]; constructor <;> linarith) (by norm_num) (by norm_num)
  have m3 := App.mul m2 l2 (A := 1) (B := 1) (g := 1 / 10 ^ 12) (by rw [abs_le]; constructor <;> linarith) (by rw [abs_of_nonneg] <;> norm_num)
    (by norm_num) (by norm_num) (by norm_num)
  have m4 := App.mul (App.fin q) l3 (A := 1) (B := 1) (g := 1 / 10 ^ 12) (by rw [abs_of_nonneg hq0]; linarith) (by rw [abs_of_nonneg] <;> norm_num)
    (by norm_num) (by norm_num) (by norm_num)
  have m5 := App.add l1 m4 (g := 2 / 10 ^ 12) (by rw [abs_le]; constructor <;> norm_num <;> nlinarith) (by norm_num) (by norm_num)
  have m6 := App.add m5 m3 (g := 1 / 10 ^ 11) (by rw [abs_le]; constructor <;> norm_num <;> nlinarith) (by norm_num) (by norm_num)
  exact ⟨_, m6, by norm_num; nlinarith, by norm_num; nlinarith⟩

theorem Spec.UsualD.factor {c : AdjustCtx F64} {z q t : Dbl} (hc : UsualD c z q t) (w : ℕ) :
    ∃ R : ℝ, App (1 - (0.3 + (1 - c.sizeNormalized) * 0.2) / 2.0 + randFloat64 w * (0.3 + (1 - c.sizeNormalized) * 0.2) : F64) R (1 / 10 ^ 11) ∧
      0.85 - 0.1 * (1 - z.1) ≤ R ∧ R ≤ 1.15 + 0.1 * (1 - z.1) := by
  have hz0 := hc.size0
  have hz1 := hc.size1
  norm_num at hz0
  obtain ⟨r, r0, r1, hr⟩ := App.rand w
  rw [hc.size]
  have l2 : App (0.2 : F64) 0.2 (1 / 10 ^ 13) := by lit
  have l3 : App (0.3 : F64) 0.3 (1 / 10 ^ 13) := by lit
  have lone : App (1 : F64) 1 0 := App.fin ⟨1, isDouble_one⟩
  have m2 : App (1 - F64.fin z) (1 - z.1) (1 / 10 ^ 13) :=
    App.sub lone (App.fin z) (by rw [abs_le]; constructor <;> linarith) (by norm_num) (by norm_num)
  have m3 := App.mul m2 l2 (A := 1) (B := 1) (g := 1 / 10 ^ 12) (by rw [abs_le]; constructor <;> linarith) (by rw [abs_of_nonneg] <;> norm_num)
    (by norm_num) (by norm_num) (by norm_num)
  have m4 := App.add l3 m3 (g := 2 / 10 ^ 12) (by rw [abs_le]; constructor <;> norm_num <;> nlinarith) (by norm_num) (by norm_num)
  have m5 := App.half m4 (g := 3 / 10 ^ 12) (by rw [abs_le]; constructor <;> norm_num <;> nlinarith) (by norm_num) (by norm_num)
  have m6 := App.sub lone m5 (g := 4 / 10 ^ 12) (by rw [abs_le]; constructor <;> norm_num <;> nlinarith) (by norm_num) (by norm_num)
  have m7 := App.mul hr m4 (A := 1) (B := 1) (g := 3 / 10 ^ 12) (by rw [abs_le]; constructor <;> linarith)
    (by rw [abs_le]; constructor <;> norm_num <;> nlinarith) (by norm_num) (by norm_num) (by norm_num)
  have hpos : (0 : ℝ) ≤ 0.3 + (1 - z.1) * 0.2 := by norm_num; linarith
  have m8 := App.add m6 m7 (g := 1 / 10 ^ 11) (by rw [abs_le]; constructor <;> norm_num <;> nlinarith) (by norm_num) (by norm_num)
  exact ⟨_, m8, by norm_num; nlinarith, by norm_num; nlinarith⟩

/-- The computed way forward is the way forward, up to whole turns and 10^-12. -/
theorem forward_double (t p : Dbl) (ht : |t.1| ≤ 7) (hp : |p.1| ≤ 7) :
    ∃ D : Dbl, wrapPhase (F64.fin t - F64.fin p) = .fin D ∧ 0 ≤ D.1 ∧ D.1 < 2 * Real.pi ∧ Near D.1 (t.1 - p.1) (1 / 10 ^ 12) := by
  have hb : |t.1 - p.1| ≤ 14 := (abs_sub _ _).trans (by linarith)
  obtain ⟨x, ex, hx⟩ := App.sub (App.fin t) (App.fin p) (g := 1 / 10 ^ 13) (by linarith) (by norm_num) (by norm_num)
  obtain ⟨D, eD, D0, D1, hD⟩ := C134_wrap x
  refine ⟨D, by rw [ex]; exact eD, D0, D1, (hD.trans (Near.of_abs hx)).mono ?_⟩
  have hxb : |x.1| ≤ 15 := by
    have := abs_sub_abs_le_abs_sub x.1 (t.1 - p.1)
    norm_num at hx; linarith
  have hus : (2 : ℝ) ^ (-53 : ℤ) ≤ 1 / 9000000000000000 := by rw [zpow_neg]; norm_num
  have hus0 : (0 : ℝ) < 2 ^ (-53 : ℤ) := by positivity
  generalize (2 : ℝ) ^ (-53 : ℤ) = u at *
  norm_num
  nlinarith

/-- Wrapping twice, as `SetPhase` of a wrapped phase does. -/
theorem wrap_twice (x : Dbl) (hx : |x.1| ≤ 20) : ∃ r : Dbl, wrapPhase (wrapPhase (F64.fin x)) = .fin r ∧ |r.1| ≤ 7 ∧ Near r.1 x.1 (1 / 10 ^ 12) := by
  have hpi := Real.pi_lt_d2
  norm_num at hpi
  obtain ⟨r, er, r0, r1, hr⟩ := C134_wrap x
  obtain ⟨s, es, s0, s1, hs⟩ := C134_wrap r
  refine ⟨s, by rw [er, es], by rw [abs_of_nonneg s0]; linarith, (hs.trans hr).mono ?_⟩
  rw [abs_of_nonneg r0]
  have hus : (2 : ℝ) ^ (-53 : ℤ) ≤ 1 / 9000000000000000 := by rw [zpow_neg]; norm_num
  have hus0 : (0 : ℝ) < 2 ^ (-53 : ℤ) := by positivity
  generalize (2 : ℝ) ^ (-53 : ℤ) = u at *
  norm_num
  nlinarith

/-- The part of the way that a nudge goes: between 6.5 and 99.9 percent. -/
theorem part_of_way {z q S R V : ℝ} (z0 : 0.0699 ≤ z) (_z1 : z ≤ 1) (q0 : 0 ≤ q) (q1 : q ≤ 0.801) (hS : 0.1 ≤ S) (hS' : S ≤ 0.4 ∨ S = 0.75 * (1 - q * 0.15))
    (hR : 0.85 - 0.1 * (1 - z) ≤ R) (hR' : R ≤ 1.15 + 0.1 * (1 - z)) (hV : |V| ≤ (0.05 + (1 - z) * 0.1 + q * 0.15) / 2) :
    0.065 ≤ S * R * (1 + V) ∧ S * R * (1 + V) ≤ 0.999 ∧ 0 ≤ S ∧ S ≤ 1 ∧ 0 ≤ R ∧ R ≤ 2 ∧ |V| ≤ 1 / 2 := by
  rw [abs_le] at hV
  obtain ⟨v0, v1⟩ := hV
  norm_num at *
  have rlo : 756 / 1000 ≤ R := by linarith
  have rhi : R ≤ 12431 / 10000 := by linarith
  have vlo : -(133 / 1000 : ℝ) ≤ V := by linarith
  have vhi : V ≤ 715051 / 10000000 + 3 / 40 * q := by linarith
  have p0 : 655 / 1000 ≤ R * (1 + V) := by nlinarith
  have p1 : R * (1 + V) ≤ 12431 / 10000 * (10715051 / 10000000 + 3 / 40 * q) := by
    have : (0:ℝ) ≤ 1 + V := by linarith
    calc R * (1 + V) ≤ 12431 / 10000 * (1 + V) := mul_le_mul_of_nonneg_right rhi this
      _ ≤ _ := by linarith
  have q0' : 13 / 200 ≤ S * (R * (1 + V)) := by nlinarith
  have q1' : S * (R * (1 + V)) ≤ 999 / 1000 := by
    rcases hS' with h | h
    · nlinarith
    · rw [h]
      have : (0:ℝ) ≤ 3 / 4 * (1 - q * (3 / 20)) := by linarith
      calc 3 / 4 * (1 - q * (3 / 20)) * (R * (1 + V)) ≤ 3 / 4 * (1 - q * (3 / 20)) * (12431 / 10000 * (10715051 / 10000000 + 3 / 40 * q)) :=
            mul_le_mul_of_nonneg_left p1 this
        _ ≤ _ := by nlinarith
  refine ⟨by rw [mul_assoc]; exact q0', by rw [mul_assoc]; exact q1', by linarith, ?_, by linarith, by linarith, ?_⟩
  · rcases hS' with h | h <;> linarith
  · rw [abs_le]; constructor <;> linarith

/-- A number of a turn that is near another one, not at the ends, up to whole turns, is near it. -/
theorem no_turn {D X : ℝ} {m : ℤ} (D0 : 0 ≤ D) (D1 : D < 2 * Real.pi) (lo : 1 / 110000 ≤ X) (hi : X ≤ 6)
    (h : |D - X + m * (2 * Real.pi)| ≤ 5 / 10 ^ 9) : |D - X| ≤ 5 / 10 ^ 9 := by
  have hpi1 := Real.pi_gt_d2
  norm_num at hpi1 h
  have hz : m = 0 := by
    rcases lt_trichotomy m 0 with h' | h' | h'
    · exfalso
      have : (m : ℝ) ≤ -1 := by exact_mod_cast (by omega : m ≤ -1)
      have := (abs_le.1 h).1
      nlinarith
    · exact h'
    · exfalso
      have : (1 : ℝ) ≤ m := by exact_mod_cast h'
      have := (abs_le.1 h).2
      nlinarith
  rw [hz] at h
  norm_num at h ⊢
  exact h

/-- **C109 in doubles.** With the default configuration, at least seven agents and a coherence not above 0.8: the way forward that an agent computes either
is at most 0.06, and then the agent stays, or the way it computes after the nudge is at least six percent shorter. No random number and no rounding error sends it past the
target. -/
theorem C109_double {c : AdjustCtx F64} {z q t : Dbl} (hc : UsualD c z q t) (w : ℕ → ℕ) (a : Agent F64) (p D : Dbl) (hp : a.state.phase = .fin p)
    (hp7 : |p.1| ≤ 7) (eD : wrapPhase (c.targetPhase - a.state.phase) = .fin D) :
    (D.1 ≤ 0.06 ∧ (nudgeAgent c c.scale w a).state.phase = a.state.phase) ∨
    ∃ p' D' : Dbl, (nudgeAgent c c.scale w a).state.phase = .fin p' ∧ |p'.1| ≤ 7 ∧
      wrapPhase (c.targetPhase - .fin p') = .fin D' ∧ D'.1 ≤ 0.94 * D.1 := by
  have hpi1 := Real.pi_gt_d2
  have hpi2 := Real.pi_lt_d2
  norm_num at hpi1 hpi2
  obtain ⟨D2, eD2, D0, D1, hD⟩ := forward_double t p hc.phase1 hp7
  rw [hc.phase, hp, eD2] at eD
  obtain rfl : D2 = D := F64.fin.inj eD
  obtain ⟨T, hT, T0, T1⟩ := hc.threshold
  obtain ⟨A, eA, hA⟩ := F64.abs_fin D2
  unfold nudgeAgent
  dsimp only
  rw [hc.phase, hp, eD2, eA]
  rw [abs_of_nonneg D0] at hA
  have hlt := App.lt hT (App.fin A)
  rw [hA] at hlt
  by_cases hth : c.threshold < F64.fin A
  · rw [if_pos hth]
    right
    have hDlo := hlt.1 hth
    norm_num at hDlo T0
    have hD9 : 99 / 10000 ≤ D2.1 := by linarith
    obtain ⟨S, hS, S0, S1⟩ := hc.scale
    obtain ⟨V, hV, V0⟩ := hc.variation (w 0)
    obtain ⟨R, hR, R0, R1⟩ := hc.factor (w 1)
    obtain ⟨k0, k1, s0, s1, r0, r1, v1⟩ := part_of_way hc.size0 hc.size1 hc.coh0 (hc.coh_le.trans (by norm_num)) S0 S1 R0 R1 V0
    have l3 : App (0.3 : F64) 0.3 (1 / 10 ^ 13) := by lit
    have lone : App (1 : F64) 1 0 := App.fin ⟨1, isDouble_one⟩
    have lzero : App (0 : F64) 0 0 := App.fin ⟨0, isDouble_zero⟩
    have v1' := abs_le.1 v1
    have hD7 : |D2.1| ≤ 7 := by rw [abs_of_nonneg D0]; linarith
    have m1 : App (c.phaseAdj * 0.3) (0 * 0.3) (1 / 10 ^ 12) := by
      rw [hc.adj]
      exact App.mul lzero l3 (A := 1) (B := 1) (by simp) (by rw [abs_of_nonneg] <;> norm_num) (by norm_num) (by norm_num) (by norm_num)
    have m2 := App.mul (App.fin D2) hS (A := 7) (B := 1) (g := 1 / 10 ^ 10) hD7 (by rw [abs_of_nonneg s0]; exact s1) (by norm_num) (by norm_num)
      (by norm_num)
    have hDS : |D2.1 * S| ≤ 7 := by rw [abs_mul, abs_of_nonneg s0]; nlinarith [abs_nonneg D2.1]
    have hDS' : (0 : ℝ) * 0.3 + D2.1 * S = D2.1 * S := by ring
    have m3 := App.add m1 m2 (g := 2 / 10 ^ 10) (by rw [hDS']; linarith) (by norm_num) (by norm_num)
    rw [hDS'] at m3
    have m4 := App.mul m3 hR (A := 7) (B := 2) (g := 1 / 10 ^ 9) hDS (by rw [abs_of_nonneg r0]; exact r1) (by norm_num) (by norm_num) (by norm_num)
    have m5 := App.add lone hV (g := 2 / 10 ^ 11) (by rw [abs_le]; constructor <;> linarith) (by norm_num) (by norm_num)
    have hDSR : |D2.1 * S * R| ≤ 14 := by rw [abs_mul, abs_of_nonneg r0]; nlinarith [abs_nonneg (D2.1 * S)]
    have m6 := App.mul m4 m5 (A := 14) (B := 2) (g := 3 / 10 ^ 9) hDSR (by rw [abs_le]; constructor <;> linarith) (by norm_num) (by norm_num)
      (by norm_num)
    have hK : D2.1 * S * R * (1 + V) = D2.1 * (S * R * (1 + V)) := by ring
    rw [hK] at m6
    generalize S * R * (1 + V) = K at *
    norm_num at k0 k1
    have hDK : |D2.1 * K| ≤ 7 := by rw [abs_of_nonneg (by nlinarith)]; nlinarith
    have m7 := App.add (App.fin p) m6 (g := 4 / 10 ^ 9) ((abs_add_le _ _).trans (by linarith)) (by norm_num) (by norm_num)
    obtain ⟨x, ex, hx⟩ := m7
    have hx20 : |x.1| ≤ 20 := by
      have h1 := abs_sub_abs_le_abs_sub x.1 (p.1 + D2.1 * K)
      have h2 := abs_add_le p.1 (D2.1 * K)
      norm_num at hx
      linarith
    obtain ⟨p', ep', hp', hn⟩ := wrap_twice x hx20
    obtain ⟨D', eD', D0', D1', hD'⟩ := forward_double t p' hc.phase1 hp'
    refine ⟨p', D', ?_, hp', eD', ?_⟩
    · show wrapPhase (wrapPhase _) = _
      rw [ex]; exact ep'
    · obtain ⟨i, hi⟩ := hD
      obtain ⟨j, hj⟩ := hn
      obtain ⟨l, hl⟩ := hD'
      have hmain : |D'.1 - D2.1 * (1 - K) + ((l - i - j : ℤ) : ℝ) * (2 * Real.pi)| ≤ 5 / 10 ^ 9 := by
        have hid : D'.1 - D2.1 * (1 - K) + ((l - i - j : ℤ) : ℝ) * (2 * Real.pi) =
            (D'.1 - (t.1 - p'.1) + l * (2 * Real.pi)) - (D2.1 - (t.1 - p.1) + i * (2 * Real.pi)) - (p'.1 - x.1 + j * (2 * Real.pi)) -
              (x.1 - (p.1 + D2.1 * K)) := by
          push_cast; ring
        rw [hid]
        refine (abs_sub _ _).trans ?_
        refine (add_le_add_left ((abs_sub _ _).trans (add_le_add_left (abs_sub _ _) _)) _).trans ?_
        norm_num at hi hj hl hx ⊢
        linarith
      have hlo : 1 / 110000 ≤ D2.1 * (1 - K) := by nlinarith
      have hhi : D2.1 * (1 - K) ≤ 935 / 1000 * D2.1 := by nlinarith
      have := (abs_le.1 (no_turn D0' D1' hlo (by linarith) hmain)).2
      norm_num at this ⊢
      linarith
  · rw [if_neg hth]
    left
    have := hlt.2 hth
    norm_num at this T1
    refine ⟨by norm_num; linarith, ?_⟩
    rw [if_neg]
    · exact hp
    · rintro ⟨h, -⟩
      rw [hc.cfg, hc.coh] at h
      have e8 : (0.80 : F64) = (0.8 : F64) := by
        show F64.ofReal 0.80 = F64.ofReal 0.8
        congr 1; norm_num
      have h' : (0.80 : F64) < F64.fin q := h
      rw [e8] at h'
      exact hc.coh1 h'

/-! ### Repeated adjustments -/

namespace Spec

/-- Successive adjustments of a swarm with the default configuration towards the phase `t`, in doubles: `h n` are the agents before the n-th, `order n` the
order in which it visits them, `order' n` the order in which it measures them, `c n` what it has measured. The completion asks for no common shift. -/
structure NudgeRunD (agents : List ℕ) (t : Dbl) (c : ℕ → AdjustCtx F64) (order order' : ℕ → List ℕ) (word : ℕ → ℕ → ℕ → ℕ) (h : ℕ → ℕ → Agent F64) : Prop where
  nodup : agents.Nodup
  many : 7 ≤ agents.length
  few : agents.length < 2 ^ 53
  perm : ∀ n, (order n).Perm agents
  perm' : ∀ n, (order' n).Perm agents
  start : ∀ x ∈ agents, ∃ p : Dbl, (h 0 x).state.phase = .fin p ∧ |p.1| ≤ 7
  step : ∀ n, h (n + 1) = applyCompletion (c n) (word n) (order n) (h n)
  cfg : ∀ n, (c n).cfg = minAPIConfig
  shift : ∀ n, (c n).phaseAdj = 0
  phase : ∀ n, (c n).targetPhase = .fin t
  phase7 : |t.1| ≤ 7
  target : ∀ n, ¬ (c n).targetCoherence < (0.4 : F64)
  size : ∀ n, (c n).sizeNormalized = fmin (ofInt (agents.length : ℤ) / 100.0) 1
  coherence : ∀ n, (c n).coherence = measureCoherence ((order' n).map fun x => (h n x).state.phase)

end Spec

theorem size_double (n : ℕ) (h7 : 7 ≤ n) (hn : n < 2 ^ 53) :
    ∃ z : Dbl, (fmin (ofInt (n : ℤ) / 100.0) 1 : F64) = .fin z ∧ 0.0699 ≤ z.1 ∧ z.1 ≤ 1 := by
  obtain ⟨d, ed, hd⟩ := fin_nat n hn
  have e100 : (100.0 : F64) = .fin ⟨100, isDouble_ofNat 100 (by norm_num)⟩ := by
    have h : (100.0 : ℝ) = 100 := by norm_num
    show F64.ofReal 100.0 = _
    rw [h]; exact F64.ofReal_of_isDouble _
  have h7' : (7 : ℝ) ≤ n := by exact_mod_cast h7
  have hq : (7 : ℝ) / 100 ≤ n / 100 := by linarith
  have hbig : (n : ℝ) / 100 ≤ 2 ^ 53 := by
    have : (n : ℝ) ≤ 2 ^ 53 := by exact_mod_cast hn.le
    linarith
  obtain ⟨y, hy, ey, y0, y1⟩ := F64.ofReal_between (a := 573 / 8192) (b := 2 ^ 53) (x := (n : ℝ) / 100)
    (show IsDouble _ from ⟨573, -13, by norm_num, by norm_num, by norm_num, by norm_num⟩)
    (show IsDouble _ from ⟨1, 53, by norm_num, by norm_num, by norm_num, by norm_num⟩) (by norm_num; linarith) hbig
  rw [ed, e100, F64.div_fin (by norm_num)]
  dsimp only
  rw [hd, ey]
  obtain ⟨m, em, hm⟩ := fmin_fin ⟨y, hy⟩ ⟨1, isDouble_one⟩
  refine ⟨m, em, ?_, ?_⟩
  · rw [hm]; exact le_min (by norm_num; linarith) (by norm_num)
  · rw [hm]; exact min_le_right _ _

theorem adjustFrequency_phase_double (f : ℤ) (a : Agent F64) : (adjustFrequency f a).state.phase = a.state.phase := by
  unfold adjustFrequency
  split_ifs <;> rfl

theorem scaleBefore_quiet (s : F64) (k : ℕ) : scaleBefore false s k = s := by
  induction k with
  | zero => rfl
  | succ k ih => rw [scaleBefore, if_neg (by simp), ih]

/-- The coherence an adjustment measures, if all phases are finite. -/
theorem Spec.NudgeRunD.measured {agents : List ℕ} {t : Dbl} {c : ℕ → AdjustCtx F64} {order order' : ℕ → List ℕ} {word : ℕ → ℕ → ℕ → ℕ}
    {h : ℕ → ℕ → Agent F64} (r : NudgeRunD agents t c order order' word h) (ε : ℝ) (hε : ∀ d : Dbl, TrigWithin ε d) (n : ℕ) (ph : ℕ → Dbl)
    (hph : ∀ x ∈ agents, (h n x).state.phase = .fin (ph x)) :
    ∃ q : Dbl, (c n).coherence = .fin q ∧ 0 ≤ q.1 ∧
      ∀ T δ : ℝ, (∀ x ∈ agents, Near T (ph x).1 δ) → 1 - δ ^ 2 / 2 - coherenceError ε agents.length ≤ q.1 := by
  have e : ((order' n).map fun x => (h n x).state.phase) = ((order' n).map ph).map F64.fin := by
    rw [List.map_map]
    exact List.map_congr_left fun x hx => hph x ((r.perm' n).mem_iff.1 hx)
  have hlen : ((order' n).map ph).length = agents.length := by rw [List.length_map, (r.perm' n).length_eq]
  have hne : (order' n).map ph ≠ [] := fun h0 => by
    rw [h0] at hlen; have := r.many; simp at hlen; omega
  obtain ⟨q, eq, q0, -⟩ := C133_accurate ε ((order' n).map ph) (fun d _ => hε d) (by rw [hlen]; exact r.few) hne
  refine ⟨q, by rw [r.coherence n, e, eq], q0, fun T δ hT => ?_⟩
  obtain ⟨q', eq', hq'⟩ := C137_measured ε ((order' n).map ph) (fun d _ => hε d) (by rw [hlen]; exact r.few) hne T δ (fun d hd => by
    obtain ⟨x, hx, rfl⟩ := List.mem_map.1 hd
    exact hT x ((r.perm' n).mem_iff.1 hx))
  rw [eq] at eq'
  obtain rfl : q = q' := F64.fin.inj eq'
  rw [hlen] at hq'
  exact hq'

/-- **C111 in doubles.** As long as the measured coherence does not exceed 0.8, the way forward that each agent computes shrinks by at least six percent in each
adjustment, until it is at most 0.06 radians and the agent rests. -/
theorem C111_contracts_double {agents : List ℕ} {t : Dbl} {c : ℕ → AdjustCtx F64} {order order' : ℕ → List ℕ} {word : ℕ → ℕ → ℕ → ℕ}
    {h : ℕ → ℕ → Agent F64} (r : NudgeRunD agents t c order order' word h) (ε : ℝ) (hε : ∀ d : Dbl, TrigWithin ε d) (n : ℕ)
    (hc : ∀ k < n, ¬ (0.8 : F64) < (c k).coherence) :
    ∃ ph D : ℕ → Dbl, ∀ x ∈ agents, (h n x).state.phase = .fin (ph x) ∧ |(ph x).1| ≤ 7 ∧ wrapPhase (F64.fin t - .fin (ph x)) = .fin (D x) ∧
      (D x).1 ≤ max 0.06 (0.94 ^ n * (2 * Real.pi)) := by
  induction n with
  | zero =>
    have : ∀ x, ∃ p D : Dbl, x ∈ agents → (h 0 x).state.phase = .fin p ∧ |p.1| ≤ 7 ∧ wrapPhase (F64.fin t - .fin p) = .fin D ∧
        D.1 ≤ max 0.06 (0.94 ^ 0 * (2 * Real.pi)) := by
      intro x
      by_cases hx : x ∈ agents
      · obtain ⟨p, ep, hp⟩ := r.start x hx
        obtain ⟨D, eD, -, D1, -⟩ := forward_double t p r.phase7 hp
        exact ⟨p, D, fun _ => ⟨ep, hp, eD, le_max_of_le_right (by simpa using D1.le)⟩⟩
      · exact ⟨t, t, fun hx' => absurd hx' hx⟩
    choose ph D hpD using this
    exact ⟨ph, D, fun x hx => hpD x hx⟩
  | succ n ih =>
    obtain ⟨ph, D, hpD⟩ := ih fun k hk => hc k (by omega)
    obtain ⟨q, eq, q0, -⟩ := r.measured ε hε n ph fun x hx => (hpD x hx).1
    obtain ⟨z, ez, z0, z1⟩ := size_double agents.length r.many r.few
    have hcn := hc n (by omega)
    rw [eq] at hcn
    have hu : UsualD (c n) z q t := ⟨r.cfg n, r.shift n, by rw [r.size n, ez], z0, z1, eq, q0, hcn, r.phase n, r.phase7⟩
    have hone : ∀ x ∈ agents, (h (n + 1) x).state.phase =
        (nudgeAgent (c n) (c n).scale (word n ((order n).idxOf x)) (h n x)).state.phase := by
      intro x hx
      rw [r.step n]
      unfold applyCompletion
      rw [if_neg (fun hcon => absurd hcon.1 (r.target n))]
      have hx' : x ∈ order n := (r.perm n).mem_iff.2 hx
      have hi := List.idxOf_lt_length_of_mem hx'
      have hb : (!(c n).spread && (c n).settled) = false := by rw [hu.quiet.2, Bool.and_false]
      have := (C108_once (c n) (word n) (order n) ((r.perm n).nodup_iff.2 r.nodup) (h n)).2 _ hi
      rw [List.getElem_idxOf, hb, scaleBefore_quiet] at this
      rw [this]
      unfold adjustAgent
      rw [hu.quiet.1, hu.quiet.2]
      exact adjustFrequency_phase_double _ _
    have : ∀ x, ∃ p D : Dbl, x ∈ agents → (h (n + 1) x).state.phase = .fin p ∧ |p.1| ≤ 7 ∧ wrapPhase (F64.fin t - .fin p) = .fin D ∧
        D.1 ≤ max 0.06 (0.94 ^ (n + 1) * (2 * Real.pi)) := by
      intro x
      by_cases hx : x ∈ agents
      · obtain ⟨p1, p2, p3, p4⟩ := hpD x hx
        rcases C109_double hu (word n ((order n).idxOf x)) (h n x) (ph x) (D x) p1 p2 (by rw [r.phase n, p1, p3]) with ⟨h1, h2⟩ | ⟨p', D', e1, e2, e3, e4⟩
        · exact ⟨ph x, D x, fun _ => ⟨by rw [hone x hx, h2, p1], p2, p3, le_max_of_le_left h1⟩⟩
        · refine ⟨p', D', fun _ => ⟨by rw [hone x hx, e1], e2, by rw [← r.phase n]; exact e3, e4.trans ?_⟩⟩
          rcases le_max_iff.1 p4 with h' | h'
          · refine le_max_of_le_left ?_
            norm_num at h' ⊢; linarith
          · refine le_max_of_le_right ?_
            calc 0.94 * (D x).1 ≤ 0.94 * (0.94 ^ n * (2 * Real.pi)) := mul_le_mul_of_nonneg_left h' (by norm_num)
              _ = _ := by ring
      · exact ⟨t, t, fun hx' => absurd hx' hx⟩
    choose ph' D' hpD' using this
    exact ⟨ph', D', fun x hx => hpD' x hx⟩

/-- **C111 in doubles.** Within 38 adjustments the measured coherence exceeds 0.8 at least once, whatever the phases, the random numbers and the orders in which
agents are measured and visited, with all rounding errors and any library whose sines and cosines are accurate enough for the size of the swarm. -/
theorem C111_synchronises_double {agents : List ℕ} {t : Dbl} {c : ℕ → AdjustCtx F64} {order order' : ℕ → List ℕ} {word : ℕ → ℕ → ℕ → ℕ}
    {h : ℕ → ℕ → Agent F64} (r : NudgeRunD agents t c order order' word h) (ε : ℝ) (hε : ∀ d : Dbl, TrigWithin ε d)
    (herr : coherenceError ε agents.length ≤ 0.01) :
    ∃ n ≤ 38, (0.8 : F64) < measureCoherence ((order' n).map fun x => (h n x).state.phase) := by
  by_contra hcon
  have hall : ∀ n ≤ 38, ¬ (0.8 : F64) < (c n).coherence := by
    intro n hn h'
    exact hcon ⟨n, hn, by rw [← r.coherence n]; exact h'⟩
  obtain ⟨ph, D, hpD⟩ := C111_contracts_double r ε hε 38 fun k hk => hall k (by omega)
  obtain ⟨q, eq, q0, hq⟩ := r.measured ε hε 38 ph fun x hx => (hpD x hx).1
  refine hall 38 le_rfl ?_
  have hp4 := Real.pi_lt_d2
  have hp0 := Real.pi_pos
  have h94 : (0.94 : ℝ) ^ 38 ≤ 0.0954 := by norm_num
  have key := hq t.1 0.61 fun x hx => by
    obtain ⟨-, p2, p3, p4⟩ := hpD x hx
    obtain ⟨D2, eD2, D0, -, hD⟩ := forward_double t (ph x) r.phase7 p2
    rw [eD2] at p3
    obtain rfl : D2 = D x := F64.fin.inj p3
    have hs : (D x).1 ≤ 0.605 := by
      refine p4.trans (max_le (by norm_num) ?_)
      calc (0.94 : ℝ) ^ 38 * (2 * Real.pi) ≤ 0.0954 * (2 * Real.pi) := mul_le_mul_of_nonneg_right h94 (by linarith)
        _ ≤ _ := by norm_num at hp4 ⊢; linarith
    obtain ⟨k, hk⟩ := hD
    refine ⟨-k, ?_⟩
    have hid : t.1 - (ph x).1 + ((-k : ℤ) : ℝ) * (2 * Real.pi) = (D x).1 - ((D x).1 - (t.1 - (ph x).1) + k * (2 * Real.pi)) := by push_cast; ring
    rw [hid]
    refine (abs_sub _ _).trans ?_
    rw [abs_of_nonneg D0]
    norm_num at hk hs ⊢
    linarith
  rw [eq]
  obtain ⟨d, ed, hd⟩ : App (0.8 : F64) 0.8 (1 / 10 ^ 13) := by lit
  rw [ed, F64.lt_fin]
  rw [abs_le] at hd
  norm_num at hd key herr
  linarith

end

/-- Seven agents spread over a turn with the correctly rounded library meet the hypotheses: the run is built by computing, and the error bound holds. -/
example [Rounding] : letI := LibM.rounded
    ∃ (c : ℕ → AdjustCtx F64) (h : ℕ → ℕ → Agent F64),
      NudgeRunD (List.range 7) ⟨0, isDouble_zero⟩ c (fun _ => List.range 7) (fun _ => List.range 7) (fun _ _ _ => 0) h ∧
      (∀ d : Dbl, TrigWithin ((2 : ℝ) ^ (-51 : ℤ)) d) ∧ coherenceError ((2 : ℝ) ^ (-51 : ℤ)) (List.range 7).length ≤ 0.01 ∧
      ∀ x < 7, (h 0 x).state.phase = ofInt (x : ℤ) := by
  let := LibM.rounded
  let ctx : (ℕ → Agent F64) → AdjustCtx F64 := fun g =>
    { cfg := minAPIConfig, phaseAdj := 0, freqAdj := 0, coherence := measureCoherence ((List.range 7).map fun x => (g x).state.phase), variance := 0,
      targetPhase := 0, targetCoherence := 1, sizeNormalized := fmin (ofInt ((List.range 7).length : ℤ) / 100.0) 1 }
  let h : ℕ → ℕ → Agent F64 := fun n => Nat.rec
    (fun x => { (Agent.zero : Agent F64) with state := { (Agent.zero : Agent F64).state with phase := ofInt (x : ℤ) } })
    (fun _ g => applyCompletion (ctx g) (fun _ _ => 0) (List.range 7) g) n
  refine ⟨fun n => ctx (h n), h, ⟨List.nodup_range, by simp, by simp, fun _ => List.Perm.refl _, fun _ => List.Perm.refl _, ?_, fun _ => rfl, fun _ => rfl,
    fun _ => rfl, fun _ => rfl, by simp, ?_, fun _ => rfl, fun _ => rfl⟩, accurate_rounded.trig, ?_, fun _ _ => rfl⟩
  · intro x hx
    have hx7 : x < 7 := List.mem_range.1 hx
    obtain ⟨d, ed, hd⟩ := fin_nat x (by omega)
    exact ⟨d, ed, by rw [hd, abs_of_nonneg (by positivity)]; exact_mod_cast hx7.le⟩
  · intro n
    show ¬ (1 : F64) < (0.4 : F64)
    obtain ⟨d, ed, hd⟩ : App (0.4 : F64) 0.4 (1 / 10 ^ 13) := App.ofReal (by rw [abs_of_pos (by norm_num)]; norm_num)
    rw [ed, F64.one_def, F64.lt_fin]
    rw [abs_le] at hd
    norm_num at hd ⊢
    linarith
  · unfold coherenceError
    rw [List.length_range]
    norm_num

end Verif
