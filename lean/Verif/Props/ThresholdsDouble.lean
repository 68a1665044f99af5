import Verif.Props.GaugesDouble
import Verif.Props.ConsensusPanel
import Verif.Props.Texts
import Verif.Props.TablesDouble
import Verif.Props.PanelsDouble
import Verif.Lemmas.Pi

/-!
# C101, C102, C103, C144 in doubles: the thresholds of the panels
-/

set_option autoImplicit false
set_option linter.unusedSectionVars false

namespace Verif
open GoMath Spec

variable [Rounding] [LibM]

/-! ### Rounding to a known double -/

/-- A number that is closer than half a unit to a double with 53 bits is rounded to it. -/
theorem rnd_unique {x : ℝ} {m : ℤ} {k : ℕ} (h1 : 2 ^ 52 < m) (h2 : m < 2 ^ 53) (hk : k ≤ 1000) (h : |(m : ℝ) / 2 ^ k - x| < 1 / 2 / 2 ^ k) :
    Rounding.rnd x = (m : ℝ) / 2 ^ k := by
  have hp : (0 : ℝ) < 2 ^ k := by positivity
  have hz : ∀ n : ℤ, (n : ℝ) / 2 ^ k = n * (2 : ℝ) ^ (-(k : ℤ)) := fun n => by rw [zpow_neg, zpow_natCast]; rfl
  have hd : IsDouble ((m : ℝ) / 2 ^ k) := ⟨m, -(k : ℤ), by rw [abs_of_pos (by omega)]; exact h2, by omega, by omega, hz m⟩
  have h52 : IsDouble (((2 ^ 52 : ℤ) : ℝ) / 2 ^ k) := ⟨2 ^ 52, -(k : ℤ), by norm_num, by omega, by omega, hz _⟩
  have hn := Rounding.nearest x _ hd
  obtain ⟨a1, a2⟩ := abs_lt.1 h
  obtain ⟨b1, b2⟩ := abs_lt.1 (lt_of_le_of_lt hn h)
  have hm : ((2 ^ 52 : ℤ) : ℝ) + 1 ≤ m := by exact_mod_cast h1
  have hle : ((2 ^ 52 : ℤ) : ℝ) / 2 ^ k ≤ x := by
    have : (((2 ^ 52 : ℤ) : ℝ) + 1) / 2 ^ k ≤ (m : ℝ) / 2 ^ k := by gcongr
    rw [add_div] at this
    have e : 1 / 2 / (2 : ℝ) ^ k = 1 / 2 ^ k / 2 := by ring
    have : (0 : ℝ) < 1 / 2 ^ k := by positivity
    linarith
  have hge : (2 : ℝ) ^ ((52 : ℤ) - k) ≤ |Rounding.rnd x| := by
    have := le_rnd h52 hle
    rw [abs_of_nonneg (le_trans (by positivity) this)]
    refine le_trans (le_of_eq ?_) this
    rw [zpow_sub₀ (by norm_num), zpow_natCast]; norm_num
  obtain ⟨j, hj⟩ := isDouble_multiple (Rounding.isDouble x) _ hge
  rw [show (52 : ℤ) - k - 52 = -(k : ℤ) by ring, ← hz] at hj
  rw [hj] at b1 b2 ⊢
  have e : 1 / 2 / (2 : ℝ) ^ k = 1 / 2 ^ k / 2 := by ring
  have hlt : |((j - m : ℤ) : ℝ)| < 1 := by
    have : |(j : ℝ) / 2 ^ k - m / 2 ^ k| < 1 / 2 ^ k := by rw [abs_lt]; constructor <;> linarith
    rw [← sub_div, abs_div, abs_of_pos hp, div_lt_div_iff_of_pos_right hp] at this
    exact_mod_cast this
  have : |j - m| < 1 := by exact_mod_cast hlt
  have : j = m := by rw [abs_lt] at this; omega
  rw [this]

/-- A double below a double `m / 2^53` of `(1/2, 1)` is at least a unit below it. -/
theorem le_pred {c : ℝ} (hc : IsDouble c) {m : ℤ} (h1 : 2 ^ 52 < m) (h : c < (m : ℝ) / 2 ^ 53) : c ≤ ((m - 1 : ℤ) : ℝ) / 2 ^ 53 := by
  rcases lt_or_ge c (1 / 2) with h0 | h0
  · have hm : ((2 ^ 52 : ℤ) : ℝ) + 1 ≤ m := by exact_mod_cast h1
    rw [le_div_iff₀ (by positivity)]
    push_cast at hm ⊢; norm_num at hm ⊢; linarith
  · obtain ⟨j, hj⟩ := isDouble_multiple hc (-1) (by rw [abs_of_pos (by linarith)]; norm_num; linarith)
    have e : (2 : ℝ) ^ ((-1 : ℤ) - 52) = 1 / 2 ^ 53 := by rw [show (-1 : ℤ) - 52 = -53 by norm_num, zpow_neg]; norm_num
    rw [e] at hj
    subst hj
    rw [mul_one_div, div_lt_div_iff_of_pos_right (by positivity)] at h
    rw [mul_one_div]
    have : j < m := by exact_mod_cast h
    have : (j : ℝ) ≤ ((m - 1 : ℤ) : ℝ) := by exact_mod_cast (by omega : j ≤ m - 1)
    gcongr

theorem rnd_95 : Rounding.rnd (95 / 100 : ℝ) = 8556839292003942 / 2 ^ 53 :=
  (rnd_unique (m := 8556839292003942) (k := 53) (by norm_num) (by norm_num) (by norm_num) (by rw [abs_lt]; constructor <;> norm_num)).trans (by norm_num)

theorem rnd_80 : Rounding.rnd (80 / 100 : ℝ) = 7205759403792794 / 2 ^ 53 :=
  (rnd_unique (m := 7205759403792794) (k := 53) (by norm_num) (by norm_num) (by norm_num) (by rw [abs_lt]; constructor <;> norm_num)).trans (by norm_num)

theorem rnd_60 : Rounding.rnd (60 / 100 : ℝ) = 5404319552844595 / 2 ^ 53 :=
  (rnd_unique (m := 5404319552844595) (k := 53) (by norm_num) (by norm_num) (by norm_num) (by rw [abs_lt]; constructor <;> norm_num)).trans (by norm_num)

/-! ### Shares of the agents -/

/-- Computing `p` per cent and multiplying by 100 gives `p` back. -/
def Spec.Survives (p : ℕ) : Prop := Rounding.rnd (Rounding.rnd ((p : ℝ) / 100) * 100) = p

theorem survives_95 : Survives 95 := by
  unfold Survives
  rw [show ((95 : ℕ) : ℝ) / 100 = 95 / 100 by norm_num, rnd_95]
  exact (rnd_unique (m := 95 * 2 ^ 46) (k := 46) (by norm_num) (by norm_num) (by norm_num) (by rw [abs_lt]; constructor <;> norm_num)).trans (by norm_num)

theorem survives_80 : Survives 80 := by
  unfold Survives
  rw [show ((80 : ℕ) : ℝ) / 100 = 80 / 100 by norm_num, rnd_80]
  exact (rnd_unique (m := 80 * 2 ^ 46) (k := 46) (by norm_num) (by norm_num) (by norm_num) (by rw [abs_lt]; constructor <;> norm_num)).trans (by norm_num)

theorem survives_81 : Survives 81 := by
  unfold Survives
  rw [show ((81 : ℕ) : ℝ) / 100 = 81 / 100 by norm_num, show Rounding.rnd (81 / 100 : ℝ) = 7295831396340204 / 2 ^ 53 from
    (rnd_unique (m := 7295831396340204) (k := 53) (by norm_num) (by norm_num) (by norm_num) (by rw [abs_lt]; constructor <;> norm_num)).trans (by norm_num)]
  exact (rnd_unique (m := 81 * 2 ^ 46) (k := 46) (by norm_num) (by norm_num) (by norm_num) (by rw [abs_lt]; constructor <;> norm_num)).trans (by norm_num)

theorem survives_70 : Survives 70 := by
  unfold Survives
  rw [show ((70 : ℕ) : ℝ) / 100 = 70 / 100 by norm_num, show Rounding.rnd (70 / 100 : ℝ) = 6305039478318694 / 2 ^ 53 from
    (rnd_unique (m := 6305039478318694) (k := 53) (by norm_num) (by norm_num) (by norm_num) (by rw [abs_lt]; constructor <;> norm_num)).trans (by norm_num)]
  exact (rnd_unique (m := 70 * 2 ^ 46) (k := 46) (by norm_num) (by norm_num) (by norm_num) (by rw [abs_lt]; constructor <;> norm_num)).trans (by norm_num)

theorem survives_50 : Survives 50 := by
  unfold Survives
  rw [rnd_eq_self (x := ((50 : ℕ) : ℝ) / 100) ⟨1, -1, by norm_num, by norm_num, by norm_num, by norm_num⟩,
    rnd_eq_self ⟨50, 0, by norm_num, by norm_num, by norm_num, by norm_num⟩]
  norm_num

theorem survives_40 : Survives 40 := by
  unfold Survives
  rw [show ((40 : ℕ) : ℝ) / 100 = 40 / 100 by norm_num, show Rounding.rnd (40 / 100 : ℝ) = 7205759403792794 / 2 ^ 54 from
    (rnd_unique (m := 7205759403792794) (k := 54) (by norm_num) (by norm_num) (by norm_num) (by rw [abs_lt]; constructor <;> norm_num)).trans (by norm_num)]
  exact (rnd_unique (m := 40 * 2 ^ 47) (k := 47) (by norm_num) (by norm_num) (by norm_num) (by rw [abs_lt]; constructor <;> norm_num)).trans (by norm_num)

theorem survives_30 : Survives 30 := by
  unfold Survives
  rw [show ((30 : ℕ) : ℝ) / 100 = 30 / 100 by norm_num, show Rounding.rnd (30 / 100 : ℝ) = 5404319552844595 / 2 ^ 54 from
    (rnd_unique (m := 5404319552844595) (k := 54) (by norm_num) (by norm_num) (by norm_num) (by rw [abs_lt]; constructor <;> norm_num)).trans (by norm_num)]
  exact (rnd_unique (m := 30 * 2 ^ 48) (k := 48) (by norm_num) (by norm_num) (by norm_num) (by rw [abs_lt]; constructor <;> norm_num)).trans (by norm_num)

/-- A share of at most `2^40` agents in per cent compares to such a `p` as the exact share does. -/
theorem share_cmp (c n : ℕ) (hn : 0 < n) (hc : c ≤ n) (hb : n ≤ 2 ^ 40) : ∃ z : Dbl, (sharePercent c n : F64) = .fin z ∧ 0 ≤ z.1 ∧ z.1 ≤ 100 ∧
    ∀ p : ℕ, Survives p → (z.1 < p ↔ 100 * c < p * n) ∧ ((p : ℝ) < z.1 ↔ p * n < 100 * c) := by
  obtain ⟨dc, ec, hdc⟩ := fin_nat c (by omega)
  obtain ⟨dn, en, hdn⟩ := fin_nat n (by omega)
  have hn' : (0 : ℝ) < n := by exact_mod_cast hn
  have hc' : (c : ℝ) ≤ n := by exact_mod_cast hc
  have hx0 : (0 : ℝ) ≤ (c : ℝ) / n := by positivity
  have hx1 : (c : ℝ) / n ≤ 1 := (div_le_one hn').2 hc'
  have hbb : |(c : ℝ) / n| < (2 : ℝ) ^ (1023 : ℤ) := by
    rw [abs_of_nonneg hx0]
    exact lt_of_le_of_lt (show (c : ℝ) / n ≤ 2 ^ (0 : ℤ) by simpa using hx1) (zpow_lt_zpow_right₀ (by norm_num) (by norm_num))
  have hov := lt_trans hbb F64.two1023_lt_overflow
  have hd : F64.ofReal ((c : ℝ) / n) = .fin ⟨Rounding.rnd (c / n), Rounding.isDouble _⟩ := by unfold F64.ofReal; rw [if_pos hov]
  have d0 : 0 ≤ Rounding.rnd ((c : ℝ) / n) := le_rnd isDouble_zero hx0
  have d1 : Rounding.rnd ((c : ℝ) / n) ≤ 1 := rnd_le isDouble_one hx1
  obtain ⟨z, ez, hzr, z0, z1, hz⟩ := percent_double ⟨Rounding.rnd ((c : ℝ) / n), Rounding.isDouble _⟩ d0 d1
  have he := rnd_err hbb
  rw [abs_of_nonneg hx0] at he
  dsimp only at hzr hz
  refine ⟨z, ?_, z0, z1, fun p hp => ?_⟩
  · unfold sharePercent
    rw [ec, en, F64.div_fin (by rw [hdn]; exact hn'.ne'), hdc, hdn, hd, ez]
  have hD : |z.1 - (c : ℝ) / n * 100| < 2 ^ (-44 : ℤ) := by
    have hu0 := ulp_pos
    have hee : eta ≤ ulp := by unfold eta ulp; exact zpow_le_zpow_right₀ (by norm_num) (by norm_num)
    have hus : ulp = 2 ^ (-46 : ℤ) / 128 := by unfold ulp; rw [show (-53 : ℤ) = -46 + -7 by norm_num, zpow_add₀ (by norm_num)]; norm_num
    obtain ⟨e1, e2⟩ := abs_le.1 he
    obtain ⟨f1, f2⟩ := abs_le.1 hz
    have hx2 : ulp * ((c : ℝ) / n) ≤ ulp := by nlinarith
    rw [show (2 : ℝ) ^ (-44 : ℤ) = 4 * 2 ^ (-46 : ℤ) by rw [show (-44 : ℤ) = 2 + -46 by norm_num, zpow_add₀ (by norm_num)]; norm_num]
    have hp : (0 : ℝ) < 2 ^ (-46 : ℤ) := by positivity
    generalize (2 : ℝ) ^ (-46 : ℤ) = w at *
    rw [abs_lt]; constructor <;> linarith
  have hsm : (n : ℝ) * 2 ^ (-44 : ℤ) < 1 := by
    have hb' : (n : ℝ) ≤ 2 ^ 40 := by exact_mod_cast hb
    have : (n : ℝ) * 2 ^ (-44 : ℤ) ≤ 2 ^ 40 * 2 ^ (-44 : ℤ) := mul_le_mul_of_nonneg_right hb' (by positivity)
    refine lt_of_le_of_lt this ?_
    rw [zpow_neg]; norm_num
  generalize (2 : ℝ) ^ (-44 : ℤ) = ε at *
  obtain ⟨g1, g2⟩ := abs_lt.1 hD
  have hcn : (c : ℝ) / n * 100 * n = 100 * c := by field_simp
  -- monotonicity
  have le : 100 * c ≤ p * n → z.1 ≤ p := by
    intro h
    have h' : (100 : ℝ) * c ≤ p * n := by exact_mod_cast h
    have : (c : ℝ) / n ≤ (p : ℝ) / 100 := by rw [div_le_div_iff₀ hn' (by norm_num)]; linarith
    rw [hzr, ← hp]
    exact rnd_mono (mul_le_mul_of_nonneg_right (rnd_mono this) (by norm_num))
  have ge : p * n ≤ 100 * c → (p : ℝ) ≤ z.1 := by
    intro h
    have h' : (p : ℝ) * n ≤ 100 * c := by exact_mod_cast h
    have : (p : ℝ) / 100 ≤ (c : ℝ) / n := by rw [div_le_div_iff₀ (by norm_num) hn']; linarith
    rw [hzr]; refine le_trans (le_of_eq hp.symm) ?_
    exact rnd_mono (mul_le_mul_of_nonneg_right (rnd_mono this) (by norm_num))
  -- distance
  have lt : 100 * c < p * n → z.1 < p := by
    intro h
    have h' : (100 : ℝ) * c + 1 ≤ p * n := by exact_mod_cast h
    by_contra hcon; push Not at hcon
    nlinarith
  have gt : p * n < 100 * c → (p : ℝ) < z.1 := by
    intro h
    have h' : (p : ℝ) * n + 1 ≤ 100 * c := by exact_mod_cast h
    by_contra hcon; push Not at hcon
    nlinarith
  refine ⟨⟨fun h => ?_, lt⟩, ⟨fun h => ?_, gt⟩⟩
  · by_contra hcon
    exact absurd (ge (not_lt.1 hcon)) (not_le.2 h)
  · by_contra hcon
    exact absurd (le (not_lt.1 hcon)) (not_le.2 h)

/-! ### Coherence in whole per cents -/

/-- The double just below the one nearest to 0.8. -/
noncomputable def almost80 : Dbl := ⟨7205759403792793 / 2 ^ 53,
  ⟨7205759403792793, -53, by norm_num, by norm_num, by norm_num, by rw [zpow_neg]; norm_num⟩⟩

theorem lit_rnd (x : ℝ) (h0 : 0 ≤ x) (h1 : x ≤ 1) : F64.ofReal x = .fin ⟨Rounding.rnd x, Rounding.isDouble _⟩ := by
  have hov : |x| < overflow := by
    have := isDouble_one.abs_lt_overflow
    rw [abs_of_nonneg h0]; rw [abs_one] at this
    exact lt_of_le_of_lt h1 this
  unfold F64.ofReal; rw [if_pos hov]

theorem percent_ge (c : Dbl) (h0 : 0 ≤ c.1) (h1 : c.1 ≤ 1) (p : ℤ) : p ≤ toInt (F64.fin c * 100.0) ↔ (p : ℝ) ≤ Rounding.rnd (c.1 * 100) := by
  obtain ⟨z, e, hz, z0, z1, -⟩ := percent_double c h0 h1
  rw [e, toInt_floor z z0 z1, Int.le_floor, hz]

theorem percent95 (c : Dbl) (h0 : 0 ≤ c.1) (h1 : c.1 ≤ 1) : 95 ≤ toInt (F64.fin c * 100.0) ↔ (0.95 : F64) ≤ .fin c := by
  rw [percent_ge c h0 h1, show (0.95 : F64) = F64.ofReal (95 / 100) from congrArg F64.ofReal (by norm_num), lit_rnd _ (by norm_num) (by norm_num)]
  show _ ↔ Rounding.rnd (95 / 100) ≤ c.1
  have hs := survives_95
  unfold Survives at hs
  rw [show ((95 : ℕ) : ℝ) / 100 = 95 / 100 by norm_num] at hs
  constructor
  · intro h
    by_contra hcon
    rw [rnd_95] at hcon
    have h2 := le_pred c.2 (m := 8556839292003942) (by norm_num) (by push_cast; exact not_le.1 hcon)
    have h3 : Rounding.rnd (c.1 * 100) ≤ Rounding.rnd (((8556839292003942 - 1 : ℤ) : ℝ) / 2 ^ 53 * 100) := rnd_mono (by linarith)
    rw [rnd_unique (x := ((8556839292003942 - 1 : ℤ) : ℝ) / 2 ^ 53 * 100) (m := 95 * 2 ^ 46 - 1) (k := 46) (by norm_num) (by norm_num) (by norm_num) (by rw [abs_lt]; constructor <;> norm_num)] at h3
    have := h.trans h3
    norm_num at this
  · intro h
    have : Rounding.rnd (Rounding.rnd (95 / 100) * 100) ≤ Rounding.rnd (c.1 * 100) := rnd_mono (by linarith)
    rw [hs] at this; exact_mod_cast this

theorem percent60 (c : Dbl) (h0 : 0 ≤ c.1) (h1 : c.1 ≤ 1) : 60 ≤ toInt (F64.fin c * 100.0) ↔ (0.6 : F64) ≤ .fin c := by
  rw [percent_ge c h0 h1, show (0.6 : F64) = F64.ofReal (60 / 100) from congrArg F64.ofReal (by norm_num), lit_rnd _ (by norm_num) (by norm_num)]
  show _ ↔ Rounding.rnd (60 / 100) ≤ c.1
  constructor
  · intro h
    by_contra hcon
    rw [rnd_60] at hcon
    have h2 := le_pred c.2 (m := 5404319552844595) (by norm_num) (by push_cast; exact not_le.1 hcon)
    have h3 : Rounding.rnd (c.1 * 100) ≤ Rounding.rnd (((5404319552844595 - 1 : ℤ) : ℝ) / 2 ^ 53 * 100) := rnd_mono (by linarith)
    rw [rnd_unique (x := ((5404319552844595 - 1 : ℤ) : ℝ) / 2 ^ 53 * 100) (m := 60 * 2 ^ 47 - 2) (k := 47) (by norm_num) (by norm_num) (by norm_num) (by rw [abs_lt]; constructor <;> norm_num)] at h3
    have := h.trans h3
    norm_num at this
  · intro h
    have : Rounding.rnd (Rounding.rnd (60 / 100) * 100) ≤ Rounding.rnd (c.1 * 100) := rnd_mono (by linarith)
    rw [rnd_60, rnd_unique (x := 5404319552844595 / 2 ^ 53 * 100) (m := 60 * 2 ^ 47) (k := 47) (by norm_num) (by norm_num) (by norm_num) (by rw [abs_lt]; constructor <;> norm_num)] at this
    refine le_trans (le_of_eq ?_) this
    norm_num

theorem percent80 (c : Dbl) (h0 : 0 ≤ c.1) (h1 : c.1 ≤ 1) : 80 ≤ toInt (F64.fin c * 100.0) ↔ (0.8 : F64) ≤ .fin c ∨ c = almost80 := by
  rw [percent_ge c h0 h1, show (0.8 : F64) = F64.ofReal (80 / 100) from congrArg F64.ofReal (by norm_num), lit_rnd _ (by norm_num) (by norm_num)]
  show _ ↔ Rounding.rnd (80 / 100) ≤ c.1 ∨ _
  have ea : Rounding.rnd (almost80.1 * 100) = 80 := by
    show Rounding.rnd (7205759403792793 / 2 ^ 53 * 100 : ℝ) = 80
    exact (rnd_unique (m := 80 * 2 ^ 46) (k := 46) (by norm_num) (by norm_num) (by norm_num) (by rw [abs_lt]; constructor <;> norm_num)).trans (by norm_num)
  constructor
  · intro h
    by_contra hcon
    rw [not_or, rnd_80] at hcon
    have h2 := le_pred c.2 (m := 7205759403792794) (by norm_num) (by push_cast; exact not_le.1 hcon.1)
    have hne : c.1 ≠ 7205759403792793 / 2 ^ 53 := fun e => hcon.2 (Subtype.ext e)
    have h2' := le_pred c.2 (m := 7205759403792793) (by norm_num) (lt_of_le_of_ne (by push_cast at h2 ⊢; norm_num at h2 ⊢; exact h2) (by push_cast; exact hne))
    have h3 : Rounding.rnd (c.1 * 100) ≤ Rounding.rnd (((7205759403792793 - 1 : ℤ) : ℝ) / 2 ^ 53 * 100) := rnd_mono (by linarith)
    rw [rnd_unique (x := ((7205759403792793 - 1 : ℤ) : ℝ) / 2 ^ 53 * 100) (m := 80 * 2 ^ 46 - 1) (k := 46) (by norm_num) (by norm_num) (by norm_num) (by rw [abs_lt]; constructor <;> norm_num)] at h3
    have := h.trans h3
    norm_num at this
  · rintro (h | rfl)
    · have : Rounding.rnd (almost80.1 * 100) ≤ Rounding.rnd (c.1 * 100) := by
        refine rnd_mono ?_
        rw [rnd_80] at h
        have : almost80.1 ≤ 7205759403792794 / 2 ^ 53 := by show (7205759403792793 / 2 ^ 53 : ℝ) ≤ _; norm_num
        linarith
      rw [ea] at this; exact_mod_cast this
    · rw [ea]; norm_num

/-! ### C101 and C102 -/

/-- The coherence is a double in `[0, 1]`, and there are up to `2^40` agents. -/
structure Spec.SoundD (s : Shown F64) (c : Dbl) : Prop where
  coherence : s.coherence = .fin c
  nonneg : 0 ≤ c.1
  le_one : c.1 ≤ 1
  agents : s.agents ≠ []
  few : s.agents.length ≤ 2 ^ 40

/-- The number of agents that are idle. -/
def Spec.quietD (s : Shown F64) : ℕ := (s.agents.filter fun a => a.activity = .quiet).length

/-- The number of agents that work in a burst or are active. -/
def Spec.busyD (s : Shown F64) : ℕ := (s.agents.filter fun a => a.activity = .burst ∨ a.activity = .active).length

theorem lit_nat (n : ℕ) (h : n < 2 ^ 53) : F64.ofReal (n : ℝ) = .fin ⟨n, by simpa using isDouble_int (n := (n : ℤ)) (by rw [abs_of_nonneg (by positivity)]; exact_mod_cast h)⟩ :=
  F64.ofReal_of_isDouble _

theorem share_int (z : Dbl) (z0 : 0 ≤ z.1) (z1 : z.1 ≤ 100) (p : ℕ) : ((p : ℤ) ≤ toInt (F64.fin z) ↔ (p : ℝ) ≤ z.1) := by
  rw [toInt_floor z z0 z1, Int.le_floor]; norm_cast

/-- Idle agents against a threshold, as the gauge (`≥`, whole per cents) and the panels (`>`, doubles) see it. -/
theorem idle_cmp (s : Shown F64) (c : Dbl) (h : SoundD s c) (p : ℕ) (hp : Survives p) (hp2 : p < 2 ^ 53) :
    ((p : ℤ) ≤ toInt (sharePercent (idleCount s) s.agents.length : F64) ↔ p * s.agents.length ≤ 100 * quietD s) ∧
    ((sharePercent (idleCount s) s.agents.length : F64) > F64.ofReal p ↔ p * s.agents.length < 100 * quietD s) := by
  obtain ⟨z, e, z0, z1, hz⟩ := share_cmp (quietD s) s.agents.length (List.length_pos_of_ne_nil h.agents) (List.length_filter_le _ _) h.few
  have hi : idleCount s = quietD s := idleCount_double s
  obtain ⟨a, b⟩ := hz p hp
  rw [hi, e, share_int z z0 z1, lit_nat p hp2]
  refine ⟨?_, b⟩
  rw [← not_lt, a, not_lt]

/-- The same for agents that are busy. -/
theorem busy_cmp (s : Shown F64) (c : Dbl) (h : SoundD s c) (p : ℕ) (hp : Survives p) (hp2 : p < 2 ^ 53) :
    ((p : ℤ) ≤ toInt (sharePercent (activeCount s) s.agents.length : F64) ↔ p * s.agents.length ≤ 100 * busyD s) ∧
    ((sharePercent (activeCount s) s.agents.length : F64) > F64.ofReal p ↔ p * s.agents.length < 100 * busyD s) := by
  obtain ⟨z, e, z0, z1, hz⟩ := share_cmp (busyD s) s.agents.length (List.length_pos_of_ne_nil h.agents) (List.length_filter_le _ _) h.few
  have hi : activeCount s = busyD s := activeCount_double s
  obtain ⟨a, b⟩ := hz p hp
  rw [hi, e, share_int z z0 z1, lit_nat p hp2]
  refine ⟨?_, b⟩
  rw [← not_lt, a, not_lt]

/-- **C101 in doubles.** The gauges that do not look at the target are green exactly when they should by the rules of `Spec.GreenExactly`, with one
exception: the gauge of RecoverFromFailure is green one double too early, at `almost80`. -/
theorem C101_green_double_partial (s : Shown F64) (c : Dbl) (h : SoundD s c) :
    ((gauges 2 s).color = .green ↔ (0.95 : F64) ≤ s.coherence) ∧
    ((gauges 6 s).color = .green ↔ ((0.8 : F64) ≤ s.coherence ∨ c = almost80) ∧ s.disrupted = false) ∧
    ((gauges 4 s).color = .green ↔ 7 * s.agents.length ≤ 10 * quietD s) ∧
    ((gauges 7 s).color = .green ↔ 2 * s.agents.length ≤ 5 * busyD s ∧ 100 * busyD s < 81 * s.agents.length) := by
  refine ⟨?_, ?_, ?_, ?_⟩
  · show (if toInt (s.coherence * 100.0) ≥ 95 then Shade.green else if _ then _ else _) = _ ↔ _
    rw [ite_green (by split_ifs <;> decide), ge_iff_le, h.coherence, percent95 c h.nonneg h.le_one]
  · show (if (if s.disrupted then _ else toInt (s.coherence * 100.0)) ≥ 80 ∧ s.disrupted = false then Shade.green else if _ then _ else _) = _ ↔ _
    rw [ite_green (by split_ifs <;> decide)]
    cases s.disrupted with
    | true => simp
    | false =>
      simp only [Bool.false_eq_true, if_false, and_true, ge_iff_le]
      rw [h.coherence, percent80 c h.nonneg h.le_one]
  · show (if toInt (sharePercent (idleCount s) s.agents.length : F64) ≥ 70 then Shade.green else if _ then _ else _) = _ ↔ _
    have h70 := (idle_cmp s c h 70 survives_70 (by norm_num)).1
    rw [ite_green (by split_ifs <;> decide), ge_iff_le, show (70 : ℤ) = ((70 : ℕ) : ℤ) from rfl, h70]
    omega
  · show (if toInt (sharePercent (activeCount s) s.agents.length : F64) ≥ 40 ∧ toInt (sharePercent (activeCount s) s.agents.length : F64) ≤ 80 then Shade.green
      else if _ then _ else _) = _ ↔ _
    have h40 := (busy_cmp s c h 40 survives_40 (by norm_num)).1
    have h81 := (busy_cmp s c h 81 survives_81 (by norm_num)).1
    rw [ite_green (by split_ifs <;> decide), ge_iff_le, show (40 : ℤ) = ((40 : ℕ) : ℤ) from rfl, h40,
      show toInt (sharePercent (activeCount s) s.agents.length : F64) ≤ 80 ↔ ¬ (((81 : ℕ) : ℤ) ≤ toInt (sharePercent (activeCount s) s.agents.length : F64)) by
        push_cast; omega, h81]
    omega

/-- What one would expect of the two panels about consensus, which compare the same number with the same thresholds: they have the same colour. This holds
in exact arithmetic (`C102_agree_partial`). -/
def C102_double_claim : Prop := ∀ (s : Shown F64) (c : Dbl), SoundD s c →
  (gauges 2 s).color = metricsShade 2 s ∧ (s.disrupted = false → (gauges 6 s).color = metricsShade 6 s)

/-- **C102 in doubles.** The agreement of gauge and panel holds for all coherences but one, the double just below 0.8. -/
theorem C102_agree_double_partial (s : Shown F64) (c : Dbl) (h : SoundD s c) :
    ((gauges 2 s).color = metricsShade 2 s ↔ c ≠ almost80) ∧
    (s.disrupted = false → ((gauges 6 s).color = metricsShade 6 s ↔ c ≠ almost80)) ∧
    (s.disrupted = true → (gauges 6 s).color = .red ∧ metricsShade 6 s = .yellow) ∧
    ((gauges 1 s).color = .red ↔ metricsShade 1 s = .red) ∧
    ((gauges 4 s).color = metricsShade 4 s ↔ 10 * quietD s ≠ 7 * s.agents.length ∧ 2 * quietD s ≠ s.agents.length) := by
  have n95 : ¬ (0.95 : F64) ≤ .fin almost80 := by
    rw [show (0.95 : F64) = F64.ofReal (95 / 100) from congrArg F64.ofReal (by norm_num), lit_rnd _ (by norm_num) (by norm_num)]
    show ¬ Rounding.rnd (95 / 100) ≤ (7205759403792793 / 2 ^ 53 : ℝ)
    rw [rnd_95]; norm_num
  have n80 : ¬ (0.8 : F64) ≤ .fin almost80 := by
    rw [show (0.8 : F64) = F64.ofReal (80 / 100) from congrArg F64.ofReal (by norm_num), lit_rnd _ (by norm_num) (by norm_num)]
    show ¬ Rounding.rnd (80 / 100) ≤ (7205759403792793 / 2 ^ 53 : ℝ)
    rw [rnd_80]; norm_num
  have y60 : (0.6 : F64) ≤ .fin almost80 := by
    rw [show (0.6 : F64) = F64.ofReal (60 / 100) from congrArg F64.ofReal (by norm_num), lit_rnd _ (by norm_num) (by norm_num)]
    show Rounding.rnd (60 / 100) ≤ (7205759403792793 / 2 ^ 53 : ℝ)
    rw [rnd_60]; norm_num
  refine ⟨?_, ?_, ?_, ?_, ?_⟩
  · show (if toInt (s.coherence * 100.0) ≥ 95 then Shade.green else if toInt (s.coherence * 100.0) ≥ 80 then .yellow else .red) =
      (if s.coherence ≥ 0.95 then Shade.green else if s.coherence ≥ 0.8 then .yellow else .red) ↔ _
    simp only [ge_iff_le, h.coherence, percent95 c h.nonneg h.le_one, percent80 c h.nonneg h.le_one]
    by_cases hc : c = almost80
    · subst hc; simp [n95, n80]
    · simp [hc]
  · intro hd
    show (if (if s.disrupted then _ else toInt (s.coherence * 100.0)) ≥ 80 ∧ s.disrupted = false then Shade.green
        else if (if s.disrupted then _ else toInt (s.coherence * 100.0)) ≥ 60 then Shade.yellow else .red) =
      (if s.disrupted then Shade.yellow else if s.coherence ≥ 0.8 then .green else if s.coherence ≥ 0.6 then .yellow else .red) ↔ _
    simp only [hd, Bool.false_eq_true, if_false, and_true, ge_iff_le, h.coherence, percent80 c h.nonneg h.le_one, percent60 c h.nonneg h.le_one]
    by_cases hc : c = almost80
    · subst hc; simp [n80, y60]
    · simp [hc]
  · intro hd
    constructor
    · show (if (if s.disrupted then (toInt (s.coherence * 100.0)).tdiv 2 else _) ≥ 80 ∧ s.disrupted = false then Shade.green
        else if (if s.disrupted then (toInt (s.coherence * 100.0)).tdiv 2 else _) ≥ 60 then Shade.yellow else .red) = .red
      obtain ⟨z, e, -, z0, z1, -⟩ := percent_double c h.nonneg h.le_one
      have b0 : 0 ≤ toInt (s.coherence * 100.0) := by rw [h.coherence, e, toInt_floor z z0 z1]; exact Int.floor_nonneg.2 z0
      have b1 : toInt (s.coherence * 100.0) ≤ 100 := by
        rw [h.coherence, e, toInt_floor z z0 z1]; exact Int.floor_le_iff.2 (by push_cast; linarith)
      simp only [hd, if_true, Bool.true_eq_false, and_false, if_false]
      rw [Int.tdiv_eq_ediv_of_nonneg b0, if_neg (by omega)]
    · show (if s.disrupted then Shade.yellow else _) = _
      rw [hd]; rfl
  · show (if s.coherence > 0.5 then Shade.red else .green) = .red ↔ (if s.coherence > 0.5 then Shade.red else if s.coherence > 0.3 then .yellow else .green) = .red
    split_ifs <;> simp
  · show (if toInt (sharePercent (idleCount s) s.agents.length : F64) ≥ 70 then Shade.green else if toInt (sharePercent (idleCount s) s.agents.length : F64) ≥ 50
        then .yellow else .red) =
      (if (sharePercent (idleCount s) s.agents.length : F64) > F64.ofReal 70.0 then Shade.green
        else if (sharePercent (idleCount s) s.agents.length : F64) > F64.ofReal 50.0 then .yellow else .red) ↔ _
    obtain ⟨e1, e3⟩ := idle_cmp s c h 70 survives_70 (by norm_num)
    obtain ⟨e2, e4⟩ := idle_cmp s c h 50 survives_50 (by norm_num)
    rw [show ((70 : ℕ) : ℝ) = 70.0 by norm_num] at e3
    rw [show ((50 : ℕ) : ℝ) = 50.0 by norm_num] at e4
    push_cast at e1 e2
    simp only [ge_iff_le, e1, e2, e3, e4]
    split_ifs <;> simp <;> omega

/-- **C102 in doubles, refuted.** At the double just below 0.8 the gauge of ReachConsensus is yellow and the panel red, the gauge of RecoverFromFailure
green and the panel yellow. -/
theorem C102_double_refuted : ¬ C102_double_claim := by
  intro h
  have hs : SoundD (⟨.fin almost80, 0.9, false, [⟨0, .steady⟩]⟩ : Shown F64) almost80 :=
    ⟨rfl, by show (0 : ℝ) ≤ 7205759403792793 / 2 ^ 53; norm_num, by show (7205759403792793 / 2 ^ 53 : ℝ) ≤ 1; norm_num, by simp, by norm_num⟩
  exact (C102_agree_double_partial _ _ hs).1.1 (h _ _ hs).1 rfl

/-- **C102, energy panel in doubles**: EFFICIENT exactly when more than seven tenths of the agents are idle; HIGH DRAIN beside a green gauge exactly when
seven tenths are. -/
theorem C102_energy_double (s : Shown F64) (c : Dbl) (h : SoundD s c) :
    (efficientShown s = true ↔ 7 * s.agents.length < 10 * quietD s) ∧ (efficientShown s = true ↔ metricsShade 4 s = .green) ∧
    ((gauges 4 s).color = .green ∧ efficientShown s = false ↔ 10 * quietD s = 7 * s.agents.length) := by
  obtain ⟨-, e3⟩ := idle_cmp s c h 70 survives_70 (by norm_num)
  rw [show ((70 : ℕ) : ℝ) = 70.0 by norm_num] at e3
  have e1 : efficientShown s = true ↔ 7 * s.agents.length < 10 * quietD s := by
    unfold efficientShown; rw [decide_eq_true_iff]; exact e3.trans (by omega)
  have e2 : metricsShade 4 s = .green ↔ 7 * s.agents.length < 10 * quietD s := by
    show (if (sharePercent (idleCount s) s.agents.length : F64) > F64.ofReal 70.0 then Shade.green else if _ then _ else _) = _ ↔ _
    rw [ite_green (by split_ifs <;> decide), e3]; omega
  refine ⟨e1, e1.trans e2.symm, ?_⟩
  rw [(C101_green_double_partial s c h).2.2.1, ← Bool.not_eq_true, e1]
  omega

/-- **C102, traffic panel in doubles**: UP exactly when less than a fifth of the agents are idle, DOWN when more than seven tenths are. -/
theorem C102_traffic_double (s : Shown F64) (c : Dbl) (h : SoundD s c) :
    (scalingShown s = .up ↔ 5 * quietD s < s.agents.length) ∧ (scalingShown s = .down ↔ 7 * s.agents.length < 10 * quietD s) := by
  have hn := List.length_pos_of_ne_nil h.agents
  have hsum : (s.agents.countP fun a => decide (a.activity ≠ .quiet)) + quietD s = s.agents.length := by
    have := List.length_eq_countP_add_countP (fun a : ShownAgent F64 => decide (a.activity ≠ .quiet)) (l := s.agents)
    have e : (s.agents.countP fun a => decide (¬ (decide (a.activity ≠ .quiet)) = true)) = quietD s := by
      unfold quietD; rw [List.countP_eq_length_filter]
      congr 1
      exact List.filter_congr fun a _ => by simp
    rw [e] at this
    omega
  obtain ⟨z, e, z0, z1, hz⟩ := share_cmp (s.agents.countP fun a : ShownAgent F64 => decide (a.activity ≠ Activity.quiet)) s.agents.length hn List.countP_le_length h.few
  have u1 : (sharePercent (s.agents.countP fun a => decide (a.activity ≠ .quiet)) s.agents.length : F64) > 80.0 ↔ 5 * quietD s < s.agents.length := by
    rw [e, show (80.0 : F64) = F64.ofReal ((80 : ℕ) : ℝ) from congrArg F64.ofReal (by norm_num), lit_nat 80 (by norm_num)]
    refine (hz 80 survives_80).2.trans ?_
    omega
  have u2 : (sharePercent (s.agents.countP fun a => decide (a.activity ≠ .quiet)) s.agents.length : F64) < 30.0 ↔ 7 * s.agents.length < 10 * quietD s := by
    rw [e, show (30.0 : F64) = F64.ofReal ((30 : ℕ) : ℝ) from congrArg F64.ofReal (by norm_num), lit_nat 30 (by norm_num)]
    refine (hz 30 survives_30).1.trans ?_
    omega
  have e : scalingShown s = if 5 * quietD s < s.agents.length then .up else if 7 * s.agents.length < 10 * quietD s then .down else .optimal := by
    unfold scalingShown
    dsimp only
    simp only [u1, u2]
  constructor
  · rw [e]; split_ifs with h1 h2 <;> simp [h1]
  · rw [e]; split_ifs with h1 h2
    · simp; omega
    · simp [h2]
    · simp; omega

/-- Ten agents, seven of them idle, in doubles: the gauge is green, the panel says HIGH DRAIN, no scaling is advised. -/
example : let s : Shown F64 := ⟨.fin ⟨1 / 2, half_isDouble⟩, 0.4, false, List.replicate 7 ⟨0, .quiet⟩ ++ List.replicate 3 ⟨1, .steady⟩⟩
    SoundD s ⟨1 / 2, half_isDouble⟩ ∧ (gauges 4 s).color = .green ∧ efficientShown s = false ∧ scalingShown s ≠ .up ∧ scalingShown s ≠ .down := by
  intro s
  have hs : SoundD s ⟨1 / 2, half_isDouble⟩ := ⟨rfl, by norm_num, by norm_num, by simp [s], by simp [s]⟩
  have h1 := (C102_energy_double s _ hs).2.2.2 (by simp [s, quietD])
  exact ⟨hs, h1.1, h1.2, by rw [Ne, (C102_traffic_double s _ hs).1]; simp [s, quietD], by rw [Ne, (C102_traffic_double s _ hs).2]; simp [s, quietD]⟩

/-! ### C103 -/

/-- Doubling a phase is exact, so votes in doubles are those of exact arithmetic. -/
theorem vote_double (p : Dbl) (h0 : 0 ≤ p.1) (h7 : p.1 ≤ 7) : vote (F64.fin p) = vote p.1 := by
  obtain ⟨m, e, hm, h1, h2, hp⟩ := id p.2
  have hd : IsDouble (p.1 * 2) := by
    rcases eq_or_ne m 0 with rfl | hm0
    · rw [hp]; simpa using isDouble_zero
    · refine ⟨m, e + 1, hm, by omega, ?_, by rw [hp, zpow_add₀ (by norm_num)]; ring⟩
      by_contra hcon
      have he : 971 ≤ e := by omega
      have : (2 : ℝ) ^ (3 : ℤ) ≤ 2 ^ e := zpow_le_zpow_right₀ (by norm_num) (by omega)
      have hmp : (1 : ℝ) ≤ m := by
        have : (0 : ℝ) < m := by
          have hpos : 0 < p.1 := lt_of_le_of_ne h0 (by rw [hp]; exact (mul_ne_zero (by exact_mod_cast hm0) (by positivity)).symm)
          rw [hp] at hpos
          exact pos_of_mul_pos_left hpos (by positivity)
        have : 0 < m := by exact_mod_cast this
        exact_mod_cast this
      have : (8 : ℝ) ≤ m * 2 ^ e := by norm_num at this; nlinarith
      linarith
  unfold vote
  rw [show (2.0 : F64) = .fin ⟨2, isDouble_ofNat 2 (by norm_num)⟩ from lit_fin _ _ _ (by norm_num), F64.mul_fin, F64.ofReal_of_isDouble hd,
    toInt_floor ⟨_, hd⟩ (by dsimp; linarith) (by dsimp; linarith), GoMath.toInt_real, rtrunc_floor _ (by positivity)]
  dsimp; norm_num

/-- **C103 in doubles.** Votes and announcement are those of exact arithmetic, for up to `2^40` agents whose phases are doubles in `[0, 7]` (C02: phases are
at most `2π`); so `C103_votes`, `C103_shown`, `C103_coherent` and `C103_unanimous` hold for the program as it is. -/
theorem C103_double (l : List Dbl) (h : ∀ p ∈ l, 0 ≤ p.1 ∧ p.1 ≤ 7) (hn : l ≠ []) (hb : l.length ≤ 2 ^ 40) :
    maxVotes (l.map F64.fin) = maxVotes (l.map Subtype.val) ∧ consensusShown (l.map F64.fin) = consensusShown (l.map Subtype.val) := by
  have hv : (l.map F64.fin).map vote = (l.map Subtype.val).map vote := by
    rw [List.map_map, List.map_map]
    exact List.map_congr_left fun p hp => vote_double p (h p hp).1 (h p hp).2
  have hm : maxVotes (l.map F64.fin) = maxVotes (l.map Subtype.val) := by
    unfold maxVotes
    rw [hv]
    congr 1
    generalize (l.map Subtype.val).map vote = w
    rw [List.map_map, List.map_map]
    refine List.map_congr_left fun p hp => ?_
    show w.count (vote (F64.fin p)) = w.count (vote p.1)
    rw [vote_double p (h p hp).1 (h p hp).2]
  have hpos := List.length_pos_of_ne_nil hn
  have hle : maxVotes (l.map Subtype.val) ≤ l.length := by
    obtain ⟨-, -, h3⟩ := foldl_max ((l.map Subtype.val).map fun p => ((l.map Subtype.val).map vote).count (vote p)) 0
    unfold maxVotes
    rcases h3 with h3 | h3
    · rw [h3]; exact Nat.zero_le _
    · obtain ⟨q, -, e⟩ := List.mem_map.1 h3
      rw [← e]
      exact List.count_le_length.trans (by simp)
  refine ⟨hm, ?_⟩
  obtain ⟨z, e, z0, z1, hz⟩ := share_cmp (maxVotes (l.map Subtype.val)) l.length hpos hle hb
  unfold consensusShown agreement
  rw [hm, List.length_map, List.length_map, e, sharePercent_real]
  rw [show (95.0 : F64) = F64.ofReal ((95 : ℕ) : ℝ) from congrArg F64.ofReal (by norm_num), lit_nat 95 (by norm_num)]
  refine decide_eq_decide.2 ?_
  show ((95 : ℕ) : ℝ) ≤ z.1 ↔ (95.0 : ℝ) ≤ _
  rw [share_ge _ _ hpos, ← not_lt, (hz 95 survives_95).1, not_lt, ← Nat.cast_le (α := ℝ)]
  push_cast; norm_num

/-- Three agents with the same phase 1/2. -/
example : consensusShown ((List.replicate 3 (⟨1 / 2, half_isDouble⟩ : Dbl)).map F64.fin) = true := by
  rw [(C103_double _ (by intro p hp; rw [List.eq_of_mem_replicate hp]; norm_num) (by simp) (by simp)).2]
  have := C103_unanimous 3 (by norm_num) (1 / 2) (by norm_num) (by linarith [Real.pi_gt_three])
  simpa using this.1

/-! ### C144 -/

/-- **C144 in doubles.** For targets from 0.6 to 0.88, which include the default targets of the scales small, medium and large, insights and status line
never contradict each other. -/
theorem C144_agree_double_partial (s : Shown F64) (t : Dbl) (ht : s.targetCoherence = .fin t) (h1 : (0.6 : F64) ≤ .fin t) (h2 : t.1 ≤ 0.88) :
    ¬ Spec.Contradict (insightShade s) (metricsShade 7 s) := by
  have h9 : s.targetCoherence * 0.9 ≤ (0.8 : F64) := by
    rw [ht, show (0.9 : F64) = F64.ofReal (90 / 100) from congrArg F64.ofReal (by norm_num), lit_rnd _ (by norm_num) (by norm_num), F64.mul_fin]
    refine F64.ofReal_mono ?_
    have e : Rounding.rnd (90 / 100 : ℝ) = 8106479329266893 / 2 ^ 53 :=
      (rnd_unique (m := 8106479329266893) (k := 53) (by norm_num) (by norm_num) (by norm_num) (by rw [abs_lt]; constructor <;> norm_num)).trans (by norm_num)
    dsimp only
    rw [e]
    norm_num at h2 ⊢
    linarith
  have k7 : metricsShade 7 s = if s.coherence ≥ 0.8 ∧ (sharePercent (activeCount s) s.agents.length : F64) > 30.0 then Shade.green
    else if s.coherence ≥ 0.6 then .yellow else .red := rfl
  rintro (⟨ha, hb⟩ | ⟨ha, hb⟩)
  · have hc : s.coherence ≥ s.targetCoherence := by
      unfold insightShade at ha
      split_ifs at ha with a b
      exact a
    have h6 : s.coherence ≥ 0.6 := F64.le_trans' h1 (ht ▸ hc)
    rw [k7, if_pos h6] at hb
    split_ifs at hb
  · rw [k7] at hb
    have h8 : s.coherence ≥ 0.8 := by
      split_ifs at hb with a b
      exact a.1
    unfold insightShade at ha
    rw [if_pos (show s.coherence ≥ s.targetCoherence * 0.9 from F64.le_trans' h9 h8)] at ha
    split_ifs at ha

/-- The default targets of the three scales are in the range. -/
example (s : Shown F64) (size : Size) (hsize : size = 1 ∨ size = 2 ∨ size = 3) (h : s.targetCoherence = size.defaultTargetCoherence) :
    ¬ Spec.Contradict (insightShade s) (metricsShade 7 s) := by
  have key : ∀ x : ℝ, 0.6 ≤ x → x ≤ 0.875 → s.targetCoherence = F64.ofReal x → ¬ Spec.Contradict (insightShade s) (metricsShade 7 s) := by
    intro x h0 h1 hx
    have d : IsDouble (0.875 : ℝ) := ⟨7, -3, by norm_num, by norm_num, by norm_num, by norm_num⟩
    have e := lit_rnd x (by linarith) (by norm_num at h1 ⊢; linarith)
    refine C144_agree_double_partial s _ (hx.trans e) (by rw [← e]; exact F64.ofReal_mono h0) ?_
    have := rnd_le d h1
    norm_num at this ⊢; linarith
  rcases hsize with rfl | rfl | rfl
  · exact key 0.85 (by norm_num) (by norm_num) h
  · exact key 0.75 (by norm_num) (by norm_num) h
  · exact key 0.65 (by norm_num) (by norm_num) h

end Verif
