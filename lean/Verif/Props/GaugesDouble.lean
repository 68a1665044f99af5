import Verif.Props.Bars
import Verif.Lemmas.RoundErr

/-!
# C146: the gauges of the demo in doubles

The gauges compute per cents in `float64` and cut them to whole numbers (`int(coherence * 100)`,
`int(float64(count) / float64(len(agents)) * 100)`). Rounding can take a value below a whole number.
-/

set_option autoImplicit false
set_option linter.unusedSectionVars false

namespace Verif
open GoMath Spec

variable [Rounding] [LibM]

/-- The goals whose gauge shows the coherence, undisturbed. -/
def Spec.ShowsCoherence (goal : GoalType) : Prop := goal = 0 ∨ goal = 2 ∨ goal = 3 ∨ goal = 5

/-- What one would expect: a gauge that shows the coherence shows `k` for the double nearest to `k` per cent, and a gauge that shows a share of
the agents shows it rounded down. -/
def C146_claim : Prop :=
  (∀ (goal : GoalType) (s : Shown F64) (k : ℕ), ShowsCoherence goal → k ≤ 100 → s.coherence = F64.ofReal (k / 100) → (gauges goal s).value = k) ∧
  ∀ (s : Shown F64), 0 < s.agents.length → s.agents.length ≤ 2 ^ 40 →
    (gauges 4 s).value = ((100 * (s.agents.filter fun a => a.activity = .quiet).length / s.agents.length : ℕ) : ℤ)

theorem e100_double : (100.0 : F64) = .fin ⟨100, isDouble_ofNat 100 (by norm_num)⟩ := by
  change F64.ofReal 100.0 = _
  rw [show (100.0 : ℝ) = 100 by norm_num, F64.ofReal_of_isDouble (isDouble_ofNat 100 (by norm_num))]

/-- The per cents of a double in `[0, 1]`: never less than the exact value rounded down, and above the exact value by less than `2^-45`. -/
theorem percent_double (c : Dbl) (h0 : 0 ≤ c.1) (h1 : c.1 ≤ 1) :
    ∃ z : Dbl, F64.fin c * 100.0 = .fin z ∧ z.1 = Rounding.rnd (c.1 * 100) ∧ 0 ≤ z.1 ∧ z.1 ≤ 100 ∧ |z.1 - c.1 * 100| ≤ 2 ^ (-46 : ℤ) := by
  rw [e100_double, F64.mul_fin]
  have hb : |c.1 * 100| < (2 : ℝ) ^ (1023 : ℤ) := by
    rw [abs_of_nonneg (by positivity)]
    exact lt_of_le_of_lt (show c.1 * 100 ≤ 2 ^ (7 : ℤ) by norm_num; linarith) (zpow_lt_zpow_right₀ (by norm_num) (by norm_num))
  have hov := lt_trans hb F64.two1023_lt_overflow
  refine ⟨⟨Rounding.rnd (c.1 * 100), Rounding.isDouble _⟩, ?_, rfl, le_rnd isDouble_zero (by positivity),
    rnd_le (isDouble_ofNat 100 (by norm_num)) (by linarith), ?_⟩
  · unfold F64.ofReal
    rw [if_pos hov]
  · refine (rnd_err hb).trans ?_
    rw [abs_of_nonneg (by positivity)]
    have hu : ulp = 2 ^ (-46 : ℤ) / 128 := by unfold ulp; rw [show (-53 : ℤ) = -46 + -7 by norm_num, zpow_add₀ (by norm_num)]; norm_num
    have he : eta ≤ ulp := by unfold eta ulp; exact zpow_le_zpow_right₀ (by norm_num) (by norm_num)
    have h2 : ulp * (c.1 * 100) ≤ 100 * ulp := by nlinarith [ulp_pos]
    have hp := ulp_pos
    generalize (2 : ℝ) ^ (-46 : ℤ) = w at *
    linarith

theorem toInt_floor (z : Dbl) (h0 : 0 ≤ z.1) (h1 : z.1 ≤ 100) : GoMath.toInt (F64.fin z) = ⌊z.1⌋ := by
  have h := F64.toInt_between z ⌊z.1⌋ ⌊z.1⌋ (Int.floor_nonneg.2 h0)
    (by have : ⌊z.1⌋ ≤ 100 := Int.floor_le_iff.2 (by push_cast; linarith)
        omega) (Int.floor_le _) (Int.lt_floor_add_one _)
  omega

theorem isDouble_intCast {k : ℤ} (h0 : 0 ≤ k) (h1 : k ≤ 100) : IsDouble (k : ℝ) :=
  isDouble_int (by rw [abs_of_nonneg h0]; omega)

theorem value_eq (goal : GoalType) (s : Shown F64) (h : ShowsCoherence goal) : (gauges goal s).value = toInt (s.coherence * 100.0) := by
  rcases h with rfl | rfl | rfl | rfl <;> rfl

/-- **C146, what holds for the coherence.** The value shown is from 0 to 100, at least the exact value rounded down, and it exceeds the exact value
by less than `2^-45` of a per cent. -/
theorem C146_coherence_partial (goal : GoalType) (s : Shown F64) (hg : ShowsCoherence goal) (c : Dbl) (hc : s.coherence = .fin c)
    (h0 : 0 ≤ c.1) (h1 : c.1 ≤ 1) :
    0 ≤ (gauges goal s).value ∧ (gauges goal s).value ≤ 100 ∧ ⌊100 * c.1⌋ ≤ (gauges goal s).value ∧
      ((gauges goal s).value : ℝ) ≤ 100 * c.1 + 2 ^ (-46 : ℤ) := by
  rw [value_eq goal s hg, hc]
  obtain ⟨z, e, hz, z0, z1, he⟩ := percent_double c h0 h1
  rw [e, toInt_floor z z0 z1]
  refine ⟨Int.floor_nonneg.2 z0, Int.floor_le_iff.2 (by push_cast; linarith), ?_, ?_⟩
  · rw [Int.le_floor, hz]
    have hf0 : 0 ≤ ⌊100 * c.1⌋ := Int.floor_nonneg.2 (by positivity)
    have hf1 : ⌊100 * c.1⌋ ≤ 100 := Int.floor_le_iff.2 (by push_cast; linarith)
    exact le_rnd (isDouble_intCast hf0 hf1) (by have := Int.floor_le (100 * c.1); linarith)
  · have := Int.floor_le z.1
    have := (abs_le.1 he).2
    linarith

/-- **C146, order.** More coherence never shows as less, whatever the goals, and the gauge of MinimizeLatency and MaintainRhythm is green whenever
the coherence has reached the target. -/
theorem C146_order (goal goal' : GoalType) (s s' : Shown F64) (hg : ShowsCoherence goal) (hg' : ShowsCoherence goal') (c c' : Dbl)
    (hc : s.coherence = .fin c) (hc' : s'.coherence = .fin c') (h0 : 0 ≤ c.1) (h : c.1 ≤ c'.1) (h1 : c'.1 ≤ 1) :
    (gauges goal s).value ≤ (gauges goal' s').value := by
  rw [value_eq goal s hg, value_eq goal' s' hg', hc, hc']
  obtain ⟨z, e, hz, z0, z1, -⟩ := percent_double c h0 (h.trans h1)
  obtain ⟨z', e', hz', z0', z1', -⟩ := percent_double c' (h0.trans h) h1
  rw [e, e', toInt_floor z z0 z1, toInt_floor z' z0' z1', hz, hz']
  exact Int.floor_le_floor (rnd_mono (by linarith))

theorem C146_green (s : Shown F64) (c t : Dbl) (hc : s.coherence = .fin c) (ht : s.targetCoherence = .fin t) (h0 : 0 ≤ t.1) (h : t.1 ≤ c.1)
    (h1 : c.1 ≤ 1) : (gauges 3 s).color = .green ∧ (gauges 5 s).color = .green := by
  have hp : toInt (s.coherence * 100.0) ≥ toInt (s.targetCoherence * 100.0) :=
    C146_order 0 0 { s with coherence := s.targetCoherence } s (Or.inl rfl) (Or.inl rfl) t c ht hc h0 h h1
  exact ⟨if_pos hp, if_pos hp⟩

/-- **C146, whole per cents.** For the double nearest to `k` per cent the gauge shows `k` or `k - 1`. -/
theorem C146_whole_partial (goal : GoalType) (s : Shown F64) (hg : ShowsCoherence goal) (k : ℕ) (hk : k ≤ 100)
    (hc : s.coherence = F64.ofReal (k / 100)) : (gauges goal s).value = k ∨ (gauges goal s).value = k - 1 := by
  have hk' : (k : ℝ) ≤ 100 := by exact_mod_cast hk
  have hx1 : (k : ℝ) / 100 ≤ 1 := by linarith
  have hx0 : (0 : ℝ) ≤ k / 100 := by positivity
  have hb : |(k : ℝ) / 100| < (2 : ℝ) ^ (1023 : ℤ) := by
    rw [abs_of_nonneg hx0]
    exact lt_of_le_of_lt (show (k : ℝ) / 100 ≤ 2 ^ (0 : ℤ) by simpa using hx1) (zpow_lt_zpow_right₀ (by norm_num) (by norm_num))
  obtain ⟨d, hd, d0, d1⟩ : ∃ d : Dbl, F64.ofReal ((k : ℝ) / 100) = .fin d ∧ 0 ≤ d.1 ∧ d.1 ≤ 1 := by
    obtain ⟨y, hy, e, y0, y1⟩ := F64.ofReal_between isDouble_zero isDouble_one hx0 hx1
    exact ⟨⟨y, hy⟩, e, y0, y1⟩
  obtain ⟨d', hd', he⟩ := F64.ofReal_err hb
  rw [hd] at hd'
  obtain rfl : d = d' := by simpa using hd'
  rw [abs_of_nonneg hx0] at he
  have hu0 := ulp_pos
  have hee : eta ≤ ulp := by unfold eta ulp; exact zpow_le_zpow_right₀ (by norm_num) (by norm_num)
  have hus : ulp ≤ 1 / 10000 := by unfold ulp; rw [zpow_neg]; norm_num
  obtain ⟨e1, e2⟩ := abs_le.1 he
  have hx2 : ulp * ((k : ℝ) / 100) ≤ ulp := by nlinarith
  obtain ⟨-, -, v1, v2⟩ := C146_coherence_partial goal s hg d (hc.trans hd) d0 d1
  generalize (gauges goal s).value = v at *
  have l1 : (k : ℤ) - 1 ≤ v := by
    refine le_trans ?_ v1
    rw [Int.le_floor]; push_cast
    linarith
  have l2 : v < (k : ℤ) + 1 := by
    have : (v : ℝ) < k + 1 := by
      have : (2 : ℝ) ^ (-46 : ℤ) ≤ 1 / 10 := by rw [zpow_neg]; norm_num
      generalize (2 : ℝ) ^ (-46 : ℤ) = w at *
      linarith
    exact_mod_cast this
  omega

/-- A share of the agents in doubles. -/
theorem share_double (c n : ℕ) (hn : 0 < n) (hc : c ≤ n) (hb : n ≤ 2 ^ 40) :
    let v : ℤ := toInt (sharePercent c n : F64)
    0 ≤ v ∧ v ≤ 100 ∧ (¬ n ∣ 100 * c → v = ((100 * c / n : ℕ) : ℤ)) ∧
      (n ∣ 100 * c → v = ((100 * c / n : ℕ) : ℤ) ∨ v = ((100 * c / n : ℕ) : ℤ) - 1) := by
  intro v
  have hv : v = toInt (sharePercent c n : F64) := rfl
  unfold sharePercent at hv
  obtain ⟨dc, ec, hdc⟩ := fin_nat c (by omega)
  obtain ⟨dn, en, hdn⟩ := fin_nat n (by omega)
  have hn' : (0 : ℝ) < n := by exact_mod_cast hn
  have hc' : (c : ℝ) ≤ n := by exact_mod_cast hc
  rw [ec, en, F64.div_fin (by rw [hdn]; exact hn'.ne'), hdc, hdn] at hv
  have hx0 : (0 : ℝ) ≤ (c : ℝ) / n := by positivity
  have hx1 : (c : ℝ) / n ≤ 1 := (div_le_one hn').2 hc'
  have hbb : |(c : ℝ) / n| < (2 : ℝ) ^ (1023 : ℤ) := by
    rw [abs_of_nonneg hx0]
    exact lt_of_le_of_lt (show (c : ℝ) / n ≤ 2 ^ (0 : ℤ) by simpa using hx1) (zpow_lt_zpow_right₀ (by norm_num) (by norm_num))
  obtain ⟨d, hd, d0, d1⟩ : ∃ d : Dbl, F64.ofReal ((c : ℝ) / n) = .fin d ∧ 0 ≤ d.1 ∧ d.1 ≤ 1 := by
    obtain ⟨y, hy, e, y0, y1⟩ := F64.ofReal_between isDouble_zero isDouble_one hx0 hx1
    exact ⟨⟨y, hy⟩, e, y0, y1⟩
  obtain ⟨d', hd', he⟩ := F64.ofReal_err hbb
  rw [hd] at hd'
  obtain rfl : d = d' := by simpa using hd'
  rw [abs_of_nonneg hx0] at he
  obtain ⟨z, ez, -, z0, z1, hz⟩ := percent_double d d0 d1
  rw [hd, ez, toInt_floor z z0 z1] at hv
  -- the distance of `z` from the exact value
  have hu0 := ulp_pos
  have hee : eta ≤ ulp := by unfold eta ulp; exact zpow_le_zpow_right₀ (by norm_num) (by norm_num)
  have hus : ulp = 2 ^ (-46 : ℤ) / 128 := by unfold ulp; rw [show (-53 : ℤ) = -46 + -7 by norm_num, zpow_add₀ (by norm_num)]; norm_num
  obtain ⟨e1, e2⟩ := abs_le.1 he
  obtain ⟨f1, f2⟩ := abs_le.1 hz
  have hx2 : ulp * ((c : ℝ) / n) ≤ ulp := by nlinarith
  have hD1 : z.1 - (c : ℝ) / n * 100 < 2 ^ (-44 : ℤ) := by
    rw [show (2 : ℝ) ^ (-44 : ℤ) = 4 * 2 ^ (-46 : ℤ) by rw [show (-44 : ℤ) = 2 + -46 by norm_num, zpow_add₀ (by norm_num)]; norm_num]
    have hp : (0 : ℝ) < 2 ^ (-46 : ℤ) := by positivity
    generalize (2 : ℝ) ^ (-46 : ℤ) = w at *
    linarith
  have hD2 : -2 ^ (-44 : ℤ) < z.1 - (c : ℝ) / n * 100 := by
    rw [show (2 : ℝ) ^ (-44 : ℤ) = 4 * 2 ^ (-46 : ℤ) by rw [show (-44 : ℤ) = 2 + -46 by norm_num, zpow_add₀ (by norm_num)]; norm_num]
    have hp : (0 : ℝ) < 2 ^ (-46 : ℤ) := by positivity
    generalize (2 : ℝ) ^ (-46 : ℤ) = w at *
    linarith
  have hsm : (n : ℝ) * 2 ^ (-44 : ℤ) < 1 := by
    have hb' : (n : ℝ) ≤ 2 ^ 40 := by exact_mod_cast hb
    have : (n : ℝ) * 2 ^ (-44 : ℤ) ≤ 2 ^ 40 * 2 ^ (-44 : ℤ) := mul_le_mul_of_nonneg_right hb' (by positivity)
    refine lt_of_le_of_lt this ?_
    rw [zpow_neg]; norm_num
  have hsm1 : (2 : ℝ) ^ (-44 : ℤ) < 1 := by rw [zpow_neg]; norm_num
  generalize (2 : ℝ) ^ (-44 : ℤ) = ε at *
  set q := 100 * c / n with hq
  have hr := Nat.div_add_mod (100 * c) n
  have hrlt := Nat.mod_lt (100 * c) hn
  rw [← hq] at hr
  have hrR : (n : ℝ) * q + ((100 * c % n : ℕ) : ℝ) = 100 * c := by exact_mod_cast hr
  have hcn : (c : ℝ) / n * 100 * n = 100 * c := by field_simp
  generalize hg : (c : ℝ) / n * 100 = x at *
  have hrl : ((100 * c % n : ℕ) : ℝ) + 1 ≤ n := by exact_mod_cast hrlt
  generalize hm : 100 * c % n = r at *
  have hr0 : (0 : ℝ) ≤ r := by positivity
  have hxq : (q : ℝ) ≤ x := by
    by_contra hcon; push Not at hcon
    nlinarith
  have hxq1 : x + ε < q + 1 := by
    by_contra hcon; push Not at hcon
    nlinarith
  have up : ⌊z.1⌋ ≤ (q : ℤ) := by
    rw [Int.floor_le_iff]; push_cast; linarith
  have lo : (q : ℤ) - 1 ≤ ⌊z.1⌋ := by
    rw [Int.le_floor]; push_cast; linarith
  refine ⟨by rw [hv]; exact Int.floor_nonneg.2 z0, by rw [hv]; exact Int.floor_le_iff.2 (by push_cast; linarith), fun hnd => ?_, fun _ => by omega⟩
  have hr1 : (1 : ℝ) ≤ r := by
    have : r ≠ 0 := fun h => hnd (Nat.dvd_of_mod_eq_zero (hm.trans h))
    exact_mod_cast Nat.pos_of_ne_zero this
  have lo' : (q : ℤ) ≤ ⌊z.1⌋ := by
    rw [Int.le_floor]; push_cast
    by_contra hcon; push Not at hcon
    nlinarith
  omega

theorem idleCount_double (s : Shown F64) : idleCount s = (s.agents.filter fun a => a.activity = .quiet).length := by
  unfold idleCount; rw [List.countP_eq_length_filter]

theorem activeCount_double (s : Shown F64) : activeCount s = (s.agents.filter fun a => a.activity = .burst ∨ a.activity = .active).length := by
  unfold activeCount; rw [List.countP_eq_length_filter]

/-- **C146, what holds for shares.** The gauges of SaveEnergy and AdaptToTraffic show the share of idle or busy agents rounded down; only if it is a whole
number of per cents can they show one less. -/
theorem C146_share_partial (s : Shown F64) (h0 : 0 < s.agents.length) (hb : s.agents.length ≤ 2 ^ 40) :
    let exactly (v : ℤ) (c : ℕ) := 0 ≤ v ∧ v ≤ 100 ∧ (¬ s.agents.length ∣ 100 * c → v = ((100 * c / s.agents.length : ℕ) : ℤ)) ∧
      (s.agents.length ∣ 100 * c → v = ((100 * c / s.agents.length : ℕ) : ℤ) ∨ v = ((100 * c / s.agents.length : ℕ) : ℤ) - 1)
    exactly (gauges 4 s).value (s.agents.filter fun a => a.activity = .quiet).length ∧
    exactly (gauges 7 s).value (s.agents.filter fun a => a.activity = .burst ∨ a.activity = .active).length := by
  refine ⟨?_, ?_⟩
  · rw [← idleCount_double]
    exact share_double (idleCount s) s.agents.length h0 (by rw [idleCount_double]; exact List.length_filter_le _ _) hb
  · rw [← activeCount_double]
    exact share_double (activeCount s) s.agents.length h0 (by rw [activeCount_double]; exact List.length_filter_le _ _) hb

/-- `0.29` rounded to a double. -/
theorem rnd_29 : Rounding.rnd (29 / 100 : ℝ) = 5224175567749775 / 2 ^ 54 := by
  have hd : IsDouble (5224175567749775 / 2 ^ 54 : ℝ) :=
    ⟨5224175567749775, -54, by norm_num, by norm_num, by norm_num, by rw [zpow_neg]; norm_num⟩
  have hn := Rounding.nearest (29 / 100) _ hd
  have hp : |(5224175567749775 / 2 ^ 54 : ℝ) - 29 / 100| ≤ 4 / 10 / 2 ^ 54 := by
    rw [abs_le]; constructor <;> norm_num
  have hr := abs_le.1 (hn.trans hp)
  have hq : IsDouble (1 / 4 : ℝ) := ⟨1, -2, by norm_num, by norm_num, by norm_num, by norm_num⟩
  have hge : (2 : ℝ) ^ (-2 : ℤ) ≤ |Rounding.rnd (29 / 100 : ℝ)| := by
    have h1 : (1 / 4 : ℝ) ≤ Rounding.rnd (29 / 100 : ℝ) := le_rnd hq (by norm_num)
    rw [abs_of_pos (by linarith)]; norm_num at h1 ⊢; exact h1
  obtain ⟨j, hj⟩ := isDouble_multiple (Rounding.isDouble (29 / 100)) (-2) hge
  have e : (2 : ℝ) ^ ((-2 : ℤ) - 52) = 1 / 2 ^ 54 := by
    rw [show (-2 : ℤ) - 52 = -54 by norm_num, zpow_neg]; norm_num
  rw [e] at hj
  rw [hj] at hr ⊢
  have hj1 : (5224175567749774 : ℝ) < j := by
    have := hr.1; norm_num at this ⊢; linarith
  have hj2 : (j : ℝ) < 5224175567749776 := by
    have := hr.2; norm_num at this ⊢; linarith
  have hj1' : (5224175567749774 : ℤ) < j := by exact_mod_cast hj1
  have hj2' : j < (5224175567749776 : ℤ) := by exact_mod_cast hj2
  obtain rfl : j = 5224175567749775 := by omega
  norm_num

theorem ofReal_29 : ∃ d : Dbl, F64.ofReal (29 / 100) = .fin d ∧ d.1 = 5224175567749775 / 2 ^ 54 := by
  have hov : |(29 / 100 : ℝ)| < overflow := by
    have := isDouble_one.abs_lt_overflow
    rw [abs_of_pos (by norm_num)] at this ⊢
    exact lt_trans (by norm_num) this
  refine ⟨⟨Rounding.rnd (29 / 100), Rounding.isDouble _⟩, ?_, rnd_29⟩
  unfold F64.ofReal
  rw [if_pos hov]

/-- The double nearest to 0.29 shows as 28 per cent, however ties are rounded. -/
theorem percent_29 (d : Dbl) (hd : d.1 = 5224175567749775 / 2 ^ 54) : toInt (F64.fin d * 100.0) = (28 : ℤ) := by
  obtain ⟨z, e, hz, z0, z1, -⟩ := percent_double d (by rw [hd]; norm_num) (by rw [hd]; norm_num)
  rw [e, toInt_floor z z0 z1, Int.floor_eq_iff, hz, hd]
  have d8 : IsDouble (29 - 16 / 2 ^ 52 : ℝ) :=
    ⟨29 * 2 ^ 48 - 1, -48, by norm_num, by norm_num, by norm_num, by rw [zpow_neg]; norm_num⟩
  have h28 : (28 : ℝ) ≤ Rounding.rnd (5224175567749775 / 2 ^ 54 * 100) := le_rnd (isDouble_ofNat 28 (by norm_num)) (by norm_num)
  have hx : |Rounding.rnd (5224175567749775 / 2 ^ 54 * 100 : ℝ) - 5224175567749775 / 2 ^ 54 * 100| ≤ 8 / 2 ^ 52 := by
    refine (Rounding.nearest _ _ d8).trans ?_
    rw [abs_le]; constructor <;> norm_num
  have hx2 := (abs_le.1 hx).2
  refine ⟨by exact_mod_cast h28, ?_⟩
  generalize Rounding.rnd (5224175567749775 / 2 ^ 54 * 100 : ℝ) = w at *
  push_cast
  norm_num at hx2 ⊢; linarith

/-- A swarm of 100 agents, 29 of them idle, with coherence 0.29. -/
noncomputable def shown29 : Shown F64 where
  coherence := F64.ofReal (29 / 100)
  targetCoherence := 0.9
  disrupted := false
  agents := List.replicate 29 ⟨0, .quiet⟩ ++ List.replicate 71 ⟨0, .steady⟩

/-- Both parts of the claim are false: a coherence of 0.29 and 29 idle agents of 100 show as 28 per cent. -/
theorem C146_coherence_refuted : (gauges 0 shown29).value = 28 ∧ (gauges 4 shown29).value = 28 := by
  obtain ⟨d, e, hd⟩ := ofReal_29
  constructor
  · rw [value_eq 0 _ (Or.inl rfl)]
    change toInt (F64.ofReal (29 / 100) * 100.0) = _
    rw [e]; exact percent_29 d hd
  · change toInt (sharePercent (idleCount shown29) shown29.agents.length : F64) = 28
    have h1 : idleCount shown29 = 29 := by
      unfold idleCount shown29
      simp
    have h2 : shown29.agents.length = 100 := by unfold shown29; simp
    rw [h1, h2]
    unfold sharePercent
    obtain ⟨dc, ec, hdc⟩ := fin_nat 29 (by norm_num)
    obtain ⟨dn, en, hdn⟩ := fin_nat 100 (by norm_num)
    rw [ec, en, F64.div_fin (by rw [hdn]; norm_num), hdc, hdn]
    rw [show ((29 : ℕ) : ℝ) / ((100 : ℕ) : ℝ) = 29 / 100 by norm_num, e]
    exact percent_29 d hd

theorem C146_refuted : ¬ C146_claim := by
  intro h
  have h1 := h.1 0 shown29 29 (Or.inl rfl) (by norm_num) (by unfold shown29; norm_num)
  rw [C146_coherence_refuted.1] at h1
  norm_num at h1

/-- Non-vacuity: half of two agents idle, coherence 1/2 against a target of 1/4. -/
example : ∃ (s : Shown F64) (c t : Dbl), s.coherence = .fin c ∧ s.targetCoherence = .fin t ∧ 0 ≤ t.1 ∧ t.1 ≤ c.1 ∧ c.1 ≤ 1 ∧
    s.agents.length = 2 :=
  ⟨⟨.fin ⟨1 / 2, half_isDouble⟩, .fin ⟨1 / 4, ⟨1, -2, by norm_num, by norm_num, by norm_num, by norm_num⟩⟩, false, [⟨0, .quiet⟩, ⟨0, .steady⟩]⟩,
    ⟨1 / 2, half_isDouble⟩, ⟨1 / 4, ⟨1, -2, by norm_num, by norm_num, by norm_num, by norm_num⟩⟩,
    rfl, rfl, by norm_num, by norm_num, by norm_num, rfl⟩

end Verif
