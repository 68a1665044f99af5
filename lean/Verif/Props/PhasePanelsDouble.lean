import Verif.Props.PhasePanels
import Verif.Props.ThresholdsDouble
import Verif.Props.Tables2
import Verif.Props.StepDouble
import Verif.Lemmas.HalfEven

/-!
# C104, C116 in doubles: what the panels show of single agents
-/

set_option autoImplicit false
set_option linter.unusedSectionVars false

namespace Verif
open GoMath Spec

variable [Rounding] [LibM]

theorem abs_fin_nonneg (p : Dbl) (h0 : 0 ≤ p.1) : GoMath.abs (F64.fin p) = F64.fin p := by
  show (if p.1 < 0 then _ else _) = _
  rw [if_neg (not_lt.2 h0)]

/-- No double lies between 0.1 and the double nearest to it. -/
theorem lt_tenth (p : Dbl) : F64.fin p < (0.1 : F64) ↔ p.1 < 0.1 := by
  have e : Rounding.rnd (0.1 : ℝ) = ((7205759403792794 : ℤ) : ℝ) / 2 ^ 56 :=
    rnd_unique (by norm_num) (by norm_num) (by norm_num) (by rw [abs_lt]; constructor <;> norm_num)
  rw [show (0.1 : F64) = F64.ofReal 0.1 from rfl, lit_rnd _ (by norm_num) (by norm_num)]
  show p.1 < Rounding.rnd (0.1 : ℝ) ↔ _
  constructor
  · intro h
    by_contra hc
    have h1 : Rounding.rnd (0.1 : ℝ) ≤ p.1 := rnd_le p.2 (not_lt.1 hc)
    exact absurd h (not_lt.2 h1)
  · intro h
    refine h.trans ?_
    rw [e]; norm_num

/-- **C104, in doubles.** Timing: on time exactly below a tenth of a radian, late from there on, never early, for every finite double that is a phase. -/
theorem C104_timing_double (p : Dbl) (h0 : 0 ≤ p.1) :
    (timing (F64.fin p) = .onTime ↔ p.1 < 0.1) ∧ (timing (F64.fin p) = .late ↔ 0.1 ≤ p.1) ∧ timing (F64.fin p) ≠ .early := by
  unfold timing
  rw [abs_fin_nonneg p h0]
  have hn : ¬ F64.fin p < 0 := fun h => absurd (show p.1 < 0 from h) (not_lt.2 h0)
  by_cases h : p.1 < 0.1
  · rw [if_pos ((lt_tenth p).2 h)]; exact ⟨by simp [h], by simp [h], by simp⟩
  · rw [if_neg (fun h' => h ((lt_tenth p).1 h')), if_neg hn]
    exact ⟨by simp [h], by simp [not_lt.1 h], by simp⟩

/-- **C104, in doubles.** Health is the same as in exact arithmetic. -/
theorem C104_health_double (b : Bool) (p : Dbl) : health b (F64.fin p) = health b p.1 := by
  have two : (2.0 : F64) = .fin ⟨2, isDouble_ofNat 2 (by norm_num)⟩ := lit_fin _ _ _ (by norm_num)
  have key : ∀ (x : ℝ) (hx : IsDouble x), GoMath.abs (F64.fin p) > F64.fin ⟨x, hx⟩ ↔ |p.1| > x := by
    intro x hx
    rcases lt_or_ge p.1 0 with h | h
    · have : GoMath.abs (F64.fin p) = F64.fin ⟨-p.1, p.2.neg⟩ := by
        show (if p.1 < 0 then _ else _) = _
        rw [if_pos h]; rfl
      rw [this, abs_of_neg h]; exact Iff.rfl
    · rw [abs_fin_nonneg p h, abs_of_nonneg h]; exact Iff.rfl
  unfold health
  rw [two, F64.one_def]
  simp only [key, GoMath.abs_real]
  norm_num

/-- **C104, in doubles.** So are the dots. -/
theorem C104_dot_double (p : Dbl) : dotShade (F64.fin p) = dotShade p.1 := by
  obtain ⟨hd, half⟩ : ∃ h : IsDouble (0.5 : ℝ), (0.5 : F64) = .fin ⟨0.5, h⟩ :=
    ⟨⟨1, -1, by norm_num, by norm_num, by norm_num, by rw [zpow_neg]; norm_num⟩, F64.ofReal_of_isDouble _⟩
  have key : ∀ (x : ℝ) (hx : IsDouble x), GoMath.abs (F64.fin p) < F64.fin ⟨x, hx⟩ ↔ |p.1| < x := by
    intro x hx
    rcases lt_or_ge p.1 0 with h | h
    · have : GoMath.abs (F64.fin p) = F64.fin ⟨-p.1, p.2.neg⟩ := by
        show (if p.1 < 0 then _ else _) = _
        rw [if_pos h]; rfl
      rw [this, abs_of_neg h]; exact Iff.rfl
    · rw [abs_fin_nonneg p h, abs_of_nonneg h]; exact Iff.rfl
  unfold dotShade
  rw [half, F64.one_def]
  simp only [key, GoMath.abs_real]

/-- **C104, in doubles.** "FULLY RESILIENT" is shown exactly if nothing is disrupted and every agent is within one radian after phase 0. -/
theorem C104_resilient_double (s : Shown F64) (h : ∀ a ∈ s.agents, ∃ d : Dbl, a.phase = .fin d ∧ 0 ≤ d.1) :
    resilientShown s = true ↔ s.disrupted = false ∧ ∀ a ∈ s.agents, a.phase ≤ 1 := by
  unfold resilientShown
  rw [Bool.and_eq_true, Bool.not_eq_true', decide_eq_true_iff, List.countP_eq_length]
  refine and_congr_right fun _ => forall₂_congr fun a ha => ?_
  obtain ⟨d, e, h0⟩ := h a ha
  rw [decide_eq_true_iff, e, C104_health_double, (C104_health _ _ h0).1]
  exact Iff.rfl

/-- **C104, in doubles.** An agent whose phase is not a number counts as healthy. -/
theorem C104_nan_healthy (b : Bool) : health b (F64.nan : F64) = .healthy ∧ timing (F64.nan : F64) = .late ∧ dotShade (F64.nan : F64) = .red := by
  have e : GoMath.abs (F64.nan : F64) = .nan := rfl
  refine ⟨?_, ?_, ?_⟩
  · unfold health; rw [e, if_neg (fun h => F64.lt_nan _ h.2), if_neg (F64.lt_nan _)]
  · unfold timing; rw [e, if_neg (F64.nan_lt _), if_neg (F64.nan_lt _)]
  · unfold dotShade; rw [e, if_neg (F64.nan_lt _), if_neg (F64.nan_lt _)]

/-! ### Latency -/

/-- The number behind the latency bin, after three roundings. -/
theorem latency_value (p : Dbl) (h0 : 0 ≤ p.1) (h1 : p.1 ≤ 7) : ∃ v : Dbl, (10.0 + GoMath.abs (F64.fin p) * 5.0) / 10.0 = F64.fin v ∧
    |v.1 - (1 + p.1 / 2)| ≤ 2 / 10 ^ 13 ∧ ∀ k : ℕ, k < 8 → 2 * (k : ℝ) ≤ p.1 → k + 1 ≤ v.1 := by
  have l10 : (10.0 : F64) = .fin ⟨10, isDouble_ofNat 10 (by norm_num)⟩ := lit_fin _ _ _ (by norm_num)
  have l5 : (5.0 : F64) = .fin ⟨5, isDouble_ofNat 5 (by norm_num)⟩ := lit_fin _ _ _ (by norm_num)
  obtain ⟨x, ex, hx⟩ := tiny_err (x := p.1 * 5) (by rw [abs_of_nonneg (by linarith)]; linarith)
  have hx' := abs_le.1 hx
  norm_num at hx'
  obtain ⟨y, ey, hy⟩ := tiny_err (x := 10 + x.1) (by rw [abs_le]; constructor <;> linarith)
  have hy' := abs_le.1 hy
  norm_num at hy'
  obtain ⟨v, ev, hv⟩ := tiny_err (x := y.1 / 10) (by rw [abs_le]; constructor <;> linarith)
  refine ⟨v, ?_, ?_, ?_⟩
  · rw [abs_fin_nonneg p h0, l10, l5, F64.mul_fin, ex, F64.add_fin, ey, F64.div_fin (by norm_num), ev]
  · have hv' := abs_le.1 hv
    norm_num at hv'
    rw [abs_le]; constructor <;> norm_num <;> linarith
  · intro k hk hp
    have ge : ∀ (t : ℝ) (d : Dbl) (m : ℕ), m < 2 ^ 53 → F64.ofReal t = .fin d → (m : ℝ) ≤ t → (m : ℝ) ≤ d.1 := by
      intro t d m hm e hmt
      have := F64.ofReal_mono (show (m : ℝ) ≤ t from hmt)
      rw [e, lit_nat m hm] at this
      exact this
    have hk53 : ∀ m : ℕ, m ≤ 100 → m < 2 ^ 53 := fun m hm => lt_of_le_of_lt hm (by norm_num)
    have a := ge _ _ (10 * k) (hk53 _ (by omega)) ex (by push_cast; linarith)
    have b := ge _ _ (10 * k + 10) (hk53 _ (by omega)) ey (by push_cast at a ⊢; linarith)
    have c := ge _ _ (k + 1) (hk53 _ (by omega)) ev (by push_cast at b ⊢; linarith)
    push_cast at c; exact c

/-- **C104, in doubles.** The latency bin is between 1 and 4 and never too low; it is exact unless the phase is within `10^-12` below an even number. -/
theorem C104_latency_double (p : Dbl) (h0 : 0 ≤ p.1) (h1 : p.1 ≤ 7) :
    1 ≤ latencyBin (F64.fin p) ∧ latencyBin (F64.fin p) ≤ 4 ∧ latencyBin p.1 ≤ latencyBin (F64.fin p) ∧
    ∀ k : ℤ, 1 ≤ k → k ≤ 4 → 2 * (k - 1) ≤ p.1 → p.1 ≤ 2 * k - 1 / 10 ^ 12 → latencyBin (F64.fin p) = k := by
  obtain ⟨v, ev, hv, hk⟩ := latency_value p h0 h1
  have hv' := abs_le.1 hv
  norm_num at hv'
  have v1 : 1 ≤ v.1 := by have := hk 0 (by norm_num) (by simpa using h0); simpa using this
  have v5 : v.1 < 5 := by linarith
  have fl1 : 1 ≤ ⌊v.1⌋ := Int.le_floor.2 (by simpa using v1)
  have fl5 : ⌊v.1⌋ < 5 := Int.floor_lt.2 (by simpa using v5)
  have e : latencyBin (F64.fin p) = ⌊v.1⌋ := by
    unfold latencyBin
    rw [ev]
    dsimp only
    rw [toInt_floor v (by linarith) (by linarith), if_neg (by omega)]
  have er : latencyBin p.1 = 1 + ⌊p.1 / 2⌋ := by
    have hf : ⌊p.1 / 2⌋ < 4 := by rw [Int.floor_lt]; push_cast; linarith
    unfold latencyBin
    simp only [GoMath.toInt_real, GoMath.abs_real]
    rw [abs_of_nonneg h0, rtrunc_floor _ (by positivity)]
    have : ((10.0 : ℝ) + p.1 * 5.0) / 10.0 = 1 + p.1 / 2 := by norm_num; ring
    rw [this, add_comm (1:ℝ), Int.floor_add_one, add_comm ⌊p.1 / 2⌋, if_neg (by omega)]
  have lower : ∀ k : ℕ, k < 8 → 2 * (k : ℝ) ≤ p.1 → (k : ℤ) + 1 ≤ ⌊v.1⌋ := fun k h h' => Int.le_floor.2 (by push_cast; exact hk k h h')
  rw [e]
  refine ⟨fl1, by omega, ?_, ?_⟩
  · rw [er]
    have f0 : 0 ≤ ⌊p.1 / 2⌋ := Int.floor_nonneg.2 (by positivity)
    have hf : ⌊p.1 / 2⌋ < 4 := by rw [Int.floor_lt]; push_cast; linarith
    obtain ⟨n, hn⟩ := Int.eq_ofNat_of_zero_le f0
    have hfl := Int.floor_le (p.1 / 2)
    rw [hn] at hfl ⊢
    have := lower n (by omega) (by push_cast at hfl; linarith)
    omega
  · intro k hk1 hk4 hlo hhi
    obtain ⟨n, hn⟩ := Int.eq_ofNat_of_zero_le (show 0 ≤ k - 1 by omega)
    have hkn : (k : ℝ) = n + 1 := by have : k = n + 1 := by omega
                                     rw [this]; push_cast; ring
    have a := lower n (by omega) (by rw [hkn] at hlo; linarith)
    have b : ⌊v.1⌋ < k + 1 := Int.floor_lt.2 (by push_cast; norm_num at hhi; linarith)
    omega

/-- The double just below 6. -/
noncomputable def almost6 : Dbl := ⟨(6 * 2 ^ 50 - 1) / 2 ^ 50, ⟨6 * 2 ^ 50 - 1, -50, by norm_num, by norm_num, by norm_num, by rw [zpow_neg]; norm_num⟩⟩

theorem rnd_tie_40 (hr : HalfEven) : Rounding.rnd (40 - 1 / 2 ^ 48) = 40 := by
  have near := Rounding.nearest (40 - 1 / 2 ^ 48 : ℝ) 40 (isDouble_ofNat 40 (by norm_num))
  rw [show (40 : ℝ) - (40 - 1 / 2 ^ 48) = 1 / 2 ^ 48 by ring, abs_of_pos (show (0 : ℝ) < 1 / 2 ^ 48 by positivity)] at near
  obtain ⟨n1, n2⟩ := abs_le.1 near
  obtain ⟨m, e, m1, m2, -, -, hy⟩ := normalised (Rounding.isDouble (40 - 1 / 2 ^ 48 : ℝ)) (le_trans
    (show (2 : ℝ) ^ (-1022 : ℤ) ≤ 1 by rw [show (1 : ℝ) = 2 ^ (0 : ℤ) by norm_num]; exact zpow_le_zpow_right₀ (by norm_num) (by norm_num)) (by norm_num at n1 n2 ⊢; linarith))
  have m1' : (2 : ℝ) ^ 52 ≤ m := by exact_mod_cast m1
  have m2' : (m : ℝ) < 2 ^ 53 := by exact_mod_cast m2
  have hp : (0 : ℝ) < 2 ^ e := by positivity
  have lo : (2 : ℝ) ^ (5 : ℤ) < 2 ^ (e + 53) := by
    rw [zpow_add₀ (by norm_num), show (2 : ℝ) ^ (53 : ℤ) = 2 ^ 53 by norm_cast]
    have : (m : ℝ) * 2 ^ e < 2 ^ 53 * 2 ^ e := by gcongr
    rw [← hy] at this
    norm_num at n1 n2 this ⊢; linarith
  have hi : (2 : ℝ) ^ (e + 52) < 2 ^ (6 : ℤ) := by
    rw [zpow_add₀ (by norm_num), show (2 : ℝ) ^ (52 : ℤ) = 2 ^ 52 by norm_cast]
    have : (2 : ℝ) ^ 52 * 2 ^ e ≤ m * 2 ^ e := by gcongr
    rw [← hy] at this
    norm_num at n1 n2 this ⊢; linarith
  have he : e = -47 := by have := zpow_two_lt lo; have := zpow_two_lt hi; omega
  subst he
  have e47 : (2 : ℝ) ^ (-47 : ℤ) = 1 / 2 ^ 47 := by rw [zpow_neg]; norm_num
  have hm : m = 40 * 2 ^ 47 ∨ m = 40 * 2 ^ 47 - 1 := by
    have a : ((40 * 2 ^ 47 - 2 : ℤ) : ℝ) < m := by
      rw [e47] at hy; push_cast; rw [hy] at n1; norm_num at n1 ⊢; linarith
    have b : (m : ℝ) < ((40 * 2 ^ 47 + 1 : ℤ) : ℝ) := by
      rw [e47] at hy; push_cast; rw [hy] at n2; norm_num at n2 ⊢; linarith
    have a' : 40 * 2 ^ 47 - 2 < m := by exact_mod_cast a
    have b' : m < 40 * 2 ^ 47 + 1 := by exact_mod_cast b
    omega
  rcases hm with rfl | rfl
  · rw [hy, e47]; norm_num
  · exfalso
    have h40 : EvenDouble 40 := ⟨40 * 2 ^ 47, -47, by norm_num, by norm_num, by norm_num, .inl (by norm_num), by decide, by rw [e47]; norm_num⟩
    have h := hr (40 - 1 / 2 ^ 48) 40 (isDouble_ofNat 40 (by norm_num)) (by rw [hy, e47, abs_of_pos, abs_of_neg] <;> norm_num) h40
    rw [hy, evenDouble_iff m1 m2 (by norm_num) (by norm_num)] at h
    exact absurd h (by decide)

/-- **C104, in doubles.** With ties to even, rounding can lift an agent into the next latency bin: the double just below 6 is shown at 4. -/
theorem C104_latency_rounded (hr : HalfEven) : almost6.1 < 6 ∧ latencyBin almost6.1 = 3 ∧ latencyBin (F64.fin almost6) = 4 := by
  have h6 : almost6.1 = (6 * 2 ^ 50 - 1) / 2 ^ 50 := rfl
  have hlt : almost6.1 < 6 := by rw [h6]; norm_num
  have h0 : 0 ≤ almost6.1 := by rw [h6]; norm_num
  refine ⟨hlt, ?_, ?_⟩
  · have := Real.pi_gt_three
    exact ((C104_latency almost6.1 h0 (by linarith)).2.2 3 (by norm_num) (by norm_num)).2 (by rw [h6]; norm_num)
  · have l10 : (10.0 : F64) = .fin ⟨10, isDouble_ofNat 10 (by norm_num)⟩ := lit_fin _ _ _ (by norm_num)
    have l5 : (5.0 : F64) = .fin ⟨5, isDouble_ofNat 5 (by norm_num)⟩ := lit_fin _ _ _ (by norm_num)
    obtain ⟨x, ex, -⟩ := tiny_err (x := almost6.1 * 5) (by rw [abs_of_nonneg (by linarith)]; linarith)
    have fromR : ∀ {t : ℝ} {d : Dbl}, F64.ofReal t = .fin d → d.1 = Rounding.rnd t := by
      intro t d h
      unfold F64.ofReal at h
      split_ifs at h
      injection h with h
      rw [← h]
    have hx : x.1 = ((30 * 2 ^ 48 - 1 : ℤ) : ℝ) / 2 ^ 48 := by
      rw [fromR ex]
      exact rnd_unique (by norm_num) (by norm_num) (by norm_num) (by rw [h6, abs_lt]; constructor <;> norm_num)
    have hadd : (10 : ℝ) + x.1 = 40 - 1 / 2 ^ 48 := by rw [hx]; norm_num
    obtain ⟨y, ey, -⟩ := tiny_err (x := 10 + x.1) (by rw [hadd, abs_of_pos] <;> norm_num)
    have hy : y.1 = 40 := by rw [fromR ey, hadd, rnd_tie_40 hr]
    unfold latencyBin
    rw [abs_fin_nonneg _ h0, l10, l5, F64.mul_fin, ex, F64.add_fin, ey, F64.div_fin (by norm_num)]
    have e4 : F64.ofReal (y.1 / 10) = .fin ⟨4, isDouble_ofNat 4 (by norm_num)⟩ := lit_fin _ _ _ (by rw [hy]; norm_num)
    dsimp only
    rw [e4, toInt_floor _ (by norm_num) (by norm_num)]
    norm_num

example : ∃ r : Rounding, @HalfEven r := exists_halfEven

/-! ### Indicators -/

theorem lit_near (r : ℝ) (h : |r| ≤ 10) : ∃ d : Dbl, F64.ofReal r = .fin d ∧ |d.1 - r| ≤ 1 / 10 ^ 13 := tiny_err (by linarith)

theorem abs_fin' (p : Dbl) : ∃ d : Dbl, GoMath.abs (F64.fin p) = .fin d ∧ d.1 = |p.1| := by
  rcases lt_or_ge p.1 0 with h | h
  · refine ⟨⟨-p.1, p.2.neg⟩, ?_, (abs_of_neg h).symm⟩
    show (if p.1 < 0 then _ else _) = _
    rw [if_pos h]; rfl
  · exact ⟨p, abs_fin_nonneg p h, (abs_of_nonneg h).symm⟩

/-- Comparing a distance with a literal, with a margin. -/
theorem within_lit (p : Dbl) (c r : ℝ) (hp : |p.1| ≤ 10) (hc : |c| ≤ 10) (hr : |r| ≤ 10) :
    (|p.1 - c| + 1 / 10 ^ 12 < r → GoMath.abs (F64.fin p - F64.ofReal c) < F64.ofReal r) ∧
    (r + 1 / 10 ^ 12 < |p.1 - c| → ¬ GoMath.abs (F64.fin p - F64.ofReal c) < F64.ofReal r) := by
  obtain ⟨C, eC, hC⟩ := lit_near c hc
  obtain ⟨R, eR, hR⟩ := lit_near r hr
  obtain ⟨p1, p2⟩ := abs_le.1 hp
  obtain ⟨c1, c2⟩ := abs_le.1 hc
  obtain ⟨C1, C2⟩ := abs_le.1 hC
  norm_num at C1 C2
  obtain ⟨x, ex, hx⟩ := tiny_err (x := p.1 - C.1) (by rw [abs_le]; constructor <;> linarith)
  obtain ⟨d, ed, hd⟩ := abs_fin' x
  rw [eC, eR, F64.sub_fin, ex, ed]
  have hdist : |d.1 - (|p.1 - c|)| ≤ 2 / 10 ^ 13 := by
    rw [hd]
    refine (abs_abs_sub_abs_le _ _).trans ?_
    have : x.1 - (p.1 - c) = (x.1 - (p.1 - C.1)) - (C.1 - c) := by ring
    rw [this]
    refine (abs_sub _ _).trans ?_
    norm_num at hx hC ⊢; linarith
  obtain ⟨d1, d2⟩ := abs_le.1 hdist
  obtain ⟨R1, R2⟩ := abs_le.1 hR
  norm_num at d1 d2 R1 R2
  constructor
  · intro h
    show d.1 < R.1
    norm_num at h; linarith
  · intro h h'
    have h'' : d.1 < R.1 := h'
    norm_num at h; linarith

theorem within_zero (p : Dbl) (r : ℝ) (hp : 0 ≤ p.1) (hr : |r| ≤ 10) :
    (p.1 + 1 / 10 ^ 12 < r → GoMath.abs (F64.fin p) < F64.ofReal r) ∧
    (r + 1 / 10 ^ 12 < p.1 → ¬ GoMath.abs (F64.fin p) < F64.ofReal r) := by
  obtain ⟨R, eR, hR⟩ := lit_near r hr
  obtain ⟨R1, R2⟩ := abs_le.1 hR
  norm_num at R1 R2
  rw [eR, abs_fin_nonneg p hp]
  constructor
  · intro h
    show p.1 < R.1
    norm_num at h; linarith
  · intro h h'
    have h'' : p.1 < R.1 := h'
    norm_num at h; linarith

local notation "π" => Real.pi

/-- **C104, in doubles.** The indicators follow the distance from phase 0 either way round, apart from a margin of `10^-12` at the thresholds. -/
theorem C104_indicator_double (p : Dbl) (h0 : 0 ≤ p.1) (h1 : p.1 < 2 * π) :
    (∀ goal : GoalType, goal = 0 ∨ goal = 3 ∨ goal = 5 ∨ goal = 7 →
      (fromZero p.1 + 1 / 10 ^ 12 < 0.5 → syncShade goal (F64.fin p) = .green) ∧ (0.5 + 1 / 10 ^ 12 < fromZero p.1 → syncShade goal (F64.fin p) ≠ .green)) ∧
    (∀ goal : GoalType, goal = 1 ∨ goal = 6 →
      (fromZero p.1 + 1 / 10 ^ 12 < 0.5 → syncShade goal (F64.fin p) = .red) ∧ (0.5 + 1 / 10 ^ 12 < fromZero p.1 → syncShade goal (F64.fin p) ≠ .red)) ∧
    (fromZero p.1 + 1 / 10 ^ 12 < 0.3 → syncShade 4 (F64.fin p) = .yellow) ∧ (0.3 + 1 / 10 ^ 12 < fromZero p.1 → syncShade 4 (F64.fin p) ≠ .yellow) ∧
    (π - fromZero p.1 + 1 / 10 ^ 12 < 0.5 → syncShade 4 (F64.fin p) = .green) ∧
    (0.5 + 1 / 10 ^ 12 < π - fromZero p.1 → syncShade 4 (F64.fin p) ≠ .green) := by
  have hp3 := Real.pi_gt_three
  have hp4 := Real.pi_lt_d2
  have hpp : |p.1| ≤ 10 := by rw [abs_of_nonneg h0]; linarith
  have e1 : |p.1 - ((2 : ℚ) : ℝ) * π| = 2 * π - p.1 := by push_cast; rw [abs_of_nonpos (by linarith)]; ring
  have epi : |p.1 - ((1 : ℚ) : ℝ) * π| = π - fromZero p.1 := by
    push_cast; rw [one_mul]
    unfold fromZero
    rcases le_total p.1 π with h | h
    · rw [abs_of_nonpos (by linarith), min_eq_left (by linarith)]; ring
    · rw [abs_of_nonneg (by linarith), min_eq_right (by linarith)]; ring
  have zero : ∀ r : ℝ, |r| ≤ 10 →
      (fromZero p.1 + 1 / 10 ^ 12 < r → GoMath.abs (F64.fin p) < F64.ofReal r ∨ GoMath.abs (F64.fin p - piMul 2) < F64.ofReal r) ∧
      (r + 1 / 10 ^ 12 < fromZero p.1 → ¬ (GoMath.abs (F64.fin p) < F64.ofReal r ∨ GoMath.abs (F64.fin p - piMul 2) < F64.ofReal r)) := by
    intro r hr
    have a := within_zero p r h0 hr
    have b := within_lit p (((2 : ℚ) : ℝ) * π) r hpp (by push_cast; rw [abs_of_pos (by linarith)]; linarith) hr
    rw [e1] at b
    constructor
    · intro h
      unfold fromZero at h
      rcases min_choice p.1 (2 * π - p.1) with hm | hm
      · rw [hm] at h; exact .inl (a.1 h)
      · rw [hm] at h; exact .inr (b.1 h)
    · intro h
      unfold fromZero at h
      rintro (h' | h')
      · exact a.2 (lt_of_lt_of_le h (min_le_left _ _)) h'
      · exact b.2 (lt_of_lt_of_le h (min_le_right _ _)) h'
  have opp := within_lit p (((1 : ℚ) : ℝ) * π) 0.5 hpp (by push_cast; rw [abs_of_pos (by linarith)]; linarith) (by rw [abs_of_pos] <;> norm_num)
  rw [epi] at opp
  have z5 := zero 0.5 (by rw [abs_of_pos] <;> norm_num)
  have z3 := zero 0.3 (by rw [abs_of_pos] <;> norm_num)
  have s4 : syncShade 4 (F64.fin p) = if GoMath.abs (F64.fin p) < F64.ofReal 0.3 ∨ GoMath.abs (F64.fin p - piMul 2) < F64.ofReal 0.3 then .yellow
      else if GoMath.abs (F64.fin p - F64.ofReal (((1 : ℚ) : ℝ) * π)) < F64.ofReal 0.5 then .green else .red := rfl
  refine ⟨?_, ?_, ?_, ?_, ?_, ?_⟩
  · have : ∀ goal : GoalType, goal = 0 ∨ goal = 3 ∨ goal = 5 ∨ goal = 7 → syncShade goal (F64.fin p) =
        if GoMath.abs (F64.fin p) < F64.ofReal 0.5 ∨ GoMath.abs (F64.fin p - piMul 2) < F64.ofReal 0.5 then .green
        else if GoMath.abs (F64.fin p) < 1 then .yellow else .red := by
      rintro goal (rfl | rfl | rfl | rfl) <;> rfl
    intro goal hg
    rw [this goal hg]
    refine ⟨fun h => if_pos (z5.1 h), fun h => ?_⟩
    rw [if_neg (z5.2 h)]; split_ifs <;> decide
  · have : ∀ goal : GoalType, goal = 1 ∨ goal = 6 → syncShade goal (F64.fin p) =
        if GoMath.abs (F64.fin p) < F64.ofReal 0.5 ∨ GoMath.abs (F64.fin p - piMul 2) < F64.ofReal 0.5 then .red
        else if GoMath.abs (F64.fin p - piMul 1) < F64.ofReal 0.5 ∨ GoMath.abs (F64.fin p - piMul (1 / 2)) < F64.ofReal 0.5 ∨
          GoMath.abs (F64.fin p - piMul (3 / 2)) < F64.ofReal 0.5 then .green
        else .yellow := by
      rintro goal (rfl | rfl) <;> rfl
    intro goal hg
    rw [this goal hg]
    refine ⟨fun h => if_pos (z5.1 h), fun h => ?_⟩
    rw [if_neg (z5.2 h)]; split_ifs <;> decide
  · intro h; rw [s4, if_pos (z3.1 h)]
  · intro h; rw [s4, if_neg (z3.2 h)]; split_ifs <;> decide
  · intro h
    rw [s4, if_neg (z3.2 (by norm_num at h ⊢; linarith)), if_pos (opp.1 h)]
  · intro h
    rw [s4, if_neg (opp.2 h)]; split_ifs <;> decide

/-! ### The batching panel -/

/-- **C116, in doubles.** Every bar has between 0 and 8 rows; a row is filled if the computed sine is at least `k/4 - 1`, and only if it is at least that
minus `10^-12`. -/
theorem C116_height_double (p : Dbl) : 0 ≤ waveHeight (F64.fin p) ∧ waveHeight (F64.fin p) ≤ 8 ∧
    ∀ k : ℤ, ((k : ℝ) / 4 - 1 ≤ (LibM.sin p).1 → k ≤ waveHeight (F64.fin p)) ∧ (k ≤ waveHeight (F64.fin p) → (k : ℝ) / 4 - 1 - 1 / 10 ^ 12 ≤ (LibM.sin p).1) := by
  have l2 : (2.0 : F64) = .fin ⟨2, isDouble_ofNat 2 (by norm_num)⟩ := lit_fin _ _ _ (by norm_num)
  have l8 : (8.0 : F64) = .fin ⟨8, isDouble_ofNat 8 (by norm_num)⟩ := lit_fin _ _ _ (by norm_num)
  obtain ⟨s1, s2⟩ := abs_le.1 (LibM.sin_le p)
  obtain ⟨x, ex, hx⟩ := tiny_err (x := (LibM.sin p).1 + 1) (by rw [abs_le]; constructor <;> linarith)
  obtain ⟨x1, x2⟩ := abs_le.1 hx
  norm_num at x1 x2
  obtain ⟨y, ey, hy⟩ := tiny_err (x := x.1 / 2) (by rw [abs_le]; constructor <;> linarith)
  obtain ⟨y1, y2⟩ := abs_le.1 hy
  norm_num at y1 y2
  obtain ⟨z, ez, hz⟩ := tiny_err (x := y.1 * 8) (by rw [abs_le]; constructor <;> linarith)
  obtain ⟨z1, z2⟩ := abs_le.1 hz
  norm_num at z1 z2
  have mono : ∀ {a t : ℝ} {d : Dbl} (ha : IsDouble a), F64.ofReal t = .fin d → (a ≤ t → a ≤ d.1) ∧ (t ≤ a → d.1 ≤ a) := by
    intro a t d ha e
    have ea := F64.ofReal_of_isDouble ha
    constructor
    · intro h; have := F64.ofReal_mono h; rw [e, ea] at this; exact this
    · intro h; have := F64.ofReal_mono h; rw [e, ea] at this; exact this
  have dq : ∀ (n : ℤ) (j : ℕ), |n| < 2 ^ 53 → j ≤ 1000 → IsDouble ((n : ℝ) / 2 ^ j) := fun n j hn hj =>
    ⟨n, -j, hn, by omega, by omega, by rw [zpow_neg, zpow_natCast]; rfl⟩
  have ge : ∀ k : ℤ, 0 ≤ k → k ≤ 8 → (k : ℝ) / 4 - 1 ≤ (LibM.sin p).1 → (k : ℝ) ≤ z.1 := by
    intro k k0 k8 hk
    have hb : |k| < 2 ^ 53 := by rw [abs_of_nonneg k0]; omega
    have a := (mono (dq k 2 hb (by norm_num)) ex).1 (by norm_num; linarith)
    have b := (mono (dq k 3 hb (by norm_num)) ey).1 (by norm_num at a ⊢; linarith)
    have c := (mono (dq k 0 hb (by norm_num)) ez).1 (by norm_num at b ⊢; linarith)
    norm_num at c; exact c
  have hz0 : 0 ≤ z.1 := by have := ge 0 le_rfl (by norm_num) (by norm_num; linarith); simpa using this
  have hz8 : z.1 ≤ 8 := by
    have a := (mono (dq 2 0 (by norm_num) (by norm_num)) ex).2 (by norm_num; linarith)
    have b := (mono (dq 1 0 (by norm_num) (by norm_num)) ey).2 (by norm_num at a ⊢; linarith)
    have c := (mono (dq 8 0 (by norm_num) (by norm_num)) ez).2 (by norm_num at b ⊢; linarith)
    norm_num at c; exact c
  have e : waveHeight (F64.fin p) = ⌊z.1⌋ := by
    unfold waveHeight
    rw [show GoMath.sin (F64.fin p) = F64.fin (LibM.sin p) from rfl, l2, l8, F64.one_def, F64.add_fin, ex, F64.div_fin (by norm_num), ey, F64.mul_fin, ez,
      toInt_floor z hz0 (by linarith)]
  rw [e]
  refine ⟨Int.floor_nonneg.2 hz0, Int.floor_le_iff.2 (by push_cast; linarith), fun k => ⟨fun hk => ?_, fun hk => ?_⟩⟩
  · rcases lt_or_ge k 0 with k0 | k0
    · exact k0.le.trans (Int.floor_nonneg.2 hz0)
    · have k8 : k ≤ 8 := by
        have : (k : ℝ) ≤ 8 := by linarith
        exact_mod_cast this
      exact Int.le_floor.2 (ge k k0 k8 hk)
  · have := Int.le_floor.1 hk
    norm_num; linarith

/-- **C116, in doubles.** A phase that is not finite has no sine: its bar is whatever the platform makes of `int(NaN)`. -/
theorem C116_nan (x : F64) (h : ∀ d, x ≠ .fin d) : waveHeight x = LibM.badInt .nan := by
  have e : GoMath.sin x = F64.nan := by cases x with
    | fin d => exact absurd rfl (h d)
    | _ => rfl
  unfold waveHeight
  rw [e]
  have a : ∀ y : F64, F64.nan + y = .nan := fun y => by cases y <;> rfl
  have b : ∀ y : F64, F64.nan / y = .nan := fun y => by cases y <;> rfl
  have c : ∀ y : F64, F64.nan * y = .nan := fun y => by cases y <;> rfl
  rw [a, b, c]; rfl

example : ∃ p : Dbl, 0 ≤ p.1 ∧ p.1 ≤ 7 ∧ p.1 < 2 * π ∧ 2 * ((2 : ℤ) - 1 : ℝ) ≤ p.1 ∧ p.1 ≤ 2 * (2 : ℤ) - 1 / 10 ^ 12 ∧
    fromZero p.1 > 0.5 + 1 / 10 ^ 12 := by
  have := Real.pi_gt_d2
  refine ⟨⟨3, isDouble_ofNat 3 (by norm_num)⟩, ?_⟩
  norm_num [fromZero]
  constructor <;> linarith

end Verif
