import Verif.Props.Tables
import Verif.Props.NudgeDouble
import Verif.Props.Grading

/-!
# C18, C20, C21, C22, C72, C78 in doubles: the tables as the program compares them
-/

set_option autoImplicit false
set_option linter.unusedSectionVars false

namespace Verif
open GoMath Spec Rounding

section
variable [Rounding] [LibM]

/-! ### Literals -/

theorem ofReal_lt_ofReal {x y : ℝ} (hx : |x| ≤ 200) (hy : |y| ≤ 200) (h : x + 1 / 10 ^ 12 < y) : F64.ofReal x < F64.ofReal y := by
  obtain ⟨a, ea, ha⟩ := App.ofReal hx
  obtain ⟨b, eb, hb⟩ := App.ofReal hy
  rw [ea, eb, F64.lt_fin]
  rw [abs_le] at ha hb
  have h1 := ha.2
  have h2 := hb.1
  norm_num at h1 h2 h
  show a.1 < b.1
  linarith

theorem F64.le_trans' {a b c : F64} (h : a ≤ b) (h' : b ≤ c) : a ≤ c := by
  cases a <;> cases b <;> cases c <;> first
    | exact (h : False).elim | exact (h' : False).elim | trivial
    | exact le_trans (α := ℝ) h h'

theorem zero_eq_ofReal : (0 : F64) = F64.ofReal 0 := (F64.ofReal_of_isDouble isDouble_zero).symm
theorem one_eq_ofReal : (1 : F64) = F64.ofReal 1 := (F64.ofReal_of_isDouble isDouble_one).symm

/-- The limits in doubles are the rounded limits. -/
theorem limits_ofReal (n : ℤ) : (getCoherenceLimits n : CoherenceLimits F64) =
    ⟨F64.ofReal (getCoherenceLimits n : CoherenceLimits ℝ).theoretical, F64.ofReal (getCoherenceLimits n : CoherenceLimits ℝ).practical,
      F64.ofReal (getCoherenceLimits n : CoherenceLimits ℝ).recommended⟩ := by
  unfold getCoherenceLimits
  split_ifs
  · rw [zero_eq_ofReal]
  · rw [one_eq_ofReal]
  all_goals rfl

/-! ### C20 -/

/-- **C20, in doubles.** The limits are ordered and in `[0, 1]` at every size. -/
theorem C20_ordered_double (n : ℤ) :
    let l : CoherenceLimits F64 := getCoherenceLimits n
    0 ≤ l.recommended ∧ l.recommended ≤ l.practical ∧ l.practical ≤ l.theoretical ∧ l.theoretical ≤ 1 := by
  obtain ⟨h0, h1, h2, h3⟩ := C20_limits_ordered n
  simp only [limits_ofReal]
  rw [zero_eq_ofReal, one_eq_ofReal]
  exact ⟨F64.ofReal_mono h0, F64.ofReal_mono h1, F64.ofReal_mono h2, F64.ofReal_mono h3⟩

theorem limit_gap (n : ℤ) (h : 2 ≤ n) : 0.7 ≤ (getCoherenceLimits n : CoherenceLimits ℝ).recommended ∧
    (getCoherenceLimits n : CoherenceLimits ℝ).theoretical ≤ 0.999 := by
  unfold getCoherenceLimits
  split_ifs <;> first | (exfalso; omega) | norm_num

/-- **C20, in doubles.** From two agents on each limit is non-decreasing in the size, positive and below 1. -/
theorem C20_monotone_double (n m : ℤ) (hn : 2 ≤ n) (hm : n ≤ m) :
    let l : CoherenceLimits F64 := getCoherenceLimits n
    let k : CoherenceLimits F64 := getCoherenceLimits m
    l.theoretical ≤ k.theoretical ∧ l.practical ≤ k.practical ∧ l.recommended ≤ k.recommended ∧
    0 < l.recommended ∧ k.theoretical < 1 := by
  obtain ⟨h1, h2, h3, h4, h5⟩ := C20_limits_monotone n m hn hm
  have g1 := (limit_gap n hn).1
  have g2 := (limit_gap m (by omega)).2
  obtain ⟨-, o1, o2, o3⟩ := C20_limits_ordered n
  obtain ⟨p0, p1, p2, p3⟩ := C20_limits_ordered m
  simp only [limits_ofReal]
  rw [zero_eq_ofReal, one_eq_ofReal]
  refine ⟨F64.ofReal_mono h1, F64.ofReal_mono h2, F64.ofReal_mono h3, ofReal_lt_ofReal (by norm_num) ?_ ?_,
    ofReal_lt_ofReal ?_ (by norm_num) ?_⟩
  · rw [abs_of_pos h4]; linarith
  · norm_num at g1 ⊢; linarith
  · rw [abs_of_nonneg (by linarith)]; linarith
  · norm_num at g2 ⊢; linarith

example : (0 : F64) < (getCoherenceLimits 3 : CoherenceLimits F64).recommended := (C20_monotone_double 3 70 (by norm_num) (by norm_num)).2.2.2.1

/-! ### C18 -/

/-- **C18, in doubles.** The default target of every scale, unknown ones included, is practically achievable by a swarm of its default size. -/
theorem C18_achievable_double (s : Size) :
    (s.defaultTargetCoherence : F64) ≤ (getCoherenceLimits s.defaultAgentCount : CoherenceLimits F64).practical := by
  have e : (s.defaultTargetCoherence : F64) = F64.ofReal (s.defaultTargetCoherence : ℝ) := by
    unfold Size.defaultTargetCoherence; split <;> rfl
  rw [e, limits_ofReal]
  exact F64.ofReal_mono (C18_default_target_achievable s)

/-- **C18, in doubles.** Larger scales have a lower default coherence, strictly between 0 and 1, and a larger time factor. -/
theorem C18_monotone_double (s t : ℤ) (h0 : 0 ≤ s) (hst : s < t) (h1 : t ≤ 4) :
    (Size.defaultTargetCoherence t : F64) < Size.defaultTargetCoherence s ∧ (0 : F64) < Size.defaultTargetCoherence t ∧
    (Size.defaultTargetCoherence s : F64) < 1 ∧
    (Size.defaultConvergenceTimeFactor s : F64) < Size.defaultConvergenceTimeFactor t := by
  have h2 : s ≤ 4 := by omega
  have h3 : 0 ≤ t := by omega
  rw [zero_eq_ofReal, one_eq_ofReal]
  interval_cases s <;> interval_cases t <;>
    first
    | omega
    | (refine ⟨ofReal_lt_ofReal ?_ ?_ ?_, ofReal_lt_ofReal ?_ ?_ ?_, ofReal_lt_ofReal ?_ ?_ ?_, ofReal_lt_ofReal ?_ ?_ ?_⟩ <;>
        norm_num)

example : (Size.defaultTargetCoherence 4 : F64) < Size.defaultTargetCoherence 0 := (C18_monotone_double 0 4 (by norm_num) (by norm_num) (by norm_num)).1

/-! ### C21 -/

theorem target_lits : ∃ a85 a90 a92 a95 a97 a98 a99 : Dbl, (0.85 : F64) = .fin a85 ∧ (0.90 : F64) = .fin a90 ∧ (0.92 : F64) = .fin a92 ∧
    (0.95 : F64) = .fin a95 ∧ (0.97 : F64) = .fin a97 ∧ (0.98 : F64) = .fin a98 ∧ (0.99 : F64) = .fin a99 ∧
    a85.1 < a90.1 ∧ a90.1 < a92.1 ∧ a92.1 < a95.1 ∧ a95.1 < a97.1 ∧ a97.1 < a98.1 ∧ a98.1 < a99.1 := by
  obtain ⟨a85, e1, -⟩ : App (0.85 : F64) 0.85 (1 / 10 ^ 13) := by lit
  obtain ⟨a90, e2, -⟩ : App (0.90 : F64) 0.90 (1 / 10 ^ 13) := by lit
  obtain ⟨a92, e3, -⟩ : App (0.92 : F64) 0.92 (1 / 10 ^ 13) := by lit
  obtain ⟨a95, e4, -⟩ : App (0.95 : F64) 0.95 (1 / 10 ^ 13) := by lit
  obtain ⟨a97, e5, -⟩ : App (0.97 : F64) 0.97 (1 / 10 ^ 13) := by lit
  obtain ⟨a98, e6, -⟩ : App (0.98 : F64) 0.98 (1 / 10 ^ 13) := by lit
  obtain ⟨a99, e7, -⟩ : App (0.99 : F64) 0.99 (1 / 10 ^ 13) := by lit
  have l1 : (0.85 : F64) < 0.90 := ofReal_lt_ofReal (by norm_num) (by norm_num) (by norm_num)
  have l2 : (0.90 : F64) < 0.92 := ofReal_lt_ofReal (by norm_num) (by norm_num) (by norm_num)
  have l3 : (0.92 : F64) < 0.95 := ofReal_lt_ofReal (by norm_num) (by norm_num) (by norm_num)
  have l4 : (0.95 : F64) < 0.97 := ofReal_lt_ofReal (by norm_num) (by norm_num) (by norm_num)
  have l5 : (0.97 : F64) < 0.98 := ofReal_lt_ofReal (by norm_num) (by norm_num) (by norm_num)
  have l6 : (0.98 : F64) < 0.99 := ofReal_lt_ofReal (by norm_num) (by norm_num) (by norm_num)
  rw [e1, e2] at l1
  rw [e2, e3] at l2
  rw [e3, e4] at l3
  rw [e4, e5] at l4
  rw [e5, e6] at l5
  rw [e6, e7] at l6
  exact ⟨a85, a90, a92, a95, a97, a98, a99, e1, e2, e3, e4, e5, e6, e7, l1, l2, l3, l4, l5, l6⟩

/-- **C21, in doubles.** The minimum size suffices exactly for targets up to 0.98, and for 0.99 itself; NaN is not within any limit. -/
theorem C21_sufficient_iff_double (t : F64) :
    t ≤ (getCoherenceLimits (getMinimumSwarmSize t) : CoherenceLimits F64).practical ↔ t ≤ 0.98 ∨ t = 0.99 := by
  obtain ⟨a85, a90, a92, a95, a97, a98, a99, e1, e2, e3, e4, e5, e6, e7, l1, l2, l3, l4, l5, l6⟩ := target_lits
  unfold getMinimumSwarmSize
  rw [e1, e2, e4, e5, e6, e7]
  cases t with
  | nan =>
    simp
  | pinf =>
    rw [if_pos (show F64.pinf ≥ F64.fin a99 from trivial)]
    simp only [getCoherenceLimits]
    norm_num
    rw [e7]; exact iff_of_false id (fun h => nomatch h)
  | ninf =>
    refine iff_of_true ?_ (Or.inl trivial)
    have hn : ∀ d : Dbl, ¬ (F64.ninf ≥ F64.fin d) := fun d h => h
    rw [if_neg (hn _), if_neg (hn _), if_neg (hn _), if_neg (hn _), if_neg (hn _)]
    simp only [getCoherenceLimits]
    norm_num
    rw [e1]; trivial
  | fin d =>
    have eq99 : (F64.fin d = F64.fin a99) ↔ d.1 = a99.1 := by
      constructor
      · intro h; injection h with h; rw [h]
      · intro h; rw [Subtype.ext h]
    rw [eq99, F64.le_fin]
    simp only [ge_iff_le, F64.le_fin]
    split_ifs with h1 h2 h3 h4 h5 <;> simp only [getCoherenceLimits] <;> norm_num [-Subtype.coe_le_coe] <;> simp only [e1, e3, e4, e5, e6, e7, F64.le_fin]
    · constructor
      · intro h; right; exact le_antisymm h h1
      · rintro (h | h)
        · linarith
        · exact h.le
    · constructor
      · intro h; exact Or.inl h
      · rintro (h | h)
        · exact h
        · linarith
    all_goals
      refine iff_of_true ?_ (Or.inl ?_) <;> linarith

/-- **C21, in doubles.** A more demanding target never has a smaller minimum size. -/
theorem C21_monotone_double (s t : F64) (h : s ≤ t) :
    getMinimumSwarmSize s ≤ getMinimumSwarmSize t ∧ getMinimumSwarmSize t ∈ [2, 5, 10, 20, 50, (100 : ℤ)] := by
  have tr : ∀ a : F64, a ≤ s → a ≤ t := fun a ha => F64.le_trans' ha h
  unfold getMinimumSwarmSize
  simp only [ge_iff_le]
  constructor
  · have t1 := tr 0.99
    have t2 := tr 0.97
    have t3 := tr 0.95
    have t4 := tr 0.90
    have t5 := tr 0.85
    split_ifs <;> first | omega | (exfalso; tauto)
  · split_ifs <;> simp

example : (0.97 : F64) ≤ (getCoherenceLimits (getMinimumSwarmSize (0.97 : F64)) : CoherenceLimits F64).practical :=
  (C21_sufficient_iff_double 0.97).2 (Or.inl (F64.ofReal_mono (by norm_num)))

/-! ### C22 -/

theorem limits_fin (n : ℤ) : ∃ a b c : Dbl, (getCoherenceLimits n : CoherenceLimits F64) = ⟨.fin a, .fin b, .fin c⟩ ∧
    0 ≤ c.1 ∧ c.1 ≤ b.1 ∧ b.1 ≤ a.1 := by
  obtain ⟨h0, h1, h2, h3⟩ := C20_limits_ordered n
  have o := C20_ordered_double n
  simp only [limits_ofReal] at o ⊢
  obtain ⟨a, ea, -⟩ := App.ofReal (x := (getCoherenceLimits n : CoherenceLimits ℝ).theoretical) (by rw [abs_of_nonneg (by linarith)]; linarith)
  obtain ⟨b, eb, -⟩ := App.ofReal (x := (getCoherenceLimits n : CoherenceLimits ℝ).practical) (by rw [abs_of_nonneg (by linarith)]; linarith)
  obtain ⟨c, ec, -⟩ := App.ofReal (x := (getCoherenceLimits n : CoherenceLimits ℝ).recommended) (by rw [abs_of_nonneg (by linarith)]; linarith)
  rw [ea, eb, ec] at o ⊢
  exact ⟨a, b, c, rfl, o.1, o.2.1, o.2.2.1⟩

/-- **C22, in doubles.** The adjusted target of a request that is not NaN is the request, or the theoretical limit if that is smaller. -/
theorem C22_adjusted_double (n : ℤ) (r : F64) (hr : r ≠ .nan) :
    let a := (validateCoherenceTarget n r).1
    a ≤ (getCoherenceLimits n : CoherenceLimits F64).theoretical ∧ a ≤ r ∧
    (r ≤ (getCoherenceLimits n : CoherenceLimits F64).theoretical → a = r) ∧
    ((getCoherenceLimits n : CoherenceLimits F64).theoretical < r → a = (getCoherenceLimits n : CoherenceLimits F64).theoretical) := by
  obtain ⟨a, b, c, e, hc, hb, ha⟩ := limits_fin n
  unfold validateCoherenceTarget
  simp only [gt_iff_lt, e]
  by_cases h : F64.fin a < r
  · simp only [if_pos h]
    refine ⟨le_refl a.1, ?_, ?_, fun _ => trivial⟩
    · cases r with
      | nan => exact h
      | pinf => trivial
      | ninf => exact h
      | fin d => exact le_of_lt (α := ℝ) h
    · intro h'
      cases r with
      | nan => exact h.elim
      | pinf => exact h'.elim
      | ninf => exact h.elim
      | fin d => exact absurd (show a.1 < d.1 from h) (not_lt.2 (show d.1 ≤ a.1 from h'))
  · have e' : (if F64.fin a < r then (F64.fin a, "Target coherence exceeds theoretical maximum for this swarm size")
        else if F64.fin b < r then (r, "Target coherence may not be achievable in reasonable time")
        else if F64.fin c < r then (r, "Target coherence is ambitious for this swarm size") else (r, "")).1 = r := by
      rw [if_neg h]; split_ifs <;> rfl
    rw [e']
    refine ⟨?_, ?_, fun _ => rfl, fun h' => absurd h' h⟩
    · cases r with
      | nan => exact absurd rfl hr
      | pinf => exact absurd trivial h
      | ninf => trivial
      | fin d => exact not_lt.1 (show ¬ a.1 < d.1 from h)
    · cases r with
      | nan => exact absurd rfl hr
      | pinf => trivial
      | ninf => trivial
      | fin d => exact le_refl d.1

/-- **C22, in doubles.** A warning is given exactly above the recommended limit; NaN is above no limit. -/
theorem C22_warning_iff_double (n : ℤ) (r : F64) :
    (validateCoherenceTarget n r).2 ≠ "" ↔ (getCoherenceLimits n : CoherenceLimits F64).recommended < r := by
  obtain ⟨a, b, c, e, hc, hb, ha⟩ := limits_fin n
  have ac : F64.fin c ≤ F64.fin a := le_trans (α := ℝ) hb ha
  have bc : F64.fin c ≤ F64.fin b := hb
  unfold validateCoherenceTarget
  simp only [gt_iff_lt, e]
  split_ifs with h1 h2 h3
  · exact iff_of_true (ne_of_beq_false rfl) (F64.lt_of_le_lt ac h1)
  · exact iff_of_true (ne_of_beq_false rfl) (F64.lt_of_le_lt bc h2)
  · exact iff_of_true (ne_of_beq_false rfl) h3
  · exact iff_of_false (fun h => h rfl) h3

/-- **C22: a target of NaN passes validation**, unchanged and without a warning, and is given the finite time factor 8 as soon as there are agents. -/
theorem C22_nan (n : ℤ) : validateCoherenceTarget n F64.nan = (F64.nan, "") ∧
    (1 ≤ n → getConvergenceTimeFactor n F64.nan = some 8.0) := by
  obtain ⟨a, b, c, e, hc, hb, ha⟩ := limits_fin n
  constructor
  · unfold validateCoherenceTarget
    simp only [gt_iff_lt]
    rw [if_neg (F64.lt_nan _), if_neg (F64.lt_nan _), if_neg (F64.lt_nan _)]
  · intro hn
    have hp : ¬ ((getCoherenceLimits n : CoherenceLimits F64).practical ≤ 0) := by
      rw [limits_ofReal]
      have h8 : 0.8 ≤ (getCoherenceLimits n : CoherenceLimits ℝ).practical := by
        unfold getCoherenceLimits; split_ifs <;> first | (exfalso; omega) | norm_num
      have h9 := C20_limits_ordered n
      norm_num at h8
      obtain ⟨d, ed, hd⟩ := App.ofReal (x := (getCoherenceLimits n : CoherenceLimits ℝ).practical) (by rw [abs_of_nonneg (by linarith)]; linarith [h9.2.2.1, h9.2.2.2])
      intro h
      simp only [ed] at h
      have h' : d.1 ≤ 0 := h
      rw [abs_le] at hd
      have := hd.1
      norm_num at this
      linarith
    unfold getConvergenceTimeFactor
    simp only [gt_iff_lt]
    rw [if_neg (F64.lt_nan _), if_neg hp]
    have en : F64.nan / (getCoherenceLimits n : CoherenceLimits F64).practical = F64.nan := by rw [e]; rfl
    rw [en, if_neg (F64.nan_lt _), if_neg (F64.nan_lt _), if_neg (F64.nan_lt _)]

/-- **C22, in doubles.** The time factor is infinite exactly above the practical limit, otherwise one of 1, 2, 4, 8. -/
theorem C22_values_double (n : ℤ) (t : F64) :
    (getConvergenceTimeFactor n t = none ↔ (getCoherenceLimits n : CoherenceLimits F64).practical < t) ∧
    ∀ f, getConvergenceTimeFactor n t = some f → f = 1 ∨ f = 2.0 ∨ f = 4.0 ∨ f = 8.0 := by
  unfold getConvergenceTimeFactor
  simp only [gt_iff_lt]
  split_ifs with h1 h2 h3 h4 h5
  · exact ⟨by simp [h1], fun f hf => by cases hf⟩
  · exact ⟨by simp [h1], fun f hf => Or.inl (Option.some.inj hf).symm⟩
  · exact ⟨by simp [h1], fun f hf => Or.inl (Option.some.inj hf).symm⟩
  · exact ⟨by simp [h1], fun f hf => Or.inr (Or.inl (Option.some.inj hf).symm)⟩
  · exact ⟨by simp [h1], fun f hf => Or.inr (Or.inr (Or.inl (Option.some.inj hf).symm))⟩
  · exact ⟨by simp [h1], fun f hf => Or.inr (Or.inr (Or.inr (Option.some.inj hf).symm))⟩

/-- **C22, in doubles.** A more demanding target never takes a smaller finite factor, rounding of the quotient included. -/
theorem C22_monotone_double (n : ℤ) (s t : F64) (hst : s ≤ t) (fs ft : F64)
    (hs : getConvergenceTimeFactor n s = some fs) (ht : getConvergenceTimeFactor n t = some ft) : fs ≤ ft := by
  obtain ⟨a, b, c, e, hc, hb, ha⟩ := limits_fin n
  have d12 : (1 : F64) ≤ 2.0 := by rw [one_eq_ofReal]; exact F64.ofReal_mono (by norm_num)
  have d24 : (2.0 : F64) ≤ 4.0 := F64.ofReal_mono (by norm_num)
  have d48 : (4.0 : F64) ≤ 8.0 := F64.ofReal_mono (by norm_num)
  have d11 : (1 : F64) ≤ 1 := le_refl (1 : ℝ)
  have d22 : (2.0 : F64) ≤ 2.0 := F64.ofReal_mono le_rfl
  have d44 : (4.0 : F64) ≤ 4.0 := F64.ofReal_mono le_rfl
  have d88 : (8.0 : F64) ≤ 8.0 := F64.ofReal_mono le_rfl
  have d14 := F64.le_trans' d12 d24
  have d28 := F64.le_trans' d24 d48
  have d18 := F64.le_trans' d14 d48
  unfold getConvergenceTimeFactor at hs ht
  simp only [gt_iff_lt, e] at hs ht
  by_cases hp : F64.fin b ≤ 0
  · simp only [hp, if_true] at hs ht
    split_ifs at hs ht
    rw [← Option.some.inj hs, ← Option.some.inj ht]; exact d11
  · simp only [hp, if_false] at hs ht
    have hp' : 0 < b.1 := not_le.1 (show ¬ b.1 ≤ 0 from hp)
    have hu : s / F64.fin b ≤ t / F64.fin b := by
      cases s <;> cases t <;> first | exact (hst : False).elim | skip
      · show (if b.1 < 0 then F64.ninf else F64.pinf) ≤ (if b.1 < 0 then F64.ninf else F64.pinf)
        rw [if_neg (not_lt.2 hp'.le)]; trivial
      · show (if b.1 < 0 then F64.pinf else F64.ninf) ≤ (if b.1 < 0 then F64.ninf else F64.pinf)
        rw [if_neg (not_lt.2 hp'.le), if_neg (not_lt.2 hp'.le)]; trivial
      · show (if b.1 < 0 then F64.pinf else F64.ninf) ≤ (if b.1 < 0 then F64.pinf else F64.ninf)
        rw [if_neg (not_lt.2 hp'.le)]; trivial
      · rename_i d
        have : F64.ninf / F64.fin b = F64.ninf := by
          show (if b.1 < 0 then F64.pinf else F64.ninf) = _
          rw [if_neg (not_lt.2 hp'.le)]
        rw [this, F64.div_fin hp'.ne']
        unfold F64.ofReal
        split_ifs <;> trivial
      · rename_i d
        have : F64.pinf / F64.fin b = F64.pinf := by
          show (if b.1 < 0 then F64.ninf else F64.pinf) = _
          rw [if_neg (not_lt.2 hp'.le)]
        rw [this, F64.div_fin hp'.ne']
        unfold F64.ofReal
        split_ifs <;> trivial
      · rename_i x y
        rw [F64.div_fin hp'.ne', F64.div_fin hp'.ne']
        exact F64.ofReal_mono (div_le_div_of_nonneg_right hst hp'.le)
    have tr : ∀ q : F64, t / F64.fin b < q → s / F64.fin b < q := fun q hq => F64.lt_of_le_lt hu hq
    have t1 := tr 0.8
    have t2 := tr 0.9
    have t3 := tr 0.95
    split_ifs at hs ht <;>
      (rw [← Option.some.inj hs, ← Option.some.inj ht]) <;> first | assumption | (exfalso; tauto)

example : (validateCoherenceTarget 1000 (0.9 : F64)).1 ≤ (0.9 : F64) :=
  (C22_adjusted_double 1000 0.9 (by
    obtain ⟨d, e, -⟩ : App (0.9 : F64) 0.9 (1 / 10 ^ 13) := by lit
    rw [e]; exact fun h => nomatch h)).2.1

/-! ### C72 -/

theorem modifierTable_ofReal (g : ℤ) (p : PatternType) : (modifierTable g p : F64) = F64.ofReal (modifierTable g p : ℝ) := by
  unfold modifierTable
  split <;> rfl

/-- The modifier in doubles is the exact one, up to two roundings. -/
theorem modifier_app (g n : ℤ) (p : PatternType) : App (getCoherenceModifier g n p : F64) (getCoherenceModifier g n p : ℝ) (1 / 10 ^ 12) := by
  obtain ⟨h0, h1⟩ := modifierTable_cases g p
  norm_num at h0 h1
  have hm : App (modifierTable g p : F64) (modifierTable g p : ℝ) (1 / 10 ^ 13) := by
    rw [modifierTable_ofReal]; exact App.ofReal (by rw [abs_of_pos (by linarith)]; linarith)
  have h9 : App (0.9 : F64) 0.9 (1 / 10 ^ 13) := by lit
  have h8 : App (0.8 : F64) 0.8 (1 / 10 ^ 13) := by lit
  have hm' : |(modifierTable g p : ℝ)| ≤ 1.3 := by rw [abs_of_pos (by linarith)]; norm_num; linarith
  have hmono : App (modifierTable g p : F64) (modifierTable g p : ℝ) (1 / 10 ^ 12) := by
    obtain ⟨d, e, hd⟩ := hm
    exact ⟨d, e, hd.trans (by norm_num)⟩
  unfold getCoherenceModifier
  simp only
  split_ifs with ha hb hc
  · exfalso; have := ha.2; have := hb.2; omega
  · exact App.mul hm h8 hm' (B := 0.8) (by rw [abs_of_pos (by norm_num)]) (by norm_num) (by norm_num) (by norm_num)
  · exact App.mul hm h9 hm' (B := 0.9) (by rw [abs_of_pos (by norm_num)]) (by norm_num) (by norm_num) (by norm_num)
  · exact hmono

/-- **C72, in doubles.** The documented range holds except for the sparse pattern in swarms of at most 50 agents. -/
theorem C72_double_partial (g n : ℤ) (p : PatternType) (h : 50 < n ∨ p ≠ 5) :
    (0.5 : F64) < getCoherenceModifier g n p ∧ (getCoherenceModifier g n p : F64) < 1.5 := by
  obtain ⟨d, e, hd⟩ := modifier_app g n p
  obtain ⟨a, ea, ha⟩ : App (0.5 : F64) 0.5 (1 / 10 ^ 13) := by lit
  obtain ⟨b, eb, hb⟩ : App (1.5 : F64) 1.5 (1 / 10 ^ 13) := by lit
  have hr : (0.54 : ℝ) ≤ getCoherenceModifier g n p ∧ (getCoherenceModifier g n p : ℝ) ≤ 1.3 := by
    obtain ⟨h0, h1⟩ := modifierTable_cases g p
    unfold getCoherenceModifier
    generalize (modifierTable g p : ℝ) = m at *
    norm_num at h0 h1
    simp only
    rw [if_neg (by rintro ⟨a, b⟩; rcases h with h | h; exacts [by omega, h b])]
    split_ifs
    all_goals constructor <;> norm_num <;> linarith
  rw [e, ea, eb, F64.lt_fin, F64.lt_fin]
  rw [abs_le] at hd ha hb
  obtain ⟨d1, d2⟩ := hd
  obtain ⟨a1, a2⟩ := ha
  obtain ⟨b1, b2⟩ := hb
  obtain ⟨r1, r2⟩ := hr
  norm_num [-Subtype.coe_lt_coe] at d1 d2 a1 a2 b1 b2 r1 r2 ⊢
  constructor <;> linarith

/-- **C72, in doubles.** The sparse pattern in a swarm of 50 agents is below the documented range. -/
theorem C72_double_refuted : (getCoherenceModifier 1 50 5 : F64) < 0.5 := by
  obtain ⟨d, e, hd⟩ := modifier_app 1 50 5
  obtain ⟨a, ea, ha⟩ : App (0.5 : F64) 0.5 (1 / 10 ^ 13) := by lit
  have hr : (getCoherenceModifier 1 50 5 : ℝ) = 0.48 := by
    simp only [getCoherenceModifier, modifierTable]; norm_num
  rw [e, ea, F64.lt_fin]
  rw [hr] at hd
  rw [abs_le] at hd ha
  obtain ⟨d1, d2⟩ := hd
  obtain ⟨a1, a2⟩ := ha
  norm_num [-Subtype.coe_lt_coe] at d1 d2 a1 a2 ⊢
  linarith

/-! ### C78 -/

/-- **C78, in doubles.** For swarms of 51 to 999 agents the recommended pattern of every goal has the greatest modifier and is rated optimal. -/
theorem C78_double_partial (g : GoalType) (h0 : 0 ≤ g) (h1 : g ≤ 7) (n : ℤ) (hn : 50 < n) (hn' : n < 1000) (p : PatternType) :
    (getCoherenceModifier g n p : F64) ≤ getCoherenceModifier g n (bestPatternForGoal g) ∧
    getQualifier (α := F64) g n (bestPatternForGoal g) = "optimal" ∧
    isRecommended (α := F64) g n (bestPatternForGoal g) = true := by
  have e : ∀ q, (getCoherenceModifier g n q : F64) = F64.ofReal (modifierTable g q : ℝ) := by
    intro q
    unfold getCoherenceModifier
    simp only
    rw [if_neg (by rintro ⟨a, b⟩; omega), if_neg (by rintro ⟨a, b⟩; omega), modifierTable_ofReal]
  have hb : (modifierTable g (bestPatternForGoal g) : ℝ) = 1.3 := by
    interval_cases g <;> simp only [bestPatternForGoal, modifierTable]
  refine ⟨?_, ?_, ?_⟩
  · rw [e, e, hb]; exact F64.ofReal_mono (modifierTable_cases g p).2
  · unfold getQualifier; simp only [e, hb]; exact if_pos (F64.ofReal_mono le_rfl)
  · unfold isRecommended; rw [e, hb, decide_eq_true_eq]; exact F64.ofReal_mono (by norm_num)

/-- **C78, in doubles.** With 1000 agents bursts suit batching better than the "best" pattern, and with 50 agents they suit energy saving better. -/
theorem C78_double_refuted :
    (getCoherenceModifier 0 1000 (bestPatternForGoal 0) : F64) < getCoherenceModifier 0 1000 2 ∧
    (getCoherenceModifier 4 50 (bestPatternForGoal 4) : F64) < getCoherenceModifier 4 50 2 := by
  constructor
  · by_contra hc
    have := (App.lt (modifier_app _ _ _) (modifier_app _ _ _)).2 hc
    simp only [getCoherenceModifier, modifierTable, bestPatternForGoal] at this
    norm_num at this
  · by_contra hc
    have := (App.lt (modifier_app _ _ _) (modifier_app _ _ _)).2 hc
    simp only [getCoherenceModifier, modifierTable, bestPatternForGoal] at this
    norm_num at this

/-- **C78, in doubles.** A pattern with a greater modifier is never graded worse. -/
theorem C78_qualifier_double (g n g' n' : ℤ) (p p' : PatternType)
    (h : (getCoherenceModifier g n p : F64) ≤ getCoherenceModifier g' n' p') :
    ∃ i j : ℕ, i ≤ j ∧ ["poor", "fair", "good", "excellent", "optimal"][i]? = some (getQualifier (α := F64) g n p) ∧
      ["poor", "fair", "good", "excellent", "optimal"][j]? = some (getQualifier (α := F64) g' n' p') := by
  unfold getQualifier
  simp only [ge_iff_le]
  generalize (getCoherenceModifier g n p : F64) = a at *
  generalize (getCoherenceModifier g' n' p' : F64) = b at *
  have tr : ∀ q : F64, q ≤ a → q ≤ b := fun q hq => F64.le_trans' hq h
  have t4 := tr 1.3
  have t3 := tr 1.2
  have t2 := tr 1.0
  have t1 := tr 0.8
  refine ⟨if 1.3 ≤ a then 4 else if 1.2 ≤ a then 3 else if 1.0 ≤ a then 2 else if 0.8 ≤ a then 1 else 0,
    if 1.3 ≤ b then 4 else if 1.2 ≤ b then 3 else if 1.0 ≤ b then 2 else if 0.8 ≤ b then 1 else 0, ?_, ?_, ?_⟩
  · clear tr h
    split_ifs <;> first | omega | (exfalso; tauto)
  · split_ifs <;> rfl
  · split_ifs <;> rfl

end
end Verif
