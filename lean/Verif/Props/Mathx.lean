import Verif.Model.Mathx
import Verif.Lemmas.F64

/-!
# C152: the helpers of `internal/sim`
-/

set_option autoImplicit false
set_option linter.unusedSectionVars false

namespace Verif

/-- **C152** Clamping gives the point of [0, 1] next to the value, over the reals; there is only one. -/
theorem C152_clamp (v : ℝ) : 0 ≤ clamp01 v ∧ clamp01 v ≤ 1 ∧ ∀ y, 0 ≤ y → y ≤ 1 → |v - clamp01 v| ≤ |v - y| ∧ (|v - clamp01 v| = |v - y| → y = clamp01 v) := by
  unfold clamp01
  split_ifs with h1 h2
  · refine ⟨le_rfl, zero_le_one, fun y y0 _ => ?_⟩
    rw [abs_of_neg (by linarith : v - 0 < 0), abs_of_neg (by linarith : v - y < 0)]
    exact ⟨by linarith, fun h => by linarith⟩
  · refine ⟨zero_le_one, le_rfl, fun y _ y1 => ?_⟩
    rw [abs_of_pos (by linarith : 0 < v - 1), abs_of_pos (by linarith : 0 < v - y)]
    exact ⟨by linarith, fun h => by linarith⟩
  · refine ⟨not_lt.1 h1, not_lt.1 h2, fun y _ _ => ?_⟩
    rw [sub_self, abs_zero]
    exact ⟨abs_nonneg _, fun h => by have := abs_eq_zero.1 h.symm; linarith⟩

/-- **C152** The smaller and the larger of two reals: their lattice meet and join, so order and grouping do not matter. -/
theorem C152_lattice (a b : ℝ) : simMin a b = a ⊓ b ∧ simMax a b = a ⊔ b := by
  unfold simMin simMax
  constructor
  · split_ifs with h
    · exact (min_eq_left h.le).symm
    · exact (min_eq_right (not_lt.1 h)).symm
  · split_ifs with h
    · exact (max_eq_left h.le).symm
    · exact (max_eq_right (not_lt.1 h)).symm

section
variable [Rounding] [LibM]

/-- **C152** In doubles: every value but NaN, the infinities too, is clamped to a double of [0, 1], and values of [0, 1] are kept; NaN stays NaN. -/
theorem C152_clamp_double (v : F64) :
    (v = .nan → clamp01 v = .nan) ∧ (v ≠ .nan → ∃ d : Dbl, clamp01 v = .fin d ∧ 0 ≤ d.1 ∧ d.1 ≤ 1) ∧
    (∀ d : Dbl, v = .fin d → 0 ≤ d.1 → d.1 ≤ 1 → clamp01 v = v) := by
  have z := F64.zero_def
  have o := F64.one_def
  refine ⟨?_, ?_, ?_⟩
  · rintro rfl
    unfold clamp01
    have h1 : ¬ (F64.nan : F64) < 0 := fun h => h
    have h2 : ¬ (F64.nan : F64) > 1 := fun h => by rw [o] at h; exact h
    rw [if_neg h1, if_neg h2]
  · intro hv
    unfold clamp01
    split_ifs with h1 h2
    · exact ⟨_, z, le_rfl, zero_le_one⟩
    · exact ⟨_, o, zero_le_one, le_rfl⟩
    · cases v with
      | nan => exact absurd rfl hv
      | pinf => exact absurd (by rw [o]; exact trivial) h2
      | ninf => exact absurd (by rw [z]; exact trivial) h1
      | fin d =>
        rw [z] at h1
        rw [o] at h2
        exact ⟨d, rfl, not_lt.1 h1, not_lt.1 h2⟩
  · rintro d rfl d0 d1
    unfold clamp01
    rw [if_neg (by rw [z]; exact not_lt.2 d0), if_neg (by rw [o]; exact not_lt.2 d1)]

/-- What one expects: the order of the arguments does not matter. -/
def C152_claim : Prop := ∀ (_ : Rounding) (_ : LibM) (a b : F64), simMin a b = simMin b a ∧ simMax a b = simMax b a

/-- **C152** Of two values of which one is NaN both functions return the second. -/
theorem C152_nan (a b : F64) (h : a = .nan ∨ b = .nan) : simMin a b = b ∧ simMax a b = b := by
  unfold simMin simMax
  rcases h with rfl | rfl
  · exact ⟨if_neg fun h => h, if_neg fun h => by cases b <;> exact h⟩
  · exact ⟨if_neg fun h => by cases a <;> exact h, if_neg fun h => h⟩

/-- **C152, proved part.** Missing is NaN: without it the order does not matter, the result is one of the two, and none of the two is beyond it. -/
theorem C152_symmetric_partial (a b : F64) (ha : a ≠ .nan) (hb : b ≠ .nan) :
    simMin a b = simMin b a ∧ simMax a b = simMax b a ∧ (simMin a b = a ∨ simMin a b = b) ∧ (simMax a b = a ∨ simMax a b = b) ∧
    simMin a b ≤ a ∧ simMin a b ≤ b ∧ a ≤ simMax a b ∧ b ≤ simMax a b := by
  have key : ∀ x y : F64, x ≠ .nan → y ≠ .nan → (x < y ∧ ¬ y < x ∧ x ≤ y ∧ x ≤ x ∧ y ≤ y) ∨ (y < x ∧ ¬ x < y ∧ y ≤ x ∧ x ≤ x ∧ y ≤ y) ∨
      (x = y ∧ ¬ x < y ∧ x ≤ x) := by
    intro x y hx hy
    cases x with
    | nan => exact absurd rfl hx
    | pinf =>
      cases y with
      | nan => exact absurd rfl hy
      | pinf => exact .inr (.inr ⟨rfl, fun h => h, trivial⟩)
      | ninf => exact .inr (.inl ⟨trivial, fun h => h, trivial, trivial, trivial⟩)
      | fin e => exact .inr (.inl ⟨trivial, fun h => h, trivial, trivial, le_refl e.1⟩)
    | ninf =>
      cases y with
      | nan => exact absurd rfl hy
      | pinf => exact .inl ⟨trivial, fun h => h, trivial, trivial, trivial⟩
      | ninf => exact .inr (.inr ⟨rfl, fun h => h, trivial⟩)
      | fin e => exact .inl ⟨trivial, fun h => h, trivial, trivial, le_refl e.1⟩
    | fin d =>
      cases y with
      | nan => exact absurd rfl hy
      | pinf => exact .inl ⟨trivial, fun h => h, trivial, le_refl d.1, trivial⟩
      | ninf => exact .inr (.inl ⟨trivial, fun h => h, trivial, le_refl d.1, trivial⟩)
      | fin e =>
        rcases lt_trichotomy d.1 e.1 with h | h | h
        · exact .inl ⟨h, not_lt.2 h.le, h.le, le_refl d.1, le_refl e.1⟩
        · obtain rfl : d = e := Subtype.ext h
          exact .inr (.inr ⟨rfl, lt_irrefl d.1, le_refl d.1⟩)
        · exact .inr (.inl ⟨h, not_lt.2 h.le, h.le, le_refl d.1, le_refl e.1⟩)
  unfold simMin simMax
  rcases key a b ha hb with ⟨h1, h2, h3, h4, h5⟩ | ⟨h1, h2, h3, h4, h5⟩ | ⟨rfl, h1, h2⟩
  · have g1 : ¬ a > b := h2
    have g2 : b > a := h1
    rw [if_pos h1, if_neg h2, if_neg g1, if_pos g2]
    exact ⟨rfl, rfl, .inl rfl, .inr rfl, h4, h3, h3, h5⟩
  · have g1 : a > b := h1
    have g2 : ¬ b > a := h2
    rw [if_neg h2, if_pos h1, if_pos g1, if_neg g2]
    exact ⟨rfl, rfl, .inr rfl, .inl rfl, h3, h5, h4, h3⟩
  · rw [if_neg h1]
    exact ⟨rfl, rfl, .inl rfl, .inl rfl, h2, h2, h2, h2⟩

end

/-- `Min(NaN, 1)` is 1, but `Min(1, NaN)` is NaN. -/
theorem C152_refuted : ¬ C152_claim := by
  intro h
  let _ := Rounding.some
  have h1 := (h Rounding.some LibM.some .nan (.fin ⟨1, isDouble_one⟩)).1
  let _ := LibM.some
  rw [(C152_nan _ _ (.inl rfl)).1, (C152_nan _ _ (.inr rfl)).1] at h1
  cases h1

example : clamp01 (7 : ℝ) = 1 := by norm_num [clamp01]

example [Rounding] [LibM] : (F64.pinf : F64) ≠ .nan ∧ simMin F64.pinf F64.ninf = F64.ninf :=
  ⟨by simp, by unfold simMin; exact if_neg fun h => h⟩

end Verif
