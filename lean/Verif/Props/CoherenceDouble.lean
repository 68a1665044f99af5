import Verif.Props.LocalAccuracy

/-! # C04 in doubles: reordering and turning the phases -/

set_option autoImplicit false
set_option linter.unusedSectionVars false

namespace Verif
open GoMath Spec Rounding

section
variable [Rounding] [LibM]

/-- **C04 in doubles, order.** The order of summation matters to the last bits only: two orders of the same phases differ by at most twice the error of C133. -/
theorem C04_perm_double (ε : ℝ) (ds ds' : List Dbl) (h : ds.Perm ds') (hε : ∀ d ∈ ds, TrigWithin ε d) (hn : ds.length < 2 ^ 53) (h0 : ds ≠ []) :
    ∃ z z' : Dbl, measureCoherence (ds.map F64.fin) = .fin z ∧ measureCoherence (ds'.map F64.fin) = .fin z' ∧
      |z.1 - z'.1| ≤ 2 * coherenceError ε ds.length := by
  obtain ⟨z, e, -, hz⟩ := C133_accurate ε ds hε hn h0
  obtain ⟨z', e', -, hz'⟩ := C133_accurate ε ds' (fun d hd => hε d (h.mem_iff.2 hd)) (by rw [← h.length_eq]; exact hn)
    (fun hnil => h0 (by rw [hnil] at h; exact h.eq_nil))
  refine ⟨z, z', e, e', ?_⟩
  rw [← h.length_eq, ← measureCoherence_eq_orderParameter, ← C04_coherence_perm (h.map _), measureCoherence_eq_orderParameter] at hz'
  have := abs_sub_le z.1 (orderParameter (ds.map Subtype.val)) z'.1
  rw [abs_sub_comm (orderParameter _)] at this
  linarith

/-- **C04 in doubles, turning.** Turning all phases by the same angle, whole turns and an error of `δ` aside, changes the coherence by at most `δ` and
twice the error of C133. -/
theorem C04_rotate_double {ι : Type} (ε δ c : ℝ) (hδ : 0 ≤ δ) (l : List ι) (f g : ι → Dbl) (h : ∀ i ∈ l, Near (g i).1 ((f i).1 + c) δ)
    (hf : ∀ i ∈ l, TrigWithin ε (f i)) (hg : ∀ i ∈ l, TrigWithin ε (g i)) (hn : l.length < 2 ^ 53) (h0 : l ≠ []) :
    ∃ z z' : Dbl, measureCoherence (l.map fun i => F64.fin (f i)) = .fin z ∧ measureCoherence (l.map fun i => F64.fin (g i)) = .fin z' ∧
      |z.1 - z'.1| ≤ 2 * coherenceError ε l.length + δ := by
  obtain ⟨z, e, -, hz⟩ := C133_accurate ε (l.map f) (by simpa using hf) (by simpa using hn) (by simpa using h0)
  obtain ⟨z', e', -, hz'⟩ := C133_accurate ε (l.map g) (by simpa using hg) (by simpa using hn) (by simpa using h0)
  rw [List.map_map] at e e' hz hz'
  rw [List.length_map] at hz hz'
  refine ⟨z, z', e, e', ?_⟩
  classical
  let k : ι → ℤ := fun i => if hi : i ∈ l then (h i hi).choose else 0
  have hk : ∀ i ∈ l, |(g i).1 + k i * (2 * Real.pi) - ((f i).1 + c)| ≤ δ := by
    intro i hi
    have := (h i hi).choose_spec
    simp only [k, dif_pos hi]
    refine le_trans (le_of_eq ?_) this
    congr 1; ring
  have e1 : orderParameter (l.map fun i => (g i).1) = orderParameter (l.map fun i => (g i).1 + k i * (2 * Real.pi)) := by
    rw [← measureCoherence_eq_orderParameter, ← measureCoherence_eq_orderParameter]
    refine C04_coherence_turns ?_
    rw [List.forall₂_map_left_iff, List.forall₂_map_right_iff]
    refine List.forall₂_same.2 fun i _ => ?_
    exact ⟨-k i, by push_cast; ring⟩
  have e2 : orderParameter (l.map fun i => (f i).1 + c) = orderParameter (l.map fun i => (f i).1) := by
    rw [← measureCoherence_eq_orderParameter, ← measureCoherence_eq_orderParameter]
    have := C04_coherence_rotate (l.map fun i => (f i).1) c
    rw [List.map_map] at this
    exact this
  have e3 := orderParameter_lipschitz l (fun i => (g i).1 + k i * (2 * Real.pi)) (fun i => (f i).1 + c) δ hδ hk
  rw [← e1, e2] at e3
  change |z.1 - orderParameter (l.map fun i => (f i).1)| ≤ _ at hz
  change |z'.1 - orderParameter (l.map fun i => (g i).1)| ≤ _ at hz'
  have a1 := abs_le.1 hz
  have a2 := abs_le.1 hz'
  have a3 := abs_le.1 e3
  exact abs_le.2 ⟨by linarith, by linarith⟩

end

/-- Non-vacuity: with correctly rounded sines and cosines, two orders of the phases 0 and 1. -/
example [Rounding] : letI := LibM.rounded
    ∃ z z' : Dbl, measureCoherence [F64.fin ⟨0, isDouble_zero⟩, F64.fin ⟨1, isDouble_one⟩] = .fin z ∧
      measureCoherence [F64.fin ⟨1, isDouble_one⟩, F64.fin ⟨0, isDouble_zero⟩] = .fin z' ∧ |z.1 - z'.1| ≤ 2 * coherenceError (2 ^ (-52 : ℤ)) 2 := by
  let := LibM.rounded
  exact C04_perm_double _ [⟨0, isDouble_zero⟩, ⟨1, isDouble_one⟩] [⟨1, isDouble_one⟩, ⟨0, isDouble_zero⟩] (List.Perm.swap _ _ _)
    (fun d _ => trigWithin_rounded d) (by norm_num) (by simp)

end Verif
