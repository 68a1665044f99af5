import Verif.Props.Batching
import Verif.Props.PatternsDouble

/-!
# C70 in doubles
-/

set_option autoImplicit false
set_option linter.unusedSectionVars false

namespace Verif
open GoMath Rounding

section
variable [Rounding] [LibM]

theorem isDouble_big : IsDouble ((2 : ℝ) ^ 60) := ⟨1, 60, by norm_num, by norm_num, by norm_num, by norm_num⟩

/-- Adding at most 4 to a number of at most 2⁶⁰ gives at most 2⁶⁰ after rounding. -/
theorem rnd_saturates (x : ℝ) (h0 : 0 ≤ x) (h : x ≤ 2 ^ 60 + 4) : 0 ≤ rnd x ∧ rnd x ≤ 2 ^ 60 := by
  refine ⟨le_rnd isDouble_zero h0, ?_⟩
  by_contra hc
  push Not at hc
  have hx : 2 ^ 60 < x := by
    by_contra h1
    exact absurd (rnd_le isDouble_big (not_lt.1 h1)) (not_le.2 hc)
  have hn := nearest x _ isDouble_big
  rw [abs_of_neg (by linarith : (2 : ℝ) ^ 60 - x < 0)] at hn
  have hr : rnd x ≤ 2 ^ 60 + 8 := by linarith [(abs_le.1 hn).2]
  obtain ⟨j, hj⟩ := isDouble_multiple (isDouble x) 60 (by rw [abs_of_pos (by linarith [pow_pos (two_pos (α := ℝ)) 60])]; exact_mod_cast hc.le)
  rw [show (60 : ℤ) - 52 = 8 by norm_num] at hj
  norm_num at hj hc hr
  rw [hj] at hc hr
  have a1 : (4503599627370496 : ℝ) < j := by linarith
  have a2 : (j : ℝ) < 4503599627370497 := by linarith
  have b1 : (4503599627370496 : ℤ) < j := by exact_mod_cast a1
  have b2 : j < (4503599627370497 : ℤ) := by exact_mod_cast a2
  omega

/-- The two costs: both finite and in order. -/
def Spec.CostsOk (m : Metrics F64) : Prop :=
  ∃ a b : Dbl, m.costWithSync = .fin a ∧ m.costWithoutSync = .fin b ∧ 0 ≤ a.1 ∧ a.1 ≤ b.1 ∧ b.1 ≤ 2 ^ 60

theorem add_saturates (a c : Dbl) (ha : 0 ≤ a.1) (ha' : a.1 ≤ 2 ^ 60) (hc : 0 ≤ c.1) (hc' : c.1 ≤ 4) :
    ∃ h, F64.fin a + F64.fin c = .fin ⟨rnd (a.1 + c.1), h⟩ := by
  have h : |a.1 + c.1| < overflow := by
    obtain ⟨y, hy, e, -, -⟩ := F64.ofReal_between (x := a.1 + c.1) isDouble_zero
      (⟨1, 61, by norm_num, by norm_num, by norm_num, by norm_num⟩ : IsDouble ((2 : ℝ) ^ 61)) (by linarith) (by norm_num at ha' ⊢; linarith)
    unfold F64.ofReal at e
    by_contra hc
    rw [if_neg hc] at e
    split_ifs at e
  refine ⟨isDouble _, ?_⟩
  rw [F64.add_fin]
  unfold F64.ofReal
  rw [if_pos h]

theorem costsOk_batch (m : Metrics F64) (h : Spec.CostsOk m) (n : ℕ) (h1 : 1 ≤ n) (h2 : n ≤ 100) :
    Spec.CostsOk (Spec.MetricsOp.apply m (.batch n)) := by
  obtain ⟨a, b, ea, eb, a0, ab, b1⟩ := h
  have d64 : IsDouble ((1 : ℝ) / 64) := by have := dyadic 1 6 (by norm_num) (by norm_num); push_cast at this; norm_num at this ⊢; exact this
  have d32 : IsDouble ((1 : ℝ) / 32) := by have := dyadic 1 5 (by norm_num) (by norm_num); push_cast at this; norm_num at this ⊢; exact this
  obtain ⟨c, ec, c0, c1⟩ : FIn 0 (1 / 64) (0.015 : F64) := FIn.lit isDouble_zero d64 (by norm_num) (by norm_num)
  have k3 : FIn (1 / 64) (1 / 32) (0.03 : F64) := FIn.lit d64 d32 (by norm_num) (by norm_num)
  have hn1 : (1 : ℝ) ≤ n := by exact_mod_cast h1
  have hn2 : (n : ℝ) ≤ 100 := by exact_mod_cast h2
  have kn : FIn 1 100 (ofInt (n : ℤ) : F64) := by
    have d100 : IsDouble (100 : ℝ) := by have := isDouble_int (n := 100) (by norm_num); push_cast at this; exact this
    have := FIn.lit isDouble_one d100 hn1 hn2
    exact_mod_cast this
  have d4 : IsDouble (4 : ℝ) := by have := isDouble_int (n := 4) (by norm_num); push_cast at this; exact this
  obtain ⟨e, ee, e0, e1⟩ : FIn (1 / 64) 4 (ofInt (n : ℤ) * 0.03 : F64) :=
    FIn.mul kn k3 zero_le_one (by norm_num) d64 d4 (by norm_num) (by norm_num)
  obtain ⟨h3, e3⟩ := add_saturates a c a0 (ab.trans b1) c0 (by linarith)
  obtain ⟨h4, e4⟩ := add_saturates b e (a0.trans ab) b1 (by linarith) e1
  refine ⟨⟨_, h3⟩, ⟨_, h4⟩, ?_, ?_, ?_, ?_, ?_⟩
  · show m.costWithSync + 0.015 = _
    rw [ea, ec, e3]
  · show m.costWithoutSync + ofInt ((List.replicate n ()).length : ℤ) * 0.03 = _
    rw [List.length_replicate, eb, ee, e4]
  · exact (rnd_saturates _ (by linarith) (by linarith)).1
  · exact rnd_mono (by linarith)
  · exact (rnd_saturates _ (by linarith) (by linarith)).2

/-- **C70 in doubles.** Whatever the roundings and however long the history, with batches of 1 to 100 tasks: both costs are numbers, the
savings are not negative and at most the cost without synchronisation, and the percentage is between 0 and 100. -/
theorem C70_savings_double (start : ℤ) (ops : List (Spec.MetricsOp F64)) (h : ∀ n, Spec.MetricsOp.batch n ∈ ops → 1 ≤ n ∧ n ≤ 100) :
    let s := (ops.foldl Spec.MetricsOp.apply (Metrics.new start)).current
    F64.IsFinite s.costWithoutSync ∧ F64.IsFinite s.costWithSync ∧ 0 ≤ s.totalSavings ∧ s.totalSavings ≤ s.costWithoutSync ∧
    FIn 0 100 s.savingsPercent := by
  have key : ∀ (ops : List (Spec.MetricsOp F64)) (m : Metrics F64), Spec.CostsOk m → (∀ n, Spec.MetricsOp.batch n ∈ ops → 1 ≤ n ∧ n ≤ 100) →
      Spec.CostsOk (ops.foldl Spec.MetricsOp.apply m) := by
    intro ops
    induction ops with
    | nil => exact fun m h _ => h
    | cons op ops ih =>
      intro m hm hops
      refine ih _ ?_ fun n hn => hops n (List.mem_cons_of_mem _ hn)
      cases op with
      | batch n => exact costsOk_batch m hm n (hops n List.mem_cons_self).1 (hops n List.mem_cons_self).2
      | reset n => exact ⟨_, _, rfl, rfl, le_rfl, le_rfl, by positivity⟩
      | coherence n c =>
        unfold Spec.MetricsOp.apply Metrics.updateCoherence
        dsimp only
        split_ifs <;> exact hm
  obtain ⟨a, b, ea, eb, a0, ab, b1⟩ := key ops (Metrics.new start) ⟨_, _, rfl, rfl, le_rfl, le_rfl, by positivity⟩ h
  unfold Metrics.current
  dsimp only
  rw [ea, eb]
  obtain ⟨y, hy, e, y0, y1⟩ := F64.ofReal_between isDouble_zero b.2 (x := b.1 - a.1) (by linarith) (by linarith)
  rw [F64.sub_fin, e]
  refine ⟨(isFinite_iff _).2 ⟨_, rfl⟩, (isFinite_iff _).2 ⟨_, rfl⟩, ?_, (F64.le_fin _ _).2 y1, ?_⟩
  · rw [F64.zero_def]; exact (F64.le_fin _ _).2 y0
  · by_cases hb : 0 < b.1
    · rw [if_pos (show F64.fin b > 0 from (F64.lt_fin _ _).2 hb), F64.div_fin hb.ne']
      have d100 : IsDouble (100 : ℝ) := by have := isDouble_int (n := 100) (by norm_num); push_cast at this; exact this
      have k1 : FIn 0 1 (F64.ofReal (y / b.1)) := FIn.lit isDouble_zero isDouble_one (div_nonneg y0 hb.le) ((div_le_one hb).2 y1)
      have k2 : FIn 0 100 (100.0 : F64) := FIn.lit isDouble_zero d100 (by norm_num) (by norm_num)
      exact FIn.mul k1 k2 le_rfl le_rfl isDouble_zero d100 (by norm_num) (by norm_num)
    · rw [if_neg (fun hc : F64.fin b > 0 => hb ((F64.lt_fin ⟨0, isDouble_zero⟩ b).1 hc))]
      exact ⟨_, rfl, le_rfl, by norm_num⟩

example : ∀ n, Spec.MetricsOp.batch n ∈ ([.batch 7, .reset 3, .batch 100, .coherence 4 1] : List (Spec.MetricsOp F64)) → 1 ≤ n ∧ n ≤ 100 := by
  intro n hn
  simp at hn
  omega

end
end Verif
