import Verif.Lemmas.HalfEven
import Verif.Props.BatchingDouble
import Verif.Props.Texts
import Verif.Props.AgentDouble

/-! # The colour of the savings (C141) in doubles -/

set_option autoImplicit false
set_option linter.unusedSectionVars false

namespace Verif
open GoMath Rounding

variable [Rounding] [LibM]

/-! ## Savings -/

/-- The costs after the sizes `l` of batches: zero, or the synchronised one is at most half the other. -/
def Spec.Halved (m : Metrics F64) (l : List ℕ) : Prop :=
  ∃ a b : Dbl, m.costWithSync = .fin a ∧ m.costWithoutSync = .fin b ∧ 2 * a.1 ≤ b.1 ∧ b.1 ≤ 2 ^ 60 ∧ 0 ≤ a.1 ∧
    (l = [] → b.1 = 0) ∧ (l ≠ [] → 1 / 128 ≤ a.1)

theorem halved_batch (hr : HalfEven) (m : Metrics F64) (l : List ℕ) (h : Spec.Halved m l) (n : ℕ) (h1 : 1 ≤ n) (h2 : n ≤ 100) :
    Spec.Halved (Spec.MetricsOp.apply m (.batch n)) (l ++ [n]) := by
  obtain ⟨a, b, ea, eb, ab, b1, a0, -, -⟩ := h
  have d64 : IsDouble ((1 : ℝ) / 64) := by have := dyadic 1 6 (by norm_num) (by norm_num); push_cast at this; norm_num at this ⊢; exact this
  have d128 : IsDouble ((1 : ℝ) / 128) := by have := dyadic 1 7 (by norm_num) (by norm_num); push_cast at this; norm_num at this ⊢; exact this
  have d32 : IsDouble ((1 : ℝ) / 32) := by have := dyadic 1 5 (by norm_num) (by norm_num); push_cast at this; norm_num at this ⊢; exact this
  have z1 : (2 : ℝ) ^ (-999 : ℤ) ≤ 1 / 128 := by
    refine le_trans (zpow_le_zpow_right₀ (by norm_num) (by norm_num : (-999 : ℤ) ≤ -7)) ?_
    norm_num
  have z2 : (2 : ℝ) ^ 61 ≤ (2 : ℝ) ^ (1000 : ℤ) := by
    rw [← zpow_natCast]
    exact zpow_le_zpow_right₀ (by norm_num) (by norm_num)
  obtain ⟨c, ec, c0, c1⟩ : FIn (1 / 128) (1 / 64) (0.015 : F64) := FIn.lit d128 d64 (by norm_num) (by norm_num)
  obtain ⟨t, et, t0, t1⟩ : FIn (1 / 64) (1 / 32) (0.03 : F64) := FIn.lit d64 d32 (by norm_num) (by norm_num)
  have lit : ∀ (x : ℝ) (d : Dbl), F64.ofReal x = .fin d → d.1 = rnd x := by
    intro x d e
    unfold F64.ofReal at e
    split_ifs at e with h
    · injection e with e; rw [← e]
  have tc : t.1 = 2 * c.1 := by
    have k1 := lit _ _ (show F64.ofReal 0.03 = .fin t from et)
    have k2 := lit _ _ (show F64.ofReal 0.015 = .fin c from ec)
    rw [k1, k2, ← rnd_double hr (z1.trans (by norm_num)) (le_trans (by norm_num) z2)]
    norm_num
  have hn1 : (1 : ℝ) ≤ n := by exact_mod_cast h1
  have hn2 : (n : ℝ) ≤ 100 := by exact_mod_cast h2
  have d4 : IsDouble (4 : ℝ) := by have := isDouble_int (n := 4) (by norm_num); push_cast at this; exact this
  obtain ⟨dn, en, vn⟩ := fin_nat n (by omega)
  obtain ⟨e, ee, e0, e1⟩ : FIn t.1 4 (ofInt (n : ℤ) * 0.03 : F64) := by
    rw [en, et, F64.mul_fin, vn]
    exact FIn.lit t.2 d4 (by nlinarith) (by nlinarith)
  have a1 : a.1 ≤ 2 ^ 60 := by linarith
  obtain ⟨h3, e3⟩ := add_saturates a c a0 a1 (by linarith) (by linarith)
  obtain ⟨h4, e4⟩ := add_saturates b e (by linarith) b1 (by linarith) e1
  refine ⟨⟨_, h3⟩, ⟨_, h4⟩, ?_, ?_, ?_, ?_, ?_, ?_, ?_⟩
  · show m.costWithSync + 0.015 = _
    rw [ea, ec, e3]
  · show m.costWithoutSync + ofInt ((List.replicate n ()).length : ℤ) * 0.03 = _
    rw [List.length_replicate, eb, ee, e4]
  · show 2 * rnd (a.1 + c.1) ≤ rnd (b.1 + e.1)
    have h60 : (4 : ℝ) ≤ 2 ^ 60 := by norm_num
    have h61 : (2 : ℝ) ^ 60 + 2 ^ 60 = 2 ^ 61 := by norm_num
    rw [← rnd_double hr (by linarith) (le_trans (by linarith) z2)]
    exact rnd_mono (by linarith)
  · exact (rnd_saturates _ (by linarith) (by linarith)).2
  · exact (rnd_saturates _ (by linarith) (by linarith)).1
  · simp
  · intro _
    exact le_rnd d128 (by linarith)

/-- **C141 in doubles.** With rounding half to even, as in IEEE 754, the colour is what it is in exact numbers: red before the first batch and green
ever after, until a reset. The accumulated roundings never bring the percentage below 50, however long the history: doubling commutes with the
rounding, so that the cost with synchronisation stays at most half the cost without. -/
theorem C141_colour_double (hr : HalfEven) (start : ℤ) (ops : List (Spec.MetricsOp F64))
    (h : ∀ n, Spec.MetricsOp.batch n ∈ ops → 1 ≤ n ∧ n ≤ 100) :
    costShade (ops.foldl Spec.MetricsOp.apply (Metrics.new start)).current.savingsPercent = if Spec.sizes ops = [] then .red else .green := by
  have key : Spec.Halved (ops.foldl Spec.MetricsOp.apply (Metrics.new start)) (Spec.sizes ops) := by
    induction ops using List.reverseRecOn with
    | nil => exact ⟨_, _, rfl, rfl, by norm_num, by norm_num, le_rfl, fun _ => rfl, fun h => absurd rfl h⟩
    | append_singleton ops op ih =>
      have ih := ih fun n hn => h n (List.mem_append_left _ hn)
      have ho := fun n (e : op = .batch n) => h n (List.mem_append_right _ (by rw [e]; exact List.mem_singleton_self _))
      rw [List.foldl_append, List.foldl_cons, List.foldl_nil, sizes_snoc]
      generalize ops.foldl Spec.MetricsOp.apply (Metrics.new start) = m at *
      cases op with
      | batch n => exact halved_batch hr m _ ih n (ho n rfl).1 (ho n rfl).2
      | coherence n c =>
        unfold Spec.MetricsOp.apply Metrics.updateCoherence
        dsimp only
        split_ifs <;> exact ih
      | reset n => exact ⟨_, _, rfl, rfl, by norm_num, by norm_num, le_rfl, fun _ => rfl, fun h => absurd rfl h⟩
  obtain ⟨a, b, ea, eb, ab, b1, a0, z, nz⟩ := key
  have e : (ops.foldl Spec.MetricsOp.apply (Metrics.new start)).current.savingsPercent =
      if F64.fin b > 0 then (F64.fin b - F64.fin a) / F64.fin b * 100.0 else 0 := by
    unfold Metrics.current
    dsimp only
    rw [ea, eb]
  rw [e]
  have d20 : IsDouble (20 : ℝ) := by have := isDouble_int (n := 20) (by norm_num); push_cast at this; exact this
  have d50 : IsDouble (50 : ℝ) := by have := isDouble_int (n := 50) (by norm_num); push_cast at this; exact this
  have d100 : IsDouble (100 : ℝ) := by have := isDouble_int (n := 100) (by norm_num); push_cast at this; exact this
  have l20 : (20.0 : F64) = .fin ⟨20, d20⟩ := by
    have := F64.ofReal_of_isDouble d20
    rw [← this]; show F64.ofReal _ = _; congr 1; norm_num
  have l50 : (50.0 : F64) = .fin ⟨50, d50⟩ := by
    have := F64.ofReal_of_isDouble d50
    rw [← this]; show F64.ofReal _ = _; congr 1; norm_num
  have l100 : (100.0 : F64) = .fin ⟨100, d100⟩ := by
    have := F64.ofReal_of_isDouble d100
    rw [← this]; show F64.ofReal _ = _; congr 1; norm_num
  unfold costShade
  by_cases hs : Spec.sizes ops = []
  · have hb := z hs
    rw [if_pos hs, if_neg (fun hc : F64.fin b > 0 => by have := (F64.lt_fin ⟨0, isDouble_zero⟩ b).1 hc; rw [hb] at this; exact lt_irrefl _ this)]
    rw [l20]
    exact if_pos ((F64.lt_fin ⟨0, isDouble_zero⟩ _).2 (by norm_num))
  · have ha := nz hs
    have hb : 0 < b.1 := by linarith
    have dh : IsDouble (b.1 / 2) := by
      obtain ⟨m, e, m1, m2, e1, e2, v⟩ := normalised b.2 (le_trans (zpow_le_zpow_right₀ (by norm_num) (by norm_num : (-1022 : ℤ) ≤ -6)) (by
        norm_num; linarith))
      have he : -1074 < e := by
        have hm : (m : ℝ) < 2 ^ 53 := by exact_mod_cast m2
        have hp : (0 : ℝ) < 2 ^ e := by positivity
        have : (2 : ℝ) ^ (-6 : ℤ) < 2 ^ (53 + e) := by
          rw [zpow_add₀ (by norm_num), show (2 : ℝ) ^ (53 : ℤ) = 2 ^ 53 by norm_cast]
          refine lt_of_le_of_lt (?_ : _ ≤ m * (2 : ℝ) ^ e) (by gcongr)
          rw [← v]; norm_num; linarith
        have := zpow_two_lt this
        omega
      refine ⟨m, e - 1, by rw [abs_of_pos (by omega)]; exact m2, by omega, by omega, ?_⟩
      rw [v, show (2 : ℝ) ^ e = 2 ^ (e - 1) * 2 by rw [← zpow_add_one₀ (by norm_num)]; congr 1; ring]
      ring
    have dhalf : IsDouble ((1 : ℝ) / 2) := by have := dyadic 1 1 (by norm_num) (by norm_num); push_cast at this; norm_num at this ⊢; exact this
    obtain ⟨y, hy, ey, y0, y1⟩ := F64.ofReal_between dh b.2 (x := b.1 - a.1) (by linarith) (by linarith)
    rw [if_neg hs, if_pos (show F64.fin b > 0 from (F64.lt_fin _ _).2 hb), F64.sub_fin, ey, F64.div_fin hb.ne']
    obtain ⟨q, eq, q0, q1⟩ : FIn (1 / 2) 1 (F64.ofReal (y / b.1)) :=
      FIn.lit dhalf isDouble_one (by rw [le_div_iff₀ hb]; linarith) ((div_le_one hb).2 y1)
    rw [show F64.ofReal ((⟨y, hy⟩ : Dbl).1 / b.1) = .fin q from eq, l100, F64.mul_fin]
    obtain ⟨r, er, r0, -⟩ : FIn 50 100 (F64.ofReal (q.1 * 100)) := FIn.lit d50 d100 (by linarith) (by linarith)
    rw [show F64.ofReal (q.1 * (⟨100, d100⟩ : Dbl).1) = .fin r from er, l20, l50]
    have n1 : ¬ F64.fin r < F64.fin ⟨50, d50⟩ := fun hc => absurd ((F64.lt_fin _ _).1 hc) (not_lt.2 r0)
    have n2 : ¬ F64.fin r < F64.fin ⟨20, d20⟩ := fun hc => by
      have : r.1 < 20 := (F64.lt_fin _ _).1 hc
      linarith
    rw [if_neg n1, if_neg n2]

/-- Two batches after a reset, beside the theorem: green. `exists_halfEven` is a rounding as required. -/
example (hr : HalfEven) : costShade (([.batch 7, .reset 3, .batch 100, .coherence 4 1, .batch 1] : List (Spec.MetricsOp F64)).foldl
    Spec.MetricsOp.apply (Metrics.new 0)).current.savingsPercent = .green := by
  rw [C141_colour_double hr]
  · rfl
  · intro n hn
    simp at hn
    omega

end Verif
