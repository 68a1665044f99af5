import Verif.Model.Display
import Verif.Props.CompletionGaps
import Verif.Lemmas.Pi

/-!
# C100: the load panel of the demo
-/

set_option autoImplicit false
set_option linter.unusedSectionVars false

namespace Verif
open GoMath Spec

local notation "π" => Real.pi

namespace Spec

/-- `n` agents spread evenly over the circle. -/
noncomputable def evenly (n : ℕ) : List ℝ := (List.range n).map fun k : ℕ => 2 * π * k / n

/-- All phases are in `[0, 2π)`, as those of agents are. -/
def OnCircle (l : List ℝ) : Prop := ∀ p ∈ l, 0 ≤ p ∧ p < 2 * π

/-- The mean of some counts. -/
noncomputable def meanCount (l : List ℕ) : ℝ := (l.map (Nat.cast : ℕ → ℝ)).sum / l.length

/-- `x` is the standard deviation of some counts. -/
structure IsDeviation (l : List ℕ) (x : ℝ) : Prop where
  nonneg : 0 ≤ x
  square : x ^ 2 * l.length = (l.map fun c : ℕ => ((c : ℝ) - meanCount l) ^ 2).sum

end Spec

theorem rtrunc_of_mem (x : ℝ) (n : ℤ) (h0 : 0 ≤ n) (h1 : (n : ℝ) ≤ x) (h2 : x < n + 1) : rtrunc x = n := by
  have : (0 : ℝ) ≤ n := by exact_mod_cast h0
  unfold rtrunc
  rw [if_pos (by linarith), Int.floor_eq_iff]
  exact ⟨h1, h2⟩

theorem rtrunc_ge (x : ℝ) (n : ℤ) (h0 : 0 ≤ n) (h1 : (n : ℝ) ≤ x) : n ≤ rtrunc x := by
  have : (0 : ℝ) ≤ n := by exact_mod_cast h0
  unfold rtrunc
  rw [if_pos (by linarith)]
  exact Int.le_floor.2 h1

theorem loadRegion_real (p : ℝ) (h0 : 0 ≤ p) : loadRegion p = if p < π / 2 then 2 else 3 := by
  have hp := Real.pi_pos
  unfold loadRegion
  simp only [GoMath.toInt_real, GoMath.piMul_real]
  push_cast
  have e : (p + 1 * π) / (2 * π) * 4.0 = 2 + p / (π / 2) := by
    field_simp; norm_num; ring
  rw [e]
  have hn : 0 ≤ p / (π / 2) := by positivity
  split_ifs with h1 h2 h2
  · have h3 : p / (π / 2) < 1 := (div_lt_one (by positivity)).2 h2
    rw [rtrunc_of_mem _ 2 (by norm_num) (by push_cast; linarith) (by push_cast; linarith)] at h1
    norm_num at h1
  · rfl
  · have h3 : p / (π / 2) < 1 := (div_lt_one (by positivity)).2 h2
    exact rtrunc_of_mem _ 2 (by norm_num) (by push_cast; linarith) (by push_cast; linarith)
  · have h3 : 1 ≤ p / (π / 2) := (one_le_div (by positivity)).2 (not_lt.1 h2)
    have := rtrunc_ge (2 + p / (π / 2)) 3 (by norm_num) (by push_cast; linarith)
    rw [not_le] at h1
    omega

/-- **C100** Whatever the phases of the agents, the first two servers are shown without any load: the third gets the agents of the first quarter of the
circle, the fourth all others. No agent is lost. -/
theorem C100_regions (l : List ℝ) (h : OnCircle l) :
    regionLoads l = .ok [0, 0, l.countP fun p => decide (p < π / 2), l.countP fun p => decide (π / 2 ≤ p)] := by
  have key : ∀ (l : List ℝ) (a b : ℕ), OnCircle l → l.foldl (fun o p => addAt (loadRegion p) o) (.ok [0, 0, a, b]) =
      .ok [0, 0, a + l.countP fun p => decide (p < π / 2), b + l.countP fun p => decide (π / 2 ≤ p)] := by
    intro l
    induction l with
    | nil => intro a b _; rfl
    | cons p l ih =>
      intro a b h
      have hp := h p (by simp)
      have hl : OnCircle l := fun q hq => h q (by simp [hq])
      rw [List.foldl_cons, loadRegion_real p hp.1]
      by_cases hc : p < π / 2
      · rw [if_pos hc]
        have : addAt 2 (.ok [0, 0, a, b]) = .ok [0, 0, a + 1, b] := rfl
        rw [this, ih _ _ hl]
        simp only [List.countP_cons, hc, not_le.2 hc, decide_true, decide_false, if_true, Bool.false_eq_true, if_false, add_zero]
        rw [show ∀ x : ℕ, a + 1 + x = a + (x + 1) from fun x => by omega]
      · rw [if_neg hc]
        have : addAt 3 (.ok [0, 0, a, b]) = .ok [0, 0, a, b + 1] := rfl
        rw [this, ih _ _ hl]
        simp only [List.countP_cons, hc, not_lt.1 hc, decide_true, decide_false, if_true, Bool.false_eq_true, if_false, add_zero]
        rw [show ∀ x : ℕ, b + 1 + x = b + (x + 1) from fun x => by omega]
  have := key l 0 0 h
  rw [zero_add, zero_add] at this
  exact this

theorem foldl_counts (l : List ℕ) (f : ℕ → ℝ) (s : ℝ) : l.foldl (fun s c => s + f c) s = s + (l.map f).sum := by
  induction l generalizing s with
  | nil => simp
  | cons a l ih => rw [List.foldl_cons, ih]; simp; ring

/-- **C100** `calculateLoadVariance` is the standard deviation of the loads. -/
theorem C100_deviation (l : List ℕ) : IsDeviation l (loadDeviation l) := by
  unfold loadDeviation
  by_cases h0 : l.length = 0
  · rw [if_pos h0, List.length_eq_zero_iff.1 h0]
    exact ⟨le_rfl, by simp⟩
  · rw [if_neg h0]
    have hn : (0 : ℝ) < l.length := by exact_mod_cast Nat.pos_of_ne_zero h0
    simp only [GoMath.ofInt_real, Int.cast_natCast, GoMath.sqrt_real]
    have hm : l.foldl (fun s (c : ℕ) => s + (c : ℝ)) 0 / l.length = meanCount l := by
      rw [foldl_counts l (fun c => (c : ℝ)), zero_add]; rfl
    rw [hm, foldl_counts l (fun c => ((c : ℝ) - meanCount l) * ((c : ℝ) - meanCount l)), zero_add]
    have hs : 0 ≤ (l.map fun c : ℕ => ((c : ℝ) - meanCount l) * ((c : ℝ) - meanCount l)).sum := by
      apply List.sum_nonneg
      intro x hx
      obtain ⟨c, -, rfl⟩ := List.mem_map.1 hx
      exact mul_self_nonneg _
    refine ⟨Real.sqrt_nonneg _, ?_⟩
    rw [Real.sq_sqrt (by positivity), div_mul_cancel₀ _ hn.ne']
    congr 1
    exact List.map_congr_left fun c _ => by ring

theorem deviation_panel (a b : ℕ) : (loadDeviation [0, 0, a, b] : ℝ) ^ 2 = (3 * (a : ℝ) ^ 2 + 3 * (b : ℝ) ^ 2 - 2 * a * b) / 16 := by
  have h := (C100_deviation [0, 0, a, b]).square
  simp only [List.map_cons, List.map_nil, List.sum_cons, List.sum_nil, meanCount, List.length_cons, List.length_nil] at h
  push_cast at h
  norm_num at h
  linear_combination h / 4

theorem quarter_counts (l : List ℝ) : (l.countP fun p => decide (p < π / 2)) + (l.countP fun p => decide (π / 2 ≤ p)) = l.length := by
  rw [List.length_eq_countP_add_countP (fun p => decide (p < π / 2))]
  congr 1
  refine List.countP_congr fun p _ => ?_
  simp

/-- **C100** The status says nothing about the distribution: with nine agents or more it is always IMBALANCED, with four or fewer always BALANCED. -/
theorem C100_status (l : List ℝ) (h : OnCircle l) :
    (9 ≤ l.length → shownBalanced l = .ok false) ∧ (l.length ≤ 4 → shownBalanced l = .ok true) := by
  have hc := quarter_counts l
  unfold shownBalanced
  rw [C100_regions l h]
  dsimp only
  generalize (l.countP fun p => decide (p < π / 2)) = a at *
  generalize (l.countP fun p => decide (π / 2 ≤ p)) = b at *
  have hd := deviation_panel a b
  have h0 := (C100_deviation [0, 0, a, b]).nonneg
  generalize (loadDeviation [0, 0, a, b] : ℝ) = d at *
  have hcr : (a : ℝ) + b = l.length := by exact_mod_cast hc
  have ha : (0 : ℝ) ≤ a := by positivity
  have hb : (0 : ℝ) ≤ b := by positivity
  constructor
  · intro hn
    have hn' : (9 : ℝ) ≤ a + b := by rw [hcr]; exact_mod_cast hn
    have : (2.0 : ℝ) < d := by
      norm_num
      nlinarith [sq_nonneg ((a : ℝ) - b)]
    simp [this]
  · intro hn
    have hn' : (a : ℝ) + b ≤ 4 := by rw [hcr]; exact_mod_cast hn
    have : d ≤ (2.0 : ℝ) := by
      norm_num
      nlinarith [mul_nonneg ha hb]
    simp [this]

theorem evenly_onCircle (n : ℕ) : OnCircle (evenly n) := by
  intro p hp
  obtain ⟨k, hk, rfl⟩ := List.mem_map.1 hp
  have hk' := List.mem_range.1 hk
  have hpi := Real.pi_pos
  have hn : (0 : ℝ) < n := by exact_mod_cast (by omega : 0 < n)
  have hkn : (k : ℝ) < n := by exact_mod_cast hk'
  refine ⟨by positivity, ?_⟩
  rw [div_lt_iff₀ hn]
  exact mul_lt_mul_of_pos_left hkn (by positivity)

/-- A swarm that is spread perfectly is shown as balanced. -/
def C100_claim : Prop := ∀ n : ℕ, shownBalanced (evenly n) = .ok true

/-- **C100** Of the claim, only this is left: it holds for at most four agents and fails from nine on. -/
theorem C100_evenly_partial (n : ℕ) : (n ≤ 4 → shownBalanced (evenly n) = .ok true) ∧ (9 ≤ n → shownBalanced (evenly n) = .ok false) := by
  have hl : (evenly n).length = n := by simp [evenly]
  obtain ⟨h1, h2⟩ := C100_status _ (evenly_onCircle n)
  rw [hl] at h1 h2
  exact ⟨h2, h1⟩

/-- Twenty agents spread evenly are shown as imbalanced. -/
theorem C100_refuted : ¬ C100_claim := by
  intro h
  have h1 := (C100_evenly_partial 20).2 (by norm_num)
  rw [h 20] at h1
  simp at h1

/-- Twenty agents at one phase, a synchronised swarm: shown as imbalanced, like the evenly spread one. -/
example : shownBalanced (List.replicate 20 (1 : ℝ)) = .ok false ∧ shownBalanced (evenly 20) = .ok false := by
  have hp := Real.pi_gt_three
  refine ⟨(C100_status _ ?_).1 (by simp), (C100_evenly_partial 20).2 (by norm_num)⟩
  intro p hp'
  rw [List.eq_of_mem_replicate hp']
  constructor <;> linarith

section
variable [Rounding] [LibM]
open Rounding

theorem half_isDouble : IsDouble (1 / 2 : ℝ) := ⟨1, -1, by norm_num, by norm_num, by norm_num, by norm_num⟩

/-- **C100 in doubles** The first two servers get no load either when rounding is taken into account. -/
theorem C100_regions_double (p : Dbl) (h0 : 0 ≤ p.1) (h1 : p.1 ≤ 7) : loadRegion (F64.fin p) = 2 ∨ loadRegion (F64.fin p) = 3 := by
  have hpi : (3 : ℝ) < piDouble ∧ piDouble < 4 := by
    unfold piDouble; constructor <;> norm_num
  unfold loadRegion
  rw [F64.piMul_one, F64.piMul_two, F64.add_fin]
  obtain ⟨y, hy, e, y1, y2⟩ := F64.ofReal_between (x := p.1 + piDouble) piDouble_isDouble (isDouble_ofNat 11 (by norm_num)) (by linarith)
    (by linarith)
  rw [e, F64.div_fin (by rw [F64.tau_eq]; linarith : F64.tau.1 ≠ 0), F64.tau_eq]
  have q1 : (1 / 2 : ℝ) ≤ y / (2 * piDouble) := by rw [le_div_iff₀ (by linarith)]; linarith
  have q2 : y / (2 * piDouble) ≤ 2 := by rw [div_le_iff₀ (by linarith)]; linarith
  obtain ⟨z, hz, e2, z1, z2⟩ := F64.ofReal_between (x := y / (2 * piDouble)) (half_isDouble) (isDouble_ofNat 2 (by norm_num)) q1 q2
  have h4 : (4.0 : F64) = .fin ⟨4, isDouble_ofNat 4 (by norm_num)⟩ := by
    change F64.ofReal (4.0 : ℝ) = _
    rw [show (4.0 : ℝ) = 4 by norm_num]
    exact F64.ofReal_of_isDouble _
  rw [e2, h4, F64.mul_fin]
  obtain ⟨w, hw, e3, w1, w2⟩ := F64.ofReal_between (x := z * 4) (isDouble_ofNat 2 (by norm_num)) (isDouble_ofNat 8 (by norm_num))
    (by linarith) (by linarith)
  rw [e3]
  obtain ⟨r1, r2⟩ := rtrunc_mem w 2 8 (by exact_mod_cast w1) (by exact_mod_cast w2)
  have ht : (toInt (F64.fin ⟨w, hw⟩) : ℤ) = rtrunc w := by
    change (if _ ∧ _ then _ else _) = _
    rw [if_pos ⟨by dsimp only; omega, by dsimp only; omega⟩]
  rw [ht]
  dsimp only
  split_ifs with h
  · right; rfl
  · omega

end

end Verif
