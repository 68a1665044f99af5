import Verif.Model.Patterns
import Verif.Props.Monitoring
import Verif.Props.Pattern
import Verif.Props.Completion
import Mathlib.Algebra.Order.BigOperators.Group.List

/-!
# C64, C81: temporal patterns
-/

set_option autoImplicit false
set_option linter.unusedSectionVars false

namespace Verif
open GoMath Real

/-! ## C64 over the reals -/

theorem ratio_sim (a o : ℝ) (h : 0 < max a o) :
    0 ≤ 1 - min (|a - o| / max a o) 1 ∧ 1 - min (|a - o| / max a o) 1 ≤ 1 ∧ (1 - min (|a - o| / max a o) 1 = 1 ↔ a = o) := by
  have h0 : 0 ≤ |a - o| / max a o := div_nonneg (abs_nonneg _) h.le
  refine ⟨by linarith [min_le_right (|a - o| / max a o) 1], by linarith [le_min h0 zero_le_one], ?_⟩
  constructor
  · intro e
    have e' : min (|a - o| / max a o) 1 = 0 := by linarith
    rcases min_choice (|a - o| / max a o) 1 with k | k
    · rw [k] at e'
      rcases div_eq_zero_iff.1 e' with k | k
      · linarith [abs_eq_zero.1 k]
      · linarith
    · linarith
  · rintro rfl; simp

/-- The largest absolute value of a list, 0 for the empty list. -/
def Spec.IsLargest (l : List ℝ) (m : ℝ) : Prop := (∀ x ∈ l, |x| ≤ m) ∧ ((l = [] ∧ m = 0) ∨ ∃ x ∈ l, m = |x|)

theorem foldl_fmax (l : List ℝ) : Spec.IsLargest l (l.foldl (fun m x => fmax m (GoMath.abs x)) 0) := by
  have key : ∀ (l : List ℝ) (m : ℝ), m ≤ l.foldl (fun m x => fmax m (GoMath.abs x)) m ∧
      (∀ x ∈ l, |x| ≤ l.foldl (fun m x => fmax m (GoMath.abs x)) m) ∧
      (l.foldl (fun m x => fmax m (GoMath.abs x)) m = m ∨ ∃ x ∈ l, l.foldl (fun m x => fmax m (GoMath.abs x)) m = |x|) := by
    intro l
    induction l with
    | nil => intro m; exact ⟨le_rfl, by simp, .inl rfl⟩
    | cons x xs ih =>
      intro m
      obtain ⟨h1, h2, h3⟩ := ih (max m |x|)
      rw [List.foldl_cons]
      show m ≤ xs.foldl _ (max m |x|) ∧ _ ∧ _
      refine ⟨(le_max_left _ _).trans h1, ?_, ?_⟩
      · intro y hy
        rcases List.mem_cons.1 hy with rfl | hy
        · exact (le_max_right _ _).trans h1
        · exact h2 y hy
      · show xs.foldl _ (max m |x|) = m ∨ ∃ y ∈ x :: xs, xs.foldl _ (max m |x|) = |y|
        rcases h3 with h3 | ⟨y, hy, h3⟩
        · rcases max_choice m |x| with k | k
          · exact .inl (h3.trans k)
          · exact .inr ⟨x, by simp, h3.trans k⟩
        · exact .inr ⟨y, by simp [hy], h3⟩
  obtain ⟨-, h2, h3⟩ := key l 0
  refine ⟨h2, ?_⟩
  rcases h3 with h3 | ⟨y, hy, h3⟩
  · cases l with
    | nil => exact .inl ⟨rfl, rfl⟩
    | cons x xs =>
      refine .inr ⟨x, by simp, ?_⟩
      have := h2 x (by simp)
      rw [h3] at this ⊢
      exact le_antisymm (abs_nonneg _) this
  · exact .inr ⟨y, hy, h3⟩

theorem largest_unique {l : List ℝ} {m n : ℝ} (h : Spec.IsLargest l m) (k : Spec.IsLargest l n) : m = n := by
  rcases h.2 with ⟨rfl, rfl⟩ | ⟨x, hx, rfl⟩
  · rcases k.2 with ⟨-, rfl⟩ | ⟨y, hy, -⟩
    · rfl
    · exact absurd hy (by simp)
  · rcases k.2 with ⟨rfl, -⟩ | ⟨y, hy, rfl⟩
    · exact absurd hx (by simp)
    · exact le_antisymm (k.1 x hx) (h.1 y hy)

theorem largest_nonneg {l : List ℝ} {m : ℝ} (h : Spec.IsLargest l m) : 0 ≤ m := by
  rcases h.2 with ⟨-, rfl⟩ | ⟨x, -, rfl⟩
  · rfl
  · exact abs_nonneg _

/-- Two lists are of comparable scale: neither has a phase over a hundred times larger than all of the other, unless one is all zero. -/
def Spec.Comparable (l k : List ℝ) : Prop := ∀ m n, Spec.IsLargest l m → Spec.IsLargest k n → 0 < m → 0 < n → m ≤ 100 * n ∧ n ≤ 100 * m

theorem scaleFactor_spec (l k : List ℝ) (hl : l.length = k.length) :
    0 < scaleFactor l k ∧ scaleFactor l k ≤ 1 ∧ (scaleFactor l k = 1 ↔ Spec.Comparable l k) := by
  have hm := foldl_fmax l
  have hn := foldl_fmax k
  have hc : Spec.Comparable l k ↔ (0 < l.foldl (fun m x => fmax m (GoMath.abs x)) 0 → 0 < k.foldl (fun m x => fmax m (GoMath.abs x)) 0 →
      l.foldl (fun m x => fmax m (GoMath.abs x)) 0 ≤ 100 * k.foldl (fun m x => fmax m (GoMath.abs x)) 0 ∧
      k.foldl (fun m x => fmax m (GoMath.abs x)) 0 ≤ 100 * l.foldl (fun m x => fmax m (GoMath.abs x)) 0) := by
    refine ⟨fun h => h _ _ hm hn, fun h m n h1 h2 => ?_⟩
    rw [largest_unique h1 hm, largest_unique h2 hn]
    exact h
  rw [hc]
  unfold scaleFactor
  by_cases h0 : l.length = k.length ∧ l.length > 0
  · rw [if_pos h0]
    dsimp only
    generalize l.foldl (fun m x => fmax m (GoMath.abs x)) 0 = M at *
    generalize k.foldl (fun m x => fmax m (GoMath.abs x)) 0 = N at *
    by_cases h1 : M > 0 ∧ N > 0
    · rw [if_pos h1]
      obtain ⟨p, q⟩ := h1
      simp only [fmax_real, fmin_real]
      have hiff : max (M / N) (N / M) > (100.0 : ℝ) ↔ ¬ (M ≤ 100 * N ∧ N ≤ 100 * M) := by
        rw [gt_iff_lt, lt_max_iff, lt_div_iff₀ q, lt_div_iff₀ p, show (100.0 : ℝ) = 100 by norm_num]
        rw [not_and_or, not_le, not_le]
      by_cases h2 : max (M / N) (N / M) > (100.0 : ℝ)
      · rw [if_pos h2]
        have h3 : (1 : ℝ) < min (max (M / N) (N / M) / 100.0) 10.0 := by
          refine lt_min ?_ (by norm_num)
          rw [lt_div_iff₀ (by norm_num)]; linarith
        refine ⟨div_pos one_pos (by linarith), (div_le_one (by linarith)).2 h3.le, iff_of_false ?_ ?_⟩
        · intro e
          rw [div_eq_one_iff_eq (by linarith)] at e
          linarith
        · intro h; exact hiff.1 h2 (h p q)
      · rw [if_neg h2]
        refine ⟨one_pos, le_rfl, iff_of_true rfl fun _ _ => ?_⟩
        by_contra h
        exact h2 (hiff.2 h)
    · rw [if_neg h1]
      exact ⟨one_pos, le_rfl, iff_of_true rfl fun p q => absurd ⟨p, q⟩ h1⟩
  · rw [if_neg h0]
    refine ⟨one_pos, le_rfl, iff_of_true rfl fun p _ => ?_⟩
    have : l = [] := by
      cases l with
      | nil => rfl
      | cons x xs => exact absurd ⟨hl, by simp⟩ h0
    subst this
    exact absurd p (by simp)

/-- The angle between two phases as a fraction of half a turn, taken from 1. -/
theorem corr_term (a b : ℝ) : 0 ≤ 1 - |phaseDifference a b| / π ∧ 1 - |phaseDifference a b| / π ≤ 1 ∧
    (1 - |phaseDifference a b| / π = 1 ↔ Spec.SameAngle a b) := by
  have hp := Real.pi_pos
  have h1 : |phaseDifference a b| ≤ π := abs_le.2 ⟨(phaseDifference_gt a b).le, phaseDifference_le a b⟩
  refine ⟨by rw [sub_nonneg, div_le_one hp]; exact h1, by linarith [div_nonneg (abs_nonneg (phaseDifference a b)) hp.le], ?_⟩
  rw [← phaseDifference_eq_zero_iff]
  constructor
  · intro e
    have : |phaseDifference a b| / π = 0 := by linarith
    rcases div_eq_zero_iff.1 this with h | h
    · exact abs_eq_zero.1 h
    · linarith
  · intro e; rw [e]; simp

theorem foldl_terms (l : List (ℝ × ℝ)) (f : ℝ × ℝ → ℝ) (s : ℝ) (h : ∀ x ∈ l, 0 ≤ f x ∧ f x ≤ 1) :
    s ≤ l.foldl (fun s x => s + f x) s ∧ l.foldl (fun s x => s + f x) s ≤ s + l.length ∧
    (l.foldl (fun s x => s + f x) s = s + l.length ↔ ∀ x ∈ l, f x = 1) := by
  induction l generalizing s with
  | nil => simp
  | cons x xs ih =>
    obtain ⟨h0, h1⟩ := h x (by simp)
    obtain ⟨k1, k2, k3⟩ := ih (s + f x) (fun y hy => h y (by simp [hy]))
    rw [List.foldl_cons, List.length_cons]
    push_cast
    refine ⟨by linarith, by linarith, ?_⟩
    constructor
    · intro e
      have hx : f x = 1 := by linarith
      intro y hy
      rcases List.mem_cons.1 hy with rfl | hy
      · exact hx
      · exact (k3.1 (by rw [e, hx]; ring)) y hy
    · intro hall
      rw [k3.2 fun y hy => hall y (by simp [hy]), hall x (by simp)]
      ring

theorem correlation_spec (l k : List ℝ) : 0 ≤ phaseCorrelation l k ∧ phaseCorrelation l k ≤ 1 ∧
    (l ≠ [] → (phaseCorrelation l k = 1 ↔ l.length = k.length ∧ ∀ x ∈ l.zip k, Spec.SameAngle x.1 x.2)) := by
  unfold phaseCorrelation
  by_cases h : l.length = k.length
  · rw [if_neg (not_not.2 h)]
    by_cases h0 : l.length = 0
    · rw [if_pos h0]
      exact ⟨le_rfl, zero_le_one, fun hl => absurd (List.length_eq_zero_iff.1 h0) hl⟩
    · rw [if_neg h0]
      have hz : (l.zip k).length = l.length := by rw [List.length_zip, ← h, min_self]
      have hn : (0 : ℝ) < l.length := by exact_mod_cast Nat.pos_of_ne_zero h0
      obtain ⟨k1, k2, k3⟩ := foldl_terms (l.zip k) (fun x => 1 - GoMath.abs (phaseDifference x.1 x.2) / piMul 1) 0
        (fun x _ => by
          have := corr_term x.1 x.2
          rw [show (piMul 1 : ℝ) = π by simp, GoMath.abs_real]
          exact ⟨this.1, this.2.1⟩)
      rw [hz, zero_add] at k2 k3
      rw [show (ofInt (l.length : ℤ) : ℝ) = l.length by simp]
      refine ⟨div_nonneg k1 hn.le, (div_le_one hn).2 k2, fun _ => ?_⟩
      rw [div_eq_one_iff_eq hn.ne', k3]
      simp only [h, true_and]
      refine forall₂_congr fun x _ => ?_
      simpa using (corr_term x.1 x.2).2.2
  · rw [if_pos h]
    exact ⟨le_rfl, zero_le_one, fun _ => iff_of_false (by norm_num) (fun k => h k.1)⟩

/-- **C64.** Over the reals, for two patterns with phases, of which one has an amplitude and one has a period: the similarity is in
`[0, 1]`, and 1 exactly when amplitude and period agree, the phases agree up to whole turns, and the phases are of comparable scale. -/
theorem C64_similarity_partial (p o : Temporal ℝ) (hp : p.phases ≠ []) (ho : o.phases ≠ []) (ha : 0 < max p.amplitude o.amplitude)
    (hd : 0 < max p.period o.period) :
    0 ≤ p.similarity (some o) ∧ p.similarity (some o) ≤ 1 ∧
    (p.similarity (some o) = 1 ↔ p.amplitude = o.amplitude ∧ p.period = o.period ∧
      (p.phases.length = o.phases.length ∧ ∀ x ∈ p.phases.zip o.phases, Spec.SameAngle x.1 x.2) ∧ Spec.Comparable p.phases o.phases) := by
  have n1 : p.phases.length ≠ 0 := fun h => hp (List.length_eq_zero_iff.1 h)
  have n2 : o.phases.length ≠ 0 := fun h => ho (List.length_eq_zero_iff.1 h)
  unfold Temporal.similarity
  dsimp only
  rw [if_neg (not_or.2 ⟨n1, n2⟩)]
  simp only [fmin_real, fmax_real, GoMath.abs_real, ofInt_real]
  obtain ⟨a1, a2, a3⟩ := ratio_sim p.amplitude o.amplitude ha
  have hd' : (0 : ℝ) < max (p.period : ℝ) (o.period : ℝ) := by exact_mod_cast hd
  obtain ⟨b1, b2, b3⟩ := ratio_sim (p.period : ℝ) (o.period : ℝ) hd'
  obtain ⟨c1, c2, c3⟩ := correlation_spec p.phases o.phases
  replace c3 := c3 hp
  rw [show ((p.period - o.period : ℤ) : ℝ) = (p.period : ℝ) - o.period by push_cast; ring,
    show ((max p.period o.period : ℤ) : ℝ) = max (p.period : ℝ) o.period by push_cast; rfl]
  rw [show (p.period = o.period) = ((p.period : ℝ) = o.period) by simp, ← a3, ← b3]
  generalize (1 - min (|p.amplitude - o.amplitude| / max p.amplitude o.amplitude) 1) = A at *
  generalize (1 - min (|(p.period : ℝ) - o.period| / max (p.period : ℝ) o.period) 1) = B at *
  by_cases hlen : p.phases.length = o.phases.length
  · obtain ⟨s1, s2, s3⟩ := scaleFactor_spec p.phases o.phases hlen
    rw [← c3, ← s3]
    generalize phaseCorrelation p.phases o.phases = C at *
    generalize scaleFactor p.phases o.phases = S at *
    have q1 : 0 ≤ C * S := mul_nonneg c1 s1.le
    have q2 : C * S ≤ C := mul_le_of_le_one_right c1 s2
    refine ⟨by positivity, by norm_num; linarith, ?_⟩
    constructor
    · intro e
      norm_num at e
      have hA : A = 1 := by linarith
      have hB : B = 1 := by linarith
      have hC : C = 1 := by linarith
      subst hC
      exact ⟨hA, hB, rfl, by linarith⟩
    · rintro ⟨rfl, rfl, rfl, rfl⟩; norm_num
  · have : phaseCorrelation p.phases o.phases = 0 := by unfold phaseCorrelation; rw [if_pos hlen]
    rw [this, zero_mul]
    refine ⟨by positivity, by norm_num; linarith, iff_of_false ?_ (fun h => hlen h.2.2.1.1)⟩
    norm_num
    intro h
    linarith

/-- Identical patterns have similarity 1 over the reals. -/
theorem C64_self (p : Temporal ℝ) (hp : p.phases ≠ []) (ha : 0 < p.amplitude) (hd : 0 < p.period) : p.similarity (some p) = 1 := by
  refine (C64_similarity_partial p p hp hp (by simpa using ha) (by simpa using hd)).2.2.2 ⟨rfl, rfl, ⟨rfl, ?_⟩, ?_⟩
  · intro x hx
    have : x.1 = x.2 := by
      have : ∀ (l : List ℝ), x ∈ l.zip l → x.1 = x.2 := by
        intro l
        induction l with
        | nil => simp
        | cons a l ih =>
          intro h
          rw [List.zip_cons_cons] at h
          rcases List.mem_cons.1 h with rfl | h
          · rfl
          · exact ih h
      exact this _ hx
    rw [this]
    exact Spec.SameAngle.refl _
  · intro m n h1 h2 h3 _
    rw [largest_unique h2 h1]
    exact ⟨by linarith, by linarith⟩

theorem abs_phaseDifference_comm (a b : ℝ) : |phaseDifference a b| = |phaseDifference b a| := by
  by_cases h : SpecialPair a b
  · have h' : SpecialPair b a := by
      rcases h with ⟨h1, h2⟩ | ⟨h1, h2⟩
      · exact .inr ⟨h2, h1⟩
      · exact .inl ⟨h2, h1⟩
    have key : ∀ a b : ℝ, SpecialPair a b → |phaseDifference a b| = π / 2 := by
      intro a b h
      have hp := Real.pi_pos
      rw [phaseDifference_eq]
      rcases h with h | h
      · rw [if_pos h, abs_neg, abs_of_pos (by linarith)]
      · split_ifs
        · rw [abs_neg, abs_of_pos (by linarith)]
        · rw [abs_of_pos (by linarith)]
    rw [key a b h, key b a h']
  · have h' : ¬ SpecialPair b a := by
      intro k
      apply h
      rcases k with ⟨h1, h2⟩ | ⟨h1, h2⟩
      · exact .inr ⟨h2, h1⟩
      · exact .inl ⟨h2, h1⟩
    refine circDist_unique (isCircDist_phaseDifference h) ?_
    obtain ⟨⟨k, hk⟩, hm⟩ := isCircDist_phaseDifference h'
    refine ⟨⟨-k, ?_⟩, fun j => ?_⟩
    · rw [hk, ← abs_neg]; congr 1; push_cast; ring
    · refine (hm (-j)).trans_eq ?_
      rw [← abs_neg]; congr 1; push_cast; ring

/-- **C64.** Similarity is symmetric over the reals, for all patterns. -/
theorem C64_symm (p o : Temporal ℝ) : p.similarity (some o) = o.similarity (some p) := by
  have hc : phaseCorrelation p.phases o.phases = phaseCorrelation o.phases p.phases := by
    unfold phaseCorrelation
    by_cases h : p.phases.length = o.phases.length
    · rw [if_neg (not_not.2 h), if_neg (not_not.2 h.symm), h]
      split_ifs
      · rfl
      · congr 1
        rw [← List.zip_swap p.phases o.phases, List.foldl_map]
        congr 1
        funext s x
        simp only [GoMath.abs_real, Prod.fst_swap, Prod.snd_swap]
        rw [abs_phaseDifference_comm]
    · rw [if_pos h, if_pos (fun k => h k.symm)]
  have hs : scaleFactor p.phases o.phases = scaleFactor o.phases p.phases := by
    unfold scaleFactor
    by_cases h : p.phases.length = o.phases.length
    · simp only [h, true_and]
      by_cases h1 : o.phases.length > 0
      · rw [if_pos h1, if_pos h1]
        generalize p.phases.foldl (fun m x => fmax m (GoMath.abs x)) 0 = M
        generalize o.phases.foldl (fun m x => fmax m (GoMath.abs x)) 0 = N
        by_cases h2 : M > 0 ∧ N > 0
        · rw [if_pos h2, if_pos h2.symm]
          simp only [fmax_real]
          rw [max_comm (M / N)]
        · rw [if_neg h2, if_neg (fun k => h2 k.symm)]
      · rw [if_neg h1, if_neg h1]
    · rw [if_neg (fun k => h k.1), if_neg (fun k => h k.1.symm)]
  unfold Temporal.similarity
  dsimp only
  rw [hc, hs]
  by_cases h0 : p.phases.length = 0 ∨ o.phases.length = 0
  · rw [if_pos h0, if_pos h0.symm]
  rw [if_neg h0, if_neg (fun k => h0 k.symm)]
  simp only [fmax_real, GoMath.abs_real, ofInt_real, abs_sub_comm p.amplitude, max_comm p.amplitude, max_comm p.period,
    show (p.period - o.period : ℤ) = -(o.period - p.period) by ring]
  push_cast
  rw [abs_neg]

/-! ## C81: gaps -/

section
variable {α : Type} [Zero α] [One α] [Add α] [Sub α] [Mul α] [Div α] [Neg α] [LT α] [LE α]
  [DecidableLT α] [DecidableLE α] [BEq α] [OfScientific α] [GoMath α]

/-- The phase after position `i` is over a quarter turn from the phase at `i`. -/
def Spec.Jump (l : List α) (i : ℕ) : Prop :=
  ∃ a b, l[i]? = some a ∧ l[i + 1]? = some b ∧ GoMath.abs (phaseDifference b a) > piMul (1 / 2)

theorem jump_cons (a b : α) (l : List α) (i : ℕ) : Spec.Jump (a :: b :: l) (i + 1) ↔ Spec.Jump (b :: l) i := by
  unfold Spec.Jump; simp

theorem jump_zero (a b : α) (l : List α) : Spec.Jump (a :: b :: l) 0 ↔ GoMath.abs (phaseDifference b a) > piMul (1 / 2) := by
  unfold Spec.Jump; simp

theorem detectFrom_spec (f : List ℤ) (l : List α) : ∀ i : ℕ,
    (detectFrom f i l = none ↔ ∃ j, Spec.Jump l j ∧ f.length ≤ i + j) ∧
    ∀ gaps, detectFrom f i l = some gaps →
      (∀ g : TemporalGap, g ∈ gaps ↔ ∃ j : ℕ, Spec.Jump l j ∧ f[i + j]? = some g.duration ∧ g.startIdx = ((i + j : ℕ) : ℤ) ∧
        g.endIdx = ((i + j : ℕ) : ℤ) + 1) ∧
      gaps.Pairwise fun g h => g.startIdx < h.startIdx := by
  have short : ∀ l : List α, l.length ≤ 1 → ∀ j, ¬ Spec.Jump l j := by
    rintro l h j ⟨a, b, h1, h2, -⟩
    rw [List.getElem?_eq_some_iff] at h2
    obtain ⟨h3, -⟩ := h2
    omega
  induction l with
  | nil =>
    intro i
    have hs := short [] (by simp)
    refine ⟨by simp [detectFrom, hs], fun gaps e => ?_⟩
    cases e
    exact ⟨by simp [hs], .nil⟩
  | cons a l ih =>
    intro i
    cases l with
    | nil =>
      have hs := short [a] (by simp)
      refine ⟨by simp [detectFrom, hs], fun gaps e => ?_⟩
      cases e
      exact ⟨by simp [hs], .nil⟩
    | cons b l =>
      obtain ⟨h1, h2⟩ := ih (i + 1)
      have hnone : ∀ P : Prop, (∃ j, Spec.Jump (a :: b :: l) j ∧ f.length ≤ i + j) ↔
          (Spec.Jump (a :: b :: l) 0 ∧ f.length ≤ i) ∨ ∃ j, Spec.Jump (b :: l) j ∧ f.length ≤ i + 1 + j := by
        intro _
        constructor
        · rintro ⟨j, hj, hf⟩
          cases j with
          | zero => exact .inl ⟨hj, by simpa using hf⟩
          | succ j => exact .inr ⟨j, (jump_cons _ _ _ _).1 hj, by omega⟩
        · rintro (⟨hj, hf⟩ | ⟨j, hj, hf⟩)
          · exact ⟨0, hj, by omega⟩
          · exact ⟨j + 1, (jump_cons _ _ _ _).2 hj, by omega⟩
      have hmem : ∀ g : TemporalGap, (∃ j : ℕ, Spec.Jump (a :: b :: l) j ∧ f[i + j]? = some g.duration ∧ g.startIdx = ((i + j : ℕ) : ℤ) ∧
          g.endIdx = ((i + j : ℕ) : ℤ) + 1) ↔
          (Spec.Jump (a :: b :: l) 0 ∧ f[i]? = some g.duration ∧ g.startIdx = (i : ℤ) ∧ g.endIdx = (i : ℤ) + 1) ∨
          ∃ j : ℕ, Spec.Jump (b :: l) j ∧ f[i + 1 + j]? = some g.duration ∧ g.startIdx = ((i + 1 + j : ℕ) : ℤ) ∧
          g.endIdx = ((i + 1 + j : ℕ) : ℤ) + 1 := by
        intro g
        constructor
        · rintro ⟨j, hj, h⟩
          cases j with
          | zero => exact .inl ⟨hj, h⟩
          | succ j =>
            refine .inr ⟨j, (jump_cons _ _ _ _).1 hj, ?_⟩
            rw [show i + 1 + j = i + (j + 1) by omega]; exact h
        · rintro (⟨hj, h⟩ | ⟨j, hj, h⟩)
          · exact ⟨0, hj, h⟩
          · refine ⟨j + 1, (jump_cons _ _ _ _).2 hj, ?_⟩
            rw [show i + (j + 1) = i + 1 + j by omega]; exact h
      rw [hnone True]
      simp only [hmem]
      rw [jump_zero]
      unfold detectFrom
      by_cases hj : GoMath.abs (phaseDifference b a) > piMul (1 / 2)
      · rw [if_pos hj]
        cases hf : f[i]? with
        | none =>
          have hlen : f.length ≤ i := List.getElem?_eq_none_iff.1 hf
          refine ⟨iff_of_true rfl (.inl ⟨hj, hlen⟩), fun gaps e => by cases e⟩
        | some d =>
          have hlen : ¬ f.length ≤ i := by
            obtain ⟨k, -⟩ := List.getElem?_eq_some_iff.1 hf; omega
          dsimp only
          refine ⟨?_, fun gaps e => ?_⟩
          · rw [Option.map_eq_none_iff, h1]
            simp [hlen]
          · obtain ⟨gs, e1, rfl⟩ := Option.map_eq_some_iff.1 e
            obtain ⟨h3, h4⟩ := h2 gs e1
            refine ⟨fun g => ?_, List.pairwise_cons.2 ⟨fun g hg => ?_, h4⟩⟩
            · rw [List.mem_cons, h3]
              refine or_congr_left ?_
              constructor
              · rintro rfl; exact ⟨hj, rfl, rfl, rfl⟩
              · rintro ⟨-, k1, k2, k3⟩
                cases g
                cases k1
                dsimp only at k2 k3
                rw [k2, k3]
            · obtain ⟨j, -, -, k, -⟩ := (h3 g).1 hg
              rw [k]; push_cast; omega
      · rw [if_neg hj]
        refine ⟨by rw [h1]; exact ⟨.inr, fun k => k.resolve_left fun k => hj k.1⟩, fun gaps e => ?_⟩
        obtain ⟨h3, h4⟩ := h2 gaps e
        exact ⟨fun g => by rw [h3]; exact ⟨.inr, fun k => k.resolve_left fun k => hj k.1⟩, h4⟩

/-- **C81.** Detection reports exactly the places where the phase jumps by more than a quarter turn, in order, each with the frequency at
its start; it panics exactly when there is such a place beyond the end of the frequencies. -/
theorem C81_detect (p : Temporal α) :
    (p.detect = .panic ↔ ∃ i, Spec.Jump p.phases i ∧ p.frequencies.length ≤ i) ∧
    ∀ gaps, p.detect = .ok gaps →
      (∀ g : TemporalGap, g ∈ gaps ↔ ∃ i : ℕ, Spec.Jump p.phases i ∧ p.frequencies[i]? = some g.duration ∧ g.startIdx = (i : ℤ) ∧
        g.endIdx = (i : ℤ) + 1) ∧
      gaps.Pairwise fun g h => g.startIdx < h.startIdx := by
  obtain ⟨h1, h2⟩ := detectFrom_spec p.frequencies p.phases 0
  simp only [Nat.zero_add] at h1 h2
  unfold Temporal.detect
  cases hd : detectFrom p.frequencies 0 p.phases with
  | none => exact ⟨iff_of_true rfl (h1.1 hd), fun _ e => by cases e⟩
  | some gs =>
    refine ⟨iff_of_false (by simp) fun h => ?_, fun gaps e => ?_⟩
    · rw [h1.2 h] at hd; cases hd
    · cases e; exact h2 gs hd

/-- **C81, completing what was detected.** For every detected gap the completion is the empty list. -/
theorem C81_unfilled_partial (p : Temporal α) (gaps : List TemporalGap) (h : p.detect = .ok gaps) (g : TemporalGap) (hg : g ∈ gaps) :
    p.complete g = some [] := by
  obtain ⟨i, ⟨a, b, -, hb, -⟩, -, h1, h2⟩ := (((C81_detect p).2 gaps h).1 g).1 hg
  obtain ⟨hlen, -⟩ := List.getElem?_eq_some_iff.1 hb
  unfold Temporal.complete
  rw [if_neg (by rw [h1, h2]; omega)]
  dsimp only
  rw [if_pos (by rw [h1, h2]; omega)]

end

/-- **C81.** Every detected gap is filled by its completion. -/
def C81_claim : Prop :=
  ∀ (p : Temporal ℝ) (gaps : List TemporalGap), p.detect = .ok gaps → ∀ g ∈ gaps, ∃ x xs, p.complete g = some (x :: xs)

theorem phaseDifference_three : phaseDifference (3 : ℝ) 0 = 3 := by
  have hp := Real.pi_gt_three
  have hp' := Real.pi_lt_d2
  rw [phaseDifference_eq, if_neg (by norm_num), if_neg ?_]
  · change principal (3 - 0) = 3
    rw [sub_zero, principal_eq, toIocMod_eq_self]
    exact ⟨by linarith, by linarith⟩
  · rintro ⟨h, -⟩
    rw [abs_lt] at h
    norm_num at h
    linarith [h.1]

/-- The gap between the phases 0 and 3 is detected and stays empty. -/
theorem C81_refuted : ¬ C81_claim := by
  intro h
  have hp' := Real.pi_lt_d2
  have hd : (Temporal.new [(0 : ℝ), 3] [7]).detect = .ok [⟨0, 1, 7⟩] := by
    have hj : GoMath.abs (phaseDifference (3 : ℝ) 0) > piMul (1 / 2) := by
      rw [phaseDifference_three]
      norm_num
      linarith
    unfold Temporal.detect Temporal.new
    simp only [detectFrom]
    rw [if_pos hj]
    rfl
  obtain ⟨x, xs, e⟩ := h _ _ hd _ (List.mem_singleton.2 rfl)
  rw [C81_unfilled_partial _ _ hd _ (List.mem_singleton.2 rfl)] at e
  cases e

/-- Over the reals, for phases that are not one of the two special pairs, a jump is a distance on the circle of over a quarter turn. -/
theorem C81_jump_circle (l : List ℝ) (i : ℕ) (a b d : ℝ) (ha : l[i]? = some a) (hb : l[i + 1]? = some b) (hs : ¬ SpecialPair b a)
    (hd : Spec.IsCircDist b a d) : Spec.Jump l i ↔ d > π / 2 := by
  have e : (piMul (1 / 2) : ℝ) = π / 2 := by simp; ring
  rw [circDist_unique hd (isCircDist_phaseDifference hs)]
  constructor
  · rintro ⟨a', b', h1, h2, h3⟩
    rw [ha] at h1; rw [hb] at h2
    cases h1; cases h2
    rw [e] at h3
    exact h3
  · intro h
    exact ⟨a, b, ha, hb, by rw [e]; exact h⟩

/-- The sequence moves by the same rotation from each element to the next. -/
def Spec.Steady (r : ℝ) : List ℝ → Prop
  | a :: b :: l => Spec.SameAngle b (a + r) ∧ Spec.Steady r (b :: l)
  | _ => True

/-- **C81, completing.** A gap of more than one step is filled with one phase in `[0, 2π)` per missing place, so that the phases from the
start of the gap to its end turn by equal small steps. -/
theorem C81_complete (p : Temporal ℝ) (i n : ℕ) (d : ℤ) (a b : ℝ) (ha : p.phases[i]? = some a) (hb : p.phases[i + n + 2]? = some b)
    (hs : ¬ SpecialPair b a) :
    ∃ l, p.complete ⟨i, i + n + 2, d⟩ = some l ∧ l.length = n + 1 ∧ (∀ x ∈ l, 0 ≤ x ∧ x < 2 * π) ∧
      ∃ r, |r| ≤ π / (n + 2) ∧ Spec.Steady r (a :: l ++ [b]) := by
  obtain ⟨hlen, -⟩ := List.getElem?_eq_some_iff.1 hb
  have ea : p.phases.getD i 0 = a := by rw [List.getD_eq_getElem?_getD, ha]; rfl
  have eb : p.phases.getD (i + n + 2) 0 = b := by rw [List.getD_eq_getElem?_getD, hb]; rfl
  have hn : (0 : ℝ) < n + 2 := by positivity
  let r := phaseDifference b a / (n + 2)
  let f : ℕ → ℝ := fun j => wrapPhase (a + r * (j + 1))
  refine ⟨(List.range (n + 1)).map f, ?_, by simp, ?_, r, ?_, ?_⟩
  · unfold Temporal.complete
    dsimp only
    rw [if_neg (by omega), if_neg (by omega)]
    rw [show ((i : ℤ) + n + 2).toNat = i + n + 2 by omega, show (i : ℤ).toNat = i by omega, ea, eb,
      show ((i : ℤ) + n + 2 - i - 1).toNat = n + 1 by omega]
    congr 1
    refine List.map_congr_left fun j _ => ?_
    show wrapPhase _ = wrapPhase _
    congr 2
    simp only [ofInt_real]
    push_cast
    rw [show ((i : ℝ) + n + 2 - i - 1 + 1) = n + 2 by ring]
    show _ = phaseDifference b a / (n + 2) * _
    ring
  · intro x hx
    obtain ⟨j, -, rfl⟩ := List.mem_map.1 hx
    exact ⟨wrapPhase_nonneg _, wrapPhase_lt _⟩
  · show |phaseDifference b a / (n + 2)| ≤ _
    rw [abs_div, abs_of_pos hn]
    exact div_le_div_of_nonneg_right (abs_le.2 ⟨(phaseDifference_gt b a).le, phaseDifference_le b a⟩) hn.le
  · have key : ∀ (m k : ℕ) (x : ℝ), k + m = n + 1 → Spec.SameAngle x (a + r * k) →
        Spec.Steady r (x :: (List.range' k m).map f ++ [b]) := by
      intro m
      induction m with
      | zero =>
        intro k x hk hx
        refine ⟨?_, trivial⟩
        obtain ⟨j, hj⟩ := hx
        obtain ⟨q, hq⟩ := (C02_phaseDifference_partial hs).lands
        obtain rfl : k = n + 1 := by omega
        have hr : r * (n + 2) = phaseDifference b a := div_mul_cancel₀ _ hn.ne'
        refine ⟨-q - j, ?_⟩
        rw [hj]
        push_cast
        have : r * (n + 1) + r = phaseDifference b a := by rw [← hr]; ring
        linarith
      | succ m ih =>
        intro k x hk hx
        rw [List.range'_succ, List.map_cons]
        refine ⟨?_, ih (k + 1) (f k) (by omega) ?_⟩
        · refine (wrapPhase_sameAngle _).trans ?_
          obtain ⟨j, hj⟩ := hx
          refine Spec.SameAngle.symm ⟨j, ?_⟩
          rw [hj]; ring
        · push_cast; exact wrapPhase_sameAngle _
    have := key (n + 1) 0 a (by omega) (by simpa using Spec.SameAngle.refl a)
    rwa [← List.range_eq_range'] at this

example : ∃ (p : Temporal ℝ) (a b : ℝ), p.phases[0]? = some a ∧ p.phases[0 + 1 + 2]? = some b ∧ ¬ SpecialPair b a ∧ Spec.Jump p.phases 2 := by
  have hp := Real.pi_lt_d2
  refine ⟨Temporal.new [1, 0, 0, 3] [5, 5, 5, 5], 1, 3, rfl, rfl, ?_, 0, 3, rfl, rfl, ?_⟩
  · rintro (⟨h, -⟩ | ⟨-, h⟩)
    · norm_num at h
    · norm_num at h
  · rw [phaseDifference_three]; norm_num; linarith

/-! ## Amplitudes -/

theorem foldl_sum (l : List ℝ) (f : ℝ → ℝ) (s : ℝ) : l.foldl (fun v p => v + f p) s = s + (l.map f).sum := by
  induction l generalizing s with
  | nil => simp
  | cons x xs ih => rw [List.foldl_cons, ih, List.map_cons, List.sum_cons]; ring

theorem sum_sq_eq_zero (l : List ℝ) (f : ℝ → ℝ) (h : (l.map fun p => f p * f p).sum = 0) : ∀ x ∈ l, f x = 0 := by
  induction l with
  | nil => simp
  | cons x xs ih =>
    rw [List.map_cons, List.sum_cons] at h
    have h1 := mul_self_nonneg (f x)
    have h2 : 0 ≤ (xs.map fun p => f p * f p).sum := List.sum_nonneg fun y hy => by
      obtain ⟨z, -, rfl⟩ := List.mem_map.1 hy; exact mul_self_nonneg _
    intro y hy
    rcases List.mem_cons.1 hy with rfl | hy
    · exact mul_self_eq_zero.1 (by linarith)
    · exact ih (by linarith) y hy

/-- **C64, amplitudes.** Over the reals the amplitude is never negative, and 0 exactly for patterns with fewer than two phases or whose
phases all agree up to whole turns: the perfectly synchronised ones. -/
theorem C64_amplitude (l : List ℝ) :
    0 ≤ calculateAmplitude l ∧ (calculateAmplitude l = 0 ↔ l.length < 2 ∨ ∀ x ∈ l, ∀ y ∈ l, Spec.SameAngle x y) := by
  unfold calculateAmplitude
  by_cases h : l.length < 2
  · rw [if_pos h]; exact ⟨le_rfl, iff_of_true rfl (.inl h)⟩
  · rw [if_neg h]
    dsimp only
    have hn : (0 : ℝ) < l.length := by exact_mod_cast (by omega : 0 < l.length)
    rw [show (ofInt ((l.map wrapPhase).length : ℤ) : ℝ) = l.length by simp]
    have hs : (l.map wrapPhase).foldl (fun (m p : ℝ) => m + p) 0 = (l.map wrapPhase).sum := by
      have := foldl_sum (l.map wrapPhase) id 0
      rwa [zero_add, List.map_id] at this
    rw [hs]
    generalize hm : (l.map wrapPhase).sum / (l.length : ℝ) = m
    rw [foldl_sum (l.map wrapPhase) (fun p => (p - m) * (p - m)), zero_add, sqrt_real]
    refine ⟨Real.sqrt_nonneg _, ?_⟩
    have h0 : 0 ≤ ((l.map wrapPhase).map fun p => (p - m) * (p - m)).sum := List.sum_nonneg fun y hy => by
      obtain ⟨z, -, rfl⟩ := List.mem_map.1 hy; exact mul_self_nonneg _
    rw [Real.sqrt_eq_zero (div_nonneg h0 hn.le), div_eq_zero_iff, or_iff_left hn.ne']
    constructor
    · intro e
      have := sum_sq_eq_zero (l.map wrapPhase) (fun p => p - m) e
      refine .inr fun x hx y hy => ?_
      rw [← C01_wrapPhase_eq_iff]
      have h1 := this _ (List.mem_map_of_mem hx)
      have h2 := this _ (List.mem_map_of_mem hy)
      linarith
    · rintro (k | k)
      · exact absurd k h
      · obtain ⟨x, hx⟩ := List.exists_mem_of_length_pos (l := l) (by omega)
        have hr : l.map wrapPhase = List.replicate l.length (wrapPhase x) := by
          rw [List.eq_replicate_iff]
          refine ⟨by simp, fun y hy => ?_⟩
          obtain ⟨z, hz, rfl⟩ := List.mem_map.1 hy
          exact (C01_wrapPhase_eq_iff _ _).2 (k z hz x hx)
        have hx' : m = wrapPhase x := by
          rw [← hm, hr, List.sum_replicate, nsmul_eq_mul, mul_comm, mul_div_assoc, div_self hn.ne', mul_one]
        rw [hr, hx']
        simp

/-- A pattern made from phases that do not all agree and frequencies with a positive average is 1 similar to itself. -/
theorem C64_new_self (l : List ℝ) (f : List ℤ) (x y : ℝ) (hx : x ∈ l) (hy : y ∈ l) (h : ¬ Spec.SameAngle x y)
    (hf : (f.length : ℤ) ≤ f.sum) (h0 : f ≠ []) : (Temporal.new l f).similarity (some (Temporal.new l f)) = 1 := by
  refine C64_self _ (List.ne_nil_of_mem hx) (lt_of_le_of_ne (C64_amplitude l).1 fun e => ?_) ?_
  · rcases (C64_amplitude l).2.1 e.symm with k | k
    · match l, k with
      | [a], _ =>
        rw [List.mem_singleton.1 hx, List.mem_singleton.1 hy] at h
        exact h (Spec.SameAngle.refl _)
      | [], _ => simp at hx
    · exact h (k x hx y hy)
  · show 0 < calculatePeriod f
    have hn : 0 < (f.length : ℤ) := by
      have : f.length ≠ 0 := fun e => h0 (List.length_eq_zero_iff.1 e)
      omega
    unfold calculatePeriod
    rw [if_neg (by omega)]
    have : f.foldl (fun t f => t + f) 0 = f.sum := by rw [List.sum_eq_foldl]
    rw [this, Int.tdiv_eq_ediv_of_nonneg (by omega)]
    have := (Int.le_ediv_iff_mul_le hn).2 (by rw [one_mul]; exact hf : 1 * (f.length : ℤ) ≤ f.sum)
    omega

/-- For C64: two different patterns with values, the similarity of which is therefore below 1, and one compared with itself. -/
example : let p : Temporal ℝ := ⟨[0, 1], [5, 5], 1, 10, 1⟩
    let o : Temporal ℝ := ⟨[0, 2], [5, 5], 0.5, 10, 1⟩
    p.similarity (some p) = 1 ∧ 0 ≤ p.similarity (some o) ∧ p.similarity (some o) < 1 := by
  intro p o
  obtain ⟨h0, h1, h2⟩ := C64_similarity_partial p o (by simp [p]) (by simp [o]) (by simp [p]) (by simp [p])
  refine ⟨C64_self p (by simp [p]) (by simp [p]) (by simp [p]), h0, lt_of_le_of_ne h1 fun h => ?_⟩
  have := (h2.1 h).1
  norm_num [p, o] at this

end Verif
