import Verif.Props.Gauges
import Verif.Props.DemoReset

/-!
# C103: the consensus panel of the demo
-/

set_option autoImplicit false
set_option linter.unusedSectionVars false

namespace Verif
open GoMath Spec

local notation "π" => Real.pi

namespace Spec

/-- The number of phases in the slot `[k/2, (k+1)/2)` of half a radian. -/
noncomputable def inSlot (l : List ℝ) (k : ℕ) : ℕ := l.countP fun p => decide ((k : ℝ) / 2 ≤ p ∧ p < ((k : ℝ) + 1) / 2)

end Spec

theorem voteOf_real (p : ℝ) (h : 0 ≤ p) : ∃ k : ℕ, vote p = k ∧ (k : ℝ) / 2 ≤ p ∧ p < ((k : ℝ) + 1) / 2 := by
  have h2 : 0 ≤ p * 2.0 := by positivity
  refine ⟨⌊p * 2.0⌋₊, ?_, ?_, ?_⟩
  · unfold vote
    rw [GoMath.toInt_real, rtrunc_floor _ h2, Int.natCast_floor_eq_floor h2]
  · have := Nat.floor_le h2
    norm_num at this ⊢; linarith
  · have := Nat.lt_floor_add_one (p * 2.0)
    norm_num at this ⊢; linarith

theorem vote_eq_iff (p : ℝ) (h : 0 ≤ p) (k : ℕ) : vote p = k ↔ (k : ℝ) / 2 ≤ p ∧ p < ((k : ℝ) + 1) / 2 := by
  obtain ⟨j, hj, j1, j2⟩ := voteOf_real p h
  rw [hj]
  constructor
  · intro e
    have : j = k := by exact_mod_cast e
    subst this; exact ⟨j1, j2⟩
  · rintro ⟨k1, k2⟩
    have a : (j : ℝ) < k + 1 := by linarith
    have b : (k : ℝ) < j + 1 := by linarith
    have a' : j < k + 1 := by exact_mod_cast a
    have b' : k < j + 1 := by exact_mod_cast b
    have : j = k := by omega
    rw [this]

theorem count_slot (l : List ℝ) (h : OnCircle l) (k : ℕ) : (l.map vote).count (k : ℤ) = inSlot l k := by
  unfold inSlot
  rw [List.count_eq_countP, List.countP_map]
  refine List.countP_congr fun p hp => ?_
  simp only [Function.comp, beq_iff_eq, decide_eq_true_eq]
  exact vote_eq_iff p (h p hp).1 k

theorem foldl_max (l : List ℕ) (m : ℕ) : m ≤ l.foldl (fun m c => if c > m then c else m) m ∧
    (∀ c ∈ l, c ≤ l.foldl (fun m c => if c > m then c else m) m) ∧
    (l.foldl (fun m c => if c > m then c else m) m = m ∨ l.foldl (fun m c => if c > m then c else m) m ∈ l) := by
  induction l generalizing m with
  | nil => simp
  | cons a l ih =>
    rw [List.foldl_cons]
    obtain ⟨h1, h2, h3⟩ := ih (if a > m then a else m)
    refine ⟨?_, ?_, ?_⟩
    · split_ifs at h1 ⊢ <;> omega
    · intro c hc
      rcases List.mem_cons.1 hc with rfl | hc
      · split_ifs at h1 ⊢ <;> omega
      · exact h2 c hc
    · rcases h3 with h3 | h3
      · split_ifs at h3 ⊢ with hc
        · right; rw [h3]; simp
        · left; exact h3
      · right; simp [h3]

/-- **C103** The number of votes is the size of the largest group of agents in one slot of half a radian. -/
theorem C103_votes (l : List ℝ) (h : OnCircle l) : (∀ k, inSlot l k ≤ maxVotes l) ∧ (l ≠ [] → ∃ k, maxVotes l = inSlot l k ∧ 0 < inSlot l k) := by
  obtain ⟨-, h2, h3⟩ := foldl_max (l.map fun p => (l.map vote).count (vote p)) 0
  have hmem : ∀ p ∈ l, (l.map vote).count (vote p) ≤ maxVotes l := fun p hp => h2 _ (List.mem_map.2 ⟨p, hp, rfl⟩)
  constructor
  · intro k
    rw [← count_slot l h k]
    by_cases hk : (k : ℤ) ∈ l.map vote
    · obtain ⟨p, hp, e⟩ := List.mem_map.1 hk
      rw [← e]; exact hmem p hp
    · rw [List.count_eq_zero_of_not_mem hk]; exact Nat.zero_le _
  · intro hn
    obtain ⟨p, hp⟩ := List.exists_mem_of_ne_nil l hn
    have pos : ∀ q ∈ l, 0 < (l.map vote).count (vote q) := fun q hq => List.count_pos_iff.2 (List.mem_map.2 ⟨q, hq, rfl⟩)
    have hex : ∃ q ∈ l, maxVotes l = (l.map vote).count (vote q) := by
      rcases h3 with h3 | h3
      · have := hmem p hp; have := pos p hp
        unfold maxVotes at *
        omega
      · obtain ⟨q, hq, e⟩ := List.mem_map.1 h3
        exact ⟨q, hq, e.symm⟩
    obtain ⟨q, hq, e⟩ := hex
    obtain ⟨k, hk, -⟩ := voteOf_real q (h q hq).1
    refine ⟨k, ?_, ?_⟩
    · rw [e, hk, count_slot l h]
    · have := pos q hq
      rw [hk, count_slot l h] at this; exact this

/-- **C103** Consensus is announced exactly when at least 95 % of the agents are in one slot of half a radian. -/
theorem C103_shown (l : List ℝ) (h : OnCircle l) (hn : l ≠ []) : consensusShown l = true ↔ ∃ k, 95 * l.length ≤ 100 * inSlot l k := by
  have hpos : 0 < l.length := List.length_pos_of_ne_nil hn
  obtain ⟨h1, h2⟩ := C103_votes l h
  obtain ⟨k, hk, -⟩ := h2 hn
  unfold consensusShown agreement
  rw [decide_eq_true_iff, ge_iff_le, sharePercent_real, share_ge _ _ hpos]
  have e : (95.0 : ℝ) * l.length ≤ 100 * maxVotes l ↔ 95 * l.length ≤ 100 * maxVotes l := by
    rw [← Nat.cast_le (α := ℝ)]; push_cast; norm_num
  rw [e]
  constructor
  · intro hh; exact ⟨k, by rw [← hk]; exact hh⟩
  · rintro ⟨j, hj⟩; have := h1 j; omega

theorem cos_slot (x : ℝ) (h : |x| ≤ 1 / 4) : 0.96875 ≤ Real.cos x := by
  have h1 := Real.one_sub_sq_div_two_le_cos (x := x)
  have h2 : x ^ 2 ≤ (1 / 4) ^ 2 := by rw [← sq_abs]; gcongr
  norm_num at *; linarith

theorem re_le_norm_total (l : List ℝ) (φ : ℝ) : (l.map fun p => Real.cos (p - φ)).sum ≤ ‖total l‖ := by
  have h1 : ‖total l‖ = ‖total (l.map (· + (-φ)))‖ := by rw [total_shift, norm_mul, norm_unit, one_mul]
  have h2 : (total (l.map (· + (-φ)))).re = (l.map fun p => Real.cos (p - φ)).sum := by
    unfold total
    induction l with
    | nil => simp
    | cons a l ih =>
      simp only [List.map_cons, List.sum_cons, Complex.add_re]
      rw [ih]
      · congr 1
        rw [Spec.unit, Complex.exp_ofReal_mul_I_re, sub_eq_add_neg]
      · simp only [total_shift, norm_mul, norm_unit, one_mul]
  rw [h1, ← h2]
  exact Complex.re_le_norm _

/-- **C103** An announced consensus is a coherent swarm: its coherence is above 0.87. -/
theorem C103_coherent (l : List ℝ) (h : OnCircle l) (hn : l ≠ []) (hc : consensusShown l = true) : 0.87 < measureCoherence l := by
  obtain ⟨k, hk⟩ := (C103_shown l h hn).1 hc
  have hpos : (0 : ℝ) < l.length := by exact_mod_cast List.length_pos_of_ne_nil hn
  rw [C03_coherence_eq_orderParameter, orderParameter_eq_total, lt_div_iff₀ hpos]
  refine lt_of_lt_of_le ?_ (re_le_norm_total l ((k : ℝ) / 2 + 1 / 4))
  have key : ∀ l : List ℝ, 1.96875 * (inSlot l k : ℝ) - l.length ≤ (l.map fun p => Real.cos (p - ((k : ℝ) / 2 + 1 / 4))).sum := by
    intro l
    induction l with
    | nil => simp [inSlot]
    | cons a l ih =>
      unfold inSlot at ih ⊢
      rw [List.countP_cons]
      simp only [List.map_cons, List.sum_cons, List.length_cons]
      by_cases hs : (k : ℝ) / 2 ≤ a ∧ a < ((k : ℝ) + 1) / 2
      · have := cos_slot (a - ((k : ℝ) / 2 + 1 / 4)) (by rw [abs_le]; constructor <;> linarith [hs.1, hs.2])
        simp only [hs, and_self, decide_true, if_true]
        push_cast
        norm_num at *; linarith
      · have := Real.neg_one_le_cos (a - ((k : ℝ) / 2 + 1 / 4))
        simp only [hs, decide_false, Bool.false_eq_true, if_false]
        push_cast
        norm_num at *; linarith
  have hk' : (95 : ℝ) * l.length ≤ 100 * inSlot l k := by exact_mod_cast hk
  have := key l
  norm_num at this ⊢
  linarith

/-- **C103** Agents at one phase are in consensus. -/
theorem C103_unanimous (n : ℕ) (hn : 0 < n) (p : ℝ) (h0 : 0 ≤ p) (h1 : p < 2 * π) :
    consensusShown (List.replicate n p) = true ∧ (agreement (List.replicate n p) : ℝ) = 100 := by
  have ho : OnCircle (List.replicate n p) := fun q hq => by rw [List.eq_of_mem_replicate hq]; exact ⟨h0, h1⟩
  have hne : List.replicate n p ≠ [] := by simp; omega
  obtain ⟨k, -, k1, k2⟩ := voteOf_real p h0
  have hk : inSlot (List.replicate n p) k = n := by
    unfold inSlot
    rw [List.countP_replicate, if_pos (by simp only [decide_eq_true_eq]; exact ⟨k1, k2⟩)]
  refine ⟨(C103_shown _ ho hne).2 ⟨k, by rw [hk]; simp; omega⟩, ?_⟩
  obtain ⟨g1, g2⟩ := C103_votes _ ho
  obtain ⟨j, hj, -⟩ := g2 hne
  have hle : inSlot (List.replicate n p) j ≤ n := by
    unfold inSlot; exact (List.countP_le_length).trans (by simp)
  have hm : maxVotes (List.replicate n p) = n := by have := g1 k; omega
  unfold agreement
  rw [hm, sharePercent_real, List.length_replicate, div_self (by exact_mod_cast hn.ne'), one_mul]

/-- A swarm of any high coherence is shown as being in consensus. -/
def C103_claim : Prop := ∃ c < 1, ∀ l : List ℝ, OnCircle l → l ≠ [] → c ≤ measureCoherence l → consensusShown l = true

/-- The claim is false for every threshold below 1: two agents as close as we like, on both sides of the border of two slots, agree only by half. -/
theorem C103_split (c : ℝ) (hc : c < 1) : ∃ l : List ℝ, OnCircle l ∧ l ≠ [] ∧ c ≤ measureCoherence l ∧ consensusShown l = false := by
  obtain ⟨d, hd0, hd1, hdc⟩ : ∃ d : ℝ, 0 < d ∧ d ≤ 0.1 ∧ d ≤ 1 - c :=
    ⟨min 0.1 (1 - c), lt_min (by norm_num) (by linarith), min_le_left _ _, min_le_right _ _⟩
  have hp := Real.pi_gt_three
  have ho : OnCircle [0.5 - d, 0.5] := by
    intro p hp'
    simp only [List.mem_cons, List.not_mem_nil, or_false] at hp'
    rcases hp' with rfl | rfl <;> constructor <;> norm_num at * <;> linarith
  refine ⟨[0.5 - d, 0.5], ho, by simp, ?_, ?_⟩
  · rw [C03_coherence_eq_orderParameter, orderParameter_eq_total, le_div_iff₀ (by simp)]
    refine le_trans ?_ (re_le_norm_total _ 0.5)
    have h1 := Real.one_sub_sq_div_two_le_cos (x := d)
    simp only [List.map_cons, List.map_nil, List.sum_cons, List.sum_nil, List.length_cons, List.length_nil, sub_self, Real.cos_zero]
    rw [show (0.5 : ℝ) - d - 0.5 = -d by ring, Real.cos_neg]
    norm_num at *
    nlinarith
  · rw [← Bool.not_eq_true, C103_shown _ ho (by simp)]
    rintro ⟨k, hk⟩
    unfold inSlot at hk
    by_cases h0 : k = 0
    · subst h0
      rw [List.countP_cons, List.countP_cons] at hk
      norm_num [hd0.not_ge] at hk
      split_ifs at hk <;> omega
    · have hk1 : (1 : ℝ) ≤ k := by exact_mod_cast Nat.one_le_iff_ne_zero.2 h0
      have hno : ¬ ((k : ℝ) / 2 ≤ 0.5 - d ∧ 0.5 - d < ((k : ℝ) + 1) / 2) := by
        rintro ⟨x, -⟩
        norm_num at x
        linarith
      rw [List.countP_cons, List.countP_cons] at hk
      simp only [hno, decide_false, Bool.false_eq_true, if_false, List.countP_nil, List.length_cons, List.length_nil] at hk
      split_ifs at hk <;> omega

/-- No threshold below 1 works. -/
theorem C103_refuted : ¬ C103_claim := by
  rintro ⟨c, hc, h⟩
  obtain ⟨l, ho, hn, hl, hs⟩ := C103_split c hc
  rw [h l ho hn hl] at hs
  cases hs

/-- Twenty agents together and one apart: consensus. -/
example : OnCircle (List.replicate 20 (0.1 : ℝ) ++ [3]) ∧ consensusShown (List.replicate 20 (0.1 : ℝ) ++ [3]) = true := by
  have hp := Real.pi_gt_three
  have ho : OnCircle (List.replicate 20 (0.1 : ℝ) ++ [3]) := by
    intro p hp'
    rcases List.mem_append.1 hp' with h | h
    · rw [List.eq_of_mem_replicate h]; constructor <;> norm_num <;> linarith
    · rw [List.mem_singleton.1 h]; constructor <;> linarith
  refine ⟨ho, (C103_shown _ ho (by simp)).2 ⟨0, ?_⟩⟩
  unfold inSlot
  rw [List.countP_append, List.countP_replicate, if_pos (by norm_num)]
  norm_num

end Verif
