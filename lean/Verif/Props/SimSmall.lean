import Verif.Model.SimSmall
import Verif.Props.StrategyCost
import Verif.Props.Completion
import Verif.Props.Resource

/-!
# When workloads send, scale names, text display, test doubles: C120, C121, C122
-/

set_option autoImplicit false
set_option linter.unusedSectionVars false

namespace Verif
open GoMath Spec

local notation "π" => Real.pi

/-! ## C120: when a workload sends -/

/-- **C120** A workload sends exactly if it has something to send and its agent's phase is less than 0.1 radians from zero, on the circle. -/
theorem C120_near (pending : ℕ) (phase : ℝ) (h0 : 0 ≤ phase) (h1 : phase < 2 * π) :
    shouldBatch pending phase = true ↔ 0 < pending ∧ ∃ d, IsCircDist phase 0 d ∧ d < 0.1 := by
  have hp := Real.pi_gt_three
  have key : ∃ d, IsCircDist phase 0 d ∧ (d < 0.1 ↔ phase < 0.1 ∨ 2 * π - 0.1 < phase) := by
    by_cases hle : phase ≤ π
    · refine ⟨|phase|, isCircDist_of_le ⟨0, by simp⟩ (by rw [abs_of_nonneg h0]; exact hle), ?_⟩
      rw [abs_of_nonneg h0]
      constructor
      · exact Or.inl
      · rintro (h | h)
        · exact h
        · norm_num at h ⊢; linarith
    · rw [not_le] at hle
      refine ⟨|phase - 2 * π|, isCircDist_of_le ⟨1, by simp⟩ (by rw [abs_of_neg (by linarith)]; linarith), ?_⟩
      rw [abs_of_neg (by linarith)]
      constructor
      · intro h; right; linarith
      · rintro (h | h)
        · norm_num at h ⊢; linarith
        · linarith
  obtain ⟨d, hd, hiff⟩ := key
  unfold shouldBatch
  simp only [GoMath.piMul_real]
  by_cases hn : pending = 0
  · simp [hn]
  rw [if_neg hn, Bool.or_eq_true, decide_eq_true_iff, decide_eq_true_iff]
  have e2 : ((2 : ℚ) : ℝ) * π - 0.1 = 2 * π - 0.1 := by norm_num
  constructor
  · intro h
    refine ⟨by omega, d, hd, hiff.2 ?_⟩
    rcases h with h | h
    · exact Or.inl h
    · right; simpa using h
  · rintro ⟨-, d', hd', hlt⟩
    rw [circDist_unique hd' hd] at hlt
    rcases hiff.1 hlt with h | h
    · exact Or.inl h
    · right; simpa using h

/-- **C120** In a fully synchronised swarm all workloads with something to send decide alike. -/
theorem C120_together (phases : List ℝ) (hv : ∀ p ∈ phases, 0 ≤ p ∧ p < 2 * π) (hc : measureCoherence phases = 1) (m n : ℕ) (hm : 0 < m) (hn : 0 < n)
    (p q : ℝ) (hp : p ∈ phases) (hq : q ∈ phases) : shouldBatch m p = shouldBatch n q := by
  have hs := ((C03_coherence_eq_one_iff phases).1 hc).2 p hp q hq
  have e : p = q := by
    have h1 := wrapPhase_of_mem (hv p hp).1 (hv p hp).2
    have h2 := wrapPhase_of_mem (hv q hq).1 (hv q hq).2
    obtain ⟨k, hk⟩ := hs
    have hpi := Real.pi_pos
    obtain ⟨p0, p1⟩ := hv p hp
    obtain ⟨q0, q1⟩ := hv q hq
    have hk0 : k = 0 := by
      have a1 : (k : ℝ) < 1 := by
        by_contra hcon
        have := mul_le_mul_of_nonneg_right (not_lt.1 hcon) (by linarith : (0 : ℝ) ≤ 2 * π)
        linarith
      have a2 : (-1 : ℝ) < k := by
        by_contra hcon
        have := mul_le_mul_of_nonneg_right (not_lt.1 hcon) (by linarith : (0 : ℝ) ≤ 2 * π)
        linarith
      have b1 : k < 1 := by exact_mod_cast a1
      have b2 : -1 < k := by exact_mod_cast a2
      omega
    rw [hk, hk0]; simp
  unfold shouldBatch
  rw [e, if_neg (by omega), if_neg (by omega)]

/-- What the demo is to show: in a synchronised swarm a workload with pending tasks sends them. -/
def C120_claim : Prop :=
  ∀ (phases : List ℝ), (∀ p ∈ phases, 0 ≤ p ∧ p < 2 * π) → measureCoherence phases = 1 → ∀ p ∈ phases, ∀ n, 0 < n → shouldBatch n p = true

theorem opposite_synchronised (n : ℕ) : measureCoherence (List.replicate (n + 1) π) = 1 := by
  rw [C03_coherence_eq_one_iff]
  refine ⟨by simp, fun a ha b hb => ?_⟩
  rw [List.eq_of_mem_replicate ha, List.eq_of_mem_replicate hb]
  exact SameAngle.refl _

/-- **C120 is false as stated.** Nobody sends if everybody is at the phase π. -/
theorem C120_refuted : ¬ C120_claim := fun h => by
  have hp := Real.pi_gt_three
  have h1 := h (List.replicate 3 π) (fun p hpm => by rw [List.eq_of_mem_replicate hpm]; constructor <;> linarith) (opposite_synchronised 2) π
    (by simp) 1 one_pos
  unfold shouldBatch at h1
  simp only [GoMath.piMul_real] at h1
  rw [if_neg one_ne_zero, Bool.or_eq_true, decide_eq_true_iff, decide_eq_true_iff] at h1
  rcases h1 with h1 | h1
  · norm_num at h1; linarith
  · norm_num at h1; linarith

/-- Three tasks pending at the phase 6.25. -/
example : shouldBatch 3 (6.25 : ℝ) = true := by
  have hp := Real.pi_gt_d2
  have hp' := Real.pi_lt_d2
  rw [C120_near 3 6.25 (by norm_num) (by norm_num at hp ⊢; linarith)]
  refine ⟨by norm_num, |6.25 - 2 * π|, isCircDist_of_le ⟨1, by simp⟩ ?_, ?_⟩
  · rw [abs_le]; constructor <;> norm_num at hp hp' ⊢ <;> linarith
  · rw [abs_lt]; constructor <;> norm_num at hp hp' ⊢ <;> linarith

/-! ## C121: names of scales, lines of the text display -/

theorem scale_cases (k : ℤ) (h1 : 0 ≤ k) (h2 : k ≤ 4) : k = 0 ∨ k = 1 ∨ k = 2 ∨ k = 3 ∨ k = 4 := by omega

/-- **C121** A name is accepted exactly if it is the name of one of the five scales, and then stands for it. -/
theorem C121_parse (s : String) (k : Size) :
    parseScale s = (k, true) ↔ (0 ≤ k ∧ k ≤ 4) ∧ Size.name k = s := by
  constructor
  · intro h
    unfold parseScale at h
    split at h <;> simp only [Prod.mk.injEq, and_true, reduceCtorEq, and_false] at h <;> subst h <;> exact ⟨by decide, rfl⟩
  · rintro ⟨⟨h1, h2⟩, rfl⟩
    have := scale_cases k h1 h2
    rcases this with rfl | rfl | rfl | rfl | rfl <;> rfl

/-- **C121** The title tells the number of workloads that are created for the scale. -/
theorem C121_title (k : Size) (h1 : 0 ≤ k) (h2 : k ≤ 4) :
    displayName k = (Size.name k).toUpper ++ " SWARM (" ++ toString k.defaultAgentCount ++ " workloads)" := by
  have := scale_cases k h1 h2
  rcases this with rfl | rfl | rfl | rfl | rfl <;> decide +kernel

example : parseScale "large" = (3, true) := (C121_parse _ _).2 ⟨by decide, rfl⟩

/-- **C121** Lines of the text display are at least a second apart, whenever the updates come. -/
theorem textLines_spaced (last : Option ℤ) (ts : List ℤ) :
    (textLines last ts).Sublist ts ∧ (∀ l, last = some l → ∀ p ∈ (textLines last ts).head?, l + 1000000000 ≤ p) ∧
    (textLines last ts).IsChain fun p q => p + 1000000000 ≤ q := by
  induction ts generalizing last with
  | nil => simp [textLines]
  | cons t ts ih =>
    unfold textLines textUpdate
    cases last with
    | none =>
      obtain ⟨i1, i2, i3⟩ := ih (some t)
      refine ⟨by simpa using i1, by simp, ?_⟩
      simp only [if_true]
      rw [List.isChain_cons]
      exact ⟨fun y hy => i2 t rfl y hy, i3⟩
    | some l =>
      dsimp only
      by_cases h : t - l < 1000000000
      · obtain ⟨i1, i2, i3⟩ := ih (some l)
        rw [if_pos h]
        simp only [Bool.false_eq_true, if_false]
        exact ⟨i1.cons _, i2, i3⟩
      · obtain ⟨i1, i2, i3⟩ := ih (some t)
        rw [if_neg h]
        simp only [if_true]
        refine ⟨by simpa using i1, fun l' hl' p hp => ?_, ?_⟩
        · cases hl'; simp only [List.head?_cons, Option.mem_def, Option.some.injEq] at hp; omega
        · rw [List.isChain_cons]
          exact ⟨fun y hy => i2 t rfl y hy, i3⟩

/-- No update is dropped without a line less than a second before. -/
theorem textLines_dropped (last : Option ℤ) (ts : List ℤ) :
    ∀ t ∈ ts, t ∈ textLines last ts ∨ (∃ p ∈ textLines last ts, t < p + 1000000000) ∨ ∃ l, last = some l ∧ t < l + 1000000000 := by
  induction ts generalizing last with
  | nil => simp
  | cons u ts ih =>
    intro t ht
    unfold textLines textUpdate
    cases last with
    | none =>
      simp only [if_true]
      rcases List.mem_cons.1 ht with rfl | ht
      · exact Or.inl (by simp)
      · rcases ih (some u) t ht with h | ⟨p, hp, h⟩ | ⟨l, hl, h⟩
        · exact Or.inl (by simp [h])
        · exact Or.inr (Or.inl ⟨p, by simp [hp], h⟩)
        · cases hl; exact Or.inr (Or.inl ⟨u, by simp, h⟩)
    | some l =>
      dsimp only
      by_cases hl : u - l < 1000000000
      · rw [if_pos hl]
        simp only [Bool.false_eq_true, if_false]
        rcases List.mem_cons.1 ht with rfl | ht
        · exact Or.inr (Or.inr ⟨l, rfl, by omega⟩)
        · exact ih (some l) t ht
      · rw [if_neg hl]
        simp only [if_true]
        rcases List.mem_cons.1 ht with rfl | ht
        · exact Or.inl (by simp)
        · rcases ih (some u) t ht with h | ⟨p, hp, h⟩ | ⟨l, hl, h⟩
          · exact Or.inl (by simp [h])
          · exact Or.inr (Or.inl ⟨p, by simp [hp], h⟩)
          · cases hl; exact Or.inr (Or.inl ⟨u, by simp, h⟩)

/-- **C121** The lines of a text display are some of the updates, at least a second apart; the first update is among them, and every update that is not
has a line that is less than a second older (or newer, if clocks run backwards). -/
theorem C121_lines (ts : List ℤ) :
    (textLines none ts).Sublist ts ∧ (textLines none ts).IsChain (fun p q => p + 1000000000 ≤ q) ∧ (textLines none ts).head? = ts.head? ∧
    ∀ t ∈ ts, t ∈ textLines none ts ∨ ∃ p ∈ textLines none ts, t < p + 1000000000 := by
  obtain ⟨h1, -, h3⟩ := textLines_spaced none ts
  refine ⟨h1, h3, ?_, fun t ht => ?_⟩
  · cases ts with
    | nil => rfl
    | cons t ts => simp [textLines, textUpdate]
  · rcases textLines_dropped none ts t ht with h | h | ⟨l, hl, -⟩
    · exact Or.inl h
    · exact Or.inr h
    · cases hl

/-- **C121** So there are at most as many lines as whole seconds have passed, plus one. -/
theorem C121_flood (ts : List ℤ) (hne : textLines none ts ≠ []) :
    ((textLines none ts).length - 1 : ℤ) * 1000000000 ≤ (textLines none ts).getLast hne - (textLines none ts).head hne := by
  have key : ∀ (l : List ℤ) (hl : l ≠ []), l.IsChain (fun p q => p + 1000000000 ≤ q) → ((l.length : ℤ) - 1) * 1000000000 ≤ l.getLast hl - l.head hl := by
    intro l
    induction l with
    | nil => intro h; exact absurd rfl h
    | cons a l ih =>
      intro _ hc
      cases l with
      | nil => simp
      | cons b l =>
        rw [List.isChain_cons_cons] at hc
        have := ih (by simp) hc.2
        rw [List.getLast_cons (by simp)]
        simp only [List.head_cons, List.length_cons] at this ⊢
        push_cast at this ⊢
        omega
  exact key _ hne (C121_lines ts).2.1

/-- Updates every 0.4 seconds give a line every 1.2 seconds. -/
example : textLines none [0, 400000000, 800000000, 1200000000, 1600000000, 2000000000, 2400000000] = [0, 1200000000, 2400000000] := by decide

/-! ## C122: the test doubles -/

theorem near_not_special {g l : ℝ} (hgt : -π < g - l) (hle : g - l ≤ π) : ¬ SpecialPair g l := by
  have hp := Real.pi_gt_three
  rintro (⟨h1, h2⟩ | ⟨h1, h2⟩) <;> rw [abs_lt] at h1 h2 <;> norm_num at h1 h2 <;> linarith [h1.1, h1.2, h2.1, h2.2]

theorem blend_inside (l g : State ℝ) (w : ℝ) (h0 : 0 ≤ w) (h1 : w ≤ 1) :
    blend l g w = ⟨wrapPhase (l.phase + phaseDifference g.phase l.phase * w), l.frequency, l.coherence * (1 - w) + g.coherence * w⟩ := by
  unfold blend
  rw [if_neg (not_lt.mpr h0), if_neg (not_lt.mpr h1)]

/-- **C122, blending.** Inside a half circle the test double blends like the real manager. -/
theorem C122_blend_same (l g : State ℝ) (w : ℝ) (h0 : 0 ≤ w) (h1 : w ≤ 1) (hl : 0 ≤ l.phase ∧ l.phase < 2 * π) (hg : 0 ≤ g.phase ∧ g.phase < 2 * π)
    (hgt : -π < g.phase - l.phase) (hle : g.phase - l.phase ≤ π) : mockBlend l g w = blend l g w := by
  rw [blend_inside l g w h0 h1, difference_eq (near_not_special hgt hle) (shortestRotation_of ⟨0, by simp⟩ hgt hle)]
  have e : l.phase + (g.phase - l.phase) * w = l.phase * (1 - w) + g.phase * w := by ring
  have hpi := Real.pi_pos
  rw [e, wrapPhase_of_mem]
  · rfl
  · have a1 := mul_nonneg hl.1 (by linarith : 0 ≤ 1 - w)
    have a2 := mul_nonneg hg.1 h0
    linarith
  · rcases h0.eq_or_lt with rfl | hw
    · simpa using hl.2
    · have a1 := mul_le_mul_of_nonneg_right hl.2.le (by linarith : 0 ≤ 1 - w)
      have a2 := mul_lt_mul_of_pos_right hg.2 hw
      linarith

/-- **C122, blending.** Otherwise it goes the other way round and lands elsewhere. -/
theorem C122_blend_differs (l g : State ℝ) (w : ℝ) (h0 : 0 < w) (h1 : w < 1) (hl : 0 ≤ l.phase ∧ l.phase < 2 * π) (hg : 0 ≤ g.phase ∧ g.phase < 2 * π)
    (hfar : π < |g.phase - l.phase|) (hs : ¬ SpecialPair g.phase l.phase) : ¬ SameAngle (mockBlend l g w).phase (blend l g w).phase := by
  have hpi := Real.pi_pos
  rw [blend_inside l g w h0.le h1.le]
  obtain ⟨j, hj, hd⟩ : ∃ j : ℤ, (j = 1 ∨ j = -1) ∧ phaseDifference g.phase l.phase = g.phase - l.phase + j * (2 * π) := by
    rcases lt_abs.1 hfar with h | h
    · refine ⟨-1, Or.inr rfl, difference_eq hs (shortestRotation_of ⟨-1, by push_cast; ring⟩ ?_ ?_)⟩ <;> push_cast <;> linarith
    · refine ⟨1, Or.inl rfl, difference_eq hs (shortestRotation_of ⟨1, by push_cast; ring⟩ ?_ ?_)⟩ <;> push_cast <;> linarith
  intro h
  have h2 := h.trans (wrapPhase_sameAngle _)
  obtain ⟨k, hk⟩ := h2
  rw [hd] at hk
  simp only [mockBlend] at hk
  have e : (0 : ℝ) = (j * w + k) * (2 * π) := by linarith
  have e2 : (j * w + k : ℝ) = 0 := by
    rcases mul_eq_zero.1 e.symm with h | h
    · exact h
    · linarith
  rcases hj with rfl | rfl
  · push_cast at e2
    have a1 : (-1 : ℝ) < k := by linarith
    have a2 : (k : ℝ) < 0 := by linarith
    have b1 : -1 < k := by exact_mod_cast a1
    have b2 : k < 0 := by exact_mod_cast a2
    omega
  · push_cast at e2
    have a1 : (0 : ℝ) < k := by linarith
    have a2 : (k : ℝ) < 1 := by linarith
    have b1 : 0 < k := by exact_mod_cast a1
    have b2 : k < 1 := by exact_mod_cast a2
    omega

/-- **C122, proposing.** The proposal of the test double always leads to the target; it is the shortest way exactly inside a half circle. -/
theorem C122_propose (current target : State ℝ) :
    SameAngle (current.phase + (mockPropose current target).1.value) target.phase ∧
    (ShortestRotation current.phase target.phase (mockPropose current target).1.value ↔
      -π < target.phase - current.phase ∧ target.phase - current.phase ≤ π) := by
  have h : SameAngle (current.phase + (mockPropose current target).1.value) target.phase := ⟨0, by simp [mockPropose]⟩
  exact ⟨h, fun r => ⟨r.gt, r.le⟩, fun r => shortestRotation_of h r.1 r.2⟩

/-- **C122, energy.** The double grants all or nothing; the real manager grants what there is. They agree as long as the energy suffices. -/
theorem C122_request (t : TokenManager ℝ) (amount : ℝ) (ha : 0 < amount) (h0 : 0 < t.tokens) :
    (amount ≤ t.tokens → mockRequest t.tokens amount = ((t.request amount).1, (t.request amount).2.tokens)) ∧
    (t.tokens < amount → mockRequest t.tokens amount = (0, t.tokens) ∧ (t.request amount).1 = t.tokens ∧ (t.request amount).2.tokens = 0) := by
  unfold mockRequest TokenManager.request
  rw [if_neg (not_le.2 ha), if_neg (not_le.2 h0)]
  simp only [GoMath.fmin_real]
  constructor
  · intro h
    rw [if_pos h, min_eq_left h]
  · intro h
    rw [if_neg (not_le.2 h), min_eq_right h.le]
    exact ⟨rfl, rfl, sub_self _⟩

/-- **C122, energy.** The double returns energy without a limit. They agree as long as the maximum is not exceeded. -/
theorem C122_release (t : TokenManager ℝ) (amount : ℝ) (ha : 0 < amount) :
    mockRelease t.tokens amount = (t.release amount).tokens ↔ t.tokens + amount ≤ t.maxTokens := by
  unfold mockRelease TokenManager.release
  rw [if_neg (not_le.2 ha)]
  simp only [GoMath.fmin_real]
  constructor
  · intro h; rw [h]; exact min_le_right _ _
  · intro h; rw [min_eq_left h]

/-- **C122, deciding.** The double takes the first option, with full confidence, however bad it is: of two options in either order, it takes both. -/
theorem C122_decide (a b : Action ℝ) (rest : List (Action ℝ)) :
    (mockDecide (a :: b :: rest)).1 = a ∧ (mockDecide (b :: a :: rest)).1 = b ∧ ∀ l : List (Action ℝ), (mockDecide l).2 = 1 ∧ (l ≠ [] → (mockDecide l).1 ∈ l) := by
  refine ⟨rfl, rfl, fun l => ?_⟩
  cases l with
  | nil => exact ⟨rfl, fun h => absurd rfl h⟩
  | cons o l => exact ⟨rfl, fun _ => List.mem_cons_self⟩

/-- What a test with these doubles takes for granted: they do what the real parts do. -/
def C122_claim : Prop :=
  (∀ (l g : State ℝ) (w : ℝ), 0 ≤ w → w ≤ 1 → 0 ≤ l.phase → l.phase < 2 * π → 0 ≤ g.phase → g.phase < 2 * π → mockBlend l g w = blend l g w) ∧
  ∀ (t : TokenManager ℝ) (amount : ℝ), 0 < amount → 0 < t.tokens → (mockRequest t.tokens amount).1 = (t.request amount).1

/-- **C122 is false as stated**: neither half holds. -/
theorem C122_refuted : ¬ C122_claim ∧
    ¬ (∀ (l g : State ℝ) (w : ℝ), 0 ≤ w → w ≤ 1 → 0 ≤ l.phase → l.phase < 2 * π → 0 ≤ g.phase → g.phase < 2 * π → mockBlend l g w = blend l g w) ∧
    ¬ ∀ (t : TokenManager ℝ) (amount : ℝ), 0 < amount → 0 < t.tokens → (mockRequest t.tokens amount).1 = (t.request amount).1 := by
  have h2 : ¬ ∀ (t : TokenManager ℝ) (amount : ℝ), 0 < amount → 0 < t.tokens → (mockRequest t.tokens amount).1 = (t.request amount).1 := by
    intro h
    have h1 := h ⟨1, 10⟩ 2 (by norm_num) (by norm_num)
    obtain ⟨e1, e2, -⟩ := (C122_request ⟨1, 10⟩ 2 (by norm_num) (by norm_num)).2 (by norm_num)
    rw [e1, e2] at h1
    norm_num at h1
  refine ⟨fun h => h2 h.2, fun h => ?_, h2⟩
  have hp := Real.pi_gt_three
  have hp' := Real.pi_lt_d2
  have h1 := h ⟨0.5, 1, 0⟩ ⟨6, 1, 0⟩ 0.5 (by norm_num) (by norm_num) (by norm_num) (by norm_num; linarith) (by norm_num) (by norm_num; linarith)
  refine C122_blend_differs ⟨0.5, 1, 0⟩ ⟨6, 1, 0⟩ 0.5 (by norm_num) (by norm_num) ⟨by norm_num, by norm_num; linarith⟩ ⟨by norm_num, by norm_num; linarith⟩ ?_ ?_ ?_
  · norm_num at hp' ⊢
    linarith
  · rintro (⟨x, -⟩ | ⟨-, x⟩) <;> rw [abs_lt] at x <;> norm_num at x
  · rw [h1]; exact SameAngle.refl _

/-- Where they agree. -/
example : mockBlend (⟨1, 5, 0.5⟩ : State ℝ) ⟨2, 7, 1⟩ 0.25 = blend ⟨1, 5, 0.5⟩ ⟨2, 7, 1⟩ 0.25 := by
  have hp := Real.pi_gt_three
  exact C122_blend_same _ _ _ (by norm_num) (by norm_num) ⟨by norm_num, by norm_num; linarith⟩ ⟨by norm_num, by norm_num; linarith⟩
    (by norm_num; linarith) (by norm_num; linarith)

end Verif
