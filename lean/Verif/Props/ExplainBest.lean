import Verif.Props.Explain

/-! # C153: what the explanations call good and bad, and which goal they speak of -/

set_option autoImplicit false
set_option linter.unusedSectionVars false

namespace Verif
open GoMath Spec

/-- Words for harm. -/
def Spec.harm : List String :=
  ["scattered", "contention", "no consensus", "jitter", "simultaneously", "chaos", "cascading", "spikes", "Chaotic"]

/-- The word by which each of the eight goals is known. -/
def Spec.topic : List String := ["batch", "resource", "onsensus", "latency", "sensors", "jobs", "failures", "scaling"]

/-- **C153, good and bad.** For every goal, known or not, the worst case names a harm and the best case does not. -/
theorem C153_best_worst (g : GoalType) :
    (∃ w ∈ harm, occurs w (bestWorst g).2 = true) ∧ ∀ w ∈ harm, occurs w (bestWorst g).1 = false := by
  have key : ∀ x : String × String, x ∈ ([0, 1, 2, 3, 4, 5, 6, 7, 8] : List ℤ).map bestWorst →
      (harm.any fun w => occurs w x.2) = true ∧ (harm.all fun w => !occurs w x.1) = true := by decide +kernel
  have hm : bestWorst g ∈ ([0, 1, 2, 3, 4, 5, 6, 7, 8] : List ℤ).map bestWorst := by
    by_cases hg : g < 0 ∨ 7 < g
    · rw [C153_texts.2.2.1 g hg]
      exact List.mem_map_of_mem (by decide)
    · refine List.mem_map_of_mem ?_
      have h0 : (0 : ℤ) ≤ g := not_lt.1 fun h => hg (.inl h)
      have h7 : g ≤ (7 : ℤ) := not_lt.1 fun h => hg (.inr h)
      have key : ∀ x : ℤ, 0 ≤ x → x ≤ 7 → x ∈ ([0, 1, 2, 3, 4, 5, 6, 7, 8] : List ℤ) := by
        intro x h1 h2
        interval_cases x <;> decide
      exact key g h0 h7
  obtain ⟨h1, h2⟩ := key _ hm
  refine ⟨by simpa [List.any_eq_true] using h1, fun w hw => ?_⟩
  have := List.all_eq_true.1 h2 w hw
  simpa using this

/-- **C153, topic.** The explanation of each of the eight goals speaks of its topic, and that of no other number does. -/
theorem C153_topic (i : ℕ) (w : String) (hw : topic[i]? = some w) (g : GoalType) :
    (∃ l ∈ howItWorks g, occurs w l = true) ↔ g = (i : ℤ) := by
  have hi : i < 8 := by
    have := (List.getElem?_eq_some_iff.1 hw).1
    simpa [topic] using this
  by_cases hg : 0 ≤ g ∧ g ≤ 7
  · obtain ⟨h0, h7⟩ := hg
    have key : ∀ i < 8, ∀ k < 8, ((howItWorks ((k : ℕ) : ℤ)).any fun l => occurs (topic.getD i "") l) = decide (k = i) := by decide +kernel
    obtain ⟨k, hk⟩ := Int.eq_ofNat_of_zero_le h0
    have hk8 : k < 8 := by
      have : (k : ℤ) ≤ 7 := by rw [← hk]; exact h7
      omega
    have e : topic.getD i "" = w := by simp [List.getD, hw]
    have := key i hi k hk8
    rw [e] at this
    rw [hk]
    constructor
    · intro h
      have h2 : ((howItWorks (k : ℤ)).any fun l => occurs w l) = true := List.any_eq_true.2 h
      rw [this] at h2
      exact congrArg Int.ofNat (of_decide_eq_true h2)
    · intro h
      have h' : (k : ℤ) = (i : ℤ) := h
      have h2 : k = i := by exact_mod_cast h'
      rw [decide_eq_true h2] at this
      exact List.any_eq_true.1 this
  · have h1 : howItWorks g = [] := List.length_eq_zero_iff.1 (by rw [C153_texts.1 g, if_neg hg])
    rw [h1]
    constructor
    · rintro ⟨l, hl, -⟩; cases hl
    · intro h
      refine absurd ⟨?_, ?_⟩ hg
      · rw [h]; exact Int.natCast_nonneg i
      · rw [h]; show (i : ℤ) ≤ 7; omega

/-- The explanation of the goal SaveEnergy (4) speaks of sensors. -/
example : ∃ l ∈ howItWorks 4, occurs "sensors" l = true := (C153_topic 4 "sensors" rfl 4).2 rfl

end Verif
