import Verif.Props.PhasePanels

/-!
# C105: the coherence chart
-/

set_option autoImplicit false
set_option linter.unusedSectionVars false

namespace Verif
open GoMath Spec

local notation "π" => Real.pi

/-! ### C105: the chart -/

namespace Spec

/-- The measurements that count: those taken while the demo was not paused, the last fifty of them. -/
def lastFifty {β : Type} (ms : List (β × Bool)) : List β :=
  let live := (ms.filter fun m => !m.2).map (·.1)
  live.drop (live.length - 50)

end Spec

theorem lastFifty_push {β : Type} (ms : List (β × Bool)) (m : β) :
    lastFifty (ms ++ [(m, false)]) = if (lastFifty ms ++ [m]).length > 50 then (lastFifty ms ++ [m]).tail else lastFifty ms ++ [m] := by
  unfold lastFifty
  simp only [List.filter_append, List.map_append, List.filter_cons, Bool.not_false, if_true, List.filter_nil, List.map_cons, List.map_nil,
    List.length_append, List.length_cons, List.length_nil, List.length_drop, zero_add]
  generalize ((ms.filter fun m => !m.2).map (·.1)) = l
  by_cases h : 50 ≤ l.length
  · rw [if_pos (by omega), ← List.drop_one, ← List.drop_append_of_le_length (by omega), List.drop_drop]
    congr 1; omega
  · rw [if_neg (by omega), show l.length + 1 - 50 = 0 by omega, show l.length - 50 = 0 by omega]
    rfl

section
variable {α : Type} [Zero α] [One α] [Add α] [Sub α] [Mul α] [Div α] [Neg α] [LT α] [LE α] [DecidableLT α] [DecidableLE α] [BEq α] [OfScientific α] [GoMath α]

/-- **C105** After any run of updates the chart holds the last fifty unpaused measurements, in order and in percent, and as many target values. -/
theorem C105_history (ms : List ((α × α) × Bool)) :
    let c := ms.foldl (fun (c : Chart α) m => c.push m.1.1 m.1.2 m.2) ⟨[], []⟩
    c.coherence = (lastFifty ms).map (fun m => m.1 * 100.0) ∧ c.target = (lastFifty ms).map (fun m => m.2 * 100.0) ∧ c.coherence.length ≤ 50 := by
  have key : ms.foldl (fun (c : Chart α) m => c.push m.1.1 m.1.2 m.2) ⟨[], []⟩ =
      ⟨(lastFifty ms).map (fun m => m.1 * 100.0), (lastFifty ms).map (fun m => m.2 * 100.0)⟩ := by
    induction ms using List.reverseRecOn with
    | nil => rfl
    | append_singleton ms m ih =>
      obtain ⟨m, b⟩ := m
      rw [List.foldl_append, ih, List.foldl_cons, List.foldl_nil]
      cases b with
      | true =>
        have : lastFifty (ms ++ [(m, true)]) = lastFifty ms := by simp [lastFifty]
        rw [this]; rfl
      | false =>
        rw [lastFifty_push]
        simp only [Chart.push, Bool.false_eq_true, if_false, List.length_append, List.length_map, List.length_cons, List.length_nil]
        split_ifs <;> simp [← List.drop_one, List.map_drop]
  intro c
  have hc : c = _ := key
  rw [hc]
  refine ⟨rfl, rfl, ?_⟩
  rw [List.length_map, lastFifty, List.length_drop]
  omega

namespace Spec

/-- Point `i` is drawn in green: it is at the target or above, or it ends a step that came from there. -/
def InGreen {α : Type} [LE α] (t : α) (vs : List α) (i : ℕ) : Prop := (∃ v, vs[i]? = some v ∧ t ≤ v) ∨ ∃ j v, i = j + 1 ∧ vs[j]? = some v ∧ t ≤ v

/-- Point `i` is drawn in red: it does not reach the target, or it ends a step that came from there. -/
def InRed {α : Type} [LE α] (t : α) (vs : List α) (i : ℕ) : Prop := (∃ v, vs[i]? = some v ∧ ¬ t ≤ v) ∨ ∃ j v, i = j + 1 ∧ vs[j]? = some v ∧ ¬ t ≤ v

end Spec

open Classical in
theorem series_key (t : α) (vs : List α) :
    vs.foldl (seriesStep t) (none, [], []) = (vs.getLast?, ((List.range vs.length).map fun i => if InGreen t vs i then vs[i]? else none).reverse,
      ((List.range vs.length).map fun i => if InRed t vs i then vs[i]? else none).reverse) := by
  induction vs using List.reverseRecOn with
  | nil => rfl
  | append_singleton vs v ih =>
    rw [List.foldl_append, ih, List.foldl_cons, List.foldl_nil, List.length_append, List.length_singleton, List.range_succ, List.map_append,
      List.map_append, List.reverse_append, List.reverse_append]
    have hget : ∀ i < vs.length, (vs ++ [v])[i]? = vs[i]? := fun i hi => List.getElem?_append_left hi
    have g1 : ((List.range vs.length).map fun i => if InGreen t (vs ++ [v]) i then (vs ++ [v])[i]? else none) =
        (List.range vs.length).map fun i => if InGreen t vs i then vs[i]? else none := by
      apply List.map_congr_left
      intro i hi
      have hi := List.mem_range.1 hi
      have : InGreen t (vs ++ [v]) i ↔ InGreen t vs i := by
        unfold InGreen
        rw [hget i hi]
        refine or_congr Iff.rfl (exists_congr fun j => exists_congr fun x => and_congr_right fun hj => ?_)
        rw [hget j (by omega)]
      rw [if_congr this (hget i hi) rfl]
    have r1 : ((List.range vs.length).map fun i => if InRed t (vs ++ [v]) i then (vs ++ [v])[i]? else none) =
        (List.range vs.length).map fun i => if InRed t vs i then vs[i]? else none := by
      apply List.map_congr_left
      intro i hi
      have hi := List.mem_range.1 hi
      have : InRed t (vs ++ [v]) i ↔ InRed t vs i := by
        unfold InRed
        rw [hget i hi]
        refine or_congr Iff.rfl (exists_congr fun j => exists_congr fun x => and_congr_right fun hj => ?_)
        rw [hget j (by omega)]
      rw [if_congr this (hget i hi) rfl]
    rw [g1, r1]
    have hv : (vs ++ [v])[vs.length]? = some v := by simp
    have g2 : InGreen t (vs ++ [v]) vs.length ↔ t ≤ v ∨ ∃ u, vs.getLast? = some u ∧ t ≤ u := by
      unfold InGreen
      rw [hv]
      refine or_congr (by simp) ⟨?_, ?_⟩
      · rintro ⟨j, u, hj, hu, h⟩
        refine ⟨u, ?_, h⟩
        rw [hget j (by omega)] at hu
        rw [List.getLast?_eq_getElem?, hj, Nat.add_sub_cancel, hu]
      · rintro ⟨u, hu, h⟩
        have hne : vs ≠ [] := by rintro rfl; simp at hu
        have hl := List.length_pos_of_ne_nil hne
        refine ⟨vs.length - 1, u, by omega, ?_, h⟩
        rw [hget _ (by omega), ← List.getLast?_eq_getElem?, hu]
    have r2 : InRed t (vs ++ [v]) vs.length ↔ ¬ t ≤ v ∨ ∃ u, vs.getLast? = some u ∧ ¬ t ≤ u := by
      unfold InRed
      rw [hv]
      refine or_congr (by simp) ⟨?_, ?_⟩
      · rintro ⟨j, u, hj, hu, h⟩
        refine ⟨u, ?_, h⟩
        rw [hget j (by omega)] at hu
        rw [List.getLast?_eq_getElem?, hj, Nat.add_sub_cancel, hu]
      · rintro ⟨u, hu, h⟩
        have hne : vs ≠ [] := by rintro rfl; simp at hu
        have hl := List.length_pos_of_ne_nil hne
        refine ⟨vs.length - 1, u, by omega, ?_, h⟩
        rw [hget _ (by omega), ← List.getLast?_eq_getElem?, hu]
    simp only [List.map_cons, List.map_nil, List.reverse_cons, List.reverse_nil, List.nil_append, List.singleton_append, g2, r2, hv]
    rw [List.getLast?_append, List.getLast?_singleton, Option.some_or]
    rcases List.eq_nil_or_concat vs with rfl | ⟨ws, u, rfl⟩
    · by_cases h : t ≤ v
      · simp [seriesStep, h]
      · simp [seriesStep, h]
    · have hl : (ws ++ [u]).getLast? = some u := by simp
      have hu : (ws ++ [u])[ws.length]? = some u := by simp
      simp only [List.concat_eq_append] at *
      rw [hl]
      have tg : ∀ P : ℕ → Prop, P ws.length → (some u :: ((List.range (ws ++ [u]).length).map fun i => if P i then (ws ++ [u])[i]? else none).reverse.tail) =
          ((List.range (ws ++ [u]).length).map fun i => if P i then (ws ++ [u])[i]? else none).reverse := by
        intro P hP
        rw [List.length_append, List.length_singleton, List.range_succ, List.map_append, List.reverse_append]
        simp [hP]
      have hG : t ≤ u → InGreen t (ws ++ [u]) ws.length := fun h => .inl ⟨u, hu, h⟩
      have hR : ¬ t ≤ u → InRed t (ws ++ [u]) ws.length := fun h => .inl ⟨u, hu, h⟩
      by_cases h : t ≤ v
      · by_cases h' : t ≤ u
        · simp [seriesStep, h, h']
        · have := tg _ (hR h')
          simp only [seriesStep, h, h', decide_true, decide_false, ne_eq, Bool.true_eq_false, not_false_eq_true,
            if_true, this]
          simp [h']
      · by_cases h' : t ≤ u
        · have := tg _ (hG h')
          simp only [seriesStep, h, h', decide_true, decide_false, ne_eq, Bool.false_eq_true, not_false_eq_true,
            if_true, if_false, this]
          simp [h']
        · simp [seriesStep, h, h']

open Classical in
/-- **C105** The two series have one point per value. A point is green exactly when its value or the one before reaches the target, and red exactly when its
value or the one before does not; a drawn point has its value. -/
theorem C105_series (t : α) (vs : List α) :
    (chartSeries t vs).1.length = vs.length ∧ (chartSeries t vs).2.length = vs.length ∧
    ∀ i < vs.length, (chartSeries t vs).1[i]? = some (if InGreen t vs i then vs[i]? else none) ∧
      (chartSeries t vs).2[i]? = some (if InRed t vs i then vs[i]? else none) := by
  unfold chartSeries
  rw [series_key]
  simp only [List.reverse_reverse, List.length_map, List.length_range, true_and]
  intro i hi
  simp [hi]

/-- **C105** So no value is missing: each is green or red, and both only right after the target was crossed. -/
theorem C105_covered (t : α) (vs : List α) (i : ℕ) (hi : i < vs.length) :
    (InGreen t vs i ∨ InRed t vs i) ∧ (InGreen t vs i ∧ InRed t vs i → ∃ j u v, i = j + 1 ∧ vs[j]? = some u ∧ vs[i]? = some v ∧ ¬ (t ≤ u ↔ t ≤ v)) := by
  have hv : vs[i]? = some vs[i] := List.getElem?_eq_getElem hi
  constructor
  · by_cases h : t ≤ vs[i]
    · exact .inl (.inl ⟨_, hv, h⟩)
    · exact .inr (.inl ⟨_, hv, h⟩)
  · rintro ⟨hg, hr⟩
    rcases hg with ⟨v, e, h⟩ | ⟨j, u, rfl, e, h⟩
    · rcases hr with ⟨w, e', h'⟩ | ⟨j, u, rfl, e', h'⟩
      · rw [e] at e'; cases e'; exact absurd h h'
      · exact ⟨j, u, v, rfl, e', e, fun hc => absurd (hc.2 h) h'⟩
    · rcases hr with ⟨w, e', h'⟩ | ⟨k, w, hk, e', h'⟩
      · exact ⟨j, u, w, rfl, e, e', fun hc => absurd (hc.1 h) h'⟩
      · obtain rfl : k = j := by omega
        rw [e] at e'; cases e'; exact absurd h h'

end

/-- 80, 95, 92, 60 at target 90: green are the points 1, 2 and 3, red 0, 1 and 3. -/
example : chartSeries (90 : ℝ) [80, 95, 92, 60] = ([none, some 95, some 92, some 60], [some 80, some 95, none, some 60]) := by
  norm_num [chartSeries, seriesStep]

end Verif
