import Verif.Model.Markers
import Mathlib.Data.Real.Basic
import Mathlib.Tactic.NormNum
import Mathlib.Tactic.Linarith

/-!
# C130: the markers `Disrupted` and `Resetting`
-/

set_option autoImplicit false
set_option linter.unusedSectionVars false

namespace Verif

/-- A coherence of at least the target is measured in one of the moves. -/
def Spec.measuresRecovery {α : Type} [LE α] (target : α) (l : List (MarkerMove α)) : Prop := ∃ i c, .measure i c ∈ l ∧ target ≤ c

open Spec

section
variable {α : Type} [LE α] [DecidableLE α] {target : α}

theorem marker_now_le {s s' : Markers} {m : MarkerMove α} (h : s.step target m = some s') : s.now ≤ s'.now := by
  cases m <;> simp only [Markers.step] at h
  case pass d => cases h; simp
  case reset => cases h; simp
  case disrupt => cases h; simp
  all_goals
    split at h
    · split_ifs at h <;> (cases h; exact le_rfl)
    · cases h

theorem marker_run_now_le {l : List (MarkerMove α)} : ∀ {s s' : Markers}, s.run target l = some s' → s.now ≤ s'.now := by
  induction l with
  | nil => intro s s' h; cases h; exact le_rfl
  | cons m l ih =>
    intro s s' h
    simp only [Markers.run, Option.bind_eq_some_iff] at h
    obtain ⟨t, ht, h⟩ := h
    exact le_trans (marker_now_le ht) (ih h)

/-! ### Resetting -/

/-- **C130 (resetting), proved part.** After a reset the marker stays on for two seconds, provided that no earlier reset is due to be cleared in this time:
at every later moment it is on unless two seconds have passed since this reset or since an earlier one whose goroutine has not run yet. -/
theorem C130_resetting_partial {s s' : Markers} (l : List (MarkerMove α)) (h : s.run target (.reset :: l) = some s')
    (hnow : s'.now < s.now + 2000 * millisecond) (hold : ∀ t ∈ s.sleepers, s'.now < t + 2000 * millisecond) : s'.reset = true := by
  have key : ∀ (l : List (MarkerMove α)) (s : Markers), s.reset = true → s.run target l = some s' →
      (∀ t ∈ s.sleepers, s'.now < t + 2000 * millisecond) → s'.now < s.now + 2000 * millisecond → s'.reset = true := by
    intro l
    induction l with
    | nil => intro s hr h _ _; cases h; exact hr
    | cons m l ih =>
      intro s hr h hs hn
      simp only [Markers.run, Option.bind_eq_some_iff] at h
      obtain ⟨t, ht, h⟩ := h
      have h1 := marker_now_le ht
      have h2 := marker_run_now_le h
      refine ih t ?_ h ?_ (by omega)
      · cases m <;> simp only [Markers.step] at ht
        case wake i =>
          split at ht
          · rename_i u hu
            have := hs u (List.mem_of_getElem? hu)
            rw [if_neg (by omega)] at ht
            cases ht
          · cases ht
        case pass d => cases ht; exact hr
        case reset => cases ht; rfl
        case disrupt => cases ht; exact hr
        all_goals
          split at ht
          · split_ifs at ht <;> (cases ht; exact hr)
          · cases ht
      · cases m <;> simp only [Markers.step] at ht
        case wake i =>
          split at ht
          · split_ifs at ht
            cases ht
            exact fun u hu => hs u (List.mem_of_mem_eraseIdx hu)
          · cases ht
        case reset =>
          cases ht
          intro u hu
          rcases List.mem_append.mp hu with hu | hu
          · exact hs u hu
          · rw [List.mem_singleton.mp hu]; exact hn
        case pass d => cases ht; exact hs
        case disrupt => cases ht; exact hs
        all_goals
          split at ht
          · split_ifs at ht <;> (cases ht; exact hs)
          · cases ht
  simp only [Markers.run, Markers.step, Option.bind_some] at h
  refine key l _ rfl h ?_ hnow
  intro u hu
  rcases List.mem_append.mp hu with hu | hu
  · exact hold u hu
  · rw [List.mem_singleton.mp hu]; exact hnow

/-! ### Disrupted -/

/-- **C130 (disrupted), proved part.** After a disruption the marker stays on until a coherence of at least the target is measured or thirty seconds have passed,
provided that every goroutine of an earlier disruption is less than thirty seconds old too and has not just measured a coherence of at least the target. -/
theorem C130_disrupted_partial {s s' : Markers} (l : List (MarkerMove α)) (h : s.run target (.disrupt :: l) = some s')
    (hm : ¬ measuresRecovery target l) (hnow : s'.now < s.now + 30000 * millisecond)
    (hold : ∀ w ∈ s.watches, s'.now < w.started + 30000 * millisecond ∧ w.stage ≠ .recovered) : s'.disrupted = true := by
  have key : ∀ (l : List (MarkerMove α)) (s : Markers), s.disrupted = true → ¬ measuresRecovery target l → s.run target l = some s' →
      (∀ w ∈ s.watches, s'.now < w.started + 30000 * millisecond ∧ w.stage ≠ .recovered) → s'.now < s.now + 30000 * millisecond →
      s'.disrupted = true := by
    intro l
    induction l with
    | nil => intro s hr _ h _ _; cases h; exact hr
    | cons m l ih =>
      intro s hr hm h hs hn
      simp only [Markers.run, Option.bind_eq_some_iff] at h
      obtain ⟨t, ht, h⟩ := h
      have h1 := marker_now_le ht
      have h2 := marker_run_now_le h
      have hm' : ¬ measuresRecovery target l := fun ⟨i, c, hmem, hc⟩ => hm ⟨i, c, List.mem_cons_of_mem _ hmem, hc⟩
      refine ih t ?_ hm' h ?_ (by omega)
      · cases m <;> simp only [Markers.step] at ht
        case pass d => cases ht; exact hr
        case reset => cases ht; exact hr
        case disrupt => cases ht; rfl
        case clear i =>
          split at ht
          · rename_i u hu
            rw [if_neg (hs u (List.mem_of_getElem? hu)).2] at ht
            cases ht
          · cases ht
        case timeout i =>
          split at ht
          · rename_i u hu
            have := (hs u (List.mem_of_getElem? hu)).1
            rw [if_neg (by intro hc; omega)] at ht
            cases ht
          · cases ht
        all_goals
          split at ht
          · split_ifs at ht <;> (cases ht; exact hr)
          · cases ht
      · cases m <;> simp only [Markers.step] at ht
        case pass d => cases ht; exact hs
        case reset => cases ht; exact hs
        case disrupt =>
          cases ht
          intro u hu
          rcases List.mem_append.mp hu with hu | hu
          · exact hs u hu
          · rw [List.mem_singleton.mp hu]; exact ⟨hn, by simp⟩
        case measure i c =>
          split at ht
          · rename_i u hu
            split_ifs at ht with hst hc
            · exact absurd ⟨i, c, List.mem_cons_self, hc⟩ hm
            · cases ht
              intro w hw
              rcases List.mem_or_eq_of_mem_set hw with hw | rfl
              · exact hs w hw
              · exact ⟨(hs u (List.mem_of_getElem? hu)).1, by simp⟩
          · cases ht
        case tick i =>
          split at ht
          · rename_i u hu
            split_ifs at ht
            · cases ht
              intro w hw
              rcases List.mem_or_eq_of_mem_set hw with hw | rfl
              · exact hs w hw
              · exact ⟨(hs u (List.mem_of_getElem? hu)).1, by simp⟩
          · cases ht
        all_goals
          split at ht
          · split_ifs at ht
            all_goals
              cases ht
              first | exact hs | exact fun w hw => hs w (List.mem_of_mem_eraseIdx hw)
          · cases ht
  simp only [Markers.run, Markers.step, Option.bind_some] at h
  refine key l _ rfl hm h ?_ hnow
  intro u hu
  rcases List.mem_append.mp hu with hu | hu
  · exact hold u hu
  · rw [List.mem_singleton.mp hu]; exact ⟨hnow, by simp⟩

/-! ### Markers go out -/

/-- **C130 (markers go out).** In every history a marker that is on has a goroutine that will clear it: when all goroutines of `Reset`, respectively of
`Disrupt`, have ended, the marker is off. -/
theorem C130_goes_out {now : ℤ} {s : Markers} (l : List (MarkerMove α)) (h : (Markers.init now).run target l = some s) :
    (s.sleepers = [] → s.reset = false) ∧ (s.watches = [] → s.disrupted = false) := by
  have key : ∀ (l : List (MarkerMove α)) (s s' : Markers), (s.sleepers = [] → s.reset = false) → (s.watches = [] → s.disrupted = false) →
      s.run target l = some s' → (s'.sleepers = [] → s'.reset = false) ∧ (s'.watches = [] → s'.disrupted = false) := by
    intro l
    induction l with
    | nil => intro s s' h1 h2 h; cases h; exact ⟨h1, h2⟩
    | cons m l ih =>
      intro s s' h1 h2 h
      simp only [Markers.run, Option.bind_eq_some_iff] at h
      obtain ⟨t, ht, h⟩ := h
      refine ih t s' ?_ ?_ h
      · cases m <;> simp only [Markers.step] at ht
        case pass d => cases ht; exact h1
        case reset => cases ht; simp
        case disrupt => cases ht; exact h1
        case wake i =>
          split at ht
          · split_ifs at ht
            cases ht
            exact fun _ => rfl
          · cases ht
        all_goals
          split at ht
          · split_ifs at ht
            all_goals
              cases ht
              exact h1
          · cases ht
      · cases m <;> simp only [Markers.step] at ht
        case pass d => cases ht; exact h2
        case reset => cases ht; exact h2
        case disrupt => cases ht; simp
        case wake i =>
          split at ht
          · split_ifs at ht
            cases ht; exact h2
          · cases ht
        case tick i =>
          split at ht
          · rename_i u hu
            split_ifs at ht with _ hd
            · cases ht
              intro he
              simp only [List.set_eq_nil_iff] at he
              simp [he] at hu
            · cases ht
              intro _
              simpa using hd
          · cases ht
        case measure i c =>
          split at ht
          · rename_i u hu
            split_ifs at ht
            all_goals
              cases ht
              intro he
              simp only [List.set_eq_nil_iff] at he
              simp [he] at hu
          · cases ht
        all_goals
          split at ht
          · split_ifs at ht
            cases ht
            exact fun _ => rfl
          · cases ht
  exact key l _ s (fun _ => rfl) (fun _ => rfl) h

theorem watch_drain (c : α) (s : Markers) (hold : ∀ w ∈ s.watches, s.now ≥ w.started + 30000 * millisecond) :
    ∃ l s', s.run target l = some s' ∧ s'.watches = [] ∧ s'.sleepers = s.sleepers ∧ s'.now = s.now ∧
      ∀ m ∈ l, m ≠ .reset ∧ m ≠ .disrupt ∧ ∀ i x, m = .measure i x → x = c := by
  obtain ⟨now, rs, ds, sl, ws⟩ := s
  induction ws generalizing ds with
  | nil => exact ⟨[], _, rfl, rfl, rfl, rfl, by simp⟩
  | cons w ws ih =>
    have hw := hold w List.mem_cons_self
    have hr : ∀ x ∈ ws, now ≥ x.started + 30000 * millisecond := fun x hx => hold x (List.mem_cons_of_mem _ hx)
    obtain ⟨l, s', h1, h2, h3, h4, h5⟩ := ih false hr
    have ht : ∀ ds st, st = WatchStage.waiting →
        Markers.run target ⟨now, rs, ds, sl, ⟨w.started, st⟩ :: ws⟩ (.timeout 0 :: l) = some s' := by
      rintro ds _ rfl
      simp only [Markers.run, Markers.step, List.getElem?_cons_zero, true_and]
      rw [if_pos hw]
      exact h1
    have hc : ∀ ds st, st = WatchStage.recovered → Markers.run target ⟨now, rs, ds, sl, ⟨w.started, st⟩ :: ws⟩ (.clear 0 :: l) = some s' := by
      rintro ds _ rfl
      simp only [Markers.run, Markers.step, List.getElem?_cons_zero, if_true]
      exact h1
    obtain ⟨st0, stage⟩ := w
    cases stage with
    | waiting => exact ⟨_, s', ht ds _ rfl, h2, h3, h4, by simpa using h5⟩
    | recovered => exact ⟨_, s', hc ds _ rfl, h2, h3, h4, by simpa using h5⟩
    | looked =>
      by_cases hcc : c ≥ target
      · refine ⟨.measure 0 c :: .clear 0 :: l, s', ?_, h2, h3, h4, by simpa using h5⟩
        have := hc ds _ rfl
        simp only [Markers.run, Markers.step, List.getElem?_cons_zero, if_true, if_pos hcc, Option.bind_some, List.set_cons_zero] at this ⊢
        exact this
      · refine ⟨.measure 0 c :: .timeout 0 :: l, s', ?_, h2, h3, h4, by simpa using h5⟩
        have := ht ds _ rfl
        simp only [Markers.run, Markers.step, List.getElem?_cons_zero, if_true, if_neg hcc, Option.bind_some, List.set_cons_zero] at this ⊢
        exact this

theorem sleep_drain (s : Markers) (hw : s.watches = []) (hold : ∀ t ∈ s.sleepers, s.now ≥ t + 2000 * millisecond) :
    ∃ (l : List (MarkerMove α)) (s' : Markers), s.run target l = some s' ∧ s'.watches = [] ∧ s'.sleepers = [] ∧ ∀ m ∈ l, ∃ i, m = .wake i := by
  obtain ⟨now, rs, ds, sl, ws⟩ := s
  induction sl generalizing rs with
  | nil => exact ⟨[], _, rfl, hw, rfl, by simp⟩
  | cons t sl ih =>
    obtain ⟨l, s', h1, h2, h3, h4⟩ := ih false hw fun x hx => hold x (List.mem_cons_of_mem _ hx)
    refine ⟨.wake 0 :: l, s', ?_, h2, h3, ?_⟩
    · simp only [Markers.run, Markers.step, List.getElem?_cons_zero]
      rw [if_pos (hold t List.mem_cons_self)]
      exact h1
    · intro m hm
      rcases List.mem_cons.mp hm with rfl | hm
      · exact ⟨0, rfl⟩
      · exact h4 m hm

theorem marker_run_append {l l' : List (MarkerMove α)} : ∀ {s : Markers}, s.run target (l ++ l') = (s.run target l).bind fun s => s.run target l' := by
  induction l with
  | nil => intro s; rfl
  | cons m l ih =>
    intro s
    simp only [List.cons_append, Markers.run]
    cases s.step target m with
    | none => rfl
    | some t => exact ih

/-- **C130 (no marker stays on).** From every state of every history both markers can go out without a further call, whatever coherence is measured. -/
theorem C130_can_end {now : ℤ} {s : Markers} (l : List (MarkerMove α)) (h : (Markers.init now).run target l = some s) (c : α) :
    ∃ (l' : List (MarkerMove α)) (s' : Markers), s.run target l' = some s' ∧ s'.reset = false ∧ s'.disrupted = false ∧
      ∀ m ∈ l', m ≠ .reset ∧ m ≠ .disrupt ∧ ∀ i x, m = .measure i x → x = c := by
  obtain ⟨d, hd1, hd2⟩ : ∃ d : ℕ, (∀ w ∈ s.watches, s.now + d ≥ w.started + 30000 * millisecond) ∧ ∀ t ∈ s.sleepers, s.now + d ≥ t + 2000 * millisecond := by
    obtain ⟨a, ha⟩ : ∃ a : ℤ, ∀ w ∈ s.watches, w.started ≤ a := by
      induction s.watches with
      | nil => exact ⟨0, by simp⟩
      | cons w ws ih =>
        obtain ⟨a, ha⟩ := ih
        refine ⟨max a w.started, ?_⟩
        intro x hx
        rcases List.mem_cons.mp hx with rfl | hx
        · exact le_max_right _ _
        · exact le_trans (ha x hx) (le_max_left _ _)
    obtain ⟨b, hb⟩ : ∃ b : ℤ, ∀ t ∈ s.sleepers, t ≤ b := by
      induction s.sleepers with
      | nil => exact ⟨0, by simp⟩
      | cons w ws ih =>
        obtain ⟨a, ha⟩ := ih
        refine ⟨max a w, ?_⟩
        intro x hx
        rcases List.mem_cons.mp hx with rfl | hx
        · exact le_max_right _ _
        · exact le_trans (ha x hx) (le_max_left _ _)
    refine ⟨(a + 30000 * millisecond - s.now).toNat + (b + 2000 * millisecond - s.now).toNat, fun w hw => ?_, fun t ht => ?_⟩
    · have := ha w hw
      push_cast
      omega
    · have := hb t ht
      push_cast
      omega
  obtain ⟨l1, s1, r1, w1, w2, w3, w4⟩ := watch_drain (target := target) c { s with now := s.now + d } hd1
  obtain ⟨l2, s2, r2, v1, v2, v3⟩ := sleep_drain (α := α) (target := target) s1 w1 (by rw [w2, w3]; exact hd2)
  have hr : s.run target (.pass d :: (l1 ++ l2)) = some s2 := by
    simp only [Markers.run, Markers.step, Option.bind_some]
    rw [marker_run_append, r1]
    exact r2
  have hg := C130_goes_out (target := target) (now := now) (s := s2) (l ++ .pass d :: (l1 ++ l2)) (by rw [marker_run_append, h]; exact hr)
  refine ⟨_, s2, hr, hg.1 v2, hg.2 v1, ?_⟩
  intro m hm
  rcases List.mem_cons.mp hm with rfl | hm
  · simp
  · rcases List.mem_append.mp hm with hm | hm
    · exact w4 m hm
    · obtain ⟨i, rfl⟩ := v3 m hm
      simp
end

/-! ### Witnesses -/

/-- The full claim: a marker is on for its time after each reset and each disruption. -/
def C130_claim : Prop :=
  (∀ (target : ℝ) (now : ℤ) (l₀ l : List (MarkerMove ℝ)) (s s' : Markers), (Markers.init now).run target l₀ = some s →
    s.run target (.reset :: l) = some s' → s'.now < s.now + 2000 * millisecond → s'.reset = true) ∧
  (∀ (target : ℝ) (now : ℤ) (l₀ l : List (MarkerMove ℝ)) (s s' : Markers), (Markers.init now).run target l₀ = some s →
    s.run target (.disrupt :: l) = some s' → ¬ measuresRecovery target l → s'.now < s.now + 30000 * millisecond → s'.disrupted = true)

/-- Both parts are false. A second reset after 1.9 seconds is shown for a tenth of a second; a second disruption after 29 seconds is no longer shown a second
later, although the swarm has not recovered; and a second disruption is not shown at all if the first one's goroutine has just measured a recovered swarm. -/
theorem C130_refuted : ¬ C130_claim ∧
    (∃ (l₀ l : List (MarkerMove ℝ)) (s s' : Markers), (Markers.init 0).run 0.8 l₀ = some s ∧ s.run 0.8 (.reset :: l) = some s' ∧
      s'.now = s.now + 100 * millisecond ∧ s'.reset = false) ∧
    (∃ (l₀ l : List (MarkerMove ℝ)) (s s' : Markers), (Markers.init 0).run 0.8 l₀ = some s ∧ s.run 0.8 (.disrupt :: l) = some s' ∧
      (∀ i c, .measure i c ∉ l₀ ++ l) ∧ s'.now = s.now + 1000 * millisecond ∧ s'.disrupted = false) ∧
    (∃ (l₀ l : List (MarkerMove ℝ)) (s s' : Markers), (Markers.init 0).run 0.8 l₀ = some s ∧ s.run 0.8 (.disrupt :: l) = some s' ∧
      (∀ i c, .measure i c ∉ l) ∧ s'.now = s.now ∧ s'.disrupted = false) := by
  have w1 : ∃ (l₀ l : List (MarkerMove ℝ)) (s s' : Markers), (Markers.init 0).run 0.8 l₀ = some s ∧ s.run 0.8 (.reset :: l) = some s' ∧
      s'.now = s.now + 100 * millisecond ∧ s'.reset = false :=
    ⟨[.reset, .pass 1900000000], [.pass 100000000, .wake 0], ⟨1900000000, true, false, [0], []⟩, ⟨2000000000, false, false, [1900000000], []⟩, rfl, rfl, rfl, rfl⟩
  have w2 : ∃ (l₀ l : List (MarkerMove ℝ)) (s s' : Markers), (Markers.init 0).run 0.8 l₀ = some s ∧ s.run 0.8 (.disrupt :: l) = some s' ∧
      (∀ i c, .measure i c ∉ l₀ ++ l) ∧ s'.now = s.now + 1000 * millisecond ∧ s'.disrupted = false :=
    ⟨[.disrupt, .pass 29000000000], [.pass 1000000000, .timeout 0], ⟨29000000000, false, true, [], [⟨0, .waiting⟩]⟩,
      ⟨30000000000, false, false, [], [⟨29000000000, .waiting⟩]⟩, rfl, rfl, by simp, rfl, rfl⟩
  have w3 : ∃ (l₀ l : List (MarkerMove ℝ)) (s s' : Markers), (Markers.init 0).run 0.8 l₀ = some s ∧ s.run 0.8 (.disrupt :: l) = some s' ∧
      (∀ i c, .measure i c ∉ l) ∧ s'.now = s.now ∧ s'.disrupted = false := by
    refine ⟨[.disrupt, .pass 100000000, .tick 0, .measure 0 1], [.clear 0], ⟨100000000, false, true, [], [⟨0, .recovered⟩]⟩,
      ⟨100000000, false, false, [], [⟨100000000, .waiting⟩]⟩, ?_, rfl, by simp, rfl, rfl⟩
    have : (0.8 : ℝ) ≤ 1 := by norm_num
    simp [Markers.run, Markers.step, Markers.init, this, millisecond]
  refine ⟨fun h => ?_, w1, w2, w3⟩
  obtain ⟨l₀, l, s, s', h1, h2, h3, h4⟩ := w1
  have := h.1 0.8 0 l₀ l s s' h1 h2 (by unfold millisecond at *; omega)
  rw [h4] at this
  cases this

/-- A single disruption is shown for its thirty seconds. -/
example : ∃ s' : Markers, (Markers.init 0).run (0.8 : ℝ) [.disrupt, .pass 100000000, .tick 0, .measure 0 0.5, .pass 29000000000] = some s' ∧ s'.disrupted = true := by
  have : ¬ (0.8 : ℝ) ≤ 0.5 := by norm_num
  refine ⟨⟨29100000000, false, true, [], [⟨0, .waiting⟩]⟩, ?_, rfl⟩
  simp [Markers.run, Markers.step, Markers.init, this, millisecond]

/-- For C130: two resets half a second apart; 1.4 seconds after the second the first sleeper is about to wake and the marker is still lit. -/
example : ∃ s' : Markers, (Markers.init 0).run (0.8 : ℝ) [.reset, .pass 500000000, .reset, .pass 1400000000] = some s' ∧ s'.reset = true ∧ s'.sleepers.length = 2 :=
  ⟨_, rfl, rfl, rfl⟩

end Verif
