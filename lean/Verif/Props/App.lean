import Verif.Model.App
import Verif.Props.Lifecycle
import Mathlib.Data.List.Basic
import Mathlib.Tactic.FinCases

/-!
# C76: keys do what they say; C85: a signal ends the program; C86: the pattern shown is the pattern run
-/

set_option autoImplicit false

namespace Verif

/-- The settings that keys select, as documented in simulations/display/controller.go:49-88. -/
inductive Spec.Setting where
  | scale (s : Size)
  | goal (g : GoalType)
  | pattern (p : PatternType)

/-- Keys and what they select: digits for scales, letters of either case for goals and patterns. -/
def Spec.selections : List (List Char × Spec.Setting) :=
  [(['1'], .scale 0), (['2'], .scale 1), (['3'], .scale 2), (['4'], .scale 3), (['5'], .scale 4),
   (['b', 'B'], .goal 0), (['l', 'L'], .goal 1), (['c', 'C'], .goal 2), (['t', 'T'], .goal 3),
   (['e', 'E'], .goal 4), (['m', 'M'], .goal 5), (['f', 'F'], .goal 6), (['a', 'A'], .goal 7),
   (['h', 'H'], .pattern 1), (['u', 'U'], .pattern 2), (['y', 'Y'], .pattern 3), (['x', 'X'], .pattern 4), (['z', 'Z'], .pattern 5)]

/-- Keys with another effect. -/
def Spec.controls : List Char := ['q', 'Q', 'r', 'R', 'd', 'D', 'p', 'P', ' ']

/-- Key `c` selects setting `x`. -/
def Spec.Selects (c : Char) (x : Spec.Setting) : Prop := ∃ e ∈ Spec.selections, c ∈ e.1 ∧ x = e.2

/-- The setting is the current one. -/
def Spec.isCurrent (c : AppConfig) : Spec.Setting → Prop
  | .scale s => c.scale = s
  | .goal g => c.goal = g
  | .pattern p => c.pattern = p

/-- The configuration with one setting changed. -/
def Spec.with1 (c : AppConfig) : Spec.Setting → AppConfig
  | .scale s => ⟨c.goal, s, c.pattern⟩
  | .goal g => ⟨g, c.scale, c.pattern⟩
  | .pattern p => ⟨c.goal, c.scale, p⟩

open Spec

/-- The event of a selecting key. -/
theorem processKey_selects {c : Char} {x : Setting} (h : Selects c x) :
    processKey (.char c) = some (match x with | .scale s => .scale s | .goal g => .goal g | .pattern p => .pattern p) := by
  obtain ⟨e, he, hc, rfl⟩ := h
  fin_cases he <;> fin_cases hc <;> rfl

theorem selects_pattern {c : Char} {p : PatternType} (h : Selects c (.pattern p)) : p ≠ 0 := by
  obtain ⟨e, he, hc, hx⟩ := h
  fin_cases he <;> simp at hx <;> subst hx <;> decide

theorem bestPattern_ne (g : GoalType) : bestPatternForGoal g ≠ 0 := by
  unfold bestPatternForGoal
  split <;> decide

/-- **C76, settings.** The key of the current setting (for the pattern: of the one shown) is ignored. The key of another setting ends the run and starts
a new one, not paused, with this setting changed in the configuration and no other. -/
theorem C76_select (a : App) {c : Char} {x : Setting} (h : Selects c x) :
    (isCurrent a.current x → a.press (.char c) = some a) ∧
    (¬ isCurrent a.current x → a.press (.char c) = some ⟨with1 a.config x, false, [], a.restarts + 1⟩) := by
  have hk := processKey_selects h
  unfold App.press
  rw [hk]
  have hcur : a.current.scale = a.config.scale ∧ a.current.goal = a.config.goal := by
    unfold App.current; split_ifs <;> exact ⟨rfl, rfl⟩
  cases x with
  | scale s =>
    simp only [isCurrent, hcur, handleEvent, isChangeEvent, with1]
    constructor <;> intro hc
    · simp [hc]
    · simp [hc, nextConfig]
  | goal g =>
    simp only [isCurrent, hcur, handleEvent, isChangeEvent, with1]
    constructor <;> intro hc
    · simp [hc]
    · simp [hc, nextConfig]
  | pattern p =>
    simp only [isCurrent, handleEvent, isChangeEvent, with1]
    constructor <;> intro hc
    · simp [hc]
    · have : a.config.pattern ≠ p := by
        intro e
        apply hc
        have := selects_pattern h
        unfold App.current
        rw [if_neg (by rw [e]; exact this)]; exact e
      simp [hc, nextConfig, this]

/-- **C76, control keys.** Quitting ends the program. Reset and disrupt are called exactly when not paused. `p` pauses and resumes in turn; the space
bar always resumes. Nothing else changes. -/
theorem C76_control (a : App) :
    (∀ c ∈ ['q', 'Q'], a.press (.char c) = none) ∧ a.press .esc = none ∧
    (∀ c ∈ ['r', 'R'], a.press (.char c) = some (if a.paused = true then a else { a with calls := a.calls ++ [.reset] })) ∧
    (∀ c ∈ ['d', 'D'], a.press (.char c) = some (if a.paused = true then a else { a with calls := a.calls ++ [.disrupt] })) ∧
    (∀ c ∈ ['p', 'P'], a.press (.char c) = some (if a.paused = true then { a with paused := false, calls := a.calls ++ [.resume] }
      else { a with paused := true, calls := a.calls ++ [.pause] })) ∧
    a.press (.char ' ') = some { a with paused := false, calls := a.calls ++ [.resume] } := by
  obtain ⟨config, paused, calls, restarts⟩ := a
  refine ⟨fun c hc => ?_, rfl, fun c hc => ?_, fun c hc => ?_, fun c hc => ?_, rfl⟩
  all_goals (fin_cases hc <;> cases paused <;> rfl)

/-- **C76, other keys.** Every other key is ignored. -/
theorem C76_other (a : App) (c : Char) (h : ∀ x, ¬ Selects c x) (hc : c ∉ controls) : a.press (.char c) = some a := by
  have hk : c ∉ controls ++ selections.flatMap (·.1) := by
    intro hm
    rcases List.mem_append.1 hm with hm | hm
    · exact hc hm
    · obtain ⟨e, he, hce⟩ := List.mem_flatMap.1 hm
      exact h e.2 ⟨e, he, hce, rfl⟩
  have : processKey (.char c) = none := by
    unfold processKey
    split
    all_goals first
      | rfl
      | (exfalso; rename_i e; cases e; done)
      | (exfalso; rename_i e; injection e with e; subst e; exact hk (by decide))
  unfold App.press
  rw [this]

/-- **C76, ending.** Only quitting keys end the program. -/
theorem C76_ends (a : App) (k : Key) : a.press k = none ↔ k = .esc ∨ k = .char 'q' ∨ k = .char 'Q' := by
  constructor
  · intro h
    cases k with
    | esc => exact .inl rfl
    | char c =>
      right
      by_cases hs : ∃ x, Selects c x
      · obtain ⟨x, hx⟩ := hs
        exfalso
        by_cases hc : isCurrent a.current x
        · rw [(C76_select a hx).1 hc] at h; cases h
        · rw [(C76_select a hx).2 hc] at h; cases h
      · by_cases hc : c ∈ controls
        · obtain ⟨h1, -, h3, h4, h5, h6⟩ := C76_control a
          simp only [controls, List.mem_cons, List.not_mem_nil, or_false] at hc
          rcases hc with rfl | rfl | rfl | rfl | rfl | rfl | rfl | rfl | rfl
          · exact .inl rfl
          · exact .inr rfl
          · rw [h3 'r' (by simp)] at h; cases h
          · rw [h3 'R' (by simp)] at h; cases h
          · rw [h4 'd' (by simp)] at h; cases h
          · rw [h4 'D' (by simp)] at h; cases h
          · rw [h5 'p' (by simp)] at h; cases h
          · rw [h5 'P' (by simp)] at h; cases h
          · rw [h6] at h; cases h
        · rw [C76_other a c (fun x hx => hs ⟨x, hx⟩) hc] at h; cases h
  · rintro (rfl | rfl | rfl) <;> rfl

/-- A key that selects nothing leaves the configuration and the count of restarts alone. -/
theorem press_config {a b : App} {k : Key} (h : a.press k = some b) (hk : ∀ c x, k = .char c → ¬ Selects c x) :
    b.config = a.config ∧ b.restarts = a.restarts := by
  cases k with
  | esc => cases h
  | char c =>
    have hs := fun x => hk c x rfl
    by_cases hc : c ∈ controls
    · obtain ⟨h1, -, h3, h4, h5, h6⟩ := C76_control a
      simp only [controls, List.mem_cons, List.not_mem_nil, or_false] at hc
      rcases hc with rfl | rfl | rfl | rfl | rfl | rfl | rfl | rfl | rfl
      · rw [h1 'q' (by simp)] at h; cases h
      · rw [h1 'Q' (by simp)] at h; cases h
      · rw [h3 'r' (by simp)] at h; cases h; split_ifs <;> exact ⟨rfl, rfl⟩
      · rw [h3 'R' (by simp)] at h; cases h; split_ifs <;> exact ⟨rfl, rfl⟩
      · rw [h4 'd' (by simp)] at h; cases h; split_ifs <;> exact ⟨rfl, rfl⟩
      · rw [h4 'D' (by simp)] at h; cases h; split_ifs <;> exact ⟨rfl, rfl⟩
      · rw [h5 'p' (by simp)] at h; cases h; split_ifs <;> exact ⟨rfl, rfl⟩
      · rw [h5 'P' (by simp)] at h; cases h; split_ifs <;> exact ⟨rfl, rfl⟩
      · rw [h6] at h; cases h; exact ⟨rfl, rfl⟩
    · rw [C76_other a c hs hc] at h; cases h; exact ⟨rfl, rfl⟩

/-- What a selecting key does to the configuration. -/
theorem press_select {a b : App} {c : Char} {x : Setting} (hx : Selects c x) (h : a.press (.char c) = some b) :
    (isCurrent a.current x ∧ b = a) ∨ (¬ isCurrent a.current x ∧ b.config = with1 a.config x ∧ b.restarts = a.restarts + 1) := by
  by_cases hc : isCurrent a.current x
  · rw [(C76_select a hx).1 hc] at h; cases h; exact .inl ⟨hc, rfl⟩
  · rw [(C76_select a hx).2 hc] at h; cases h; exact .inr ⟨hc, rfl, rfl⟩

theorem current_scale (a : App) : a.current.scale = a.config.scale := by unfold App.current; split_ifs <;> rfl
theorem current_goal (a : App) : a.current.goal = a.config.goal := by unfold App.current; split_ifs <;> rfl

/-- The scale after a key: the selected one, or the old one. -/
theorem press_scale {a b : App} {k : Key} (h : a.press k = some b) :
    (∀ c s, k = .char c → Selects c (.scale s) → b.config.scale = s) ∧
    ((∀ c s, k = .char c → ¬ Selects c (.scale s)) → b.config.scale = a.config.scale) := by
  constructor
  · rintro c s rfl hs
    rcases press_select hs h with ⟨hc, rfl⟩ | ⟨-, hb, -⟩
    · rw [← current_scale]; exact hc
    · rw [hb]; rfl
  · intro hn
    by_cases hk : ∃ c x, k = .char c ∧ Selects c x
    · obtain ⟨c, x, rfl, hx⟩ := hk
      rcases press_select hx h with ⟨hc, rfl⟩ | ⟨-, hb, -⟩
      · rfl
      · rw [hb]
        cases x with
        | scale s => exact absurd hx (hn c s rfl)
        | goal g => rfl
        | pattern p => rfl
    · rw [(press_config h (fun c x e hx => hk ⟨c, x, e, hx⟩)).1]

/-- The goal after a key: the selected one, or the old one. -/
theorem press_goal {a b : App} {k : Key} (h : a.press k = some b) :
    (∀ c s, k = .char c → Selects c (.goal s) → b.config.goal = s) ∧
    ((∀ c s, k = .char c → ¬ Selects c (.goal s)) → b.config.goal = a.config.goal) := by
  constructor
  · rintro c s rfl hs
    rcases press_select hs h with ⟨hc, rfl⟩ | ⟨-, hb, -⟩
    · rw [← current_goal]; exact hc
    · rw [hb]; rfl
  · intro hn
    by_cases hk : ∃ c x, k = .char c ∧ Selects c x
    · obtain ⟨c, x, rfl, hx⟩ := hk
      rcases press_select hx h with ⟨hc, rfl⟩ | ⟨-, hb, -⟩
      · rfl
      · rw [hb]
        cases x with
        | goal s => exact absurd hx (hn c s rfl)
        | scale g => rfl
        | pattern p => rfl
    · rw [(press_config h (fun c x e hx => hk ⟨c, x, e, hx⟩)).1]

/-- The pattern shown after a key, if a pattern was selected before. -/
theorem press_pattern {a b : App} {k : Key} (h : a.press k = some b) (ha : a.config.pattern ≠ 0) :
    b.config.pattern ≠ 0 ∧ (∀ c s, k = .char c → Selects c (.pattern s) → b.config.pattern = s) ∧
    ((∀ c s, k = .char c → ¬ Selects c (.pattern s)) → b.config.pattern = a.config.pattern) := by
  have hcur : a.current = a.config := by unfold App.current; rw [if_neg ha]
  by_cases hk : ∃ c x, k = .char c ∧ Selects c x
  · obtain ⟨c, x, rfl, hx⟩ := hk
    have one : ∀ y, Selects c y → y = x := by
      intro y hy
      have e1 := processKey_selects hx
      rw [processKey_selects hy] at e1
      cases x <;> cases y <;> simp at e1 <;> rw [e1]
    rcases press_select hx h with ⟨hc, rfl⟩ | ⟨-, hb, -⟩
    · rw [hcur] at hc
      refine ⟨ha, ?_, fun _ => rfl⟩
      rintro c' s e hs
      injection e with e; subst e
      have := one _ hs
      subst this
      exact hc
    · rw [hb]
      cases x with
      | pattern p =>
        refine ⟨selects_pattern hx, ?_, fun hn => absurd hx (hn c p rfl)⟩
        rintro c' s e hs
        injection e with e; subst e
        have := one _ hs
        injection this with this
        exact this.symm
      | goal g =>
        refine ⟨ha, ?_, fun _ => rfl⟩
        rintro c' s e hs
        injection e with e; subst e
        exact absurd (one _ hs) (by simp)
      | scale g =>
        refine ⟨ha, ?_, fun _ => rfl⟩
        rintro c' s e hs
        injection e with e; subst e
        exact absurd (one _ hs) (by simp)
  · have := (press_config h (fun c x e hx => hk ⟨c, x, e, hx⟩)).1
    rw [this]
    exact ⟨ha, fun c s e hs => absurd ⟨c, _, e, hs⟩ hk, fun _ => rfl⟩

theorem pressAll_append (a : App) (l r : List Key) : a.pressAll (l ++ r) = (a.pressAll l).bind fun b => b.pressAll r := by
  induction l generalizing a with
  | nil => rfl
  | cons k l ih =>
    simp only [List.cons_append, App.pressAll]
    cases a.press k with
    | none => rfl
    | some b => exact ih b

/-- Something kept by every key of a list is kept by the list. -/
theorem pressAll_keeps {Q : App → Prop} {l : List Key} (hQ : ∀ k ∈ l, ∀ a b, a.press k = some b → Q a → Q b) {a b : App}
    (h : a.pressAll l = some b) (ha : Q a) : Q b := by
  induction l generalizing a with
  | nil => cases h; exact ha
  | cons k l ih =>
    simp only [App.pressAll] at h
    rcases hp : a.press k with _ | m
    · rw [hp] at h; cases h
    · rw [hp] at h
      exact ih (fun k' hk' => hQ k' (List.mem_cons_of_mem _ hk')) h (hQ k List.mem_cons_self a m hp ha)

theorem pressAll_split {a b : App} {l r : List Key} {k : Key} (h : a.pressAll (l ++ k :: r) = some b) :
    ∃ m n, a.pressAll l = some m ∧ m.press k = some n ∧ n.pressAll r = some b := by
  rw [pressAll_append] at h
  rcases hl : a.pressAll l with _ | m
  · rw [hl] at h; cases h
  · rw [hl] at h
    simp only [Option.bind_some, App.pressAll] at h
    rcases hp : m.press k with _ | n
    · rw [hp] at h; cases h
    · rw [hp] at h
      exact ⟨m, n, rfl, hp, h⟩

/-- **C76, scales and goals.** After any keys, as long as the program runs, the scale and the goal are those selected last. -/
theorem C76_last (a b : App) (l r : List Key) (c : Char) (h : a.pressAll (l ++ .char c :: r) = some b) :
    (∀ s, Selects c (.scale s) → (∀ c' s', Key.char c' ∈ r → ¬ Selects c' (.scale s')) → b.config.scale = s ∧ b.current.scale = s) ∧
    (∀ g, Selects c (.goal g) → (∀ c' g', Key.char c' ∈ r → ¬ Selects c' (.goal g')) → b.config.goal = g ∧ b.current.goal = g) := by
  obtain ⟨m, n, -, hp, hr⟩ := pressAll_split h
  constructor
  · intro s hs hn
    have : b.config.scale = s := by
      refine pressAll_keeps (Q := fun x => x.config.scale = s) ?_ hr ((press_scale hp).1 c s rfl hs)
      intro k hk x y hxy hx
      rw [(press_scale hxy).2 (fun c' s' e => hn c' s' (e ▸ hk))]; exact hx
    exact ⟨this, by rw [current_scale]; exact this⟩
  · intro s hs hn
    have : b.config.goal = s := by
      refine pressAll_keeps (Q := fun x => x.config.goal = s) ?_ hr ((press_goal hp).1 c s rfl hs)
      intro k hk x y hxy hx
      rw [(press_goal hxy).2 (fun c' s' e => hn c' s' (e ▸ hk))]; exact hx
    exact ⟨this, by rw [current_goal]; exact this⟩

/-- **C76, in full, for patterns.** After any keys the pattern shown is the one selected last. -/
def C76_claim : Prop := ∀ (s : Size) (b : App) (l r : List Key) (c : Char) (p : PatternType), (App.start s).pressAll (l ++ .char c :: r) = some b →
  Selects c (.pattern p) → (∀ c' p', Key.char c' ∈ r → ¬ Selects c' (.pattern p')) → b.shownPattern = p

/-- The key of the pattern that was selected automatically is ignored, and so the next goal brings another pattern. -/
theorem C76_refuted : ¬ C76_claim := by
  intro h
  have := h 0 ⟨⟨1, 0, 0⟩, false, [], 1⟩ [] [.char 'l'] 'h' 1 rfl ⟨(['h', 'H'], .pattern 1), by simp [selections], by simp, rfl⟩ (by
    intro c' p' hc' hs
    have : c' = 'l' := by simpa using hc'
    subst this
    have := processKey_selects hs
    cases this)
  cases this

/-- **C76, partial, for patterns.** Once a pattern is part of the configuration, the pattern shown is the one selected last, and it is the one
the workloads run. Missing: keys pressed while the pattern is selected automatically (`C76_refuted`). -/
theorem C76_pattern_partial (a b : App) (l r : List Key) (c : Char) (p : PatternType) (ha : a.config.pattern ≠ 0)
    (h : a.pressAll (l ++ .char c :: r) = some b) (hc : Selects c (.pattern p))
    (hn : ∀ c' p', Key.char c' ∈ r → ¬ Selects c' (.pattern p')) : b.shownPattern = p ∧ b.workloadPattern = p := by
  obtain ⟨m, n, hl, hp, hr⟩ := pressAll_split h
  have hm : m.config.pattern ≠ 0 := pressAll_keeps (Q := fun x => x.config.pattern ≠ 0) (fun k _ x y hxy hx => (press_pattern hxy hx).1) hl ha
  have hnp := (press_pattern hp hm).2.1 c p rfl hc
  have hb : b.config.pattern = p := by
    refine pressAll_keeps (Q := fun x => x.config.pattern = p) ?_ hr hnp
    intro k hk x y hxy hx
    have hx0 : x.config.pattern ≠ 0 := by rw [hx]; exact selects_pattern hc
    rw [(press_pattern hxy hx0).2.2 (fun c' s' e => hn c' s' (e ▸ hk))]; exact hx
  refine ⟨?_, hb⟩
  unfold App.shownPattern App.current
  rw [if_neg (by rw [hb]; exact selects_pattern hc)]; exact hb

/-- **C86, in full.** The pattern shown is the pattern the workloads run. -/
def C86_claim : Prop := ∀ (s : Size) (ks : List Key) (a : App), (App.start s).pressAll ks = some a → a.shownPattern = a.workloadPattern

/-- A program that was just started shows `High-Frequency` and runs its workloads with the pattern `Unset`. -/
theorem C86_refuted : ¬ C86_claim := by
  intro h
  have := h 0 [] _ rfl
  revert this
  decide

/-- **C86, exactly when.** The pattern shown is the one the workloads run exactly if a pattern is part of the configuration. Otherwise the workloads run with
`Unset`, and pressing the key of the pattern shown changes nothing. -/
theorem C86_exact_partial (a : App) : (a.shownPattern = a.workloadPattern ↔ a.config.pattern ≠ 0) ∧
    (a.config.pattern = 0 → a.workloadPattern = 0 ∧ a.shownPattern = bestPatternForGoal a.config.goal ∧
      ∀ c, Selects c (.pattern a.shownPattern) → a.press (.char c) = some a) := by
  unfold App.workloadPattern
  have hbest := bestPattern_ne a.config.goal
  constructor
  · unfold App.shownPattern App.current
    split_ifs with h
    · simp only [h, ne_eq, not_true, iff_false]; exact hbest
    · simp [h]
  · intro h
    refine ⟨h, by unfold App.shownPattern App.current; rw [if_pos h], fun c hc => (C76_select a hc).1 rfl⟩

/-- **C85, in full.** A signal ends the program. -/
def C85_claim : Prop := ∀ (s : Size) (ks : List Key) (a : App), (App.start s).pressAll ks = some a → a.signal = none

/-- It does not after another scale was selected. -/
theorem C85_refuted : ¬ C85_claim := by
  intro h
  have := h 0 [.char '2'] _ rfl
  cases this

/-- **C85, exactly when.** A signal ends the program exactly if it was never restarted; after a restart signals have no effect for ever. In
particular it ends a program in which no setting was selected. Missing: other programs (`C85_refuted`). -/
theorem C85_signal_partial (a : App) :
    (a.signal = none ↔ a.restarts = 0) ∧
    (a.restarts ≠ 0 → ∀ ks b, a.pressAll ks = some b → b.signal = some b) ∧
    (∀ s ks, (App.start s).pressAll ks = some a → (∀ c x, Key.char c ∈ ks → ¬ Selects c x) → a.signal = none) := by
  have h0 : ∀ a : App, a.signal = none ↔ a.restarts = 0 := by
    intro a
    unfold App.signal
    split_ifs with h
    · simp [h, nextConfig]
    · simp [h]
  refine ⟨h0 a, fun hr ks b hb => ?_, fun s ks h hn => ?_⟩
  · have : b.restarts ≠ 0 := by
      refine pressAll_keeps (Q := fun x => x.restarts ≠ 0) ?_ hb hr
      intro k _ x y hxy hx
      by_cases hk : ∃ c z, k = .char c ∧ Selects c z
      · obtain ⟨c, z, rfl, hz⟩ := hk
        rcases press_select hz hxy with ⟨-, rfl⟩ | ⟨-, -, hy⟩
        · exact hx
        · rw [hy]; omega
      · rw [(press_config hxy (fun c z e hz => hk ⟨c, z, e, hz⟩)).2]; exact hx
    unfold App.signal
    rw [if_neg this]
  · rw [h0]
    refine pressAll_keeps (Q := fun x => x.restarts = 0) ?_ h rfl
    intro k hk x y hxy hx
    rw [(press_config hxy (fun c z e => hn c z (e ▸ hk))).2]; exact hx

/-- Programs meeting the hypotheses above: one that was not restarted, one that was, and one with a pattern. -/
example : (App.start 0).pressAll [.char 'p', .char 'r', .char 'w'] = some ⟨⟨0, 0, 0⟩, true, [.pause], 0⟩ ∧
    (App.start 0).pressAll [.char '3', .char 'B', .char 'd'] = some ⟨⟨0, 2, 0⟩, false, [.disrupt], 1⟩ ∧
    (App.start 0).pressAll [.char 'u', .char 'L', .char 'U'] = some ⟨⟨1, 0, 2⟩, false, [], 2⟩ := ⟨rfl, rfl, rfl⟩

/-! ### The calls made by keys and the lifecycle -/

/-- The lifecycle moves that are calls of the runner. -/
def Spec.callOf : LifeMove → Option SimCall
  | .pause => some .pause
  | .resume => some .resume
  | _ => none

/-- Whether the simulation is paused after these calls. -/
def Spec.pausedAfter (l : List SimCall) : Bool := l.foldl (fun p c => match c with | .pause => true | .resume => false | _ => p) false

/-- Pressing the space bar once in a running program leaves two synchronisations running, and pressing `p` afterwards stops only one. -/
theorem C77_space : ∃ (a b : App) (l m : List LifeMove) (s t : LifeSys),
    (App.start 0).pressAll [.char ' '] = some a ∧ LifeRun LifeSys.init l s ∧ l.filterMap callOf = a.calls ∧ TwoLive s ∧
    (App.start 0).pressAll [.char ' ', .char 'p'] = some b ∧ LifeRun LifeSys.init m t ∧ m.filterMap callOf = b.calls ∧ t.paused = true ∧
    SomeLive t := by
  have r1 := (LifeRun.refl LifeSys.init).tail (m := .start 0) rfl
  have r2 := r1.tail (m := .begin) rfl
  have r3 := r2.tail (m := .resume) rfl
  have r4 := r3.tail (m := .begin) rfl
  have r5 := r4.tail (m := .pause) rfl
  have h1 : TwoLive ⟨false, some 0, [], [⟨0, false⟩, ⟨0, false⟩], 0, [0, 1]⟩ := by
    refine ⟨0, 1, by simp, by simp, by simp, ?_, ?_⟩ <;> intro k hk <;> simp at hk <;> subst hk <;> exact ⟨_, rfl, rfl, by simp⟩
  have h2 : SomeLive ⟨true, some 0, [], [⟨0, false⟩, ⟨0, true⟩], 0, [0, 1]⟩ := ⟨0, by simp, _, rfl, rfl, by simp⟩
  exact ⟨_, _, _, _, _, _, rfl, r4, rfl, h1, rfl, r5, rfl, rfl, h2⟩

/-- **C77, keys.** If the space bar is never pressed, the runner calls `Resume` only while the simulation is paused, so that `C77_paused_partial`
applies. -/
theorem C77_keys_partial (s : Size) (ks : List Key) (a : App) (h : (App.start s).pressAll ks = some a) (hk : Key.char ' ' ∉ ks) :
    a.paused = pausedAfter a.calls ∧ ∀ l r, a.calls = l ++ .resume :: r → pausedAfter l = true := by
  refine pressAll_keeps (Q := fun a => a.paused = pausedAfter a.calls ∧ ∀ l r, a.calls = l ++ .resume :: r → pausedAfter l = true) ?_ h
    ⟨rfl, fun l r e => by simp [App.start] at e⟩
  rintro k hkm x y hxy ⟨h1, h2⟩
  have hpa : ∀ l c, pausedAfter (l ++ [c]) = match c with | .pause => true | .resume => false | _ => pausedAfter l := by
    intro l c
    unfold pausedAfter
    rw [List.foldl_append]; rfl
  -- adding a call
  have add : ∀ c : SimCall, (c = .resume → x.paused = true) → ∀ l r, x.calls ++ [c] = l ++ .resume :: r → pausedAfter l = true := by
    intro c hc l r e
    rcases List.eq_nil_or_concat r with rfl | ⟨r', z, rfl⟩
    · obtain ⟨e1, e2⟩ := List.append_inj' e rfl
      simp at e2
      rw [← e1, ← h1]; exact hc e2
    · have e' : x.calls ++ [c] = (l ++ .resume :: r') ++ [z] := by rw [e]; simp
      exact h2 l r' (List.append_inj' e' rfl).1
  cases k with
  | esc => cases hxy
  | char c =>
    by_cases hs : ∃ z, Selects c z
    · obtain ⟨z, hz⟩ := hs
      by_cases hc : isCurrent x.current z
      · rw [(C76_select x hz).1 hc] at hxy; cases hxy; exact ⟨h1, h2⟩
      · rw [(C76_select x hz).2 hc] at hxy; cases hxy; exact ⟨rfl, fun l r e => by simp at e⟩
    · by_cases hc : c ∈ controls
      · obtain ⟨g1, -, g3, g4, g5, g6⟩ := C76_control x
        have reset : some (if x.paused = true then x else { x with calls := x.calls ++ [.reset] }) = some y →
            y.paused = pausedAfter y.calls ∧ ∀ l r, y.calls = l ++ .resume :: r → pausedAfter l = true := by
          intro e
          split_ifs at e
          · cases e; exact ⟨h1, h2⟩
          · cases e; exact ⟨by dsimp only; rw [hpa]; exact h1, add _ (by simp)⟩
        have disrupt : some (if x.paused = true then x else { x with calls := x.calls ++ [.disrupt] }) = some y →
            y.paused = pausedAfter y.calls ∧ ∀ l r, y.calls = l ++ .resume :: r → pausedAfter l = true := by
          intro e
          split_ifs at e
          · cases e; exact ⟨h1, h2⟩
          · cases e; exact ⟨by dsimp only; rw [hpa]; exact h1, add _ (by simp)⟩
        have pause : some (if x.paused = true then { x with paused := false, calls := x.calls ++ [.resume] }
            else { x with paused := true, calls := x.calls ++ [.pause] }) = some y →
            y.paused = pausedAfter y.calls ∧ ∀ l r, y.calls = l ++ .resume :: r → pausedAfter l = true := by
          intro e
          split_ifs at e with hp
          · cases e; exact ⟨by dsimp only; rw [hpa], add _ (fun _ => hp)⟩
          · cases e; exact ⟨by dsimp only; rw [hpa], add _ (by simp)⟩
        simp only [controls, List.mem_cons, List.not_mem_nil, or_false] at hc
        rcases hc with rfl | rfl | rfl | rfl | rfl | rfl | rfl | rfl | rfl
        · rw [g1 'q' (by simp)] at hxy; cases hxy
        · rw [g1 'Q' (by simp)] at hxy; cases hxy
        · rw [g3 'r' (by simp)] at hxy; exact reset hxy
        · rw [g3 'R' (by simp)] at hxy; exact reset hxy
        · rw [g4 'd' (by simp)] at hxy; exact disrupt hxy
        · rw [g4 'D' (by simp)] at hxy; exact disrupt hxy
        · rw [g5 'p' (by simp)] at hxy; exact pause hxy
        · rw [g5 'P' (by simp)] at hxy; exact pause hxy
        · exact absurd hkm hk
      · rw [C76_other x c (fun z hz => hs ⟨z, hz⟩) hc] at hxy; cases hxy; exact ⟨h1, h2⟩

/-- A history of keys without the space bar that resumes. -/
example : (App.start 0).pressAll [.char 'p', .char 'P', .char 'd'] = some ⟨⟨0, 0, 0⟩, false, [.pause, .resume, .disrupt], 0⟩ := rfl

end Verif
