import Verif.Model.Explain
import Verif.Props.App
import Verif.Props.Gauges
import Verif.Props.DemoReset

/-! # C153 and C154: the explanations and the configuration panel of the display -/

set_option autoImplicit false
set_option linter.unusedSectionVars false

namespace Verif
open GoMath Spec

/-! ## C153 -/

/-- The goals whose explanation asks for agents that keep out of each other's way; that of the others asks for agents that act together. -/
def Spec.spreads : List GoalType := [1, 4, 6, 7]

/-- Whether one text occurs in another. -/
def Spec.occurs (w t : String) : Bool := t.toList.tails.any fun l => w.toList.isPrefixOf l

/-- The words with which the explanations ask for that. -/
def Spec.spreadWords : List String := ["anti-phase", "take turns"]

/-- **C153, the texts.** The eight goals, and only they, have an explanation of four lines; the texts for the best and the worst case of the eight goals and of
all other numbers are eighteen different ones; and the explanation of exactly four goals asks for agents in anti-phase or taking turns. -/
theorem C153_texts :
    (∀ g : GoalType, (howItWorks g).length = if 0 ≤ g ∧ g ≤ 7 then 4 else 0) ∧
    ((([0, 1, 2, 3, 4, 5, 6, 7, 8] : List GoalType).map fun g => [(bestWorst g).1, (bestWorst g).2]).flatten).Nodup ∧
    (∀ g : GoalType, g < 0 ∨ 7 < g → bestWorst g = bestWorst 8) ∧
    ∀ g : GoalType, (∃ l ∈ howItWorks g, ∃ w ∈ spreadWords, occurs w l = true) ↔ g ∈ spreads := by
  have outside : ∀ g : GoalType, g < 0 ∨ 7 < g → howItWorks g = [] ∧ bestWorst g = bestWorst 8 := by
    intro g hg
    have h : ∀ n : ℤ, 0 ≤ n → n ≤ 7 → g ≠ n := fun n h1 h2 h3 => by
      rw [h3] at hg
      rcases hg with h | h
      · exact absurd h (not_lt.2 h1)
      · exact absurd h (not_lt.2 h2)
    constructor
    · unfold howItWorks
      split <;> first | rfl | exact absurd rfl (h _ (by norm_num) (by norm_num))
    · unfold bestWorst
      split <;> first | rfl | exact absurd rfl (h _ (by norm_num) (by norm_num))
  have inside : ∀ g : GoalType, ¬ (g < 0 ∨ 7 < g) → g ∈ ([0, 1, 2, 3, 4, 5, 6, 7] : List ℤ) := by
    intro g hg
    have h0 : (0 : ℤ) ≤ g := not_lt.1 fun h => hg (.inl h)
    have h7 : g ≤ (7 : ℤ) := not_lt.1 fun h => hg (.inr h)
    have key : ∀ x : ℤ, 0 ≤ x → x ≤ 7 → x ∈ ([0, 1, 2, 3, 4, 5, 6, 7] : List ℤ) := by
      intro x h1 h2
      interval_cases x <;> decide
    exact key g h0 h7
  have l4 : ∀ g ∈ ([0, 1, 2, 3, 4, 5, 6, 7] : List ℤ), (howItWorks g).length = 4 := by decide
  have words : ∀ g ∈ ([0, 1, 2, 3, 4, 5, 6, 7] : List ℤ), ((howItWorks g).any fun l => spreadWords.any fun w => occurs w l) = spreads.contains g := by
    decide +kernel
  refine ⟨fun g => ?_, by decide +kernel, fun g hg => (outside g hg).2, fun g => ?_⟩
  · by_cases hg : g < 0 ∨ 7 < g
    · rw [(outside g hg).1, if_neg]
      · rfl
      · rintro ⟨h1, h2⟩
        rcases hg with h | h
        · exact absurd h (not_lt.2 h1)
        · exact absurd h (not_lt.2 h2)
    · rw [l4 g (inside g hg), if_pos ⟨not_lt.1 fun h => hg (.inl h), not_lt.1 fun h => hg (.inr h)⟩]
  · by_cases hg : g < 0 ∨ 7 < g
    · rw [(outside g hg).1]
      simp only [List.not_mem_nil, false_and, exists_false, false_iff]
      intro hm
      have key : ∀ x ∈ ([1, 4, 6, 7] : List ℤ), 0 ≤ x ∧ x ≤ 7 := by decide
      obtain ⟨h1, h2⟩ := key g hm
      rcases hg with h | h
      · exact absurd h (not_lt.2 h1)
      · exact absurd h (not_lt.2 h2)
    · have := words g (inside g hg)
      rw [← List.contains_iff_mem (as := spreads), ← this]
      simp only [List.any_eq_true]

/-- All agents at one point of the circle. -/
def Spec.Together (l : List ℝ) : Prop := l ≠ [] ∧ ∀ a ∈ l, ∀ b ∈ l, SameAngle a b

/-- Half of the agents at one point and half of them opposite. -/
def Spec.Opposed (l : List ℝ) : Prop := ∃ (n : ℕ) (p : ℝ), 0 < n ∧ l.Perm (List.replicate n p ++ List.replicate n (p + Real.pi))

/-- A snapshot of agents that show the coherence of their phases. -/
def Spec.HonestShown (s : Shown ℝ) : Prop := s.coherence = measureCoherence (s.agents.map fun a => a.phase)

/-- What the explanation of a goal calls good: agents in anti-phase for the four goals that ask for it, agents together for the others. -/
def Spec.Good (g : GoalType) (s : Shown ℝ) : Prop :=
  if g ∈ spreads then Opposed (s.agents.map fun a => a.phase) else Together (s.agents.map fun a => a.phase)

/-- What it calls bad. -/
def Spec.Bad (g : GoalType) (s : Shown ℝ) : Prop :=
  if g ∈ spreads then Together (s.agents.map fun a => a.phase) else Opposed (s.agents.map fun a => a.phase)

theorem together_one {l : List ℝ} (h : Together l) : measureCoherence l = 1 := (C03_coherence_eq_one_iff l).2 h

theorem opposed_zero {l : List ℝ} (h : Opposed l) : measureCoherence l = 0 := by
  obtain ⟨n, p, hn, hl⟩ := h
  rw [C04_coherence_perm hl, C03_coherence_eq_orderParameter]
  have e : Spec.unit (p + Real.pi) = -Spec.unit p := by
    unfold Spec.unit
    push_cast
    rw [add_mul, Complex.exp_add, Complex.exp_pi_mul_I]
    ring
  rw [orderParameter_eq_total]
  have : total (List.replicate n p ++ List.replicate n (p + Real.pi)) = 0 := by
    unfold total
    rw [List.map_append, List.sum_append, List.map_replicate, List.map_replicate, List.sum_replicate, List.sum_replicate, e]
    simp
  rw [this]
  simp

/-- The full claim, kept in view: the gauge of a goal is green in the state that its explanation calls good and not in the one that it calls bad. -/
def C153_claim : Prop := ∀ (g : GoalType) (s : Shown ℝ), 0 ≤ g → g ≤ 7 → Sound s → HonestShown s → 0.01 ≤ s.targetCoherence → s.disrupted = false →
  (Good g s → (gauges g s).color = .green) ∧ (Bad g s → (gauges g s).color ≠ .green)

/-- **C153 (partial).** It is for the four goals that ask for agents together (batching, consensus, latency and rhythm), whatever the agents are doing, and for the
distribution of load. Missing: saving energy, recovery and traffic, see `C153_reversed` and `C153_blind`. -/
theorem C153_gauge_partial (g : GoalType) (s : Shown ℝ) (hg : g ∈ ([0, 1, 2, 3, 5] : List ℤ)) (h : Sound s) (hh : HonestShown s) (ht : 0.01 ≤ s.targetCoherence) :
    (Good g s → (gauges g s).color = .green) ∧ (Bad g s → (gauges g s).color ≠ .green) := by
  have hgr := C101_green_partial s h
  have hc : Together (s.agents.map fun a => a.phase) → s.coherence = 1 := fun x => by rw [hh, together_one x]
  have ho : Opposed (s.agents.map fun a => a.phase) → s.coherence = 0 := fun x => by rw [hh, opposed_zero x]
  have h1 := h.target.2
  have f1 : (1 : ℤ) ≤ ⌊100 * s.targetCoherence⌋ := Int.le_floor.2 (by push_cast; norm_num at ht; linarith)
  have fl : ∀ x : ℝ, x = 1 → ⌊100 * s.targetCoherence⌋ ≤ ⌊100 * x⌋ := fun x hx => Int.floor_le_floor (by rw [hx]; linarith)
  have fl0 : ∀ x : ℝ, x = 0 → ¬ ⌊100 * s.targetCoherence⌋ ≤ ⌊100 * x⌋ := fun x hx => by rw [hx, mul_zero, Int.floor_zero]; omega
  have sync : ∀ g : ℤ, g ∉ spreads → (Good g s → s.coherence = 1) ∧ (Bad g s → s.coherence = 0) := by
    intro g hg
    unfold Good Bad
    rw [if_neg hg, if_neg hg]
    exact ⟨hc, ho⟩
  have cases : g = (0 : ℤ) ∨ g = (1 : ℤ) ∨ g = (2 : ℤ) ∨ g = (3 : ℤ) ∨ g = (5 : ℤ) := by simpa using hg
  rcases cases with rfl | rfl | rfl | rfl | rfl
  · rw [hgr.api, ne_eq, hgr.api]
    obtain ⟨a, b⟩ := sync 0 (by decide)
    refine ⟨fun x => by rw [a x]; exact h1, fun x => ?_⟩
    rw [b x]; norm_num at ht ⊢; linarith
  · rw [hgr.load, ne_eq, hgr.load]
    refine ⟨fun x => ?_, fun x => ?_⟩
    · unfold Good at x; rw [if_pos (by decide)] at x; rw [ho x]; norm_num
    · unfold Bad at x; rw [if_pos (by decide)] at x; rw [hc x]; norm_num
  · rw [hgr.consensus, ne_eq, hgr.consensus]
    obtain ⟨a, b⟩ := sync 2 (by decide)
    exact ⟨fun x => by rw [a x]; norm_num, fun x => by rw [b x]; norm_num⟩
  · rw [hgr.latency, ne_eq, hgr.latency]
    obtain ⟨a, b⟩ := sync 3 (by decide)
    exact ⟨fun x => fl _ (a x), fun x => fl0 _ (b x)⟩
  · rw [hgr.rhythm, ne_eq, hgr.rhythm]
    obtain ⟨a, b⟩ := sync 5 (by decide)
    exact ⟨fun x => fl _ (a x), fun x => fl0 _ (b x)⟩

/-- **C153.** For the recovery from failures it is the other way round: the gauge and the metrics panel are red for agents in anti-phase, which the explanation
asks for, and green for agents that are all together. -/
theorem C153_reversed (s : Shown ℝ) (h : Sound s) (hh : HonestShown s) (hd : s.disrupted = false) :
    (Good 6 s → (gauges 6 s).color = .red ∧ metricsShade 6 s = .red) ∧ (Bad 6 s → (gauges 6 s).color = .green ∧ metricsShade 6 s = .green) := by
  have ha := (C102_agree_partial s h).2.1 hd
  have key : metricsShade 6 s = if s.coherence ≥ 0.8 then .green else if s.coherence ≥ 0.6 then .yellow else .red := by
    show (if s.disrupted then Shade.yellow else _) = _
    rw [hd]; rfl
  rw [ha, and_self, and_self, key]
  have h6 : (6 : GoalType) ∈ spreads := by decide
  unfold Good Bad
  rw [if_pos h6, if_pos h6]
  constructor
  · intro x
    rw [hh, opposed_zero x, if_neg (by norm_num), if_neg (by norm_num)]
  · intro x
    rw [hh, together_one x, if_pos (by norm_num)]

/-- **C153.** For saving energy and for traffic the gauge does not look at the phases at all: it is the same for any two snapshots of equally busy agents. -/
theorem C153_blind (s s' : Shown ℝ) (h : s.agents.map (fun a => a.activity) = s'.agents.map fun a => a.activity) :
    gauges 4 s = gauges 4 s' ∧ gauges 7 s = gauges 7 s' := by
  have hl : s.agents.length = s'.agents.length := by simpa using congrArg List.length h
  have cnt : ∀ (l : List (ShownAgent ℝ)) (f : Activity → Bool), (l.countP fun a => f a.activity) = (l.map fun a => a.activity).countP f := by
    intro l f
    rw [List.countP_map]; rfl
  have e1 : idleCount s = idleCount s' := by
    unfold idleCount
    rw [cnt s.agents fun a => decide (a = .quiet), cnt s'.agents fun a => decide (a = .quiet), h]
  have e2 : activeCount s = activeCount s' := by
    unfold activeCount
    rw [cnt s.agents fun a => decide (a = .burst ∨ a = .active), cnt s'.agents fun a => decide (a = .burst ∨ a = .active), h]
  unfold gauges
  dsimp only
  rw [e1, e2, hl]
  exact ⟨rfl, rfl⟩

/-- Two agents in phase. -/
noncomputable def pairShown : Shown ℝ := { coherence := 1, targetCoherence := 0.5, disrupted := false, agents := [⟨1, .steady⟩, ⟨1, .steady⟩] }

theorem pairShown_together : Together (pairShown.agents.map fun a => a.phase) := by
  refine ⟨by simp [pairShown], ?_⟩
  intro a ha b hb
  simp only [pairShown, List.map_cons, List.map_nil, List.mem_cons, List.not_mem_nil, or_false, or_self] at ha hb
  rw [ha, hb]
  exact SameAngle.refl 1

theorem pairShown_sound : Sound pairShown := ⟨by unfold pairShown; norm_num, by unfold pairShown; norm_num, by simp [pairShown]⟩
theorem pairShown_honest : HonestShown pairShown := (together_one pairShown_together).symm

/-- The claim is false: two agents in phase are shown as recovered. -/
theorem C153_refuted : ¬ C153_claim := fun h => by
  have hb : Bad 6 pairShown := by unfold Bad; rw [if_pos (by decide)]; exact pairShown_together
  exact (h 6 pairShown (by decide) (by decide) pairShown_sound pairShown_honest (by unfold pairShown; norm_num) rfl).2 hb
    ((C153_reversed pairShown pairShown_sound pairShown_honest rfl).2 hb).1

/-- the hypotheses of the theorems are met: two agents in phase are good for batching and bad for load, two opposed ones the other way round -/
example : Good 0 pairShown ∧ Bad 1 pairShown ∧ Sound pairShown ∧ HonestShown pairShown ∧ (0.01 : ℝ) ≤ pairShown.targetCoherence := by
  refine ⟨?_, ?_, pairShown_sound, pairShown_honest, by unfold pairShown; norm_num⟩
  · unfold Good; rw [if_neg (by decide)]; exact pairShown_together
  · unfold Bad; rw [if_pos (by decide)]; exact pairShown_together

example : let s : Shown ℝ := { coherence := 0, targetCoherence := 0.5, disrupted := false, agents := [⟨0, .steady⟩, ⟨0 + Real.pi, .steady⟩] }
    Sound s ∧ HonestShown s ∧ Good 1 s ∧ Bad 0 s := by
  intro s
  have ho : Opposed (s.agents.map fun a => a.phase) := ⟨1, 0, one_pos, List.Perm.refl _⟩
  refine ⟨⟨by simp [s], by norm_num [s], by simp [s]⟩, (opposed_zero ho).symm, ?_, ?_⟩
  · unfold Good; rw [if_pos (by decide)]; exact ho
  · unfold Bad; rw [if_neg (by decide)]; exact ho

/-! ## C154 -/

/-- The settings that keys and the command line can choose. -/
def Spec.Choosable (c : AppConfig) : Prop :=
  c.goal ∈ ([0, 1, 2, 3, 4, 5, 6, 7] : List ℤ) ∧ c.scale ∈ ([0, 1, 2, 3, 4] : List ℤ) ∧ c.pattern ∈ ([0, 1, 2, 3, 4, 5] : List ℤ)

/-- The ranges of what a key can ask for. -/
def Spec.InMenu : Event → Prop
  | .goal g => g ∈ ([0, 1, 2, 3, 4, 5, 6, 7] : List ℤ)
  | .scale s => s ∈ ([0, 1, 2, 3, 4] : List ℤ)
  | .pattern p => p ∈ ([0, 1, 2, 3, 4, 5] : List ℤ)
  | _ => True

theorem processKey_ranges (k : Key) (e : Event) (h : processKey k = some e) : InMenu e := by
  unfold processKey at h
  split at h <;> cases h <;> first | trivial | (unfold InMenu; decide)

theorem press_choosable (k : Key) (a b : App) (h : a.press k = some b) (ha : Choosable a.config) : Choosable b.config := by
  unfold App.press at h
  cases hk : processKey k with
  | none => rw [hk] at h; cases h; exact ha
  | some e =>
    have hr := processKey_ranges k e hk
    rw [hk] at h
    dsimp only at h
    cases hh : handleEvent a.current a.paused e with
    | cancel => rw [hh] at h; cases h
    | ignore => rw [hh] at h; cases h; exact ha
    | call c p => rw [hh] at h; cases h; exact ha
    | restart e' =>
      have he : e' = e := by
        unfold handleEvent at hh
        split at hh <;> (try split_ifs at hh) <;> cases hh <;> rfl
      subst he
      rw [hh] at h
      dsimp only at h
      unfold nextConfig at h
      cases e' <;> dsimp only at h <;> (try split_ifs at h) <;> cases h
      · exact ⟨ha.1, hr, ha.2.2⟩
      · exact ⟨hr, ha.2.1, ha.2.2⟩
      · exact ⟨ha.1, ha.2.1, hr⟩

theorem reached_choosable (s : Size) (hs : s ∈ ([0, 1, 2, 3, 4] : List ℤ)) (ks : List Key) (a : App) (h : (App.start s).pressAll ks = some a) :
    Choosable a.config :=
  pressAll_keeps (Q := fun a => Choosable a.config) (fun k _ a b hab ha => press_choosable k a b hab ha) h
    ⟨(by decide : (0 : ℤ) ∈ ([0, 1, 2, 3, 4, 5, 6, 7] : List ℤ)), hs, (by decide : (0 : ℤ) ∈ ([0, 1, 2, 3, 4, 5] : List ℤ))⟩

theorem bestPattern_range : ∀ g ∈ ([0, 1, 2, 3, 4, 5, 6, 7] : List ℤ), bestPatternForGoal g ∈ ([0, 1, 2, 3, 4, 5] : List ℤ) := by decide

theorem current_choosable (a : App) (h : Choosable a.config) : Choosable a.current := by
  refine ⟨by rw [current_goal]; exact h.1, by rw [current_scale]; exact h.2.1, ?_⟩
  unfold App.current
  split_ifs
  · exact bestPattern_range _ h.1
  · exact h.2.2

/-- **C154.** Whatever keys are pressed, from whatever scale the program starts with: the configuration panel names the goal, the scale and the pattern of the
current run, and two runs have the same panel exactly if they agree in all three. -/
theorem C154_configuration (s : Size) (hs : s ∈ ([0, 1, 2, 3, 4] : List ℤ)) (ks : List Key) (a : App) (h : (App.start s).pressAll ks = some a) :
    a.display.configuration = (GoalType.name a.current.goal, PatternType.name a.current.pattern, displayName a.current.scale) ∧
    (a.display.goal, a.display.scale, a.display.pattern) = (a.current.goal, a.current.scale, a.current.pattern) ∧
    ∀ (s' : Size) (ks' : List Key) (b : App), s' ∈ ([0, 1, 2, 3, 4] : List ℤ) → (App.start s').pressAll ks' = some b →
      (a.display.configuration = b.display.configuration ↔ a.current = b.current) := by
  have key : ∀ a : App, a.display.configuration =
      (GoalType.name a.current.goal, PatternType.name a.current.pattern, displayName a.current.scale) := fun a => by
    rw [current_goal, current_scale]; rfl
  refine ⟨key a, by rw [current_goal, current_scale]; rfl, fun s' ks' b hs' hb => ?_⟩
  obtain ⟨a1, a2, a3⟩ := current_choosable a (reached_choosable s hs ks a h)
  obtain ⟨b1, b2, b3⟩ := current_choosable b (reached_choosable s' hs' ks' b hb)
  have i1 : ∀ x ∈ ([0, 1, 2, 3, 4, 5, 6, 7] : List ℤ), ∀ y ∈ ([0, 1, 2, 3, 4, 5, 6, 7] : List ℤ), GoalType.name x = GoalType.name y → x = y := by
    decide +kernel
  have i2 : ∀ x ∈ ([0, 1, 2, 3, 4] : List ℤ), ∀ y ∈ ([0, 1, 2, 3, 4] : List ℤ), displayName x = displayName y → x = y := by decide +kernel
  have i3 : ∀ x ∈ ([0, 1, 2, 3, 4, 5] : List ℤ), ∀ y ∈ ([0, 1, 2, 3, 4, 5] : List ℤ), PatternType.name x = PatternType.name y → x = y := by
    decide +kernel
  rw [key, key]
  constructor
  · intro hab
    rw [Prod.mk.injEq, Prod.mk.injEq] at hab
    have e1 := i1 _ a1 _ b1 hab.1
    have e2 := i2 _ a2 _ b2 hab.2.2
    have e3 := i3 _ a3 _ b3 hab.2.1
    cases ha : a.current with
    | mk g1 s1 p1 =>
      cases hb : b.current with
      | mk g2 s2 p2 =>
        rw [ha, hb] at e1 e2 e3
        dsimp only at e1 e2 e3
        rw [e1, e2, e3]
  · intro hab; rw [hab]

/-- **C154.** The name of the scale tells the number of agents of the run: the number in the name is the scale's default. -/
theorem C154_workloads : ∀ s ∈ ([0, 1, 2, 3, 4] : List ℤ),
    occurs ("(" ++ toString (Size.defaultAgentCount s) ++ " workloads)") (displayName s) = true := by decide +kernel

/-- the hypotheses of `C154_configuration` are met: after the keys `f` and `3` the panel shows fault recovery and the medium swarm -/
example : ∃ a, (App.start 0).pressAll [.char 'f', .char '3'] = some a ∧
    a.display.configuration = ("Fault Recovery", "Mixed", "MEDIUM SWARM (200 workloads)") := by
  refine ⟨_, rfl, ?_⟩
  decide +kernel

end Verif
