import Verif.Model.GoalDirected
import Verif.Props.PhaseConv
import Verif.Props.SwarmConn

/-!
# C51 (synchronisation is bounded and honest) and C58 (deciding achievement)
-/

set_option autoImplicit false
set_option linter.unusedSectionVars false

namespace Verif
open GoMath Spec

section generic
variable {α : Type} [Zero α] [One α] [Add α] [Sub α] [Mul α] [Div α] [Neg α] [LT α] [LE α]
  [DecidableLT α] [DecidableLE α] [BEq α] [OfScientific α] [GoMath α]

/-! ## C58 -/

/-- The documented tolerance: by size class, doubled for targets of at least 95% of the practical limit. -/
def Spec.IsTolerance (cfg : GoalConfig α) (n : ℤ) (target tol : α) : Prop :=
  ∃ base, (n < 10 → base = cfg.toleranceSmall) ∧ (10 ≤ n → n < 50 → base = cfg.toleranceMedium) ∧
    (50 ≤ n → base = cfg.toleranceLarge) ∧
    ((getCoherenceLimits n : CoherenceLimits α).practical * 0.95 ≤ target → tol = base * 2.0) ∧
    (¬ (getCoherenceLimits n : CoherenceLimits α).practical * 0.95 ≤ target → tol = base)

/-- The goal `t` is met by the measured pattern `c` and phase convergence `conv` of `n` agents: coherence within the
tolerance, distance below the threshold, and for high-coherence goals sufficient phase convergence. -/
def Spec.GoalMet (cfg : GoalConfig α) (n : ℤ) (t c : TargetPattern α) (conv : α) : Prop :=
  (∃ tol, IsTolerance cfg n t.coherence tol ∧ t.coherence - tol ≤ c.coherence) ∧
    patternDistance (some c) (some t) < cfg.patternDistanceThreshold ∧
    (cfg.highCoherence ≤ t.coherence → cfg.phaseConvergenceGoal ≤ conv)

theorem isTolerance_iff (cfg : GoalConfig α) (n : ℤ) (target tol : α) :
    IsTolerance cfg n target tol ↔ tol = achievementTolerance cfg n target := by
  unfold achievementTolerance
  constructor
  · rintro ⟨base, h1, h2, h3, h4, h5⟩
    have hb : base = if n < 10 then cfg.toleranceSmall else if n < 50 then cfg.toleranceMedium else cfg.toleranceLarge := by
      split_ifs with a b
      · exact h1 a
      · exact h2 (by omega) b
      · exact h3 (by omega)
    subst hb
    by_cases hp : (getCoherenceLimits n : CoherenceLimits α).practical * 0.95 ≤ target
    · exact (h4 hp).trans (if_pos hp).symm
    · exact (h5 hp).trans (if_neg hp).symm
  · intro h
    refine ⟨if n < 10 then cfg.toleranceSmall else if n < 50 then cfg.toleranceMedium else cfg.toleranceLarge,
      fun h => if_pos h, fun h h' => by rw [if_neg (show ¬ n < 10 by omega), if_pos h'],
      fun h => by rw [if_neg (show ¬ n < 10 by omega), if_neg (show ¬ n < 50 by omega)], fun hp => ?_, fun hp => ?_⟩
    · rw [h]; exact if_pos hp
    · rw [h]; exact if_neg hp

/-- **C58** (all number types, doubles included): a measured pattern counts as achieved exactly when its coherence is within
the size-dependent tolerance, its distance to the goal is below the threshold and, for high-coherence goals, the phase
convergence reaches its goal. -/
theorem C58_decision (cfg : GoalConfig α) (n : ℤ) (t c : TargetPattern α) (conv : α) :
    isPatternAchieved cfg n t c conv = true ↔ GoalMet cfg n t c conv := by
  have h1 : (∃ tol, IsTolerance cfg n t.coherence tol ∧ t.coherence - tol ≤ c.coherence) ↔
      t.coherence - achievementTolerance cfg n t.coherence ≤ c.coherence := by
    constructor
    · rintro ⟨tol, h, h'⟩; rw [(isTolerance_iff _ _ _ _).1 h] at h'; exact h'
    · intro h; exact ⟨_, (isTolerance_iff _ _ _ _).2 rfl, h⟩
  unfold isPatternAchieved GoalMet
  rw [h1]
  dsimp only
  split_ifs with hh
  · simp only [Bool.and_eq_true, decide_eq_true_eq, and_assoc]
    exact and_congr_right fun _ => and_congr_right fun _ => ⟨fun h _ => h, fun h => h hh⟩
  · simp only [Bool.and_eq_true, decide_eq_true_eq]
    exact and_congr_right fun _ => ⟨fun h => ⟨h, fun h' => absurd h' hh⟩, fun h => h.1⟩

/-! ## C51 -/

/-- From `g` the ticks `ts` were processed one after the other, none of them finding the goal achieved, ending in `g'`. -/
inductive Spec.Unachieved : Gds α → List (Tick α) → Gds α → Prop
  | nil (g : Gds α) : Spec.Unachieved g [] g
  | cons {g g' g'' : Gds α} {e : Tick α} {es : List (Tick α)} (h : g.iterate e = .ok (false, g'))
      (hs : Spec.Unachieved g' es g'') : Spec.Unachieved g (e :: es) g''

/-- At the tick `e` the iteration starting in `g` measures the goal as achieved. -/
def Spec.MeasuredAchieved (g : Gds α) (e : Tick α) : Prop :=
  GoalMet g.config ((e.others g.swarm).allAgents (e.order 4)).length g.target ((e.others g.swarm).pattern e)
    (phaseConvergence ((e.others g.swarm).phases (e.order 5)) g.target.phase)

/-- What each result of a run started in `g₀` with the given budget says about the events. -/
def Spec.Honest (g₀ : Gds α) (budget : ℤ) (evs : List (SyncEvent α)) (k : ℕ) (g : Gds α) : SyncResult → Prop
  /- success: exactly the last of the `k` iterations measured the goal as achieved -/
  | .achieved => ∃ ts e rest g', evs = ts.map .tick ++ .tick e :: rest ∧ k = ts.length + 1 ∧ (k : ℤ) ≤ budget ∧
      Spec.Unachieved g₀ ts g' ∧ Spec.MeasuredAchieved g' e
  /- the context error: the context was cancelled after `k` unsuccessful iterations, within the budget -/
  | .cancelled => ∃ ts rest, evs = ts.map .tick ++ .cancel :: rest ∧ k = ts.length ∧ (k : ℤ) < budget ∧
      Spec.Unachieved g₀ ts g
  /- failure: the reported number is the budget, and exactly that many iterations (none for a negative budget) ran -/
  | .failed n => n = budget ∧ k = budget.toNat ∧
      ∃ ts rest, evs = ts.map .tick ++ rest ∧ ts.length = k ∧ Spec.Unachieved g₀ ts g
  /- no result yet: all events were ticks and budget is left -/
  | .waiting => ∃ ts, evs = ts.map .tick ∧ k = ts.length ∧ (k : ℤ) < budget ∧ Spec.Unachieved g₀ ts g
  /- a panic inside an iteration -/
  | .panic => ∃ ts e rest, evs = ts.map .tick ++ .tick e :: rest ∧ k = ts.length ∧ (k : ℤ) < budget ∧
      Spec.Unachieved g₀ ts g ∧ g.iterate e = .panic
  /- an iteration that does not end -/
  | .running => ∃ ts e rest, evs = ts.map .tick ++ .tick e :: rest ∧ k = ts.length ∧ (k : ℤ) < budget ∧
      Spec.Unachieved g₀ ts g ∧ g.iterate e = .running

theorem unachieved_snoc {g g' g'' : Gds α} {ts : List (Tick α)} {e : Tick α} (h : Spec.Unachieved g ts g')
    (he : g'.iterate e = .ok (false, g'')) : Spec.Unachieved g (ts ++ [e]) g'' := by
  induction h with
  | nil g => exact .cons he (.nil _)
  | cons h hs ih => exact .cons h (ih he)

/-- An iteration reports success exactly when it measures the goal as achieved. -/
theorem iterate_true (g : Gds α) (e : Tick α) :
    (∃ g', g.iterate e = .ok (true, g')) ↔ Spec.MeasuredAchieved g e := by
  unfold Spec.MeasuredAchieved
  rw [← C58_decision]
  unfold Gds.iterate Gds.achieved
  dsimp only
  split_ifs with h1 h2
  · exact ⟨fun _ => h1, fun _ => ⟨_, rfl⟩⟩
  all_goals
    refine ⟨fun ⟨g', h⟩ => ?_, fun h => absurd h h1⟩
    exfalso
    revert h
    generalize Gds.adjust (α := α) _ _ _ _ = r
    cases r <;> simp

theorem loop_honest (g₀ : Gds α) (budget : ℤ) (evs₀ : List (SyncEvent α)) (evs : List (SyncEvent α)) (ts : List (Tick α))
    (k : ℕ) (g : Gds α) (hk : k = ts.length) (hkb : (k : ℤ) ≤ max budget 0) (he : evs₀ = ts.map .tick ++ evs)
    (hu : Spec.Unachieved g₀ ts g) :
    Spec.Honest g₀ budget evs₀ (g.loop budget evs k).2.1 (g.loop budget evs k).2.2 (g.loop budget evs k).1 := by
  induction evs generalizing ts k g with
  | nil =>
    unfold Gds.loop
    split_ifs with hb
    · exact ⟨ts, by simpa using he, hk, hb, hu⟩
    · exact ⟨rfl, by dsimp only; omega, ts, [], he, hk.symm, hu⟩
  | cons ev evs ih =>
    unfold Gds.loop
    split_ifs with hb
    · cases ev with
      | cancel => exact ⟨ts, evs, he, hk, hb, hu⟩
      | tick e =>
        dsimp only
        rcases hi : g.iterate e with ⟨b, g'⟩ | _ | _
        · cases b with
          | true =>
            exact ⟨ts, e, evs, g, he, by rw [hk], by dsimp only; omega, hu, (iterate_true g e).1 ⟨g', hi⟩⟩
          | false =>
            exact ih (ts ++ [e]) (k + 1) g' (by simp [hk]) (by omega) (by rw [he]; simp) (unachieved_snoc hu hi)
        · exact ⟨ts, e, evs, he, hk, hb, hu, hi⟩
        · exact ⟨ts, e, evs, he, hk, hb, hu, hi⟩
    · exact ⟨rfl, by dsimp only; omega, ts, ev :: evs, he, hk.symm, hu⟩

/-- The state in which the loop starts: the given target, its coherence lowered to the theoretical limit. -/
def Spec.Started (g : Gds α) (n : ℤ) (target : TargetPattern α) (g₀ : Gds α) : Prop :=
  g₀.swarm = g.swarm ∧ g₀.config = g.config ∧ g₀.engine = g.engine ∧ g₀.selector = g.selector ∧
    g₀.monitor.target = some g₀.target ∧
    (target.coherence > (getCoherenceLimits n : CoherenceLimits α).theoretical →
      g₀.target = { target with coherence := (getCoherenceLimits n : CoherenceLimits α).theoretical }) ∧
    (¬ target.coherence > (getCoherenceLimits n : CoherenceLimits α).theoretical → g₀.target = target)

/-- **C51** (all number types). A run on any swarm, with any target and any events, performs at most 1000 iterations; it
returns success only if the last iteration, and no earlier one, measured the goal as achieved; it returns the context error
only if the context was cancelled; and it reports failure only after exactly its iteration budget. -/
theorem C51_honest (g : Gds α) (order : SyncMap ℕ → SyncMap ℕ) (target : TargetPattern α) (evs : List (SyncEvent α))
    (hu : 0 < g.config.updateInterval) :
    ∃ g₀ budget, Spec.Started g (g.swarm.allAgents order).length target g₀ ∧
      budget = iterationBudget g.config (g.swarm.allAgents order).length g₀.target.coherence ∧ budget ≤ 1000 ∧
      (g.achieve order target evs).2.1 ≤ 1000 ∧
      Spec.Honest g₀ budget evs (g.achieve order target evs).2.1 (g.achieve order target evs).2.2
        (g.achieve order target evs).1 := by
  unfold Gds.achieve
  dsimp only
  rw [if_neg (by omega)]
  set n : ℤ := ((g.swarm.allAgents order).length : ℤ)
  set t := adjustTarget n target with ht
  set g₀ : Gds α := { g with target := t, monitor := g.monitor.setTarget (some t) } with hg
  set b := iterationBudget g.config n t.coherence with hb
  have hb1 : b ≤ 1000 := by rw [hb]; unfold iterationBudget minInt; dsimp only; split_ifs <;> omega
  have hl := loop_honest g₀ b evs evs [] 0 g₀ rfl (by simp) rfl (.nil _)
  have hlen : (g₀.loop b evs 0).2.1 ≤ 1000 := by
    revert hl
    cases (g₀.loop b evs 0).1 with
    | achieved => rintro ⟨ts, e, rest, g', h1, h2, h3, -⟩; omega
    | cancelled => rintro ⟨ts, rest, h1, h2, h3, -⟩; omega
    | failed n => rintro ⟨h1, h2, -⟩; omega
    | waiting => rintro ⟨ts, h1, h2, h3, -⟩; omega
    | panic => rintro ⟨ts, e, rest, h1, h2, h3, -⟩; omega
    | running => rintro ⟨ts, e, rest, h1, h2, h3, -⟩; omega
  refine ⟨g₀, b, ⟨rfl, rfl, rfl, rfl, rfl, fun h => ?_, fun h => ?_⟩, rfl, hb1, hlen, hl⟩
  · change adjustTarget n target = _
    unfold adjustTarget
    exact if_pos h
  · change adjustTarget n target = _
    unfold adjustTarget
    exact if_neg h

theorem loop_skip {g g' : Gds α} {ts : List (Tick α)} (h : Spec.Unachieved g ts g') (budget : ℤ) (rest : List (SyncEvent α))
    (k : ℕ) (hb : (k + ts.length : ℤ) ≤ budget) :
    g.loop budget (ts.map .tick ++ rest) k = g'.loop budget rest (k + ts.length) := by
  induction h generalizing k with
  | nil g => rfl
  | @cons g g' g'' e es h hs ih =>
    rw [List.length_cons] at hb
    rw [List.map_cons, List.cons_append, Gds.loop, if_pos (by omega), h]
    dsimp only
    rw [ih (k + 1) (by push_cast at hb ⊢; omega), List.length_cons, show k + 1 + es.length = k + (es.length + 1) by omega]

/-- **C51**, the other direction: what a run must return. After ticks that do not achieve the goal a cancelled context gives
the context error, a tick that does gives success, and no further event is needed once the budget is used up. -/
theorem C51_complete {g g' : Gds α} {ts : List (Tick α)} (h : Spec.Unachieved g ts g') (budget : ℤ) (rest : List (SyncEvent α)) :
    ((ts.length : ℤ) < budget → (g.loop budget (ts.map .tick ++ .cancel :: rest) 0).1 = .cancelled) ∧
    ((ts.length : ℤ) < budget → ∀ e, Spec.MeasuredAchieved g' e →
      (g.loop budget (ts.map .tick ++ .tick e :: rest) 0).1 = .achieved) ∧
    ((ts.length : ℤ) = budget → (g.loop budget (ts.map .tick ++ rest) 0).1 = .failed budget) := by
  refine ⟨fun hb => ?_, fun hb e he => ?_, fun hb => ?_⟩
  · rw [loop_skip h budget _ 0 (by omega), Gds.loop, if_pos (by push_cast; omega)]
  · obtain ⟨g'', hg⟩ := (iterate_true g' e).2 he
    rw [loop_skip h budget _ 0 (by omega), Gds.loop, if_pos (by push_cast; omega), hg]
  · rw [loop_skip h budget _ 0 (by omega)]
    unfold Gds.loop
    rw [if_neg (show ¬ ((0 + ts.length : ℕ) : ℤ) < budget by push_cast; omega)]

/-- The swarm has an agent in the storage it uses. -/
def Spec.HasAgents (s : Swarm α) : Prop :=
  (s.optimized = true → s.agentSlice ≠ []) ∧ (s.optimized = false → s.agents ≠ [])

theorem foldl_store_ne {β : Type} (l : List β) (f : β → String) (g : β → ℕ) (m : SyncMap ℕ) (h : m ≠ [] ∨ l ≠ []) :
    l.foldl (fun m x => SyncMap.store m (f x) (g x)) m ≠ [] := by
  induction l generalizing m with
  | nil => exact h.resolve_right (by simp)
  | cons x xs ih =>
    refine ih _ (Or.inl ?_)
    unfold SyncMap.store
    intro h0
    cases m with
    | nil => simp at h0
    | cons y ys => revert h0; dsimp only; split_ifs <;> simp

theorem allAgents_ne {s : Swarm α} (h : Spec.HasAgents s) (order : SyncMap ℕ → SyncMap ℕ) (hp : ∀ m, (order m).Perm m) :
    (s.allAgents order).length ≠ 0 := by
  rw [ne_eq, List.length_eq_zero_iff]
  unfold Swarm.allAgents
  split_ifs with ho
  · exact foldl_store_ne _ (fun a => (s.heap a).id) id [] (Or.inr (h.1 ho))
  · refine foldl_store_ne _ Prod.fst Prod.snd [] (Or.inr fun h0 => h.2 (by simpa using ho) ?_)
    have := hp s.agents
    rw [h0] at this
    exact this.nil_eq.symm

theorem iterate_total_of (g : Gds α) (e : Tick α) (ha : Spec.HasAgents (e.others g.swarm))
    (hv : ∃ v, phaseVariance e.fuel ((e.others g.swarm).phases (e.order 9)) = some v) : ∃ r, g.iterate e = .ok r := by
  obtain ⟨v, hv⟩ := hv
  have ha' : ∀ h, Spec.HasAgents { e.others g.swarm with heap := h } := fun _ => ha
  unfold Gds.iterate
  dsimp only
  split_ifs with h1 h2
  · exact ⟨_, rfl⟩
  all_goals
    unfold Gds.adjust
    dsimp only
    obtain ⟨cp, hcp, -⟩ := completePattern_ok g.engine e.templates ((e.others g.swarm).pattern e)
      (identifyGaps' ((e.others g.swarm).pattern e) g.target)
    rw [hcp]
    dsimp only
    rw [hv]
    dsimp only
    unfold Gds.resonate resonance
    dsimp only
    split_ifs with h3 h4
    · exact absurd h4 (allAgents_ne (ha' _) (e.order 10) (e.order_perm 10))
    · exact ⟨_, rfl⟩
    · exact ⟨_, rfl⟩

/-- **C51**: without agents an iteration that does not achieve the goal panics as soon as the monitor reports a stuck swarm
(`random.Intn(0)`). -/
theorem C51_no_agents_panics (g : Gds α) (e : Tick α) (ha : ∀ h, (({ e.others g.swarm with heap := h } : Swarm α).allAgents (e.order 10)).length = 0)
    (hv : ∃ v, phaseVariance e.fuel ((e.others g.swarm).phases (e.order 9)) = some v)
    (hs : (g.monitor.record e.now (some ((e.others g.swarm).pattern e)) ((e.others g.swarm).measureCoherence (e.order 3))).isStuck = true)
    (hn : ¬ Spec.MeasuredAchieved g e) : g.iterate e = .panic := by
  obtain ⟨v, hv⟩ := hv
  unfold Spec.MeasuredAchieved at hn
  rw [← C58_decision] at hn
  unfold Gds.iterate Gds.achieved
  dsimp only
  rw [if_neg hn]
  obtain ⟨cp, hcp, -⟩ := completePattern_ok g.engine e.templates ((e.others g.swarm).pattern e)
      (identifyGaps' ((e.others g.swarm).pattern e) g.target)
  split_ifs with h2
  all_goals
    unfold Gds.adjust
    dsimp only
    rw [hcp]
    dsimp only
    rw [hv]
    dsimp only
    unfold Gds.resonate resonance
    dsimp only
    rw [if_pos hs, if_pos (ha _)]

end generic

/-- **C51** (exact arithmetic): no iteration of a swarm with agents panics, and every one ends (the loops that normalise a
phase need at most as many rounds as the phases have turns; one round for proper phases). -/
theorem C51_iteration_ends (g : Gds ℝ) (e : Tick ℝ) (ha : Spec.HasAgents (e.others g.swarm)) :
    (∃ N, ∀ fuel ≥ N, ∃ r, g.iterate { e with fuel := fuel } = .ok r) ∧
    ((∀ p ∈ (e.others g.swarm).phases (e.order 9), 0 ≤ p ∧ p < 2 * Real.pi) → 1 ≤ e.fuel → ∃ r, g.iterate e = .ok r) := by
  constructor
  · by_cases h0 : (e.others g.swarm).phases (e.order 9) = []
    · exact ⟨0, fun fuel _ => iterate_total_of g _ ha ⟨0, by change phaseVariance fuel ((e.others g.swarm).phases (e.order 9)) = _; rw [h0]; rfl⟩⟩
    · obtain ⟨N, hN⟩ := (C57_variance _ h0).1
      exact ⟨N, fun fuel hf => iterate_total_of g { e with fuel := fuel } ha (hN fuel hf)⟩
  · exact fun h hf => iterate_total_of g e ha (C57_variance_in_range _ h _ hf)

/-- A tick at which nothing else happened. -/
def Tick.plain (fuel : ℕ) : Tick ℝ :=
  { others := id, order := fun _ m => m, order_perm := fun _ _ => .refl _, templates := id, templates_perm := fun _ => .refl _
    now := 0, clock := fun _ => 0, word := fun _ _ => 0, pick := fun _ => 0, noise := fun _ => 0, bonus := fun _ => 0, fuel := fuel }

/-- One agent of a valid swarm at phase 0 with frequency 3, and the goal frequency 1: the first tick does not achieve it. -/
theorem exists_unachieved : ∃ (g g' : Gds ℝ) (e : Tick ℝ), 0 < g.config.updateInterval ∧ Spec.HasAgents (e.others g.swarm) ∧
    Spec.Unachieved g [e] g' := by
  obtain ⟨n, s, -, -⟩ := exists_swarm (fun _ _ => (0 : ℝ)) 5 (by norm_num) (by norm_num) goalR goalR_valid
  let s' : Swarm ℝ := { s with heap := fun a => { s.heap a with state := ⟨0, 1, 0, 3⟩ }, agents := [("a", 0)], optimized := false }
  let g : Gds ℝ := Gds.new s' defaultConfig ⟨1, 1, 1, 0.5, [], 0.9⟩
  have ha : Spec.HasAgents ((Tick.plain 1).others g.swarm) := ⟨fun h => (by cases h), fun _ h => (by cases h)⟩
  obtain ⟨⟨b, g'⟩, hr⟩ := (C51_iteration_ends g (Tick.plain 1) ha).2 (by
    intro p hp
    have : p = 0 := by
      change p ∈ [(0 : ℝ)] at hp
      simpa using hp
    rw [this]
    exact ⟨le_rfl, by positivity⟩) le_rfl
  cases b with
  | false => exact ⟨g, g', Tick.plain 1, by change (0 : ℤ) < (defaultConfig : GoalConfig ℝ).updateInterval; norm_num [defaultConfig, millisecond], ha, .cons hr (.nil _)⟩
  | true =>
    exfalso
    have h := ((iterate_true _ _).1 ⟨g', hr⟩).2.1
    have hf : (((Tick.plain 1).others g.swarm).pattern (Tick.plain 1)).frequency = 3 := by
      simp [Swarm.pattern, measureSystemPattern, Swarm.rangeAgents, Swarm.allAgents, Tick.plain, g, s', Gds.new, SyncMap.store]
    have ht : g.target = ⟨1, 1, 1, 0.5, [], 0.9⟩ := rfl
    have hc : g.config = defaultConfig := rfl
    rw [patternDistance_some, ht, hc] at h
    generalize ((Tick.plain 1).others g.swarm).pattern (Tick.plain 1) = c at h hf
    have hp : 0 ≤ |phaseDifference 1 c.phase| / Real.pi := div_nonneg (abs_nonneg _) Real.pi_pos.le
    have hco : 0 ≤ |1 / 2 - c.coherence| := abs_nonneg _
    norm_num [freqDeviation, defaultConfig, hf] at h
    linarith

example : ∃ (g g' : Gds ℝ) (ts : List (Tick ℝ)), ts ≠ [] ∧ Spec.Unachieved g ts g' ∧ 0 < g.config.updateInterval := by
  obtain ⟨g, g', e, h1, -, h2⟩ := exists_unachieved
  exact ⟨g, g', [e], by simp, h2, h1⟩

section
variable [Rounding] [LibM]

/-- **C51 in doubles**: with at most 10^14 agents, all at proper phases, no iteration panics and every one ends. -/
theorem C51_iteration_ends_double (g : Gds F64) (e : Tick F64) (ha : Spec.HasAgents (e.others g.swarm))
    (hn : ((e.others g.swarm).phases (e.order 9)).length ≤ 10 ^ 14)
    (hp : ∀ p ∈ (e.others g.swarm).phases (e.order 9), InTurn p) (hf : 2 ≤ e.fuel) : ∃ r, g.iterate e = .ok r := by
  obtain ⟨v, hv, -⟩ := C57_variance_double _ hn hp e.fuel hf
  exact iterate_total_of g e ha ⟨_, hv⟩

end

/-! ## C58 over the reals -/

/-- **C58**, as one would expect it: achievement depends on coherence and, for high goals, phase convergence only, and
raising the measured coherence never un-achieves a goal. -/
def C58_claim : Prop :=
  (∀ (cfg : GoalConfig ℝ) (n : ℤ) (t c : TargetPattern ℝ) (conv : ℝ), cfg.validate = none →
    (isPatternAchieved cfg n t c conv = true ↔
      (∃ tol, IsTolerance cfg n t.coherence tol ∧ t.coherence - tol ≤ c.coherence) ∧
        (cfg.highCoherence ≤ t.coherence → cfg.phaseConvergenceGoal ≤ conv))) ∧
  ∀ (cfg : GoalConfig ℝ) (n : ℤ) (t c : TargetPattern ℝ) (conv x : ℝ), cfg.validate = none → c.coherence ≤ x → x ≤ 1 →
    isPatternAchieved cfg n t c conv = true → isPatternAchieved cfg n t { c with coherence := x } conv = true

theorem distance_coherence (t : TargetPattern ℝ) (x : ℝ) :
    patternDistance (some { t with coherence := x }) (some t) = 0.3 * |t.coherence - x| := by
  have h := C06_distance_self t
  rw [patternDistance_some] at h ⊢
  have : freqDeviation { t with coherence := x } t = freqDeviation t t := rfl
  rw [this]
  simp only [sub_self, abs_zero, mul_zero, add_zero] at h
  simp only [h, zero_add]

/-- **C58 is false in both halves.** Under the default configuration a swarm exactly at the goal coherence 0.5 but three
times too slow does not count (`C58_frequency_counts`); and a swarm at the goal that becomes fully coherent is no longer at
the goal, because the pattern distance also punishes coherence above the target. -/
theorem C58_refuted : ¬ C58_claim := by
  rintro ⟨-, h2⟩
  have hv : (defaultConfig : GoalConfig ℝ).validate = none := by
    unfold GoalConfig.validate defaultConfig
    norm_num [millisecond, second]
  let t : TargetPattern ℝ := ⟨1, 1, 1, 0.5, [], 0.9⟩
  have h := h2 defaultConfig 20 t t 0 1 hv (by norm_num [t]) le_rfl ?_
  · rw [C58_decision] at h
    have h3 := h.2.1
    rw [distance_coherence] at h3
    norm_num [t, defaultConfig, abs_of_neg] at h3
  · rw [C58_decision]
    refine ⟨⟨_, (isTolerance_iff _ _ _ _).2 rfl, ?_⟩, ?_, fun hh => ?_⟩
    · norm_num [achievementTolerance, getCoherenceLimits, t, defaultConfig]
    · rw [C06_distance_self]; norm_num [defaultConfig]
    · exfalso; revert hh; norm_num [t, defaultConfig]

/-- The first half of the claim fails too: coherence is reached and the goal is not high, yet it does not count. -/
theorem C58_frequency_counts : ∃ (t c : TargetPattern ℝ), c.coherence = t.coherence ∧ t.coherence < (defaultConfig : GoalConfig ℝ).highCoherence ∧
    ∀ n conv, isPatternAchieved (defaultConfig : GoalConfig ℝ) n t c conv = false := by
  refine ⟨⟨1, 1, 1, 0.5, [], 0.9⟩, ⟨1, 3, 1, 0.5, [], 0.5⟩, rfl, by norm_num [defaultConfig], fun n conv => ?_⟩
  rw [Bool.eq_false_iff, ne_eq, C58_decision]
  rintro ⟨-, h, -⟩
  rw [patternDistance_some] at h
  have hp : 0 ≤ |phaseDifference (1 : ℝ) 1| / Real.pi := div_nonneg (abs_nonneg _) Real.pi_pos.le
  norm_num [freqDeviation, defaultConfig] at h
  linarith

/-- **C58, what holds of the monotonicity.** A better phase convergence never un-achieves a goal, and neither does more
coherence as long as it does not exceed the target. Missing: coherence above the target (`C58_refuted`). -/
theorem C58_monotone_partial (cfg : GoalConfig ℝ) (n : ℤ) (t c : TargetPattern ℝ) (conv x y : ℝ) (hx : c.coherence ≤ x)
    (hx' : x ≤ max c.coherence t.coherence) (hy : conv ≤ y) (h : isPatternAchieved cfg n t c conv = true) :
    isPatternAchieved cfg n t { c with coherence := x } y = true := by
  rw [C58_decision] at h ⊢
  obtain ⟨⟨tol, h1, h2⟩, h3, h4⟩ := h
  refine ⟨⟨tol, h1, h2.trans hx⟩, lt_of_le_of_lt ?_ h3, fun hh => (h4 hh).trans hy⟩
  rw [patternDistance_some, patternDistance_some]
  have hf : freqDeviation { c with coherence := x } t = freqDeviation c t := rfl
  rw [hf]
  have : |t.coherence - x| ≤ |t.coherence - c.coherence| := by
    rcases le_max_iff.1 hx' with h | h
    · rw [le_antisymm h hx]
    · rw [abs_of_nonneg (by linarith), abs_of_nonneg (by linarith)]; linarith
  simp only
  linarith

example : ∃ (cfg : GoalConfig ℝ) (n : ℤ) (t c : TargetPattern ℝ) (conv x y : ℝ), c.coherence < x ∧
    x ≤ max c.coherence t.coherence ∧ conv < y ∧ isPatternAchieved cfg n t c conv = true := by
  refine ⟨defaultConfig, 20, ⟨1, 1, 1, 0.5, [], 0.9⟩, ⟨1, 1, 1, 0.499, [], 0.9⟩, 0, 0.5, 1, by norm_num, by norm_num,
    by norm_num, ?_⟩
  rw [C58_decision]
  refine ⟨⟨_, (isTolerance_iff _ _ _ _).2 rfl, ?_⟩, ?_, fun hh => ?_⟩
  · norm_num [achievementTolerance, getCoherenceLimits, defaultConfig]
  · have := distance_coherence ⟨1, 1, 1, 0.5, [], 0.9⟩ 0.499
    rw [this]
    norm_num [defaultConfig, abs_of_pos]
  · exfalso; revert hh; norm_num [defaultConfig]

end Verif
