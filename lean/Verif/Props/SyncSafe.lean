import Verif.Props.SyncBudget

/-!
# C53: synchronisation steps preserve the validity of agents
-/

set_option autoImplicit false
set_option linter.unusedSectionVars false

namespace Verif
open GoMath

/-! ## Steps that keep a property of agents -/

section generic
variable {α : Type} [Zero α] [One α] [Add α] [Sub α] [Mul α] [Div α] [Neg α] [LT α] [LE α]
  [DecidableLT α] [DecidableLE α] [BEq α] [OfScientific α] [GoMath α]

/-- The single changes of `applyPatternCompletion` and `addStochasticResonance` keep `V`, at scales satisfying `S`. -/
structure StepsKeep (V : Agent α → Prop) (S : α → Prop) (c : AdjustCtx α) : Prop where
  scatter : ∀ a w, V a → V (scatterAgent a w)
  freq : ∀ f a, V a → V (adjustFrequency f a)
  pull : ∀ s w a, S s → V a → V (pullAgent c s w a)
  nudge : ∀ s w a, S s → V a → V (nudgeAgent c s w a)
  walk : ∀ w a, V a → V (walkAgent c w a)
  noisy : ∀ w a, V a → V (noisyAgent c.cfg w a)
  scale : S c.scale
  shrink : ∀ s, S s → S (s * 0.2)

theorem adjustAgent_keeps {V : Agent α → Prop} {S : α → Prop} {c : AdjustCtx α} (k : StepsKeep V S c) (scale : α) (hs : S scale)
    (i : ℕ) (w : ℕ → ℕ) (a : Agent α) (ha : V a) : V (adjustAgent c scale i w a).1 ∧ S (adjustAgent c scale i w a).2 := by
  unfold adjustAgent
  split_ifs
  · exact ⟨k.freq _ _ (k.pull _ _ _ hs ha), hs⟩
  · exact ⟨k.walk _ _ ha, hs⟩
  · exact ⟨k.freq _ _ (k.nudge _ _ _ (k.shrink _ hs) ha), k.shrink _ hs⟩
  · exact ⟨k.freq _ _ (k.nudge _ _ _ hs ha), hs⟩

theorem adjustAgent_scale {V : Agent α → Prop} {S : α → Prop} {c : AdjustCtx α} (k : StepsKeep V S c) (scale : α) (hs : S scale)
    (i : ℕ) (w : ℕ → ℕ) (a : Agent α) : S (adjustAgent c scale i w a).2 := by
  unfold adjustAgent
  split_ifs
  · exact hs
  · exact hs
  · exact k.shrink _ hs
  · exact hs

theorem adjustLoop_keeps {V : Agent α → Prop} {S : α → Prop} {c : AdjustCtx α} (k : StepsKeep V S c) (word : ℕ → ℕ → ℕ)
    (l : List ℕ) (i : ℕ) (scale : α) (hs : S scale) (h : ℕ → Agent α) (x : ℕ) (hx : V (h x)) :
    V (adjustLoop c word l i scale h x) := by
  induction l generalizing i scale h with
  | nil => exact hx
  | cons a as ih =>
    unfold adjustLoop
    dsimp only
    refine ih _ _ (adjustAgent_scale k scale hs _ _ _) _ ?_
    unfold setAt
    split_ifs with e
    · subst e; exact (adjustAgent_keeps k scale hs _ _ _ hx).1
    · exact hx

theorem scatterLoop_keeps {V : Agent α → Prop} (k : ∀ a w, V a → V (scatterAgent a w)) (word : ℕ → ℕ → ℕ)
    (l : List ℕ) (i : ℕ) (h : ℕ → Agent α) (x : ℕ) (hx : V (h x)) : V (scatterLoop word l i h x) := by
  induction l generalizing i h with
  | nil => exact hx
  | cons a as ih =>
    unfold scatterLoop
    refine ih _ _ ?_
    unfold setAt
    split_ifs with e
    · subst e; exact k _ _ hx
    · exact hx

theorem applyCompletion_keeps {V : Agent α → Prop} {S : α → Prop} {c : AdjustCtx α} (k : StepsKeep V S c) (word : ℕ → ℕ → ℕ)
    (l : List ℕ) (h : ℕ → Agent α) (x : ℕ) (hx : V (h x)) : V (applyCompletion c word l h x) := by
  unfold applyCompletion
  split_ifs
  · exact scatterLoop_keeps k.scatter _ _ _ _ _ hx
  · exact adjustLoop_keeps k _ _ _ _ k.scale _ _ hx

theorem resonance_keeps {V : Agent α → Prop} {cfg : GoalConfig α} (k : ∀ w a, V a → V (noisyAgent cfg w a)) (n : ℕ)
    (agents : ℕ → List ℕ) (pick noise : ℕ → ℕ) (h h' : ℕ → Agent α) (e : resonance cfg n agents pick noise h = .ok h')
    (x : ℕ) (hx : V (h x)) : V (h' x) := by
  unfold resonance at e
  split_ifs at e
  injection e with e
  subst e
  generalize List.range _ = l
  induction l generalizing h with
  | nil => exact hx
  | cons j js ih =>
    rw [List.foldl_cons]
    refine ih _ ?_
    cases (agents j)[pick j % n]? with
    | some a =>
      show V (setAt h a _ x)
      unfold setAt
      split_ifs with e
      · subst e; exact k _ _ hx
      · exact hx
    | none => exact hx

/-- Every agent of the swarm satisfies `V`. -/
def Spec.AllAgents (V : Agent α → Prop) (s : Swarm α) : Prop :=
  ∀ order : SyncMap ℕ → SyncMap ℕ, (∀ m, (order m).Perm m) → ∀ a ∈ s.collectAgents order, V (s.heap a)

theorem allAgents_heap {V : Agent α → Prop} {s : Swarm α} (h : Spec.AllAgents V s) (h' : ℕ → Agent α)
    (hk : ∀ x, V (s.heap x) → V (h' x)) : Spec.AllAgents V { s with heap := h' } :=
  fun order hp a ha => hk a (h order hp a ha)

/-- `Q` survives every change of agents that keeps `V x` for the agent at every address `x`. -/
def HeapClosedAt (V : ℕ → Agent α → Prop) (Q : Swarm α → Prop) : Prop :=
  ∀ (s : Swarm α) (h' : ℕ → Agent α), Q s → (∀ x, V x (s.heap x) → V x (h' x)) → Q { s with heap := h' }

/-- `Q` survives every change of agents that keeps `V`. -/
def HeapClosed (V : Agent α → Prop) (Q : Swarm α → Prop) : Prop :=
  ∀ (s : Swarm α) (h' : ℕ → Agent α), Q s → (∀ x, V (s.heap x) → V (h' x)) → Q { s with heap := h' }

theorem allAgents_closed (V : Agent α → Prop) : HeapClosed V (Spec.AllAgents V) := fun _ h' h hk => allAgents_heap h h' hk

theorem adjust_keeps {V : ℕ → Agent α → Prop} {Q : Swarm α → Prop} (hQ : HeapClosedAt V Q) (g g' : Gds α) (s : Swarm α) (e : Tick α)
    (current : TargetPattern α) (hall : Q s)
    (hk : ∀ cp v, g.engine.completePattern e.templates current (identifyGaps' current g.target) = .ok cp →
      ∃ S, ∀ x, StepsKeep (V x) S (g.adjustCtx s e cp v))
    (h : g.adjust s e current = .ok g') :
    Q g'.swarm ∧ g'.config = g.config ∧ g'.target = g.target ∧ g'.engine = g.engine := by
  unfold Gds.adjust at h
  split at h
  · cases h
  · next cp hcp =>
    split at h
    · cases h
    · next v hv =>
      dsimp only at h
      obtain ⟨S, k⟩ := hk cp v hcp
      split at h
      · next s' hs' =>
        injection h with h
        subst h
        refine ⟨?_, rfl, rfl, rfl⟩
        show Q s'
        have h1 := hQ s _ hall
          (fun x hx => applyCompletion_keeps (k x) e.word (s.rangeAgents (e.order 7) (e.order 8)) s.heap x hx)
        unfold Gds.resonate at hs'
        dsimp only at hs'
        split_ifs at hs' with hst
        · split at hs'
          · next h2 hr =>
            injection hs' with hs'
            subst hs'
            exact hQ { s with heap := applyCompletion (g.adjustCtx s e cp v) e.word (s.rangeAgents (e.order 7) (e.order 8)) s.heap }
              h2 h1 (fun x hx => resonance_keeps (k x).noisy _ _ _ _ _ _ hr x hx)
          · cases hs'
        · injection hs' with hs'
          subst hs'
          exact h1
      · cases h
      · cases h

theorem iterate_keeps {V : ℕ → Agent α → Prop} {Q : Swarm α → Prop} (hQ : HeapClosedAt V Q) (g g' : Gds α) (e : Tick α) (b : Bool)
    (hall : Q (e.others g.swarm))
    (hk : ∀ cp v, g.engine.completePattern e.templates ((e.others g.swarm).pattern e)
        (identifyGaps' ((e.others g.swarm).pattern e) g.target) = .ok cp →
      ∃ S, ∀ x, StepsKeep (V x) S (g.adjustCtx (e.others g.swarm) e cp v))
    (h : g.iterate e = .ok (b, g')) : Q g'.swarm ∧ g'.config = g.config ∧ g'.target = g.target ∧ g'.engine = g.engine := by
  unfold Gds.iterate at h
  dsimp only at h
  split_ifs at h with h1 h2
  · injection h with h; injection h with _ h; subst h; exact ⟨hall, rfl, rfl, rfl⟩
  all_goals
    split at h
    · next g2 hg2 =>
      injection h with h
      injection h with _ h
      subst h
      have r := fun hk => adjust_keeps hQ _ g2 _ e _ hall hk hg2
      exact r hk
    · cases h
    · cases h

theorem loop_keeps_at {V : ℕ → Agent α → Prop} {Q : Swarm α → Prop} (hQ : HeapClosedAt V Q) (g : Gds α) (budget : ℤ)
    (evs : List (SyncEvent α)) (k : ℕ) (hg : Q g.swarm) (ho : ∀ e, .tick e ∈ evs → ∀ s, Q s → Q (e.others s))
    (hk : ∀ (e : Tick α) (s : Swarm α), Q s → ∀ cp v,
      g.engine.completePattern e.templates (s.pattern e) (identifyGaps' (s.pattern e) g.target) = .ok cp →
      ∃ S, ∀ x, StepsKeep (V x) S (g.adjustCtx s e cp v)) :
    Q (g.loop budget evs k).2.2.swarm := by
  induction evs generalizing g k with
  | nil =>
    unfold Gds.loop
    split_ifs <;> exact hg
  | cons ev evs ih =>
    unfold Gds.loop
    split_ifs
    · cases ev with
      | cancel => exact hg
      | tick e =>
        dsimp only
        have hoth := ho e (by simp) _ hg
        cases hi : g.iterate e with
        | panic => exact hg
        | running => exact hg
        | ok r =>
          obtain ⟨b, g'⟩ := r
          obtain ⟨h1, h2, h3, h4⟩ := iterate_keeps hQ g g' e b hoth (hk e _ hoth) hi
          cases b with
          | true => exact h1
          | false =>
            refine ih g' (k + 1) h1 (fun e' he' => ho e' (List.mem_cons_of_mem _ he')) ?_
            intro e' s hs cp v
            unfold Gds.adjustCtx
            rw [h2, h3, h4]
            exact hk e' s hs cp v
    · exact hg

theorem loop_keeps {V : Agent α → Prop} {Q : Swarm α → Prop} (hQ : HeapClosed V Q) (g : Gds α) (budget : ℤ)
    (evs : List (SyncEvent α)) (k : ℕ) (hg : Q g.swarm) (ho : ∀ e, .tick e ∈ evs → ∀ s, Q s → Q (e.others s))
    (hk : ∀ (e : Tick α) (s : Swarm α), Q s → ∀ cp v,
      g.engine.completePattern e.templates (s.pattern e) (identifyGaps' (s.pattern e) g.target) = .ok cp →
      ∃ S, StepsKeep V S (g.adjustCtx s e cp v)) :
    Q (g.loop budget evs k).2.2.swarm :=
  loop_keeps_at (V := fun _ => V) hQ g budget evs k hg ho fun e s hs cp v h => by
    obtain ⟨S, k⟩ := hk e s hs cp v h
    exact ⟨S, fun _ => k⟩

end generic

/-! ## Over the reals -/

/-- A valid agent: its phase is in `[0, 2π)` and its frequency is positive. -/
def Spec.Valid (a : Agent ℝ) : Prop := 0 ≤ a.state.phase ∧ a.state.phase < 2 * Real.pi ∧ 0 < a.state.frequency

theorem valid_setPhase (a : Agent ℝ) (x : ℝ) (h : Spec.Valid a) : Spec.Valid (a.setPhase x) :=
  ⟨wrapPhase_nonneg x, wrapPhase_lt x, h.2.2⟩

theorem freq_keeps {α : Type} [Zero α] [One α] [Add α] [Sub α] [Mul α] [Div α] [Neg α] [LT α] [LE α]
    [DecidableLT α] [DecidableLE α] [BEq α] [OfScientific α] [GoMath α] (f : ℤ) (a : Agent α) (h : 0 < a.state.frequency) :
    0 < (adjustFrequency f a).state.frequency ∧ (adjustFrequency f a).state.phase = a.state.phase := by
  unfold adjustFrequency
  split_ifs with h1 h2
  · exact ⟨h2, rfl⟩
  · exact ⟨h, rfl⟩
  · exact ⟨h, rfl⟩

theorem stepsKeep_real (c : AdjustCtx ℝ) : StepsKeep Spec.Valid (fun _ => True) c where
  scatter a w h := valid_setPhase _ _ h
  freq f a h := by
    obtain ⟨h1, h2⟩ := freq_keeps f a h.2.2
    unfold Spec.Valid
    rw [h2]
    exact ⟨h.1, h.2.1, h1⟩
  pull s w a _ h := by
    unfold pullAgent; dsimp only; split_ifs
    · exact valid_setPhase _ _ h
    · exact h
  nudge s w a _ h := by
    unfold nudgeAgent; dsimp only; split_ifs
    · exact valid_setPhase _ _ h
    · exact valid_setPhase _ _ h
    · exact h
  walk w a h := valid_setPhase _ _ h
  noisy w a h := valid_setPhase _ _ h
  scale := trivial
  shrink _ _ := trivial

/-- **C53 over the reals, one step.** Whatever has been measured, whatever the configuration and the random words, the
adjustments leave every valid agent valid. -/
theorem C53_adjustments (c : AdjustCtx ℝ) (word : ℕ → ℕ → ℕ) (l : List ℕ) (h : ℕ → Agent ℝ) (x : ℕ) (hx : Spec.Valid (h x)) :
    Spec.Valid (applyCompletion c word l h x) := applyCompletion_keeps (stepsKeep_real c) word l h x hx

/-- The same for the stochastic perturbations. -/
theorem C53_perturbations (cfg : GoalConfig ℝ) (n : ℕ) (agents : ℕ → List ℕ) (pick noise : ℕ → ℕ) (h h' : ℕ → Agent ℝ)
    (e : resonance cfg n agents pick noise h = .ok h') (x : ℕ) (hx : Spec.Valid (h x)) : Spec.Valid (h' x) :=
  resonance_keeps (fun _ _ h => valid_setPhase _ _ h) n agents pick noise h h' e x hx

/-- **C53 over the reals, whole runs.** If the other goroutines keep agents valid, then all agents are valid whenever the
synchronisation run stops, however it stops and whatever happened before. -/
theorem C53_run (g : Gds ℝ) (budget : ℤ) (evs : List (SyncEvent ℝ)) (k : ℕ) (hg : Spec.AllAgents Spec.Valid g.swarm)
    (ho : ∀ e, .tick e ∈ evs → ∀ s, Spec.AllAgents Spec.Valid s → Spec.AllAgents Spec.Valid (e.others s)) :
    Spec.AllAgents Spec.Valid (g.loop budget evs k).2.2.swarm :=
  loop_keeps (allAgents_closed _) g budget evs k hg ho (fun _ _ _ _ _ _ => ⟨_, stepsKeep_real _⟩)

/-- The run is the whole of `AchieveSynchronization`. -/
theorem C53_achieve (g : Gds ℝ) (order : SyncMap ℕ → SyncMap ℕ) (target : TargetPattern ℝ) (evs : List (SyncEvent ℝ))
    (hg : Spec.AllAgents Spec.Valid g.swarm)
    (ho : ∀ e, .tick e ∈ evs → ∀ s, Spec.AllAgents Spec.Valid s → Spec.AllAgents Spec.Valid (e.others s)) :
    Spec.AllAgents Spec.Valid (g.achieve order target evs).2.2.swarm := by
  unfold Gds.achieve
  dsimp only
  split_ifs
  · exact hg
  · exact C53_run _ _ _ _ hg ho

/-! ## In doubles -/

section Doubles
variable [Rounding] [LibM]

/-- A finite number of size at most `m`. -/
def F64.Bd (m : ℕ) (x : F64) : Prop := ∃ d : Dbl, x = .fin d ∧ |d.1| ≤ m

namespace F64.Bd

theorem ofReal {x : ℝ} (n : ℕ) (hn : n < 2 ^ 53) (h : |x| ≤ n) : F64.Bd n (F64.ofReal x) := F64.ofReal_abs_le n hn h

theorem mono {m n : ℕ} {x : F64} (h : F64.Bd m x) (hmn : m ≤ n) : F64.Bd n x := by
  obtain ⟨d, e, hd⟩ := h
  exact ⟨d, e, hd.trans (by exact_mod_cast hmn)⟩

theorem add {m n : ℕ} {x y : F64} (hx : F64.Bd m x) (hy : F64.Bd n y) (h : m + n < 2 ^ 53) : F64.Bd (m + n) (x + y) := by
  obtain ⟨a, rfl, ha⟩ := hx
  obtain ⟨b, rfl, hb⟩ := hy
  rw [F64.add_fin]
  refine ofReal _ h ((abs_add_le _ _).trans ?_)
  push_cast; linarith

theorem sub {m n : ℕ} {x y : F64} (hx : F64.Bd m x) (hy : F64.Bd n y) (h : m + n < 2 ^ 53) : F64.Bd (m + n) (x - y) := by
  obtain ⟨a, rfl, ha⟩ := hx
  obtain ⟨b, rfl, hb⟩ := hy
  rw [F64.sub_fin]
  refine ofReal _ h ((abs_sub _ _).trans ?_)
  push_cast; linarith

theorem mul {m n : ℕ} {x y : F64} (hx : F64.Bd m x) (hy : F64.Bd n y) (h : m * n < 2 ^ 53) : F64.Bd (m * n) (x * y) := by
  obtain ⟨a, rfl, ha⟩ := hx
  obtain ⟨b, rfl, hb⟩ := hy
  exact F64.mul_bounded a b m n h ha hb

theorem half {m : ℕ} {x : F64} (hx : F64.Bd m x) (h : m < 2 ^ 53) : F64.Bd m (x / 2.0) := by
  obtain ⟨a, rfl, ha⟩ := hx
  have e := lit_int (2.0 : ℝ) 2 (by norm_num) (by norm_num)
  change F64.Bd m (F64.fin a / F64.ofReal 2.0)
  rw [e, F64.div_fin (by norm_num)]
  refine ofReal _ h ?_
  rw [abs_div]
  push_cast
  rw [abs_of_pos (by norm_num : (0 : ℝ) < 2)]
  have := abs_nonneg a.1
  linarith

theorem one : F64.Bd 1 (1 : F64) := ⟨⟨1, isDouble_one⟩, F64.one_def, by simp⟩

theorem rand (w : ℕ) : F64.Bd 1 (randFloat64 w) := by
  obtain ⟨x, e, h0, h1⟩ := C32_float_range.1 w
  exact ⟨x, e, by rw [abs_of_nonneg h0]; push_cast; linarith⟩

theorem fmax {m : ℕ} {x y : F64} (hx : F64.Bd m x) (hy : F64.Bd m y) : F64.Bd m (fmax x y) := by
  obtain ⟨a, rfl, ha⟩ := hx
  obtain ⟨b, rfl, hb⟩ := hy
  change F64.Bd m (if b.1 < a.1 then F64.fin a else F64.fin b)
  split_ifs
  · exact ⟨a, rfl, ha⟩
  · exact ⟨b, rfl, hb⟩

theorem inTurn {m : ℕ} {x : F64} (h : F64.Bd m x) : InTurn (wrapPhase x) := by
  obtain ⟨d, rfl, -⟩ := h
  exact inTurn_wrap d

theorem of_inTurn {x : F64} (h : InTurn x) : F64.Bd 7 x := by
  obtain ⟨d, e, hd⟩ := h.small
  exact ⟨d, e, by exact_mod_cast hd⟩

end F64.Bd

/-- A valid agent in doubles. -/
def Spec.ValidDouble (a : Agent F64) : Prop := InTurn a.state.phase ∧ 0 < a.state.frequency

/-- Magnitudes of a reasonable configuration: no NaN, no infinity, nothing beyond 1000. -/
structure Spec.Moderate (cfg : GoalConfig F64) : Prop where
  base : F64.Bd 1000 cfg.baseAdjustmentScale
  vmin : F64.Bd 1000 cfg.variationMin
  vmax : F64.Bd 1000 cfg.variationMax
  factor : F64.Bd 1000 cfg.coherenceFactor
  walk : F64.Bd 1000 cfg.randomWalkMagnitude
  perturb : F64.Bd 1000 cfg.perturbationMagnitude
  noise : F64.Bd 1000 cfg.noiseMagnitude

/-- What the measurements of `applyPatternCompletion` can be. -/
structure Spec.Measured (c : AdjustCtx F64) : Prop where
  adj : F64.Bd 4 c.phaseAdj
  coh : F64.Bd 2 c.coherence
  size : F64.Bd 1 c.sizeNormalized
  target : F64.IsFinite c.targetPhase

theorem bd_lit01 (x : ℝ) (h0 : 0 ≤ x) (h1 : x ≤ 1) : F64.Bd 1 (F64.ofReal x) :=
  F64.Bd.ofReal 1 (by norm_num) (by rw [abs_of_nonneg h0]; exact_mod_cast h1)

theorem valid_setPhase_double (a : Agent F64) (x : F64) (h : Spec.ValidDouble a) {m : ℕ} (hx : F64.Bd m x) :
    Spec.ValidDouble (a.setPhase x) := ⟨hx.inTurn, h.2⟩

theorem valid_setPhase_wrap (a : Agent F64) (x : F64) (h : Spec.ValidDouble a) {m : ℕ} (hx : F64.Bd m x) :
    Spec.ValidDouble (a.setPhase (wrapPhase x)) := ⟨(F64.Bd.of_inTurn hx.inTurn).inTurn, h.2⟩

theorem phaseDiff_bd {t p : F64} (ht : F64.IsFinite t) (hp : InTurn p) : F64.Bd 7 (wrapPhase (t - p)) := by
  obtain ⟨x, y, d, -, -, -, e⟩ := sub_finite ht hp.toSmall
  rw [e]
  exact F64.Bd.of_inTurn (inTurn_wrap d)

theorem bd_half : F64.Bd 1 (0.5 : F64) := bd_lit01 0.5 (by norm_num) (by norm_num)

theorem stepsKeep_double (c : AdjustCtx F64) (hm : Spec.Moderate c.cfg) (hc : Spec.Measured c) :
    StepsKeep Spec.ValidDouble (F64.Bd 3000) c where
  scatter a w h := by
    unfold scatterAgent
    have hpi : F64.Bd 4 (piMul 1 : F64) := by
      rw [F64.piMul_one]
      refine ⟨_, rfl, ?_⟩
      have := piDouble_bounds
      change |piDouble| ≤ _
      rw [abs_of_pos (by linarith)]; push_cast; linarith
    exact valid_setPhase_double _ _ h ((F64.Bd.of_inTurn h.1).add
      (((((F64.Bd.rand w).sub bd_half (by norm_num)).mul hpi (by norm_num)).mul
        (bd_lit01 0.3 (by norm_num) (by norm_num)) (by norm_num))) (by norm_num))
  freq f a h := by
    obtain ⟨h1, h2⟩ := freq_keeps f a h.2
    unfold Spec.ValidDouble
    rw [h2]
    exact ⟨h.1, h1⟩
  pull s w a hs h := by
    unfold pullAgent; dsimp only; split_ifs
    · exact valid_setPhase_wrap _ _ h ((F64.Bd.of_inTurn h.1).add
        ((((phaseDiff_bd hc.target h.1).mul hs (by norm_num)).mul (bd_lit01 0.9 (by norm_num) (by norm_num)) (by norm_num)).mul
          ((bd_lit01 0.95 (by norm_num) (by norm_num)).add
            ((F64.Bd.rand _).mul (bd_lit01 0.1 (by norm_num) (by norm_num)) (by norm_num)) (by norm_num))
          (by norm_num)) (by norm_num))
    · exact h
  nudge s w a hs h := by
    have hrange : F64.Bd 3 ((0.3 : F64) + (1 - c.sizeNormalized) * 0.2) :=
      (bd_lit01 0.3 (by norm_num) (by norm_num)).add
        ((F64.Bd.one.sub hc.size (by norm_num)).mul (bd_lit01 0.2 (by norm_num) (by norm_num)) (by norm_num)) (by norm_num)
    have hvar : ∀ w, F64.Bd 14000 (c.variation w) := by
      intro w
      unfold AdjustCtx.variation
      exact ((F64.Bd.rand w).sub bd_half (by norm_num)).mul
        ((hm.vmin.add ((F64.Bd.one.sub hc.size (by norm_num)).mul (hm.vmax.sub hm.vmin (by norm_num)) (by norm_num))
          (by norm_num)).add (hc.coh.mul hm.factor (by norm_num)) (by norm_num)) (by norm_num)
    unfold nudgeAgent; dsimp only; split_ifs
    · refine valid_setPhase_wrap _ _ h ((F64.Bd.of_inTurn h.1).add
        (((((hc.adj.mul (bd_lit01 0.3 (by norm_num) (by norm_num)) (by norm_num)).add
          ((phaseDiff_bd hc.target h.1).mul hs (by norm_num)) (by norm_num)).mul
          ((F64.Bd.one.sub (hrange.half (by norm_num)) (by norm_num)).add ((F64.Bd.rand _).mul hrange (by norm_num))
            (by norm_num)) (by norm_num))).mul (F64.Bd.one.add (hvar _) (by norm_num)) (by norm_num)) (by norm_num))
    · exact valid_setPhase_wrap _ _ h ((F64.Bd.of_inTurn h.1).add
        (((F64.Bd.rand _).sub bd_half (by norm_num)).mul hm.perturb (by norm_num)) (by norm_num))
    · exact h
  walk w a h := valid_setPhase_wrap _ _ h ((F64.Bd.of_inTurn h.1).add
        (((F64.Bd.rand _).sub bd_half (by norm_num)).mul hm.walk (by norm_num)) (by norm_num))
  noisy w a h := valid_setPhase_wrap _ _ h ((F64.Bd.of_inTurn h.1).add
        (((F64.Bd.rand _).sub bd_half (by norm_num)).mul hm.noise (by norm_num)) (by norm_num))
  scale := by
    have l : ∀ x : ℝ, 0 ≤ x → x ≤ 1 → F64.Bd 3000 (F64.ofReal x) := fun x h0 h1 => (bd_lit01 x h0 h1).mono (by norm_num)
    unfold AdjustCtx.scale
    dsimp only
    split_ifs
    · have h12 : F64.Bd 2 (F64.ofReal 1.2) := F64.Bd.ofReal 2 (by norm_num) (by rw [abs_of_pos (by norm_num)]; norm_num)
      exact (hm.base.mul h12 (by norm_num)).mono (by norm_num)
    · exact l 0.1 (by norm_num) (by norm_num)
    · exact l 0.2 (by norm_num) (by norm_num)
    · exact l 0.3 (by norm_num) (by norm_num)
    · exact l 0.4 (by norm_num) (by norm_num)
    · exact (hm.base.mul (F64.Bd.one.sub (hc.coh.mul (bd_lit01 0.15 (by norm_num) (by norm_num)) (by norm_num))
        (by norm_num)) (by norm_num)).fmax (l 0.4 (by norm_num) (by norm_num))
  shrink s hs := F64.Bd.mul (n := 1) hs (bd_lit01 0.2 (by norm_num) (by norm_num)) (by norm_num)


/-- In doubles the measured coherence of at most ten million agents is a number between 0 and 2. -/
theorem C03_coherence_double (l : List F64) (hn : l.length ≤ 10 ^ 7) (hl : ∀ x ∈ l, F64.IsFinite x) :
    ∃ d : Dbl, measureCoherence l = .fin d ∧ 0 ≤ d.1 ∧ d.1 ≤ 2 := by
  unfold measureCoherence
  split_ifs with h0
  · exact ⟨⟨0, isDouble_zero⟩, F64.zero_def, le_rfl, by norm_num⟩
  · have swap : ∀ (l : List F64) (x y : F64), l.foldl (fun (s : F64 × F64) p => (s.1 + cos p, s.2 + sin p)) (x, y) =
        (l.foldl (fun (s : F64 × F64) p => (s.1 + sin p, s.2 + cos p)) (y, x)).swap := by
      intro l
      induction l with
      | nil => intro x y; rfl
      | cons p ps ih => intro x y; exact ih _ _
    obtain ⟨c, d, e, hc, hd⟩ := meanSums_f64 l hl 0 ⟨0, isDouble_zero⟩ ⟨0, isDouble_zero⟩ (by simp) (by simp) (by omega)
    rw [zero_add] at hc hd
    dsimp only
    rw [swap, F64.zero_def, e]
    dsimp only [Prod.swap]
    obtain ⟨n, hln⟩ : ∃ n, l.length = n := ⟨_, rfl⟩
    rw [hln] at hc hd hn h0 ⊢
    have sq : ∀ x : Dbl, |x.1| ≤ n → ∃ y : Dbl, F64.fin x * F64.fin x = .fin y ∧ 0 ≤ y.1 ∧ y.1 ≤ ((n * n : ℕ) : ℤ) := by
      intro x hx
      rw [F64.mul_fin]
      obtain ⟨y, e, h1, h2⟩ := F64.ofReal_int_between (x := x.1 * x.1) 0 ((n * n : ℕ) : ℤ) (by norm_num)
        (by rw [abs_of_nonneg (by positivity)]; have : n * n ≤ 10 ^ 7 * 10 ^ 7 := Nat.mul_le_mul hn hn; omega)
        (by push_cast; exact mul_self_nonneg _)
        (by push_cast; have := mul_self_le_mul_self (abs_nonneg x.1) hx; rwa [abs_mul_abs_self] at this)
      exact ⟨y, e, by exact_mod_cast h1, h2⟩
    obtain ⟨u, eu, u0, u1⟩ := sq d hd
    obtain ⟨v, ev, v0, v1⟩ := sq c hc
    rw [eu, ev, F64.add_fin]
    obtain ⟨w, ew, w0, w1⟩ := F64.ofReal_int_between (x := u.1 + v.1) 0 ((2 * (n * n) : ℕ) : ℤ) (by norm_num)
        (by rw [abs_of_nonneg (by positivity)]; have : n * n ≤ 10 ^ 7 * 10 ^ 7 := Nat.mul_le_mul hn hn; omega)
        (by push_cast; linarith) (by push_cast at u1 v1 ⊢; linarith)
    rw [ew]
    change ∃ e : Dbl, (if w.1 < 0 then F64.nan else F64.ofReal (Real.sqrt w.1)) / _ = F64.fin e ∧ _
    have w0' : 0 ≤ w.1 := by exact_mod_cast w0
    rw [if_neg (not_lt.2 w0')]
    have hs : Real.sqrt w.1 ≤ ((2 * n : ℕ) : ℤ) := by
      refine Real.sqrt_le_iff.2 ⟨by positivity, ?_⟩
      refine w1.trans ?_
      push_cast
      nlinarith [mul_self_nonneg (n : ℝ)]
    obtain ⟨q, eq, q0, q1⟩ := F64.ofReal_int_between (x := Real.sqrt w.1) 0 ((2 * n : ℕ) : ℤ) (by norm_num)
        (by rw [abs_of_nonneg (by positivity)]; omega) (by push_cast; exact Real.sqrt_nonneg _) hs
    have dn : IsDouble ((n : ℤ) : ℝ) := isDouble_int (by rw [abs_of_nonneg (by positivity)]; omega)
    have en : (ofInt (n : ℤ) : F64) = .fin ⟨_, dn⟩ := F64.ofReal_of_isDouble dn
    have n1 : (1 : ℝ) ≤ n := by exact_mod_cast Nat.one_le_iff_ne_zero.2 h0
    have n0 : ((n : ℤ) : ℝ) ≠ 0 := by push_cast; linarith
    rw [eq, en, F64.div_fin n0]
    push_cast at q0 q1
    obtain ⟨r, er, r0, r1⟩ := F64.ofReal_int_between (x := q.1 / ((n : ℤ) : ℝ)) 0 2 (by norm_num) (by norm_num)
      (by push_cast; exact div_nonneg q0 (by linarith)) (by push_cast; rw [div_le_iff₀ (by linarith)]; exact q1)
    exact ⟨r, er, by exact_mod_cast r0, by exact_mod_cast r1⟩

theorem mem_foldl_store {β : Type} (l : List β) (f : β → String) (g : β → ℕ) (m : SyncMap ℕ) (q : String × ℕ)
    (h : q ∈ l.foldl (fun m b => SyncMap.store m (f b) (g b)) m) : q ∈ m ∨ q.2 ∈ l.map g := by
  induction l generalizing m with
  | nil => exact .inl h
  | cons b bs ih =>
    rcases ih _ h with h1 | h1
    · rcases SyncMap.mem_store.1 h1 with h2 | h2
      · exact .inr (by rw [h2.2]; simp)
      · exact .inl h2.2
    · exact .inr (by simp only [List.map_cons, List.mem_cons]; exact .inr h1)

theorem length_foldl_store {β : Type} (l : List β) (f : β → String) (g : β → ℕ) (m : SyncMap ℕ) :
    (l.foldl (fun m b => SyncMap.store m (f b) (g b)) m).length ≤ m.length + l.length := by
  induction l generalizing m with
  | nil => simp
  | cons b bs ih =>
    refine (ih _).trans ?_
    show (SyncMap.store m (f b) (g b)).length + bs.length ≤ _
    rw [SyncMap.length_store, List.length_cons]
    split_ifs <;> omega

variable {α : Type} [Zero α] [One α] [Add α] [Sub α] [Mul α] [Div α] [Neg α] [LT α] [LE α]
  [DecidableLT α] [DecidableLE α] [BEq α] [OfScientific α] [GoMath α] in
theorem rangeAgents_sub (s : Swarm α) (o₁ o₂ : SyncMap ℕ → SyncMap ℕ) (h₂ : ∀ m, (o₂ m).Perm m) :
    (∀ a ∈ s.rangeAgents o₁ o₂, a ∈ s.collectAgents o₁) ∧ (s.rangeAgents o₁ o₂).length ≤ (s.collectAgents o₁).length ∧
    (s.allAgents o₁).length ≤ (s.collectAgents o₁).length := by
  have key : (∀ q ∈ s.allAgents o₁, q.2 ∈ s.collectAgents o₁) ∧ (s.allAgents o₁).length ≤ (s.collectAgents o₁).length := by
    unfold Swarm.allAgents Swarm.collectAgents
    split_ifs
    · refine ⟨fun q hq => ?_, (length_foldl_store _ (fun a => (s.heap a).id) (fun a => a) []).trans (by simp)⟩
      rcases mem_foldl_store _ (fun a => (s.heap a).id) (fun a => a) [] q hq with h | h
      · cases h
      · simpa using h
    · refine ⟨fun q hq => ?_, (length_foldl_store _ Prod.fst Prod.snd []).trans (by simp)⟩
      rcases mem_foldl_store _ Prod.fst Prod.snd [] q hq with h | h
      · cases h
      · exact h
  refine ⟨fun a ha => ?_, ?_, key.2⟩
  · obtain ⟨q, hq, rfl⟩ := List.mem_map.1 ha
    exact key.1 q ((h₂ _).mem_iff.1 hq)
  · unfold Swarm.rangeAgents
    rw [List.length_map, (h₂ _).length_eq]
    exact key.2

/-- A swarm of valid agents, at most ten million. -/
def Spec.SoundSwarm (s : Swarm F64) : Prop :=
  Spec.AllAgents Spec.ValidDouble s ∧ ∀ order : SyncMap ℕ → SyncMap ℕ, (∀ m, (order m).Perm m) →
    (s.collectAgents order).length ≤ 10 ^ 7

theorem soundSwarm_closed : HeapClosed Spec.ValidDouble Spec.SoundSwarm :=
  fun _ h' h hk => ⟨allAgents_heap h.1 h' hk, h.2⟩

theorem pattern_small (s : Swarm F64) (hs : Spec.SoundSwarm s) (e : Tick F64) : F64.Small (s.pattern e).phase := by
  obtain ⟨h1, h2, -⟩ := rangeAgents_sub s (e.order 0) (e.order 1) (e.order_perm 1)
  have h3 := hs.2 (e.order 0) (e.order_perm 0)
  unfold Swarm.pattern measureSystemPattern
  split_ifs with h0
  · exact ⟨⟨0, isDouble_zero⟩, F64.zero_def, by norm_num⟩
  · obtain ⟨m, em, hm⟩ := meanPhase_f64 (((s.rangeAgents (e.order 0) (e.order 1)).map s.heap).map (·.state.phase))
      (by intro h; apply h0; simpa using h) (by simp only [List.length_map]; omega)
      (by
        intro x hx
        simp only [List.map_map, List.mem_map, Function.comp] at hx
        obtain ⟨a, ha, rfl⟩ := hx
        exact (hs.1 (e.order 0) (e.order_perm 0) a (h1 a ha)).1.finite)
    have := Real.pi_lt_d2
    exact ⟨m, em, by linarith⟩

theorem measured_ctx (g : Gds F64) (s : Swarm F64) (hs : Spec.SoundSwarm s) (e : Tick F64) (ht : F64.IsFinite g.target.phase)
    (htm : ∀ q ∈ g.engine.templates, F64.IsFinite q.2.phase) (cp : CompletedPattern F64) (v : F64)
    (h : g.engine.completePattern e.templates (s.pattern e) (identifyGaps' (s.pattern e) g.target) = .ok cp) :
    Spec.Measured (g.adjustCtx s e cp v) where
  adj := by
    show F64.Bd 4 cp.phaseAdjustment
    have hsm := pattern_small s hs e
    obtain ⟨cp', h', hb⟩ := completePattern_ok g.engine e.templates (s.pattern e) (identifyGaps' (s.pattern e) g.target)
    rw [h] at h'
    injection h' with h'
    subst h'
    unfold CompletedPattern.phaseAdjustment
    cases hp : cp.filled.phase with
    | none => exact ⟨⟨0, isDouble_zero⟩, F64.zero_def, by norm_num⟩
    | some p =>
      have hp2 := C66_phase_range_double g.engine e.templates e.templates_perm _ _ hsm ht htm cp h p hp
      dsimp only
      rw [hb]
      obtain ⟨x, y, d, e1, e2, -, e3⟩ := sub_finite hp2.finite hsm
      rw [e1, e2] at e3 ⊢
      exact F64.phaseDifference_small x y ⟨d, e3⟩
  coh := by
    obtain ⟨d, ed, d0, d1⟩ := C03_coherence_double (s.phases (e.order 6))
      (by unfold Swarm.phases; rw [List.length_map]; exact hs.2 _ (e.order_perm 6))
      (by
        intro x hx
        unfold Swarm.phases at hx
        obtain ⟨a, ha, rfl⟩ := List.mem_map.1 hx
        exact (hs.1 _ (e.order_perm 6) a ha).1.finite)
    exact ⟨d, ed, by rw [abs_of_nonneg d0]; exact_mod_cast d1⟩
  size := by
    obtain ⟨n, hn⟩ : ∃ n, (s.allAgents (e.order 7)).length = n := ⟨_, rfl⟩
    have hle : n ≤ 10 ^ 7 := hn ▸ (rangeAgents_sub s (e.order 7) id (fun _ => .refl _)).2.2.trans (hs.2 _ (e.order_perm 7))
    show F64.Bd 1 (fmin (ofInt ((s.allAgents (e.order 7)).length : ℤ) / 100.0) 1)
    rw [hn]
    have dn : IsDouble ((n : ℤ) : ℝ) := isDouble_int (by rw [abs_of_nonneg (by positivity)]; omega)
    have en : (ofInt (n : ℤ) : F64) = .fin ⟨_, dn⟩ := F64.ofReal_of_isDouble dn
    have eh := lit_int (100.0 : ℝ) 100 (by norm_num) (by norm_num)
    change F64.Bd 1 (fmin (ofInt (n : ℤ) / F64.ofReal 100.0) 1)
    rw [en, eh, F64.div_fin (by norm_num)]
    obtain ⟨q, eq, q0, -⟩ := F64.ofReal_int_between (x := ((n : ℤ) : ℝ) / ((100 : ℤ) : ℝ)) 0 (10 ^ 7) (by norm_num) (by norm_num)
      (by push_cast; positivity) (by
        push_cast
        have : (n : ℝ) ≤ 10 ^ 7 := by exact_mod_cast hle
        linarith [(by positivity : (0 : ℝ) ≤ n)])
    change F64.Bd 1 (fmin (F64.ofReal (((n : ℤ) : ℝ) / ((100 : ℤ) : ℝ))) 1)
    rw [eq, F64.one_def]
    change F64.Bd 1 (if q.1 < 1 then F64.fin q else F64.fin ⟨1, isDouble_one⟩)
    push_cast at q0
    split_ifs with hq
    · exact ⟨q, rfl, by rw [abs_of_nonneg q0]; push_cast; linarith⟩
    · exact ⟨_, rfl, by simp⟩
  target := ht

/-- **C53 in doubles, partial.** With a configuration without NaN, infinities and absurd magnitudes, a finite target and at
most ten million agents, every phase is in `[0, 2π)` and every frequency positive whenever a run stops. What the full claim
has and this has not: configurations accepted by validation but with a NaN, infinite or enormous magnitude. -/
theorem C53_run_double_partial (g : Gds F64) (hm : Spec.Moderate g.config) (ht : F64.IsFinite g.target.phase)
    (htm : ∀ q ∈ g.engine.templates, F64.IsFinite q.2.phase) (budget : ℤ) (evs : List (SyncEvent F64)) (k : ℕ)
    (hg : Spec.SoundSwarm g.swarm)
    (ho : ∀ e, .tick e ∈ evs → ∀ s, Spec.SoundSwarm s → Spec.SoundSwarm (e.others s)) :
    Spec.AllAgents Spec.ValidDouble (g.loop budget evs k).2.2.swarm :=
  (loop_keeps soundSwarm_closed g budget evs k hg ho
    (fun e s hs cp v h => ⟨_, stepsKeep_double _ hm (measured_ctx g s hs e ht htm cp v h)⟩)).1

theorem bd_lit (m : ℕ) (b : Bool) (e : ℕ) (h0 : (0 : ℝ) ≤ OfScientific.ofScientific m b e)
    (h1 : (OfScientific.ofScientific m b e : ℝ) ≤ 1000) : F64.Bd 1000 (OfScientific.ofScientific m b e : F64) :=
  F64.Bd.ofReal 1000 (by norm_num) (by rw [abs_of_nonneg h0]; exact_mod_cast h1)

/-- The default and all goal presets are moderate. -/
theorem C53_presets_moderate : Spec.Moderate (defaultConfig : GoalConfig F64) ∧ ∀ g : GoalType, Spec.Moderate (configFor g : GoalConfig F64) := by
  constructor
  · constructor <;> exact bd_lit _ _ _ (by norm_num) (by norm_num)
  · intro g
    unfold configFor
    split <;> constructor <;> exact bd_lit _ _ _ (by norm_num) (by norm_num)

/-- What `C53` expects in doubles: with every configuration accepted by `Validate`, perturbations keep agents valid. -/
def C53_claim : Prop := ∀ (_ : Rounding) (_ : LibM) (cfg : GoalConfig F64), cfg.validate = none →
  ∀ (n : ℕ) (agents : ℕ → List ℕ) (pick noise : ℕ → ℕ) (h h' : ℕ → Agent F64), resonance cfg n agents pick noise h = .ok h' →
    ∀ x, Spec.ValidDouble (h x) → Spec.ValidDouble (h' x)

theorem nan_noise (cfg : GoalConfig F64) (hc : cfg.noiseMagnitude = .nan) (w : ℕ) (a : Agent F64) :
    (noisyAgent cfg w a).state.phase = .nan := by
  unfold noisyAgent
  rw [hc]
  have h1 : ∀ x : F64, x * .nan = .nan := fun x => by cases x <;> rfl
  have h2 : ∀ x : F64, x + .nan = .nan := fun x => by cases x <;> rfl
  rw [h1, h2]
  rfl

/-- A NaN noise magnitude, which `Validate` accepts, destroys the phase of every agent perturbed. -/
theorem C53_nan_noise (cfg : GoalConfig F64) (hc : cfg.noiseMagnitude = .nan) (n : ℕ) (agents : ℕ → List ℕ)
    (pick noise : ℕ → ℕ) (h h' : ℕ → Agent F64) (e : resonance cfg n agents pick noise h = .ok h') (x : ℕ)
    (hx : (agents 0)[pick 0 % n]? = some x) : (h' x).state.phase = .nan := by
  unfold resonance at e
  split_ifs at e
  injection e with e
  have h1 : 1 ≤ (perturbCount cfg n).toNat := by
    unfold perturbCount maxInt
    split_ifs <;> omega
  obtain ⟨k, hk⟩ : ∃ k, (perturbCount cfg n).toNat = k + 1 := ⟨_, (Nat.sub_add_cancel h1).symm⟩
  rw [hk, List.range_succ_eq_map, List.foldl_cons, hx] at e
  have stay : ∀ (l : List ℕ) (h : ℕ → Agent F64), (h x).state.phase = .nan →
      ((l.foldl (fun h k => match (agents k)[pick k % n]? with
        | some a => setAt h a (noisyAgent cfg (noise k) (h a))
        | none => h) h) x).state.phase = .nan := by
    intro l
    induction l with
    | nil => exact fun h hh => hh
    | cons j js ih =>
      intro h hh
      rw [List.foldl_cons]
      refine ih _ ?_
      cases (agents j)[pick j % n]? with
      | some a =>
        show (setAt h a _ x).state.phase = .nan
        unfold setAt
        split_ifs
        · exact nan_noise cfg hc _ _
        · exact hh
      | none => exact hh
  rw [← e]
  refine stay _ _ ?_
  show (setAt h x _ x).state.phase = .nan
  unfold setAt
  rw [if_pos rfl]
  exact nan_noise cfg hc _ _

end Doubles

/-- **C53 is false in doubles.** -/
theorem C53_refuted : ¬ C53_claim := by
  intro h
  let _ : Rounding := Rounding.some
  let _ : LibM := LibM.some
  let cfg : GoalConfig F64 := { (defaultConfig : GoalConfig F64) with noiseMagnitude := .nan }
  have hv : cfg.validate = none := default_valid (200.0 : F64)
  let a : Agent F64 := { (Agent.new "a" 0 0 0 [] : Agent F64) with state := ⟨0, 0, 0, 1⟩ }
  have e : ∃ h', resonance cfg 1 (fun _ => [0]) (fun _ => 0) (fun _ => 0) (fun _ => a) = .ok h' := by
    unfold resonance
    rw [if_neg (by norm_num)]
    exact ⟨_, rfl⟩
  obtain ⟨h', e⟩ := e
  have h1 := h _ _ cfg hv 1 _ _ _ _ h' e 0 ⟨⟨⟨0, isDouble_zero⟩, F64.zero_def, le_rfl, by
    have := F64.tau_bounds.1; linarith⟩, by show (0 : ℤ) < 1; norm_num⟩
  obtain ⟨d, hd, -⟩ := h1.1
  rw [C53_nan_noise cfg rfl 1 _ _ _ _ _ e 0 rfl] at hd
  cases hd

/-! ## Examples -/

/-- Two valid agents and a run with a tick, beside `C53_run` and `C53_achieve`. -/
example : ∃ (g : Gds ℝ) (e : Tick ℝ), (∀ o, (g.swarm.collectAgents o) = [0, 1]) ∧ Spec.AllAgents Spec.Valid g.swarm ∧
    ∀ e', .tick e' ∈ [SyncEvent.tick e] → ∀ s, Spec.AllAgents Spec.Valid s → Spec.AllAgents Spec.Valid (e'.others s) := by
  obtain ⟨n, s, -, -⟩ := exists_swarm (fun _ _ => (0 : ℝ)) 5 (by norm_num) (by norm_num) goalR goalR_valid
  let s' : Swarm ℝ := { s with heap := fun a => { s.heap a with state := ⟨3, 1, 0, 1000⟩ }, agentSlice := [0, 1], optimized := true }
  refine ⟨Gds.new s' defaultConfig ⟨1, 1, 1, 0.5, [], 0.9⟩, Tick.plain 1, fun _ => rfl, ?_, ?_⟩
  · intro o _ a _
    exact ⟨by show (0 : ℝ) ≤ 3; norm_num, by show (3 : ℝ) < 2 * Real.pi; linarith [Real.pi_gt_three], by show (0 : ℤ) < 1000; norm_num⟩
  · intro e' he' s hs
    simp only [List.mem_singleton, SyncEvent.tick.injEq] at he'
    subst he'
    exact hs

/-- A target below the current coherence: the adjustments scatter agent 0. -/
example : ∃ (c : AdjustCtx ℝ) (h : ℕ → Agent ℝ), Spec.Valid (h 0) ∧ c.targetCoherence < 0.4 ∧ c.coherence > c.targetCoherence :=
  ⟨⟨defaultConfig, 0, 0, 1, 0, 0, 0.2, 0⟩, fun _ => { (Agent.new "a" 0 0 0 [] : Agent ℝ) with state := ⟨3, 1, 0, 1000⟩ },
    ⟨by show (0 : ℝ) ≤ 3; norm_num, by show (3 : ℝ) < 2 * Real.pi; linarith [Real.pi_gt_three], by show (0 : ℤ) < 1000; norm_num⟩,
    by norm_num, by norm_num⟩

/-- One agent, one perturbation, beside `C53_perturbations`. -/
example (a : Agent ℝ) : ∃ h', resonance (defaultConfig : GoalConfig ℝ) 1 (fun _ => [0]) (fun _ => 0) (fun _ => 0) (fun _ => a) = .ok h' := by
  unfold resonance
  rw [if_neg (by norm_num)]
  exact ⟨_, rfl⟩

/-- The default configuration, default templates and a sound swarm of two agents, beside `C53_run_double_partial`. -/
example [Rounding] [LibM] : ∃ g : Gds F64, Spec.Moderate g.config ∧ F64.IsFinite g.target.phase ∧
    (∀ q ∈ g.engine.templates, F64.IsFinite q.2.phase) ∧ Spec.SoundSwarm g.swarm ∧ ∀ o, g.swarm.collectAgents o = [0, 1] := by
  obtain ⟨n, s, -, -⟩ := exists_swarm (fun _ _ => (0 : F64)) 5 (by norm_num) (by norm_num) goalF goalF_valid
  let s' : Swarm F64 := { s with heap := fun a => { s.heap a with state := ⟨0, 1, 0, 1000⟩ }, agentSlice := [0, 1], optimized := true }
  refine ⟨Gds.new s' defaultConfig ⟨1, 1, 1, 0.5, [], 0.9⟩, C53_presets_moderate.1, ?_, default_templates_f64, ⟨?_, ?_⟩, fun _ => rfl⟩
  · show F64.IsFinite (1 : F64)
    rw [F64.one_def]; trivial
  · intro o _ a _
    exact ⟨⟨⟨0, isDouble_zero⟩, F64.zero_def, le_rfl, by have := F64.tau_bounds.1; linarith⟩, by show (0 : ℤ) < 1000; norm_num⟩
  · intro o _
    show ([0, 1] : List ℕ).length ≤ 10 ^ 7
    norm_num

/-- Three phases, beside `C03_coherence_double`. -/
example [Rounding] [LibM] : ([0, 1, 1] : List F64).length ≤ 10 ^ 7 ∧ ∀ x ∈ ([0, 1, 1] : List F64), F64.IsFinite x := by
  refine ⟨by norm_num, ?_⟩
  intro x hx
  simp only [List.mem_cons, List.not_mem_nil, or_false] at hx
  rcases hx with rfl | rfl | rfl
  · rw [F64.zero_def]; trivial
  · rw [F64.one_def]; trivial
  · rw [F64.one_def]; trivial

end Verif
