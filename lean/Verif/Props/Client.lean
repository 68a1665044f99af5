import Verif.Model.Client
import Verif.Props.PresetDouble
import Verif.Props.SyncSafe
import Verif.Props.State

/-!
# C73 (building a client), C56 (what a client reports) and C80 (perfect synchronisation)
-/

set_option autoImplicit false
set_option linter.unusedSectionVars false

namespace Verif

open GoMath

/-! ## C73 -/

/-- The number of agents of a scale, as documented in emerge/scale/scale.go; an unknown scale counts as small. -/
def Spec.Agents (s : Size) (n : ℤ) : Prop :=
  (s = 0 → n = 20) ∧ (s = 1 → n = 50) ∧ (s = 2 → n = 200) ∧ (s = 3 → n = 1000) ∧ (s = 4 → n = 2000) ∧ (s < 0 ∨ 4 < s → n = 50)

section
variable {α : Type} [Zero α] [One α] [Add α] [Sub α] [Mul α] [Div α] [Neg α] [LT α] [LE α]
  [DecidableLT α] [DecidableLE α] [BEq α] [OfScientific α] [GoMath α]

/-- The coherence a builder asks for: its own if it is not at most 0, otherwise the default of the scale. -/
def Spec.Asked (b : Builder α) (x : α) : Prop :=
  (¬ b.targetCoherence ≤ 0 → x = b.targetCoherence) ∧
  (b.targetCoherence ≤ 0 → (b.scale = 0 → x = 0.90) ∧ (b.scale = 1 → x = 0.85) ∧ (b.scale = 2 → x = 0.75) ∧ (b.scale = 3 → x = 0.65) ∧
    (b.scale = 4 → x = 0.55) ∧ (b.scale < 0 ∨ 4 < b.scale → x = 0.75))

theorem agentCount_spec (s : Size) : Spec.Agents s s.defaultAgentCount := by
  unfold Size.defaultAgentCount Spec.Agents
  split <;> simp_all

theorem agentCount_bounds (s : Size) : 1 ≤ s.defaultAgentCount ∧ s.defaultAgentCount ≤ 2000 := by
  unfold Size.defaultAgentCount
  split <;> norm_num

theorem asked_spec (b : Builder α) : Spec.Asked b b.target.coherence := by
  unfold Builder.target Spec.Asked Size.defaultTargetCoherence
  refine ⟨fun h => if_neg h, fun h => ?_⟩
  dsimp only
  rw [if_pos h]
  generalize b.scale = s
  refine ⟨?_, ?_, ?_, ?_, ?_, ?_⟩
  · rintro rfl; rfl
  · rintro rfl; rfl
  · rintro rfl; rfl
  · rintro rfl; rfl
  · rintro rfl; rfl
  · intro h; split <;> first | (refine absurd h ?_; decide) | rfl

/-- The parts of a client that was built. -/
theorem build_ok (b : Builder α) (env : SwarmEnv α) (now : ℤ) (c : Client α) (e : b.build env now = .ok c) :
    ∃ s, newSwarm env b.scale.defaultAgentCount b.target [.goalConfig b.config] = .ok s ∧ c.sync = Gds.ofSwarm s s.targetPattern ∧
      c.convergence = Tracker.new s.goalState.coherence now ∧ c.config = b.config := by
  unfold Builder.build at e
  cases h : newSwarm env b.scale.defaultAgentCount b.target [.goalConfig b.config] with
  | error x => rw [h] at e; cases e
  | ok s =>
    rw [h] at e
    cases e
    exact ⟨s, rfl, rfl, rfl, rfl⟩

/-- **C73.** A client that was built has exactly the agents of its scale, the preset for its goal fitted to that number, the phase 0, the
period of one second, and the coherence asked for, lowered to the practical limit if it is above. -/
theorem C73_client (b : Builder α) (env : SwarmEnv α) (now : ℤ) (c : Client α) (e : b.build env now = .ok c)
    (order : SyncMap ℕ → SyncMap ℕ) (hp : ∀ m, (order m).Perm m) :
    ∃ n : ℕ, Spec.Agents b.scale n ∧ (∃ addr, Spec.HasExactly c.sync.swarm order n addr) ∧
      c.config = (configFor b.goal).withSize n ∧ c.sync.config = c.config ∧
      c.sync.swarm.goalState.phase = 0 ∧ c.sync.swarm.goalState.frequency = 1000000000 ∧
      ∃ x, Spec.Asked b x ∧
        (x > (getCoherenceLimits n : CoherenceLimits α).practical →
          c.sync.swarm.goalState.coherence = (getCoherenceLimits n : CoherenceLimits α).practical) ∧
        (¬ x > (getCoherenceLimits n : CoherenceLimits α).practical → c.sync.swarm.goalState.coherence = x) := by
  obtain ⟨s, h1, h2, h3, h4⟩ := build_ok b env now c e
  have ho : ∀ o ∈ [SwarmOption.goalConfig b.config], SwarmOption.Simple o := by
    intro o ho; rw [List.mem_singleton] at ho; subst ho; trivial
  obtain ⟨addr, hx⟩ := C43_new env _ b.target _ (fun o h => simple_proper o (ho o h)) s h1 order hp
  obtain ⟨k1, -, c', t, -, k3, k4⟩ := newSwarm_ok env _ _ _ s h1
  obtain ⟨g1, g2⟩ := complete_goal t s env k4
  obtain ⟨-, -, g3⟩ := applyOptions_simple _ t _ ho k3
  have hn : ((b.scale.defaultAgentCount.toNat : ℕ) : ℤ) = b.scale.defaultAgentCount := Int.toNat_of_nonneg (by omega)
  have hg : t.goalConfig = some b.config := by
    obtain ⟨t', e1, e2⟩ := Option.bind_eq_some_iff.1 k3
    unfold Swarm.applyOption at e1
    dsimp only at e1
    split_ifs at e1 with hv
    cases e1; cases e2; rfl
  have hs : c.sync.swarm = s := by rw [h2]; rfl
  have hgs : c.sync.swarm.goalState = (Swarm.initial b.scale.defaultAgentCount b.target c').goalState := by rw [hs, g2, g3]
  refine ⟨b.scale.defaultAgentCount.toNat, by rw [hn]; exact agentCount_spec _, ⟨addr, by rw [hs]; exact hx⟩, by rw [h4, hn]; rfl, ?_, ?_⟩
  · rw [h2, h4]
    show s.goalConfig.getD defaultConfig = _
    rw [g1, hg]; rfl
  · rw [hgs, hn]
    unfold Swarm.initial
    dsimp only
    split_ifs with hc
    · exact ⟨rfl, rfl, _, asked_spec b, fun _ => rfl, fun h => absurd hc h⟩
    · exact ⟨rfl, rfl, _, asked_spec b, fun h => absurd h hc, fun _ => rfl⟩

theorem build_of_swarm (b : Builder α) (env : SwarmEnv α) (now : ℤ) (s : Swarm α)
    (h : newSwarm env b.scale.defaultAgentCount b.target [.goalConfig b.config] = .ok s) : ∃ c, b.build env now = .ok c := by
  unfold Builder.build
  rw [h]
  exact ⟨_, rfl⟩

theorem build_succeeds [UnitFacts α] (b : Builder α) (hv : b.target.validate = []) (hc : b.config.validate = none) (env : SwarmEnv α)
    (hfair : ∀ i, Spec.FairPicks (env.pick i) b.scale.defaultAgentCount.toNat) (now : ℤ) :
    ∃ N c, ∀ n ≥ N, b.build { env with fuel := n } now = .ok c := by
  obtain ⟨h1, h2⟩ := agentCount_bounds b.scale
  obtain ⟨N, s, h⟩ := C43_goalConfig_succeeds env _ h1 (by omega) b.target hv b.config hc hfair
  refine ⟨N, { sync := Gds.ofSwarm s s.targetPattern, convergence := Tracker.new s.goalState.coherence now, config := b.config },
    fun n hn => ?_⟩
  unfold Builder.build
  rw [h n hn]
  rfl

end

/-- **C73.** Building a client, for every goal, scale and coherence in doubles: it succeeds (with fair draws) when the coherence is a
number not above 1, and is refused whenever the coherence is NaN or above 1. -/
theorem C73_build [Rounding] [LibM] (b : Builder F64) :
    (b.targetCoherence ≠ .nan ∧ ¬ b.targetCoherence > 1 → ∀ (env : SwarmEnv F64) (now : ℤ),
      (∀ i, Spec.FairPicks (env.pick i) b.scale.defaultAgentCount.toNat) → ∃ N c, ∀ n ≥ N, b.build { env with fuel := n } now = .ok c) ∧
    (b.targetCoherence = .nan ∨ b.targetCoherence > 1 → ∀ (env : SwarmEnv F64) (now : ℤ), b.build env now = .error .invalidGoal) := by
  have hdef : F64.In01 (b.scale.defaultTargetCoherence : F64) := by
    unfold Size.defaultTargetCoherence
    split <;> exact F64.in01_ofReal (by norm_num) (by norm_num)
  have hv : b.target.validate = [] ↔ b.targetCoherence ≠ .nan ∧ ¬ b.targetCoherence > 1 := by
    rw [C08_validate_iff]
    have e1 : (0 : ℤ) < b.target.frequency := by show (0 : ℤ) < 1000 * millisecond; unfold millisecond; norm_num
    have e2 : ∃ p : Dbl, b.target.phase = .fin p := ⟨_, rfl⟩
    have : (∃ c : Dbl, b.target.coherence = .fin c ∧ 0 ≤ c.1 ∧ c.1 ≤ 1) ↔ b.targetCoherence ≠ .nan ∧ ¬ b.targetCoherence > 1 := by
      unfold Builder.target
      dsimp only
      split_ifs with h
      · refine iff_of_true ?_ ⟨?_, ?_⟩
        · obtain ⟨y, hy, e, h0, h1⟩ := hdef; exact ⟨⟨y, hy⟩, e, h0, h1⟩
        · rintro e; rw [e] at h; exact h
        · intro h1
          cases hb : b.targetCoherence with
          | nan => rw [hb] at h; exact h
          | pinf => rw [hb] at h; exact h
          | ninf => rw [hb] at h1; exact h1
          | fin d =>
            rw [hb] at h h1
            have a1 := (F64.le_fin _ _).1 h
            have a2 := (F64.lt_fin _ _).1 h1
            dsimp only at a1 a2
            linarith
      · cases hb : b.targetCoherence with
        | nan => simp
        | pinf => exact iff_of_false (by simp) (fun h => h.2 trivial)
        | ninf => rw [hb] at h; exact absurd trivial h
        | fin d =>
          rw [hb] at h
          have a1 : 0 < d.1 := not_le.1 fun k => h ((F64.le_fin _ _).2 k)
          constructor
          · rintro ⟨c, e, -, h1⟩
            cases e
            exact ⟨by simp, fun k => absurd ((F64.lt_fin _ _).1 k) (not_lt.2 h1)⟩
          · rintro ⟨-, k⟩
            exact ⟨d, rfl, a1.le, not_lt.1 fun q => k ((F64.lt_fin _ _).2 q)⟩
    rw [this]
    exact ⟨fun h => h.2.1, fun h => ⟨e1, h, e2⟩⟩
  constructor
  · intro h env now hf
    exact build_succeeds b (hv.2 h) (C23_preset_withSize_double _ _) env hf now
  · intro h env now
    have hn : b.target.validate ≠ [] := by rw [ne_eq, hv]; tauto
    unfold Builder.build newSwarm
    have := (agentCount_bounds b.scale).1
    rw [if_neg (by omega), if_pos hn]
    rfl

/-! ### Functional options -/

section
variable {α : Type} [Zero α] [One α] [Add α] [Sub α] [Mul α] [Div α] [Neg α] [LT α] [LE α]
  [DecidableLT α] [DecidableLE α] [BEq α] [OfScientific α] [GoMath α]

/-- The last value that the options give, or a default. -/
def Spec.lastGiven {β γ : Type} (f : β → Option γ) (d : γ) (l : List β) : γ := ((l.filterMap f).getLast?).getD d

theorem lastGiven_cons {β γ : Type} (f : β → Option γ) (d : γ) (x : β) (l : List β) :
    Spec.lastGiven f d (x :: l) = Spec.lastGiven f ((f x).getD d) l := by
  unfold Spec.lastGiven
  cases h : f x with
  | none => rw [List.filterMap_cons_none h]; rfl
  | some y => rw [List.filterMap_cons_some h, List.getLast?_cons]; rfl

/-- The goal, scale or coherence an option gives. -/
def Spec.goalOf : ClientOption α → Option GoalType
  | .goal g => some g
  | _ => none
def Spec.scaleOf : ClientOption α → Option Size
  | .scale s => some s
  | _ => none
def Spec.coherenceOf : ClientOption α → Option α
  | .coherence c => some c
  | _ => none

theorem applyAll_spec (b : Builder α) (opts : List (ClientOption α)) :
    ((∃ c, .coherence c ∈ opts ∧ (c ≤ 0 ∨ c > 1)) → ClientOption.applyAll b opts = none) ∧
    ((∀ c, .coherence c ∈ opts → ¬ c ≤ 0 ∧ ¬ c > 1) → ClientOption.applyAll b opts =
      some { goal := Spec.lastGiven Spec.goalOf b.goal opts, scale := Spec.lastGiven Spec.scaleOf b.scale opts
             targetCoherence := Spec.lastGiven Spec.coherenceOf b.targetCoherence opts }) := by
  induction opts generalizing b with
  | nil => exact ⟨fun ⟨c, h, _⟩ => absurd h (by simp), fun _ => rfl⟩
  | cons o os ih =>
    constructor
    · rintro ⟨c, hm, hc⟩
      unfold ClientOption.applyAll
      cases ho : o.apply b with
      | none => rfl
      | some b' =>
        dsimp only
        rcases List.mem_cons.1 hm with rfl | hm
        · unfold ClientOption.apply at ho
          dsimp only at ho
          rw [if_pos hc] at ho
          cases ho
        · exact (ih b').1 ⟨c, hm, hc⟩
    · intro h
      have h' : ∀ c, .coherence c ∈ os → ¬ c ≤ 0 ∧ ¬ c > 1 := fun c hc => h c (List.mem_cons_of_mem _ hc)
      simp only [lastGiven_cons]
      unfold ClientOption.applyAll
      cases o with
      | goal g => exact (ih _).2 h'
      | scale s => exact (ih _).2 h'
      | coherence c =>
        have hc := h c (by simp)
        have ho : (ClientOption.coherence c).apply b = some { b with targetCoherence := c } := by
          unfold ClientOption.apply
          dsimp only
          rw [if_neg (not_or.2 hc)]
        rw [ho]
        exact (ih _).2 h'

/-- **C73.** `NewWithOptions` refuses every list of options with a coherence that is at most 0 or above 1, even if a later option replaces
it; otherwise it is `Build` with the last goal, scale and coherence given (by default goal 0, scale 0 and the scale's coherence). So,
unlike for the builder, a coherence of 0 does not mean the default; NaN passes the option and is refused by `Build`. -/
theorem C73_options (opts : List (ClientOption α)) (env : SwarmEnv α) (now : ℤ) :
    ((∃ c, .coherence c ∈ opts ∧ (c ≤ 0 ∨ c > 1)) → newWithOptions opts env now = .error .option) ∧
    ((∀ c, .coherence c ∈ opts → ¬ c ≤ 0 ∧ ¬ c > 1) → newWithOptions opts env now =
      Builder.build { goal := Spec.lastGiven Spec.goalOf 0 opts, scale := Spec.lastGiven Spec.scaleOf 0 opts
                      targetCoherence := Spec.lastGiven Spec.coherenceOf 0 opts } env now) := by
  unfold newWithOptions
  constructor
  · intro h; rw [(applyAll_spec _ opts).1 h]
  · intro h; rw [(applyAll_spec _ opts).2 h]; rfl

end

/-- Non-trivial case: with options for a large swarm and coherence 0.9 a client is built, in doubles. -/
example [Rounding] [LibM] : ∃ (env : SwarmEnv F64) (c : Client F64),
    newWithOptions [.coherence 0.5, .scale 3, .goal 1, .coherence 0.9] env 0 = .ok c := by
  have hl : ∀ x : ℝ, 1 / 4 ≤ x → x ≤ 1 → ¬ F64.ofReal x ≤ 0 ∧ ¬ F64.ofReal x > 1 := by
    intro x h0 h1
    have hq : IsDouble (1 / 4 : ℝ) := by have := dyadic 1 2 (by norm_num) (by norm_num); norm_num at this ⊢; exact this
    obtain ⟨d, e, d1, d2⟩ := FIn.lit hq isDouble_one h0 h1
    rw [e]
    refine ⟨fun k => ?_, fun k => ?_⟩
    · have := (F64.le_fin _ _).1 k; dsimp only at this; linarith
    · have := (F64.lt_fin _ _).1 k; dsimp only at this; linarith
  have h := (C73_options (α := F64) [.coherence 0.5, .scale 3, .goal 1, .coherence 0.9]
    (SwarmEnv.simple (fun _ _ => (0 : F64)) (fun _ k => k)) 0)
  obtain ⟨N, c, hc⟩ := (C73_build (⟨1, 3, (0.9 : F64)⟩ : Builder F64)).1
    ⟨by obtain ⟨d, e, -⟩ := lit01 (0.9 : ℝ) (by norm_num) (by norm_num); show F64.ofReal 0.9 ≠ _; rw [e]; simp, (hl 0.9 (by norm_num) (by norm_num)).2⟩
    (SwarmEnv.simple (fun _ _ => (0 : F64)) (fun _ k => k)) 0 (fun _ => fair_self _)
  refine ⟨_, c, ((C73_options _ _ _).2 fun x hx => ?_).trans (hc N le_rfl)⟩
  simp only [List.mem_cons, ClientOption.coherence.injEq, List.not_mem_nil, or_false, reduceCtorEq, false_or] at hx
  rcases hx with rfl | rfl
  · exact hl 0.5 (by norm_num) (by norm_num)
  · exact hl 0.9 (by norm_num) (by norm_num)

/-! ## C56 -/

section
variable {α : Type} [Zero α] [One α] [Add α] [Sub α] [Mul α] [Div α] [Neg α] [LT α] [LE α]
  [DecidableLT α] [DecidableLE α] [BEq α] [OfScientific α] [GoMath α]

theorem apply_silent (c : Client α) (op : ClientOp α) (h : c.convergence.history = [] ∧ c.convergence.convergedTime = none) :
    (c.apply op).convergence.history = [] ∧ (c.apply op).convergence.convergedTime = none := by
  cases op with
  | start order evs => exact h
  | disrupt order w p now => exact ⟨rfl, rfl⟩
  | restart now f => exact ⟨rfl, rfl⟩
  | agents f => exact h

/-- **C56, what the client really reports.** A client that was built says, after any operations whatever (runs, successful or not,
continuous runs, disruptions, changes of agents): not converged, coherence 0, convergence time 0. -/
theorem C56_silent_partial (b : Builder α) (env : SwarmEnv α) (now : ℤ) (c : Client α) (e : b.build env now = .ok c) (ops : List (ClientOp α)) :
    (ops.foldl Client.apply c).isConverged = false ∧ (ops.foldl Client.apply c).coherence = 0 ∧
    (ops.foldl Client.apply c).convergenceTime = 0 := by
  obtain ⟨s, -, -, h, -⟩ := build_ok b env now c e
  have key : ∀ c : Client α, c.convergence.history = [] ∧ c.convergence.convergedTime = none →
      (ops.foldl Client.apply c).convergence.history = [] ∧ (ops.foldl Client.apply c).convergence.convergedTime = none := by
    induction ops with
    | nil => exact fun _ h => h
    | cons op ops ih => exact fun c h => ih _ (apply_silent c op h)
  obtain ⟨k1, k2⟩ := key c (by rw [h]; exact ⟨rfl, rfl⟩)
  refine ⟨?_, ?_, ?_⟩
  · unfold Client.isConverged Tracker.isConverged; rw [k2]; rfl
  · unfold Client.coherence Tracker.currentCoherence; rw [k1]; rfl
  · unfold Client.convergenceTime Tracker.convergenceTime; rw [k2]

end

/-! ## C80 -/

variable {α : Type} [Zero α] [One α] [Add α] [Sub α] [Mul α] [Div α] [Neg α] [LT α] [LE α]
  [DecidableLT α] [DecidableLE α] [BEq α] [OfScientific α] [GoMath α] in
/-- Every agent of the swarm has the phase 0 and the given frequency, and there is at least one. -/
def Spec.Perfect (s : Swarm α) (f : ℤ) : Prop :=
  s.collectAgents id ≠ [] ∧ ∀ a ∈ s.collectAgents id, (s.heap a).state.phase = 0 ∧ (s.heap a).state.frequency = f

variable {α : Type} [Zero α] [One α] [Add α] [Sub α] [Mul α] [Div α] [Neg α] [LT α] [LE α]
  [DecidableLT α] [DecidableLE α] [BEq α] [OfScientific α] [GoMath α] in
theorem collect_perm (s : Swarm α) (order : SyncMap ℕ → SyncMap ℕ) (hp : ∀ m, (order m).Perm m) :
    (s.collectAgents order).Perm (s.collectAgents id) := by
  unfold Swarm.collectAgents
  split_ifs
  · exact .refl _
  · exact (hp _).map _

variable {α : Type} [Zero α] [One α] [Add α] [Sub α] [Mul α] [Div α] [Neg α] [LT α] [LE α]
  [DecidableLT α] [DecidableLE α] [BEq α] [OfScientific α] [GoMath α] in
theorem perfect_phases {s : Swarm α} {f : ℤ} (h : Spec.Perfect s f) (order : SyncMap ℕ → SyncMap ℕ) (hp : ∀ m, (order m).Perm m) :
    ∃ n : ℕ, n ≠ 0 ∧ (s.collectAgents order).map (fun a => (s.heap a).state.phase) = List.replicate n 0 := by
  have p := collect_perm s order hp
  refine ⟨(s.collectAgents order).length, ?_, List.eq_replicate_iff.2 ⟨by simp, fun x hx => ?_⟩⟩
  · rw [p.length_eq]; exact fun e => h.1 (List.length_eq_zero_iff.1 e)
  · obtain ⟨a, ha, rfl⟩ := List.mem_map.1 hx
    exact (h.2 a (p.mem_iff.1 ha)).1

theorem coherence_zeros (n : ℕ) (hn : n ≠ 0) : measureCoherence (List.replicate n (0 : ℝ)) = 1 := by
  rw [C03_coherence_eq_one_iff]
  refine ⟨by simpa using hn, fun a ha b hb => ?_⟩
  rw [List.eq_of_mem_replicate ha, List.eq_of_mem_replicate hb]
  exact ⟨0, by simp⟩

theorem meanSums_zeros (n : ℕ) (s : ℝ × ℝ) :
    (List.replicate n (0 : ℝ)).foldl (fun (s : ℝ × ℝ) p => (s.1 + GoMath.sin p, s.2 + GoMath.cos p)) s = (s.1, s.2 + n) := by
  induction n generalizing s with
  | zero => simp
  | succ n ih =>
    rw [List.replicate_succ, List.foldl_cons, ih]
    simp only [sin_real, cos_real, Real.sin_zero, Real.cos_zero, add_zero]
    push_cast
    ext1
    · rfl
    · show s.2 + 1 + (n : ℝ) = s.2 + (n + 1); ring

theorem convergence_zeros (n : ℕ) (hn : n ≠ 0) : phaseConvergence (List.replicate n (0 : ℝ)) 0 = 1 := by
  have h0 : targetDistance (0 : ℝ) 0 = 0 := by
    unfold targetDistance
    simp only [abs_real, sub_self, abs_zero, piMul_real]
    rw [if_neg (by push_cast; linarith [Real.pi_pos])]
  have hs : ∀ (m : ℕ), (List.replicate m (0 : ℝ)).foldl (fun s p => s + targetDistance 0 p) 0 = 0 := by
    intro m
    induction m with
    | zero => rfl
    | succ m ih => rw [List.replicate_succ, List.foldl_cons, h0, add_zero, ih]
  unfold phaseConvergence
  rw [if_neg (by simpa using hn)]
  dsimp only
  rw [hs]
  simp

variable {α : Type} [Zero α] [One α] [Add α] [Sub α] [Mul α] [Div α] [Neg α] [LT α] [LE α]
  [DecidableLT α] [DecidableLE α] [BEq α] [OfScientific α] [GoMath α] in
theorem foldl_freq (l : List (Agent α)) (f s : ℤ) (h : ∀ a ∈ l, a.state.frequency = f) :
    l.foldl (fun (s : ℤ) (a : Agent α) => s + a.state.frequency) s = s + l.length * f := by
  induction l generalizing s with
  | nil => simp
  | cons a l ih =>
    rw [List.foldl_cons, ih _ (fun b hb => h b (List.mem_cons_of_mem _ hb)), h a (by simp), List.length_cons]
    push_cast
    ring

/-- The pattern of perfectly synchronised agents. -/
def perfectPattern (f : ℤ) (c : ℝ) : TargetPattern ℝ :=
  { phase := 0, frequency := f, amplitude := 1, coherence := c, waveform := [], stability := 0.5 }

theorem pattern_perfect (l : List (Agent ℝ)) (f : ℤ) (c : ℝ) (h0 : l ≠ []) (h : ∀ a ∈ l, a.state.phase = 0 ∧ a.state.frequency = f) :
    measureSystemPattern l c = perfectPattern f c := by
  have hl : l.length ≠ 0 := fun e => h0 (List.length_eq_zero_iff.1 e)
  have hp : l.map (·.state.phase) = List.replicate l.length 0 := List.eq_replicate_iff.2 ⟨by simp, fun x hx => by
    obtain ⟨a, ha, rfl⟩ := List.mem_map.1 hx; exact (h a ha).1⟩
  have hm : meanPhase (List.replicate l.length (0 : ℝ)) = 0 := by
    unfold meanPhase
    dsimp only
    rw [meanSums_zeros]
    simp only [List.length_replicate, atan2_real, ofInt_real, zero_div, zero_add, Int.cast_natCast]
    rw [div_self (by exact_mod_cast hl)]
    exact Complex.arg_one
  unfold measureSystemPattern
  rw [if_neg hl, hp, hm, foldl_freq l f 0 (fun a ha => (h a ha).2), zero_add, Int.mul_tdiv_cancel_left _ (by exact_mod_cast hl)]
  rfl

variable {α : Type} [Zero α] [One α] [Add α] [Sub α] [Mul α] [Div α] [Neg α] [LT α] [LE α]
  [DecidableLT α] [DecidableLE α] [BEq α] [OfScientific α] [GoMath α] in
theorem rangeAgents_ne (s : Swarm α) (o₁ o₂ : SyncMap ℕ → SyncMap ℕ) (h₁ : ∀ m, (o₁ m).Perm m) (h₂ : ∀ m, (o₂ m).Perm m)
    (h : s.collectAgents id ≠ []) : s.rangeAgents o₁ o₂ ≠ [] := by
  have ha : Spec.HasAgents s := by
    unfold Swarm.collectAgents at h
    constructor
    · intro ho; rwa [if_pos ho] at h
    · intro ho e; rw [if_neg (by rw [ho]; simp), e] at h; exact h rfl
  have := allAgents_ne ha o₁ h₁
  unfold Swarm.rangeAgents
  intro e
  have hp := (h₂ (s.allAgents o₁)).length_eq
  have e' := congrArg List.length e
  rw [List.length_map] at e'
  rw [e'] at hp
  exact this hp.symm

/-- **C80.** When the agents are perfectly synchronised on the target phase 0 and the target frequency, the goal counts as achieved exactly
when three tenths of the distance of the target coherence from 1 is below the pattern threshold. Over the reals, for every swarm, goal and
configuration with non-negative tolerances. -/
theorem C80_perfect (g : Gds ℝ) (s : Swarm ℝ) (e : Tick ℝ) (hs : Spec.Perfect s g.target.frequency) (hp : g.target.phase = 0)
    (hc : g.target.coherence ≤ 1) (ht : 0 ≤ g.config.toleranceSmall ∧ 0 ≤ g.config.toleranceMedium ∧ 0 ≤ g.config.toleranceLarge)
    (hg : g.config.phaseConvergenceGoal ≤ 1) :
    g.achieved s e = true ↔ 0.3 * (1 - g.target.coherence) < g.config.patternDistanceThreshold := by
  have hcoh : s.measureCoherence (e.order 2) = 1 := by
    obtain ⟨n, hn, h⟩ := perfect_phases hs (e.order 2) (e.order_perm 2)
    unfold Swarm.measureCoherence
    rw [h, coherence_zeros n hn]
  have hpat : s.pattern e = perfectPattern g.target.frequency 1 := by
    unfold Swarm.pattern
    rw [hcoh]
    refine pattern_perfect _ _ _ ?_ fun a ha => ?_
    · have := rangeAgents_ne s (e.order 0) (e.order 1) (e.order_perm 0) (e.order_perm 1) hs.1
      simpa using this
    · let _ : Rounding := Rounding.some
      let _ : LibM := LibM.some
      obtain ⟨x, hx, rfl⟩ := List.mem_map.1 ha
      exact hs.2 x ((collect_perm s (e.order 0) (e.order_perm 0)).mem_iff.1 ((rangeAgents_sub s _ _ (e.order_perm 1)).1 x hx))
  have hconv : phaseConvergence (s.phases (e.order 5)) g.target.phase = 1 := by
    obtain ⟨n, hn, h⟩ := perfect_phases hs (e.order 5) (e.order_perm 5)
    unfold Swarm.phases
    rw [h, hp, convergence_zeros n hn]
  unfold Gds.achieved
  rw [hpat, hconv, C58_decision]
  have hd : patternDistance (some (perfectPattern g.target.frequency 1)) (some g.target) = 0.3 * (1 - g.target.coherence) := by
    have e1 : patternDistance (some (perfectPattern g.target.frequency 1)) (some g.target) =
        patternDistance (some { g.target with coherence := 1 }) (some g.target) := by
      unfold patternDistance perfectPattern
      dsimp only
      rw [hp]
    rw [e1, distance_coherence, abs_of_nonpos (by linarith)]
    ring
  constructor
  · rintro ⟨-, h, -⟩
    rwa [hd] at h
  · intro h
    refine ⟨⟨_, (isTolerance_iff _ _ _ _).2 rfl, ?_⟩, by rwa [hd], fun _ => hg⟩
    have : 0 ≤ achievementTolerance g.config ((s.allAgents (e.order 4)).length : ℤ) g.target.coherence := by
      unfold achievementTolerance
      dsimp only
      obtain ⟨t1, t2, t3⟩ := ht
      have h2 : (0 : ℝ) ≤ 2.0 := by norm_num
      split_ifs <;> first | assumption | exact mul_nonneg (by assumption) h2
    show _ ≤ (1 : ℝ)
    linarith

variable {α : Type} [Zero α] [One α] [Add α] [Sub α] [Mul α] [Div α] [Neg α] [LT α] [LE α]
  [DecidableLT α] [DecidableLE α] [BEq α] [OfScientific α] [GoMath α] in
/-- What one tick of a run does. -/
theorem start_tick (c : Client α) (order : SyncMap ℕ → SyncMap ℕ) (e : Tick α) (n : ℤ) (hn : ((c.sync.swarm.allAgents order).length : ℤ) = n)
    (hi : 0 < c.sync.config.updateInterval) (g : Gds α) (h1 : g.config = c.sync.config)
    (h2 : g.target = adjustTarget n c.sync.swarm.targetPattern)
    (hb : 1 ≤ iterationBudget c.sync.config n (adjustTarget n c.sync.swarm.targetPattern).coherence) :
    (c.start order [.tick e]).1 = .achieved ↔ g.achieved (e.others c.sync.swarm) e = true := by
  subst hn
  unfold Client.start Gds.achieve
  dsimp only
  rw [if_neg (not_le.2 hi)]
  have hl : ∀ (g' : Gds α) (b : ℤ), 1 ≤ b → g'.swarm = c.sync.swarm → g'.config = c.sync.config → g'.target = g.target →
      ((g'.loop b [.tick e] 0).1 = .achieved ↔ g.achieved (e.others c.sync.swarm) e = true) := by
    intro g' b hb e1 e2 e3
    have ha : ∀ m, ({ g' with swarm := e.others g'.swarm, monitor := m } : Gds α).achieved (e.others g'.swarm) e =
        g.achieved (e.others c.sync.swarm) e := by
      intro m
      unfold Gds.achieved
      dsimp only
      rw [e1, e2, e3, h1]
    unfold Gds.loop
    rw [if_pos (by push_cast; omega)]
    dsimp only
    have hi : (∃ g'', g'.iterate e = .ok (true, g'')) ↔ g.achieved (e.others c.sync.swarm) e = true := by
      unfold Gds.iterate
      dsimp only
      rw [ha]
      by_cases h : g.achieved (e.others c.sync.swarm) e = true
      · rw [if_pos h]
        exact iff_of_true ⟨_, rfl⟩ h
      · rw [if_neg h]
        refine iff_of_false ?_ h
        rintro ⟨g'', hg⟩
        split at hg <;> simp at hg
    cases hr : g'.iterate e with
    | panic => rw [← hi]; simp [hr]
    | running => rw [← hi]; simp [hr]
    | ok r =>
      obtain ⟨b', g''⟩ := r
      cases b' with
      | true => exact iff_of_true rfl (hi.1 ⟨g'', hr⟩)
      | false =>
        refine iff_of_false ?_ fun k => ?_
        · dsimp only
          unfold Gds.loop
          split_ifs <;> simp
        · obtain ⟨x, hx⟩ := hi.2 k
          rw [hr] at hx
          cases hx
  exact hl _ _ hb rfl rfl h2.symm

theorem budget_pos_real (cfg : GoalConfig ℝ) (n : ℤ) (t : ℝ) (hf : 1 ≤ cfg.maxIterationsFactor)
    (ht : t ≤ (getCoherenceLimits n : CoherenceLimits ℝ).practical) : 1 ≤ iterationBudget cfg n t := by
  have key : ∀ f : ℝ, 1 ≤ f → 1 ≤ minInt (toInt (cfg.maxIterationsFactor * f)) 1000 := by
    intro f h
    have h1 : (1 : ℝ) ≤ cfg.maxIterationsFactor * f := by nlinarith
    have h2 : 1 ≤ rtrunc (cfg.maxIterationsFactor * f) := by
      unfold rtrunc
      rw [if_pos (by linarith)]
      exact Int.le_floor.2 (by simpa using h1)
    rw [toInt_real]
    unfold minInt
    split_ifs <;> omega
  unfold iterationBudget getConvergenceTimeFactor
  dsimp only
  rw [if_neg (not_lt.2 ht)]
  split_ifs <;> (apply key; norm_num)

theorem preset_factor_real (g : GoalType) (n : ℤ) : 1 ≤ ((configFor g : GoalConfig ℝ).withSize n).maxIterationsFactor := by
  have h : 1 ≤ (configFor g : GoalConfig ℝ).maxIterationsFactor := by
    unfold configFor
    split <;> simp only [minAPIConfig, distLoadConfig, consensusConfig, latencyConfig, energyConfig, rhythmConfig, recoveryConfig,
      trafficConfig, defaultConfig] <;> norm_num
  unfold GoalConfig.withSize
  split_ifs
  · exact h
  · exact h
  · exact h
  · show (1 : ℝ) ≤ _ * 1.5; linarith
  · show (1 : ℝ) ≤ _ * 2.0; linarith

theorem preset_tolerances (g : GoalType) : 0 < (configFor g : GoalConfig ℝ).toleranceSmall ∧ 0 < (configFor g : GoalConfig ℝ).toleranceMedium ∧
    0 < (configFor g : GoalConfig ℝ).toleranceLarge := by
  unfold configFor
  split <;> simp only [minAPIConfig, distLoadConfig, consensusConfig, latencyConfig, energyConfig, rhythmConfig, recoveryConfig,
      trafficConfig, defaultConfig] <;> norm_num

theorem threshold_withSize (c : GoalConfig ℝ) (n : ℤ) : (c.withSize n).patternDistanceThreshold = c.patternDistanceThreshold := by
  unfold GoalConfig.withSize; split_ifs <;> rfl

theorem practical_bounds (n : ℤ) : (getCoherenceLimits n : CoherenceLimits ℝ).practical ≤ (getCoherenceLimits n : CoherenceLimits ℝ).theoretical ∧
    (getCoherenceLimits n : CoherenceLimits ℝ).practical ≤ 1 := by
  unfold getCoherenceLimits
  split_ifs <;> norm_num

/-- **C80 for clients.** For every client that was built and every tick that finds its agents perfectly synchronised on the target, the run
reports success at that tick exactly when three tenths of the missing coherence is below the threshold of the goal. -/
theorem C80_client (b : Builder ℝ) (env : SwarmEnv ℝ) (now : ℤ) (c : Client ℝ) (hc : b.build env now = .ok c)
    (order : SyncMap ℕ → SyncMap ℕ) (hp : ∀ m, (order m).Perm m) (e : Tick ℝ) (hs : Spec.Perfect (e.others c.sync.swarm) 1000000000) :
    (c.start order [.tick e]).1 = .achieved ↔
      0.3 * (1 - c.sync.swarm.goalState.coherence) < (configFor b.goal : GoalConfig ℝ).patternDistanceThreshold := by
  obtain ⟨n, -, ⟨addr, hx⟩, h1, h2, h3, h4, x, -, h5, h6⟩ := C73_client b env now c hc order hp
  have hpr : c.sync.swarm.goalState.coherence ≤ (getCoherenceLimits n : CoherenceLimits ℝ).practical := by
    by_cases h : x > (getCoherenceLimits n : CoherenceLimits ℝ).practical
    · rw [h5 h]
    · rw [h6 h]; exact not_lt.1 h
  obtain ⟨k1, k2⟩ := practical_bounds n
  have ht : adjustTarget n c.sync.swarm.targetPattern = c.sync.swarm.targetPattern := by
    unfold adjustTarget
    exact if_neg (not_lt.2 (hpr.trans k1))
  have hv := (C27_goal_validate_real _).1 (C23_preset_withSize b.goal n)
  rw [← h1, ← h2] at hv
  let g : Gds ℝ := { c.sync with target := c.sync.swarm.targetPattern }
  rw [start_tick c order e n (by rw [hx.count]) hv.interval_pos g rfl ht.symm
    (by rw [ht, h2, h1]; exact budget_pos_real _ _ _ (preset_factor_real _ _) hpr),
    C80_perfect g _ _ (by show Spec.Perfect _ c.sync.swarm.goalState.frequency; rw [h4]; exact hs) h3 (hpr.trans k2) ?_ hv.convergenceGoal.2]
  · show _ < c.sync.config.patternDistanceThreshold ↔ _
    rw [h2, h1, threshold_withSize]
    rfl
  · obtain ⟨t1, t2, t3⟩ := preset_tolerances b.goal
    have := C23_tolerances_positive (configFor b.goal : GoalConfig ℝ) n t1 t2 t3
    rw [← h1, ← h2] at this
    exact ⟨this.1.le, this.2.1.le, this.2.2.le⟩

/-- The combinations of goal and scale for which a client with the default coherence does not count perfect synchronisation: reaching
consensus at every scale, minimising calls at any scale but the two smallest, and maintaining a rhythm or an unknown goal at the two
largest. -/
def Spec.Miscounted (g : GoalType) (s : Size) : Prop :=
  g = 2 ∨ (g = 0 ∧ s ≠ 0 ∧ s ≠ 1) ∨ ((g = 5 ∨ g < 0 ∨ 7 < g) ∧ (s = 3 ∨ s = 4))

theorem thresholds (g : GoalType) : ((configFor g : GoalConfig ℝ).patternDistanceThreshold = 0.05 ∧ g = 0) ∨
    (0.15 ≤ (configFor g : GoalConfig ℝ).patternDistanceThreshold ∧ (g = 1 ∨ g = 3 ∨ g = 4 ∨ g = 6 ∨ g = 7)) ∨
    ((configFor g : GoalConfig ℝ).patternDistanceThreshold = 0.03 ∧ g = 2) ∨
    (0.08 ≤ (configFor g : GoalConfig ℝ).patternDistanceThreshold ∧ (configFor g : GoalConfig ℝ).patternDistanceThreshold ≤ 0.1 ∧
      (g = 5 ∨ g < 0 ∨ 7 < g)) := by
  have key : ∀ g : ℤ, g = 0 ∨ g = 1 ∨ g = 2 ∨ g = 3 ∨ g = 4 ∨ g = 5 ∨ g = 6 ∨ g = 7 ∨ (g < 0 ∨ 7 < g) := by intro g; omega
  rcases key g with rfl | rfl | rfl | rfl | rfl | rfl | rfl | rfl | h
  · exact .inl ⟨rfl, rfl⟩
  · exact .inr (.inl ⟨by norm_num [configFor, distLoadConfig], by decide⟩)
  · exact .inr (.inr (.inl ⟨rfl, rfl⟩))
  · exact .inr (.inl ⟨by norm_num [configFor, latencyConfig], by decide⟩)
  · exact .inr (.inl ⟨by norm_num [configFor, energyConfig], by decide⟩)
  · exact .inr (.inr (.inr ⟨by norm_num [configFor, rhythmConfig], by norm_num [configFor, rhythmConfig], by decide⟩))
  · exact .inr (.inl ⟨by norm_num [configFor, recoveryConfig], by decide⟩)
  · exact .inr (.inl ⟨by norm_num [configFor, trafficConfig], by decide⟩)
  · refine .inr (.inr (.inr ?_))
    have : (configFor g : GoalConfig ℝ) = defaultConfig := by
      unfold configFor
      split <;> first | (refine absurd h ?_; decide) | rfl
    rw [this]
    exact ⟨by norm_num [defaultConfig], by norm_num [defaultConfig], .inr h⟩

theorem miscounted_table (x t : ℝ) (G S : ℤ)
    (hg : (t = 0.05 ∧ G = 0) ∨ (0.15 ≤ t ∧ (G = 1 ∨ G = 3 ∨ G = 4 ∨ G = 6 ∨ G = 7)) ∨ (t = 0.03 ∧ G = 2) ∨
      (0.08 ≤ t ∧ t ≤ 0.1 ∧ (G = 5 ∨ G < 0 ∨ 7 < G)))
    (hxs : (x = 0.90 ∧ S = 0) ∨ (x = 0.85 ∧ S = 1) ∨ (x = 0.75 ∧ (S = 2 ∨ S < 0 ∨ 4 < S)) ∨ (0.55 ≤ x ∧ x ≤ 0.65 ∧ (S = 3 ∨ S = 4))) :
    0.3 * (1 - x) < t ↔ ¬ (G = 2 ∨ (G = 0 ∧ S ≠ 0 ∧ S ≠ 1) ∨ ((G = 5 ∨ G < 0 ∨ 7 < G) ∧ (S = 3 ∨ S = 4))) := by
  rcases hg with ⟨g1, g2⟩ | ⟨g1, g2⟩ | ⟨g1, g2⟩ | ⟨g1, g1', g2⟩ <;>
    rcases hxs with ⟨k1, k2⟩ | ⟨k1, k2⟩ | ⟨k1, k2⟩ | ⟨k1, k1', k2⟩
  · exact iff_of_true (by rw [g1, k1]; norm_num) (by omega)
  · exact iff_of_true (by rw [g1, k1]; norm_num) (by omega)
  · exact iff_of_false (by rw [g1, k1]; norm_num) (by omega)
  · exact iff_of_false (by linarith) (by omega)
  · exact iff_of_true (by linarith) (by omega)
  · exact iff_of_true (by linarith) (by omega)
  · exact iff_of_true (by linarith) (by omega)
  · exact iff_of_true (by linarith) (by omega)
  · exact iff_of_false (by linarith) (by omega)
  · exact iff_of_false (by linarith) (by omega)
  · exact iff_of_false (by linarith) (by omega)
  · exact iff_of_false (by linarith) (by omega)
  · exact iff_of_true (by linarith) (by omega)
  · exact iff_of_true (by linarith) (by omega)
  · exact iff_of_true (by linarith) (by omega)
  · exact iff_of_false (by linarith) (by omega)

/-- **C80, which goals and scales.** With the default coherence, a run that finds the agents perfectly synchronised on the target reports
success for exactly the goals and scales that are not miscounted. -/
theorem C80_default_partial (b : Builder ℝ) (hd : b.targetCoherence ≤ 0) (env : SwarmEnv ℝ) (now : ℤ) (c : Client ℝ)
    (hc : b.build env now = .ok c) (order : SyncMap ℕ → SyncMap ℕ) (hp : ∀ m, (order m).Perm m) (e : Tick ℝ)
    (hs : Spec.Perfect (e.others c.sync.swarm) 1000000000) :
    (c.start order [.tick e]).1 = .achieved ↔ ¬ Spec.Miscounted b.goal b.scale := by
  rw [C80_client b env now c hc order hp e hs]
  obtain ⟨n, hn, -, -, -, -, -, x, h5, h6, h7⟩ := C73_client b env now c hc order hp
  replace h5 := h5.2 hd
  have hsc : ∀ s : ℤ, s = 0 ∨ s = 1 ∨ s = 2 ∨ s = 3 ∨ s = 4 ∨ (s < 0 ∨ 4 < s) := by intro s; omega
  have hx : ¬ x > (getCoherenceLimits n : CoherenceLimits ℝ).practical → c.sync.swarm.goalState.coherence = x := h7
  have hco : c.sync.swarm.goalState.coherence = x := by
    apply hx
    obtain ⟨a0, a1, a2, a3, a4, a5⟩ := hn
    obtain ⟨b0, b1, b2, b3, b4, b5⟩ := h5
    rcases hsc b.scale with h | h | h | h | h | h
    · rw [a0 h, b0 h]; norm_num [getCoherenceLimits]
    · rw [a1 h, b1 h]; norm_num [getCoherenceLimits]
    · rw [a2 h, b2 h]; norm_num [getCoherenceLimits]
    · rw [a3 h, b3 h]; norm_num [getCoherenceLimits]
    · rw [a4 h, b4 h]; norm_num [getCoherenceLimits]
    · rw [a5 h, b5 h]; norm_num [getCoherenceLimits]
  rw [hco]
  clear hco hx h7 h6 hn hs hc hd
  have hg := thresholds b.goal
  generalize (configFor b.goal : GoalConfig ℝ).patternDistanceThreshold = t at hg ⊢
  obtain ⟨b0, b1, b2, b3, b4, b5⟩ := h5
  have hxs : (x = 0.90 ∧ b.scale = 0) ∨ (x = 0.85 ∧ b.scale = 1) ∨ (x = 0.75 ∧ (b.scale = 2 ∨ b.scale < 0 ∨ 4 < b.scale)) ∨
      (0.55 ≤ x ∧ x ≤ 0.65 ∧ (b.scale = 3 ∨ b.scale = 4)) := by
    rcases hsc b.scale with h | h | h | h | h | h
    · exact .inl ⟨b0 h, h⟩
    · exact .inr (.inl ⟨b1 h, h⟩)
    · exact .inr (.inr (.inl ⟨b2 h, .inl h⟩))
    · exact .inr (.inr (.inr ⟨by rw [b3 h]; norm_num, by rw [b3 h], .inl h⟩))
    · exact .inr (.inr (.inr ⟨by rw [b4 h], by rw [b4 h]; norm_num, .inr h⟩))
    · exact .inr (.inr (.inl ⟨b5 h, .inr h⟩))
  clear b0 b1 b2 b3 b4 b5
  exact miscounted_table x t b.goal b.scale hg hxs

/-- Over the reals a client can be built for every goal and scale, and its agents can be perfectly synchronised. -/
theorem exists_client (b : Builder ℝ) (hb : b.targetCoherence ≤ 1) : ∃ (env : SwarmEnv ℝ) (c : Client ℝ) (e : Tick ℝ),
    b.build env 0 = .ok c ∧ Spec.Perfect (e.others c.sync.swarm) 1000000000 := by
  have hv : b.target.validate = [] := by
    have h0 : ¬ ((1000 * millisecond : ℤ) ≤ 0) := by unfold millisecond; norm_num
    unfold Builder.target State.validate
    dsimp only
    rw [if_neg h0]
    have hd : 0 ≤ (b.scale.defaultTargetCoherence : ℝ) ∧ (b.scale.defaultTargetCoherence : ℝ) ≤ 1 := by
      unfold Size.defaultTargetCoherence
      split <;> norm_num
    have hr : ¬ ((if b.targetCoherence ≤ 0 then b.scale.defaultTargetCoherence else b.targetCoherence) < 0 ∨
        (if b.targetCoherence ≤ 0 then b.scale.defaultTargetCoherence else b.targetCoherence) > 1) := by
      split_ifs with h
      · exact not_or.2 ⟨not_lt.2 hd.1, not_lt.2 hd.2⟩
      · exact not_or.2 ⟨not_lt.2 (not_le.1 h).le, not_lt.2 hb⟩
    rw [if_neg hr]
    simp
  obtain ⟨N, c, h⟩ := build_succeeds b hv (C23_preset_withSize _ _) (SwarmEnv.simple (fun _ _ => 0) fun _ k => k) (fun _ => fair_self _) 0
  refine ⟨_, c, { Tick.plain 0 with others := fun s => { s with heap := fun a => { s.heap a with state := ⟨0, 1, 0, 1000000000⟩ } } },
    h N le_rfl, ?_, fun a _ => ⟨rfl, rfl⟩⟩
  obtain ⟨n, hn, ⟨addr, hx⟩, -⟩ := C73_client b _ _ c (h N le_rfl) id (fun _ => .refl _)
  intro e
  have e' : c.sync.swarm.collectAgents id = [] := e
  have := hx.listed.length_eq
  rw [e'] at this
  simp only [List.length_nil, List.length_map, List.length_range] at this
  subst this
  obtain ⟨a0, a1, a2, a3, a4, a5⟩ := hn
  have hsc : ∀ s : ℤ, s = 0 ∨ s = 1 ∨ s = 2 ∨ s = 3 ∨ s = 4 ∨ (s < 0 ∨ 4 < s) := by intro s; omega
  rcases hsc b.scale with h | h | h | h | h | h
  · exact absurd (a0 h) (by norm_num)
  · exact absurd (a1 h) (by norm_num)
  · exact absurd (a2 h) (by norm_num)
  · exact absurd (a3 h) (by norm_num)
  · exact absurd (a4 h) (by norm_num)
  · exact absurd (a5 h) (by norm_num)

/-- Beside `C73_client`, `C73_build`, `C56_silent_partial` and `C80_client`: a large client for minimising latency with its own
coherence. -/
example : ∃ (env : SwarmEnv ℝ) (c : Client ℝ) (e : Tick ℝ), (Builder.mk 3 3 0.8 : Builder ℝ).build env 0 = .ok c ∧
    Spec.Perfect (e.others c.sync.swarm) 1000000000 := exists_client _ (by show (0.8 : ℝ) ≤ 1; norm_num)

/-- **C80.** Once every agent of a client with the default coherence is at the target phase and frequency, the run reports success. -/
def C80_claim : Prop :=
  ∀ (b : Builder ℝ), b.targetCoherence = 0 → ∀ (env : SwarmEnv ℝ) (now : ℤ) (c : Client ℝ), b.build env now = .ok c →
    ∀ (order : SyncMap ℕ → SyncMap ℕ), (∀ m, (order m).Perm m) → ∀ e : Tick ℝ, Spec.Perfect (e.others c.sync.swarm) 1000000000 →
      (c.start order [.tick e]).1 = .achieved

/-- The claim fails for the first shorthand of the client library at the medium scale. -/
theorem C80_refuted : ¬ C80_claim := by
  intro h
  obtain ⟨env, c, e, hb, hp⟩ := exists_client ((Builder.new.withGoal 0).withScale 2) (by show (0 : ℝ) ≤ 1; norm_num)
  have h1 := h _ rfl env 0 c hb id (fun _ => .refl _) e hp
  exact (C80_default_partial _ le_rfl env 0 c hb id (fun _ => .refl _) e hp).1 h1 (.inr (.inl ⟨rfl, by decide, by decide⟩))

example : ∃ (b : Builder ℝ) (env : SwarmEnv ℝ) (c : Client ℝ) (e : Tick ℝ), b.targetCoherence ≤ 0 ∧ b.build env 0 = .ok c ∧
    Spec.Perfect (e.others c.sync.swarm) 1000000000 ∧ ¬ Spec.Miscounted b.goal b.scale := by
  obtain ⟨env, c, e, hb, hp⟩ := exists_client Builder.new (by show (0 : ℝ) ≤ 1; norm_num)
  refine ⟨_, env, c, e, le_rfl, hb, hp, ?_⟩
  show ¬ Spec.Miscounted 0 0
  unfold Spec.Miscounted
  decide

/-- **C56.** After a run that succeeded the client reports that it converged. -/
def C56_claim : Prop :=
  ∀ (b : Builder ℝ) (env : SwarmEnv ℝ) (now : ℤ) (c : Client ℝ), b.build env now = .ok c →
    ∀ (order : SyncMap ℕ → SyncMap ℕ), (∀ m, (order m).Perm m) → ∀ evs : List (SyncEvent ℝ),
      (c.start order evs).1 = .achieved → (c.start order evs).2.isConverged = true

/-- The default client succeeds at the first tick with perfectly synchronised agents, and reports that it has not converged. -/
theorem C56_refuted : ¬ C56_claim := by
  intro h
  obtain ⟨env, c, e, hb, hp⟩ := exists_client Builder.new (by show (0 : ℝ) ≤ 1; norm_num)
  have h1 := (C80_default_partial _ le_rfl env 0 c hb id (fun _ => .refl _) e hp).2
    (by show ¬ Spec.Miscounted 0 0; unfold Spec.Miscounted; decide)
  have h2 := h _ env 0 c hb id (fun _ => .refl _) [.tick e] h1
  have h3 := (C56_silent_partial _ env 0 c hb [.start id [.tick e]]).1
  rw [show [ClientOp.start id [.tick e]].foldl Client.apply c = (c.start id [.tick e]).2 from rfl, h2] at h3
  cases h3

end Verif
