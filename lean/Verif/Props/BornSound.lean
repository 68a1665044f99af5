import Verif.Props.SyncSafe
import Verif.Props.SwarmNew
import Verif.Props.AgentRange
import Verif.Props.State

/-! # Agents of a new swarm are in range and stay valid (C158) -/

set_option autoImplicit false
set_option linter.unusedSectionVars false

namespace Verif
open GoMath

section generic
variable {α : Type} [Zero α] [One α] [Add α] [Sub α] [Mul α] [Div α] [Neg α] [LT α] [LE α]
  [DecidableLT α] [DecidableLE α] [BEq α] [OfScientific α] [GoMath α]

/-- All allocated cells satisfy `V true`, all others `V false`. -/
def CellsAll (V : Bool → Agent α → Prop) (s : Swarm α) : Prop := ∀ x, V (decide (x < s.next)) (s.heap x)

/-- A condition on allocated cells only. -/
def onAllocated (V : Agent α → Prop) : Bool → Agent α → Prop := fun b a => b = true → V a

theorem cellsAll_store {V : Bool → Agent α → Prop} {s : Swarm α} (h : CellsAll V s) (a : Agent α) (ha : V true a) (x : ℕ) :
    V (decide (x < s.next + 1)) (setAt s.heap s.next a x) := by
  unfold setAt
  by_cases e : x = s.next
  · rw [if_pos e, decide_eq_true (by omega)]; exact ha
  · rw [if_neg e, decide_eq_decide.2 (show x < s.next + 1 ↔ x < s.next by omega)]
    exact h x

theorem createDefaultLoop_all {V : Bool → Agent α → Prop} (cfg : AgentConfig α) (draws : ℕ → Draws)
    (hV : ∀ id d a, newFromConfig id cfg d = .ok a → V true a) (l : List ℕ) (s s' : Swarm α) (h : CellsAll V s)
    (e : createDefaultLoop cfg draws l s = .ok s') : CellsAll V s' := by
  induction l generalizing s with
  | nil => cases e; exact h
  | cons i l ih =>
    unfold createDefaultLoop at e
    cases ha : newFromConfig (agentID i) cfg (draws i) with
    | error x => rw [ha] at e; cases e
    | ok a =>
      rw [ha] at e
      exact ih (s.storeAgent a) (cellsAll_store h a (hV _ _ _ ha)) e

theorem createOptimized_all {V : Bool → Agent α → Prop} (s : Swarm α) (draws : ℕ → Draws)
    (hV : ∀ id d, V true (newOptimizedFromConfig id s.agentConfig d)) (h : CellsAll V s) : CellsAll V (s.createOptimizedAgents draws) := by
  unfold Swarm.createOptimizedAgents
  dsimp only
  generalize List.range s.size.toNat = l
  have h' : CellsAll V { s with agentSlice := [] } := h
  generalize ({ s with agentSlice := [] } : Swarm α) = t at h'
  induction l generalizing t with
  | nil => exact h'
  | cons j l ih => exact ih _ (cellsAll_store h' _ (hV _ _))

/-- What simple options leave of the swarm that is being built. -/
theorem applyOptions_plain (s s' : Swarm α) (os : List (SwarmOption α)) (ho : ∀ o ∈ os, o.Simple) (e : s.applyOptions os = some s') :
    (s'.next = s.next ∧ s'.heap = s.heap) ∧ s'.size = s.size ∧ (s'.config = s.config ∨ ∃ c, SwarmOption.config c ∈ os ∧ s'.config = (c.normalizeAndValidate s.size).2) ∧
    (s'.goalConfig = s.goalConfig ∨ ∃ c, SwarmOption.goalConfig c ∈ os ∧ s'.goalConfig = some c) := by
  induction os generalizing s with
  | nil => cases e; exact ⟨⟨rfl, rfl⟩, rfl, Or.inl rfl, Or.inl rfl⟩
  | cons o os ih =>
    obtain ⟨t, e1, e2⟩ := Option.bind_eq_some_iff.1 e
    obtain ⟨i1, i2, i3, i4⟩ := ih t (fun o' ho' => ho o' (by simp [ho'])) e2
    have key : (t.next = s.next ∧ t.heap = s.heap) ∧ t.size = s.size ∧ (t.config = s.config ∨ ∃ c, SwarmOption.config c = o ∧ t.config = (c.normalizeAndValidate s.size).2) ∧
        (t.goalConfig = s.goalConfig ∨ ∃ c, SwarmOption.goalConfig c = o ∧ t.goalConfig = some c) := by
      cases o with
      | config c =>
        unfold Swarm.applyOption at e1; dsimp only at e1
        generalize hr : c.normalizeAndValidate s.size = r at e1
        split_ifs at e1
        cases e1; exact ⟨⟨rfl, rfl⟩, rfl, Or.inr ⟨c, rfl, by rw [hr]⟩, Or.inl rfl⟩
      | goalConfig c =>
        unfold Swarm.applyOption at e1; dsimp only at e1
        split_ifs at e1
        cases e1; exact ⟨⟨rfl, rfl⟩, rfl, Or.inl rfl, Or.inr ⟨c, rfl, rfl⟩⟩
      | monitor => cases e1; exact ⟨⟨rfl, rfl⟩, rfl, Or.inl rfl, Or.inl rfl⟩
      | recovery c => cases e1; exact ⟨⟨rfl, rfl⟩, rfl, Or.inl rfl, Or.inl rfl⟩
      | agentBuilder b => exact (ho _ List.mem_cons_self).elim
      | topology b => exact (ho _ List.mem_cons_self).elim
    obtain ⟨k1, k2, k3, k4⟩ := key
    refine ⟨⟨i1.1.trans k1.1, i1.2.trans k1.2⟩, i2.trans k2, ?_, ?_⟩
    · rcases i3 with i3 | ⟨c, hc, i3⟩
      · rcases k3 with k3 | ⟨c, hc, k3⟩
        · exact Or.inl (i3.trans k3)
        · exact Or.inr ⟨c, by rw [hc]; exact List.mem_cons_self, i3.trans k3⟩
      · exact Or.inr ⟨c, List.mem_cons_of_mem _ hc, by rw [i3, k2]⟩
    · rcases i4 with i4 | ⟨c, hc, i4⟩
      · rcases k4 with k4 | ⟨c, hc, k4⟩
        · exact Or.inl (i4.trans k4)
        · exact Or.inr ⟨c, by rw [hc]; exact List.mem_cons_self, i4.trans k4⟩
      · exact Or.inr ⟨c, List.mem_cons_of_mem _ hc, i4⟩

theorem complete_all {V : Bool → Agent α → Prop} (hN : ∀ b a nb, V b a → V b { a with neighbors := nb }) (env : SwarmEnv α) (s s' : Swarm α) (n : ℕ) (h : OptInv s n)
    (ha : s.agents = []) (h0 : s.next = 0) (hz : ∀ x, V false (s.heap x))
    (hV : ∀ c, checkConfig s.config s.size = .ok c → ∀ id d, V true (newOptimizedFromConfig id ({ s with config := c } : Swarm α).agentConfig d) ∧
      ∀ a, newFromConfig id ({ s with config := c } : Swarm α).agentConfig d = .ok a → V true a)
    (e : s.complete env = .ok s') : CellsAll V s' ∧ s'.goalConfig = s.goalConfig ∧ s'.goalState = s.goalState := by
  unfold Swarm.complete at e
  cases hc : checkConfig s.config s.size with
  | error x => rw [hc] at e; cases e
  | ok c =>
    rw [hc] at e
    simp only [Except.bind] at e
    split_ifs at e
    have hz : CellsAll V { s with config := c } := fun x => by
      show V (decide (x < s.next)) (s.heap x)
      rw [h0, decide_eq_false (by omega)]; exact hz x
    unfold Swarm.createAgents at e
    dsimp only at e
    split_ifs at e with ho hl hl
    · obtain ⟨hp, rfl, hsame⟩ := finish_eq _ _ _ e
      have hall := createOptimized_all { s with config := c } env.draws (fun id d => (hV c hc id d).1) hz
      refine ⟨fun x => ?_, ?_⟩
      · obtain ⟨nb, hnb⟩ := hsame x
        show V _ (hp x)
        rw [hnb]
        exact hN _ _ _ (hall x)
      · show (Swarm.createOptimizedAgents { s with config := c } env.draws).goalConfig = _ ∧ (Swarm.createOptimizedAgents { s with config := c } env.draws).goalState = _
        unfold Swarm.createOptimizedAgents
        dsimp only
        generalize List.range s.size.toNat = l
        have key : ∀ (l : List ℕ) (t : Swarm α) (cfg : AgentConfig α), let r := l.foldl (fun s j =>
            ({ s with
              heap := setAt s.heap s.next (newOptimizedFromConfig (agentID j) cfg (env.draws j))
              next := s.next + 1
              agentSlice := s.agentSlice ++ [s.next]
              agentIndex := SyncMap.store s.agentIndex (agentID j) j } : Swarm α)) t
            r.goalConfig = t.goalConfig ∧ r.goalState = t.goalState := by
          intro l
          induction l with
          | nil => exact fun _ _ => ⟨rfl, rfl⟩
          | cons j l ih => exact fun t cfg => ih _ cfg
        exact key l _ _
    · rw [h.slice] at hl; exact absurd rfl hl
    · obtain ⟨t, ht⟩ := createDefault_total { s with config := c } env.draws
      rw [ht] at e
      obtain ⟨hp, rfl, hsame⟩ := finish_eq _ _ _ e
      have hall : CellsAll V t := createDefaultLoop_all _ env.draws (fun id d => (hV c hc id d).2) _ _ t hz ht
      refine ⟨fun x => ?_, ?_⟩
      · obtain ⟨nb, hnb⟩ := hsame x
        show V _ (hp x)
        rw [hnb]
        exact hN _ _ _ (hall x)
      · show t.goalConfig = s.goalConfig ∧ t.goalState = s.goalState
        unfold Swarm.createDefaultAgents at ht
        have key : ∀ (l : List ℕ) (t t' : Swarm α) (cfg : AgentConfig α), createDefaultLoop cfg env.draws l t = .ok t' →
            t'.goalConfig = t.goalConfig ∧ t'.goalState = t.goalState := by
          intro l
          induction l with
          | nil => intro t t' cfg h; cases h; exact ⟨rfl, rfl⟩
          | cons j l ih =>
            intro t t' cfg h
            unfold createDefaultLoop at h
            cases ha : newFromConfig (agentID j) cfg (env.draws j) with
            | error x => rw [ha] at h; cases h
            | ok a => rw [ha] at h; exact ih (t.storeAgent a) t' cfg h
        exact key _ { s with config := c } _ _ ht
    · rw [ha] at hl; exact absurd rfl hl

/-- The agents that are listed are in allocated cells. -/
theorem listed_alloc (env : SwarmEnv α) (s s' : Swarm α) (n : ℕ) (h : OptInv s n) (e : s.complete env = .ok s') {V : Agent α → Prop} (hc : CellsAll (onAllocated V) s') :
    Spec.AllAgents V s' ∧ ∀ order : SyncMap ℕ → SyncMap ℕ, (∀ m, (order m).Perm m) → (s'.collectAgents order).length = n := by
  obtain ⟨-, ⟨k1, addr, k2⟩ | ⟨k1, addr, k2⟩⟩ := complete_pop env s s' n h e
  · have he : ∀ order, s'.collectAgents order = (List.range n).map addr := fun order => by
      unfold Swarm.collectAgents; rw [k1, if_pos rfl, k2.slice]
    refine ⟨fun order _ a ha => ?_, fun order _ => by rw [he]; simp⟩
    rw [he] at ha
    obtain ⟨i, hi, rfl⟩ := List.mem_map.1 ha
    exact hc _ (decide_eq_true (k2.lt i (List.mem_range.1 hi)))
  · have he : ∀ order : SyncMap ℕ → SyncMap ℕ, (∀ m, (order m).Perm m) → (s'.collectAgents order).Perm ((List.range n).map addr) := fun order hp => by
      unfold Swarm.collectAgents
      rw [k1, if_neg (by simp)]
      refine ((hp s'.agents).map Prod.snd).trans ?_
      rw [k2.agents, List.map_map]
      exact List.Perm.refl _
    refine ⟨fun order hp a ha => ?_, fun order hp => by rw [(he order hp).length_eq]; simp⟩
    obtain ⟨i, hi, rfl⟩ := List.mem_map.1 ((he order hp).mem_iff.1 ha)
    exact hc _ (decide_eq_true (k2.lt i (List.mem_range.1 hi)))

/-- `b` is `a` with another phase and another frequency. -/
def Spec.Repositioned (a b : Agent α) : Prop := ∃ p f, b = { a with state := { a.state with phase := p, frequency := f } }

theorem moved_phase (a b : Agent α) (p : α) (h : Spec.Repositioned a b) : Spec.Repositioned a (b.setPhase p) := by
  obtain ⟨_, f, rfl⟩ := h
  exact ⟨_, f, rfl⟩

theorem moved_frequency (a b : Agent α) (f : ℤ) (h : Spec.Repositioned a b) : Spec.Repositioned a (b.setFrequency f) := by
  obtain ⟨p, _, rfl⟩ := h
  exact ⟨p, _, rfl⟩

theorem moved_refl (a : Agent α) : Spec.Repositioned a a := ⟨_, _, rfl⟩

theorem moved_trans {a b c : Agent α} (h : Spec.Repositioned a b) (h' : Spec.Repositioned b c) : Spec.Repositioned a c := by
  obtain ⟨_, _, rfl⟩ := h
  obtain ⟨p, f, rfl⟩ := h'
  exact ⟨p, f, rfl⟩

theorem stepsKeep_moved (a : Agent α) (c : AdjustCtx α) : StepsKeep (Spec.Repositioned a) (fun _ => True) c where
  scatter b w h := moved_phase _ _ _ h
  freq f b h := by
    unfold adjustFrequency
    split_ifs
    · exact moved_frequency _ _ _ h
    · exact h
    · exact h
  pull s w b _ h := by
    unfold pullAgent
    dsimp only
    split_ifs
    · exact moved_phase _ _ _ h
    · exact h
  nudge s w b _ h := by
    unfold nudgeAgent
    dsimp only
    split_ifs
    · exact moved_phase _ _ _ h
    · exact moved_phase _ _ _ h
    · exact h
  walk w b h := moved_phase _ _ _ h
  noisy w b h := moved_phase _ _ _ h
  scale := trivial
  shrink _ _ := trivial

/-- **C158 (what synchronisation touches).** However long a swarm is synchronised, no agent gets another identity, local goal, energy, influence, stubbornness,
strategy, resource manager or other neighbours: only phases and frequencies change, as far as the other goroutines leave the agent at `x` so. -/
theorem C158_touches (s : Swarm α) (order : SyncMap ℕ → SyncMap ℕ) (evs : List (SyncEvent α)) (x : ℕ)
    (hev : ∀ t, .tick t ∈ evs → ∀ s : Swarm α, Spec.Repositioned (s.heap x) ((t.others s).heap x)) :
    Spec.Repositioned (s.heap x) ((s.run order evs).2.2.swarm.heap x) := by
  unfold Swarm.run Gds.achieve
  dsimp only
  split_ifs
  · exact moved_refl _
  · exact loop_keeps (V := Spec.Repositioned (s.heap x)) (Q := fun t => Spec.Repositioned (s.heap x) (t.heap x)) (fun t h' ht hk => hk x ht) _ _ evs 0 (moved_refl _)
      (fun e he t ht => moved_trans ht (hev e he t)) (fun _ _ _ _ _ _ => ⟨_, stepsKeep_moved _ _⟩)

end generic

/-! ### Doubles -/

section
variable [Rounding] [LibM]

/-- The three numbers of a swarm configuration that go into agents are numbers, and the energy is finite. -/
structure Spec.Usable (c : SwarmConfig F64) : Prop where
  energy : F64.IsFinite c.initialEnergy
  influence : c.influenceDefault ≠ .nan
  stubbornness : c.stubbornness ≠ .nan

/-- The options of `New` that are covered: usable swarm configurations, moderate goal configurations, monitors and recovery settings. -/
def Spec.UsableOption : SwarmOption F64 → Prop
  | .config c => Spec.Usable c
  | .goalConfig c => Spec.Moderate c
  | .monitor => True
  | .recovery _ => True
  | .agentBuilder _ => False
  | .topology _ => False

/-- An agent as it should be: phase and local goal in [0, 2π), energy not negative, influence and stubbornness in [0, 1], positive frequency. -/
def Spec.Born (a : Agent F64) : Prop := AgentOK a ∧ 0 < a.state.frequency

theorem lit_finite (x : ℝ) (h0 : 0 ≤ x) (h1 : x ≤ 100) : F64.IsFinite (F64.ofReal x) := by
  obtain ⟨d, e, -⟩ := F64.ofReal_abs_le (x := x) 100 (by norm_num) (by rw [abs_of_nonneg h0]; exact_mod_cast h1)
  rw [e]; trivial

theorem finite_ne_nan {x : F64} (h : F64.IsFinite x) : x ≠ .nan := by rintro rfl; exact h

theorem usable_auto (size : ℤ) : Spec.Usable (autoScaleConfig size) := by
  have z : F64.IsFinite (0 : F64) := by rw [F64.zero_def]; trivial
  have e : ∀ c : SwarmConfig F64, Spec.Usable c → ∀ k n, Spec.Usable { c with couplingStrength := k, assumedMaxNeighbors := n } :=
    fun c h k n => ⟨h.energy, h.influence, h.stubbornness⟩
  have key : Spec.Usable (autoScaleBase size) := by
    unfold autoScaleBase
    split_ifs <;>
      exact ⟨lit_finite _ (by norm_num) (by norm_num), finite_ne_nan (lit_finite _ (by norm_num) (by norm_num)),
        finite_ne_nan (lit_finite _ (by norm_num) (by norm_num))⟩
  unfold autoScaleConfig
  dsimp only
  split_ifs
  · exact ⟨key.energy, key.influence, key.stubbornness⟩
  · exact ⟨key.energy, key.influence, key.stubbornness⟩

theorem clampProbability_num {x : F64} (h : x ≠ .nan) : clampProbability x ≠ .nan := by
  unfold clampProbability
  split_ifs
  · rw [F64.zero_def]; simp
  · rw [F64.one_def]; simp
  · exact h

theorem usable_normalize (c : SwarmConfig F64) (n : ℤ) (h : Spec.Usable c) : Spec.Usable (c.normalizeAndValidate n).2 := by
  have key : Spec.Usable (c.normalize n) := by
    refine ⟨?_, ?_, ?_⟩
    · show F64.IsFinite (if c.initialEnergy ≤ 0 then (100.0 : F64) else c.initialEnergy)
      split_ifs
      · exact lit_finite _ (by norm_num) (by norm_num)
      · exact h.energy
    · exact clampProbability_num h.influence
    · exact clampProbability_num h.stubbornness
  unfold SwarmConfig.normalizeAndValidate
  split_ifs
  · exact key
  · exact key

theorem born_neighbors (a : Agent F64) (nb : SyncMap ℕ) (h : Spec.Born a) : Spec.Born { a with neighbors := nb } :=
  ⟨⟨h.1.phase, h.1.localGoal, h.1.energy, h.1.influence, h.1.stubbornness⟩, h.2⟩

theorem random_frequency (w : ℕ) : 0 < 100 * millisecond + randomMillis (α := F64) w := by
  have := randomMillis_nonneg w
  unfold millisecond at *; omega

theorem zero_finite : F64.IsFinite (0 : F64) := by rw [F64.zero_def]; trivial

theorem born_optimized (id : String) (s : Swarm F64) (h : Spec.Usable s.config) (d : Draws) : Spec.Born (newOptimizedFromConfig id s.agentConfig d) := by
  refine ⟨agentOK_new _ _ _ _ _ fun o ho => ?_, ?_⟩
  · simp only [List.mem_append, List.mem_cons, List.not_mem_nil, or_false] at ho
    rcases ho with (((((h1 | h1 | h1 | h1 | h1 | h1 | h1) | h1) | h1) | h1) | h1) | h1
    · subst h1; exact zero_finite
    · subst h1; trivial
    · subst h1; exact finite_ne_nan h.energy
    · subst h1; exact h.influence
    · subst h1; exact h.stubbornness
    · subst h1; trivial
    · subst h1; exact zero_finite
    · split_ifs at h1 <;> simp only [List.mem_cons, List.not_mem_nil, or_false] at h1
      subst h1; trivial
    · split_ifs at h1 <;> simp only [List.mem_cons, List.not_mem_nil, or_false] at h1
      subst h1; trivial
    · split_ifs at h1 <;> simp only [List.mem_cons, List.not_mem_nil, or_false] at h1
      subst h1; trivial
    · split_ifs at h1 <;> simp only [List.mem_cons, List.not_mem_nil, or_false] at h1
      subst h1; exact tokenOK_new h.energy
    · subst h1; trivial
  · unfold newOptimizedFromConfig
    dsimp only
    by_cases hr : s.agentConfig.resourceManagerType = "token" ∧ s.agentConfig.maxTokens > 0
    · rw [if_pos hr]; exact random_frequency d.freq
    · rw [if_neg hr]; exact random_frequency d.freq

theorem born_fromConfig (id : String) (s : Swarm F64) (h : Spec.Usable s.config) (d : Draws) (a : Agent F64) (e : newFromConfig id s.agentConfig d = .ok a) :
    Spec.Born a := by
  unfold newFromConfig at e
  split_ifs at e
  cases h3 : createResourceManager s.agentConfig with
  | none => rw [h3] at e; cases e
  | some rm =>
    cases h4 : createStrategy s.agentConfig d.now with
    | none => rw [h3, h4] at e; cases e
    | some st =>
      rw [h3, h4] at e
      cases e
      have hrm : TokenOK rm := by
        unfold createResourceManager at h3
        split_ifs at h3
        · cases h3; exact tokenOK_new (lit_finite _ (by norm_num) (by norm_num))
        · cases h3; exact tokenOK_new h.energy
        · cases h3; exact tokenOK_new h.energy
      refine ⟨agentOK_new _ _ _ _ _ fun o ho => ?_, ?_⟩
      · unfold configOptions at ho
        simp only [List.mem_append, List.mem_cons, List.not_mem_nil, or_false] at ho
        rcases ho with (h1 | h1) | (h1 | h1 | h1 | h1 | h1 | h1) | h1
        · subst h1; exact hrm
        · subst h1; trivial
        · rw [if_pos (by rfl)] at h1; subst h1; trivial
        · rw [if_pos (by rfl)] at h1; subst h1; trivial
        · rw [if_pos (by rfl)] at h1; subst h1; trivial
        · subst h1
          show (if _ then _ else _ : F64) ≠ .nan
          split_ifs
          · exact finite_ne_nan (lit_finite _ (by norm_num) (by norm_num))
          · exact finite_ne_nan h.energy
        · subst h1
          show (if _ then _ else _ : F64) ≠ .nan
          split_ifs
          · exact finite_ne_nan (lit_finite _ (by norm_num) (by norm_num))
          · exact h.influence
        · subst h1
          show (if _ then _ else _ : F64) ≠ .nan
          split_ifs
          · exact finite_ne_nan (lit_finite _ (by norm_num) (by norm_num))
          · exact h.stubbornness
        · split_ifs at h1 <;> simp only [List.mem_cons, List.not_mem_nil, or_false] at h1
          subst h1; trivial
      · by_cases hn : s.agentConfig.swarmSize > 0
        · unfold configOptions
          rw [if_pos hn]; exact random_frequency d.freq
        · unfold configOptions
          rw [if_neg hn]; exact random_frequency d.freq

/-- **C158 (born).** Every agent of a swarm that `New` builds, with usable options, is as it should be, in any order of listing; and there are as many as were asked
for. -/
theorem C158_born (env : SwarmEnv F64) (size : ℤ) (goal : State F64) (opts : List (SwarmOption F64)) (ho : ∀ o ∈ opts, Spec.UsableOption o) (s : Swarm F64)
    (e : newSwarm env size goal opts = .ok s) :
    Spec.AllAgents Spec.Born s ∧ (∀ order : SyncMap ℕ → SyncMap ℕ, (∀ m, (order m).Perm m) → ((s.collectAgents order).length : ℤ) = size) ∧
    s.goalState.phase = goal.phase ∧ Spec.Moderate (s.goalConfig.getD defaultConfig) := by
  have hsimple : ∀ o ∈ opts, o.Simple := fun o h => by
    have := ho o h
    cases o <;> trivial
  obtain ⟨h1, -, c, t, hc, h3, h4⟩ := newSwarm_ok env size goal opts s e
  have hi := applyOptions_inv _ t size.toNat (initial_inv size h1 goal c) opts (fun o h => simple_proper o (hsimple o h)) h3
  obtain ⟨ha, -, hg⟩ := applyOptions_simple _ t opts hsimple h3
  obtain ⟨k1, k2, k3, k4⟩ := applyOptions_plain _ t opts hsimple h3
  have hcc : Spec.Usable c := by
    have := checkConfig_ok _ _ _ hc
    have h' := usable_normalize (autoScaleConfig size) size (usable_auto size)
    rw [this] at h'
    exact h'
  have ht : Spec.Usable t.config := by
    rcases k3 with k3 | ⟨c', hc', k3⟩
    · rw [k3]; exact hcc
    · rw [k3]; exact usable_normalize _ _ (ho _ hc')
  obtain ⟨g1, g2, g3⟩ := complete_all (V := onAllocated Spec.Born) (fun b a nb h hb => born_neighbors a nb (h hb)) env t s size.toNat hi ha k1.1
    (fun _ h => absurd h (by simp))
    (fun c' hc' id d => by
      have hu : Spec.Usable c' := by
        have := checkConfig_ok _ _ _ hc'
        have h' := usable_normalize t.config t.size ht
        rw [this] at h'
        exact h'
      exact ⟨fun _ => born_optimized id { t with config := c' } hu d, fun a h _ => born_fromConfig id { t with config := c' } hu d a h⟩) h4
  obtain ⟨l1, l2⟩ := listed_alloc env t s size.toNat hi h4 g1
  refine ⟨l1, fun order hp => by rw [l2 order hp]; omega, ?_, ?_⟩
  · rw [g3, hg]
    unfold Swarm.initial
    dsimp only
    split_ifs <;> rfl
  · rw [g2]
    rcases k4 with k4 | ⟨c', hc', k4⟩
    · rw [k4]; exact C53_presets_moderate.1
    · rw [k4]; exact ho _ hc'

/-- **C158 (born, from a configuration).** The same for `NewSwarmFromConfig` with a usable configuration. -/
theorem C158_born_config (env : SwarmEnv F64) (size : ℤ) (goal : State F64) (cfg : SwarmConfig F64) (hu : Spec.Usable cfg) (s : Swarm F64)
    (e : newSwarmFromConfig env size goal cfg = .ok s) :
    Spec.AllAgents Spec.Born s ∧ ∀ order : SyncMap ℕ → SyncMap ℕ, (∀ m, (order m).Perm m) → ((s.collectAgents order).length : ℤ) = size := by
  unfold newSwarmFromConfig at e
  split_ifs at e with h1 h2
  cases hc : checkConfig cfg size with
  | error x => rw [hc] at e; cases e
  | ok c =>
    rw [hc] at e
    simp only [Except.bind] at e
    have hcu : Spec.Usable c := by
      have := checkConfig_ok _ _ _ hc
      have h' := usable_normalize cfg size hu
      rw [this] at h'
      exact h'
    obtain ⟨t, ht⟩ := createDefault_total (Swarm.plain size goal c) env.draws
    rw [ht] at e
    obtain ⟨hp, rfl, hsame⟩ := finish_eq _ _ _ e
    have hall : CellsAll (onAllocated Spec.Born) t := createDefaultLoop_all _ env.draws (fun id d a h _ => born_fromConfig id (Swarm.plain size goal c) hcu d a h) _ _ t
      (fun x hx => absurd hx (by show ¬ decide (x < 0) = true; simp)) ht
    obtain ⟨hsh, addr, hpop, -⟩ := createDefault_ok (Swarm.plain size goal c) t env.draws rfl ht
    have ho : t.optimized = false := hsh.opt
    have he : ∀ order : SyncMap ℕ → SyncMap ℕ, (∀ m, (order m).Perm m) →
        (({ t with heap := hp } : Swarm F64).collectAgents order).Perm ((List.range size.toNat).map addr) := fun order hpm => by
      unfold Swarm.collectAgents
      rw [if_neg (by show ¬ t.optimized = true; rw [ho]; simp)]
      refine ((hpm t.agents).map Prod.snd).trans ?_
      rw [hpop.agents, List.map_map]
      exact List.Perm.refl _
    refine ⟨fun order hpm a ha => ?_, fun order hpm => by rw [(he order hpm).length_eq]; simp; omega⟩
    obtain ⟨i, hi, rfl⟩ := List.mem_map.1 ((he order hpm).mem_iff.1 ha)
    obtain ⟨nb, hnb⟩ := hsame (addr i)
    show Spec.Born (hp (addr i))
    rw [hnb]
    exact born_neighbors _ _ (hall _ (decide_eq_true (hpop.lt i (List.mem_range.1 hi))))

theorem born_moved {a b : Agent F64} (h : Spec.Born a) (hm : Spec.Repositioned a b) (hv : Spec.ValidDouble b) : Spec.Born b := by
  obtain ⟨_, _, rfl⟩ := hm
  exact ⟨⟨hv.1, h.1.localGoal, h.1.energy, h.1.influence, h.1.stubbornness⟩, hv.2⟩

theorem born_valid {a : Agent F64} (h : Spec.Born a) : Spec.ValidDouble a := ⟨h.1.phase, h.2⟩

/-- A swarm of at most ten million agents, all as they should be. -/
def Spec.BornSwarm (s : Swarm F64) : Prop :=
  Spec.AllAgents Spec.Born s ∧ ∀ order : SyncMap ℕ → SyncMap ℕ, (∀ m, (order m).Perm m) → (s.collectAgents order).length ≤ 10 ^ 7

theorem bornSwarm_sound {s : Swarm F64} (h : Spec.BornSwarm s) : Spec.SoundSwarm s := ⟨fun o hp a ha => born_valid (h.1 o hp a ha), h.2⟩

theorem bornSwarm_closed : HeapClosed Spec.Born Spec.BornSwarm := fun s h' hs hk => ⟨allAgents_closed _ s h' hs.1 hk, hs.2⟩

theorem stepsKeep_born (c : AdjustCtx F64) (hm : Spec.Moderate c.cfg) (hc : Spec.Measured c) : StepsKeep Spec.Born (F64.Bd 3000) c := by
  have d := stepsKeep_double c hm hc
  have m := fun a : Agent F64 => stepsKeep_moved a c
  exact {
    scatter := fun a w h => born_moved h ((m a).scatter a w (moved_refl a)) (d.scatter a w (born_valid h))
    freq := fun f a h => born_moved h ((m a).freq f a (moved_refl a)) (d.freq f a (born_valid h))
    pull := fun s w a hs h => born_moved h ((m a).pull s w a trivial (moved_refl a)) (d.pull s w a hs (born_valid h))
    nudge := fun s w a hs h => born_moved h ((m a).nudge s w a trivial (moved_refl a)) (d.nudge s w a hs (born_valid h))
    walk := fun w a h => born_moved h ((m a).walk w a (moved_refl a)) (d.walk w a (born_valid h))
    noisy := fun w a h => born_moved h ((m a).noisy w a (moved_refl a)) (d.noisy w a (born_valid h))
    scale := d.scale
    shrink := d.shrink }

theorem run_born (g : Gds F64) (hm : Spec.Moderate g.config) (ht : F64.IsFinite g.target.phase)
    (htm : ∀ q ∈ g.engine.templates, F64.IsFinite q.2.phase) (budget : ℤ) (evs : List (SyncEvent F64)) (k : ℕ)
    (hg : Spec.BornSwarm g.swarm) (ho : ∀ e, .tick e ∈ evs → ∀ s, Spec.BornSwarm s → Spec.BornSwarm (e.others s)) :
    Spec.AllAgents Spec.Born (g.loop budget evs k).2.2.swarm :=
  (loop_keeps bornSwarm_closed g budget evs k hg ho
    (fun e s hs cp v h => ⟨_, stepsKeep_born _ hm (measured_ctx g s (bornSwarm_sound hs) e ht htm cp v h)⟩)).1

/-- **C158 (and stay so).** However long such a swarm of at most ten million agents is synchronised, whatever numbers are drawn and in whatever order the agents are visited,
and whatever else happens that keeps agents as they should be: all agents stay as they should be. -/
theorem C158_stays (env : SwarmEnv F64) (size : ℤ) (hsz : size ≤ 10 ^ 7) (goal : State F64) (opts : List (SwarmOption F64))
    (ho : ∀ o ∈ opts, Spec.UsableOption o) (s : Swarm F64) (e : newSwarm env size goal opts = .ok s) (order : SyncMap ℕ → SyncMap ℕ)
    (evs : List (SyncEvent F64)) (hev : ∀ t, .tick t ∈ evs → ∀ s, Spec.BornSwarm s → Spec.BornSwarm (t.others s)) :
    Spec.AllAgents Spec.Born (s.run order evs).2.2.swarm := by
  obtain ⟨h1, h2, h3, h4⟩ := C158_born env size goal opts ho s e
  have hborn : Spec.BornSwarm s := ⟨h1, fun o hp => by have := h2 o hp; omega⟩
  have hfin : F64.IsFinite s.goalState.phase := by
    obtain ⟨-, hv, -⟩ := newSwarm_ok env size goal opts s e
    obtain ⟨-, -, p, hp⟩ := (C08_validate_iff goal).1 hv
    rw [h3, hp]; trivial
  unfold Swarm.run Gds.achieve
  dsimp only
  split_ifs
  · exact hborn.1
  · exact run_born _ h4 (by
      show F64.IsFinite (adjustTarget _ s.targetPattern).phase
      unfold adjustTarget
      dsimp only
      split_ifs <;> exact hfin) default_templates_f64 _ evs 0 hborn hev

theorem clamp_nan : clampProbability (F64.nan : F64) = .nan ∧ clampUnit (F64.nan : F64) = .nan :=
  ⟨clamp_fix ⟨F64.nan_lt _, F64.lt_nan _⟩, by
    unfold clampUnit
    rw [if_neg (F64.nan_lt _), if_neg (F64.lt_nan _)]⟩

theorem nan_fromConfig (id : String) (s : Swarm F64) (h : s.config.stubbornness = .nan) (d : Draws) (a : Agent F64) (e : newFromConfig id s.agentConfig d = .ok a) :
    a.behavior.stubbornness = .nan := by
  unfold newFromConfig at e
  split_ifs at e
  cases h3 : createResourceManager s.agentConfig with
  | none => rw [h3] at e; cases e
  | some rm =>
    cases h4 : createStrategy s.agentConfig d.now with
    | none => rw [h3, h4] at e; cases e
    | some st =>
      rw [h3, h4] at e
      cases e
      have key : clampUnit (if (s.agentConfig.stubbornness == 0) = true then 0.2 else s.agentConfig.stubbornness) = .nan := by
        have e0 : (s.agentConfig.stubbornness == 0) = false := by
          show (s.config.stubbornness == 0) = false
          rw [h]; exact @decide_eq_false _ (Classical.propDecidable _) (fun h => h)
        rw [if_neg (by rw [e0]; simp)]
        show clampUnit s.config.stubbornness = .nan
        rw [h]; exact clamp_nan.2
      by_cases hn : s.agentConfig.swarmSize > 0
      · unfold configOptions
        rw [if_pos hn]; exact key
      · unfold configOptions
        rw [if_neg hn]; exact key

/-- **C158 (not a number).** Validation does not notice a stubbornness that is not a number, and then every agent of the swarm has it. -/
theorem C158_nan (env : SwarmEnv F64) (size : ℤ) (goal : State F64) (cfg : SwarmConfig F64) (hn : cfg.stubbornness = .nan) (s : Swarm F64)
    (e : newSwarmFromConfig env size goal cfg = .ok s) : Spec.AllAgents (fun a => a.behavior.stubbornness = .nan) s := by
  unfold newSwarmFromConfig at e
  split_ifs at e with h1 h2
  cases hc : checkConfig cfg size with
  | error x => rw [hc] at e; cases e
  | ok c =>
    rw [hc] at e
    simp only [Except.bind] at e
    have hcu : c.stubbornness = .nan := by
      have e1 := congrArg Prod.snd (checkConfig_ok _ _ _ hc)
      rw [normalizeAndValidate_snd] at e1
      rw [← show cfg.normalize size = c from e1]
      show clampProbability cfg.stubbornness = .nan
      rw [hn]; exact clamp_nan.1
    obtain ⟨t, ht⟩ := createDefault_total (Swarm.plain size goal c) env.draws
    rw [ht] at e
    obtain ⟨hp, rfl, hsame⟩ := finish_eq _ _ _ e
    have hall : CellsAll (onAllocated fun a => a.behavior.stubbornness = .nan) t :=
      createDefaultLoop_all _ env.draws (fun id d a h _ => nan_fromConfig id (Swarm.plain size goal c) hcu d a h) _ _ t
        (fun x hx => absurd hx (by show ¬ decide (x < 0) = true; simp)) ht
    obtain ⟨hsh, addr, hpop, -⟩ := createDefault_ok (Swarm.plain size goal c) t env.draws rfl ht
    have ho : t.optimized = false := hsh.opt
    intro order hpm a ha
    have he : (({ t with heap := hp } : Swarm F64).collectAgents order).Perm ((List.range size.toNat).map addr) := by
      unfold Swarm.collectAgents
      rw [if_neg (by show ¬ t.optimized = true; rw [ho]; simp)]
      refine ((hpm t.agents).map Prod.snd).trans ?_
      rw [hpop.agents, List.map_map]
      exact List.Perm.refl _
    obtain ⟨i, hi, rfl⟩ := List.mem_map.1 (he.mem_iff.1 ha)
    obtain ⟨nb, hnb⟩ := hsame (addr i)
    show (hp (addr i)).behavior.stubbornness = .nan
    rw [hnb]
    exact hall _ (decide_eq_true (hpop.lt i (List.mem_range.1 hi)))

/-- And there are such swarms: any accepted configuration is still accepted with that stubbornness. -/
theorem C158_nan_accepted (env : SwarmEnv F64) (size : ℤ) (goal : State F64) (hg : goal.validate = [])
    (cfg : SwarmConfig F64) (hv : cfg.validate size = []) (hfair : ∀ i, Spec.FairPicks (env.pick i) size.toNat) :
    ∃ N s, ∀ n ≥ N, newSwarmFromConfig { env with fuel := n } size goal { cfg with stubbornness := .nan } = .ok s := by
  have h1 : 1 ≤ size := by
    have := ((validate_eq_nil _ _).1 hv).1.1
    omega
  refine C43_fromConfig_succeeds env size h1 goal hg _ ?_ hfair
  have hv' : ({ cfg with stubbornness := F64.nan } : SwarmConfig F64).validate size = [] := by
    rw [validate_eq_nil] at hv ⊢
    obtain ⟨hA, ⟨h3, h4, h5, h6, h7, h8⟩, hB, hC, hD⟩ := hv
    exact ⟨hA, ⟨h3, h4, ⟨F64.nan_lt _, F64.lt_nan _⟩, h6, h7, h8⟩, hB, hC, hD⟩
  generalize ({ cfg with stubbornness := F64.nan } : SwarmConfig F64) = c at hv'
  clear hv
  unfold SwarmConfig.normalizeAndValidate
  rw [if_neg (by rw [hv']; simp)]

/-- The hypotheses are met: a swarm of five agents without options, and one with a preset as goal configuration. -/
example : (∃ n s, newSwarm { SwarmEnv.simple (fun _ _ => (0 : F64)) (fun _ k => k) with fuel := n } 5 goalF [] = .ok s) ∧ Spec.UsableOption (.goalConfig (configFor 3)) ∧
    Spec.UsableOption (.config (autoScaleConfig 7)) := by
  refine ⟨?_, C53_presets_moderate.2 3, usable_auto 7⟩
  obtain ⟨n, s, h, -⟩ := exists_swarm (fun _ _ => (0 : F64)) 5 (by norm_num) (by norm_num) goalF goalF_valid
  exact ⟨n, s, h⟩

end
end Verif
