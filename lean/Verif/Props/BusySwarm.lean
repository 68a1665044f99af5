import Verif.Props.BornSound

/-! # Agents stay in range while everything else goes on (C158) -/

set_option autoImplicit false
set_option linter.unusedSectionVars false

namespace Verif
open GoMath

section
variable [Rounding] [LibM]

/-- An agent as it should be, with at most twenty connections of its own. -/
def Spec.Living (a : Agent F64) : Prop := Spec.Born a ∧ ∃ s, ConnectedTo { a with neighbors := [] } s

theorem step_neighbors (w : Population) (a : Agent F64) (nb : SyncMap ℕ) (h : a.useOptimized = true) (op : AgentOp) :
    agentStep w { a with neighbors := nb } op = { agentStep w a op with neighbors := nb } := by
  cases op with
  | connect id o =>
    simp only [agentStep, Agent.connectTo]
    cases o with
    | none => rfl
    | some o =>
      dsimp only
      split_ifs <;> rfl
  | disconnect id =>
    simp only [agentStep, Agent.disconnectFrom]
    rw [if_pos h, if_pos h]
  | updateContext =>
    have e : ∀ nb, ({ a with neighbors := nb } : Agent F64).neighborList = a.neighborList := fun nb => by
      unfold Agent.neighborList
      rw [if_pos h, if_pos h]
    simp only [agentStep, Agent.updateContext, e nb]
    split_ifs <;> rfl
  | propose now goal d1 d2 =>
    have e : ∀ phaseOf, ({ a with neighbors := nb } : Agent F64).localCoherence phaseOf = a.localCoherence phaseOf := fun phaseOf => by
      unfold Agent.localCoherence Agent.neighborList
      rw [if_pos h, if_pos h]
    simp only [agentStep, Agent.proposeAdjustment, e]
    by_cases hd : d1 < a.behavior.stubbornness
    · rw [if_pos hd, if_pos hd]
    · rw [if_neg hd, if_neg hd]
      cases a.strategy.propose now _ _ a.context with
      | panic => rfl
      | ok r => rfl
  | apply act =>
    simp only [agentStep, Agent.applyAction]
    by_cases hc : act.cost > a.state.energy
    · rw [if_pos hc, if_pos hc]
    · rw [if_neg hc, if_neg hc]
      cases applyUpdate act <;> rfl
  | _ => rfl

theorem living_step (w : Population) (hw : ∀ n, AgentOK (w n)) (a : Agent F64) (h : Spec.Living a) (op : AgentOp) (ho : op.Fine) (hf : op.FreqPos) :
    Spec.Living (agentStep w a op) := by
  obtain ⟨⟨hok, hfr⟩, s, hs⟩ := h
  have hi : AgentInv { a with neighbors := [] } := ⟨⟨hok.phase, hok.localGoal, hok.energy, hok.influence, hok.stubbornness⟩, s, hs⟩
  have hi' := agentInv_step w hw _ hi op ho
  rw [step_neighbors w a [] hs.opt op] at hi'
  refine ⟨⟨⟨hi'.ok.phase, hi'.ok.localGoal, hi'.ok.energy, hi'.ok.influence, hi'.ok.stubbornness⟩, ?_⟩, hi'.connected⟩
  rw [agentStep_frequency]
  cases op <;> first | exact hf | exact hfr

/-- What is kept at every address: ranges, and for addresses of agents of the swarm (`b = true`) everything. -/
def kept (b : Bool) (a : Agent F64) : Prop := AgentOK a ∧ (b = true → Spec.Living a)

theorem kept_ops (n : ℕ) (ops : List (ℕ × AgentOp)) (ho : ∀ o ∈ ops, o.1 < n ∧ o.2.Fine ∧ o.2.FreqPos) (w : Population)
    (h : ∀ x, kept (decide (x < n)) (w x)) : ∀ x, kept (decide (x < n)) (ops.foldl Population.step w x) := by
  induction ops generalizing w with
  | nil => exact h
  | cons o os ih =>
    refine ih (fun x hx => ho x (List.mem_cons_of_mem _ hx)) _ fun x => ?_
    obtain ⟨h1, h2, h3⟩ := ho o List.mem_cons_self
    unfold Population.step
    split_ifs with e
    · have := living_step w (fun n => (h n).1) (w x) ((h x).2 (decide_eq_true (by omega))) o.2 h2 h3
      exact ⟨this.1.1, fun _ => this⟩
    · exact h x

/-! ### Steps of the synchronisation -/

theorem ok_phase {a b : Agent F64} (h : AgentOK a) (hr : Spec.Repositioned a b) (hp : InTurn b.state.phase) : AgentOK b := by
  obtain ⟨_, _, rfl⟩ := hr
  exact ⟨hp, h.localGoal, h.energy, h.influence, h.stubbornness⟩

theorem stepsKeep_ok (c : AdjustCtx F64) (hm : Spec.Moderate c.cfg) (hc : Spec.Measured c) : StepsKeep AgentOK (F64.Bd 3000) c := by
  have d := stepsKeep_double c hm hc
  have m := fun a : Agent F64 => stepsKeep_moved a c
  have v : ∀ a : Agent F64, AgentOK a → Spec.ValidDouble (a.setFrequency 1) := fun a h => ⟨h.phase, by show (0 : ℤ) < 1; norm_num⟩
  exact {
    scatter := fun a w h => ok_phase h ((m a).scatter a w (moved_refl a)) (d.scatter _ w (v a h)).1
    freq := fun f a h => ok_phase h ((m a).freq f a (moved_refl a)) (by
      have : (adjustFrequency f a).state.phase = a.state.phase := by
        unfold adjustFrequency; split_ifs <;> rfl
      rw [this]; exact h.phase)
    pull := fun s w a hs h => ok_phase h ((m a).pull s w a trivial (moved_refl a)) (by
      have : (pullAgent c s w a).state.phase = (pullAgent c s w (a.setFrequency 1)).state.phase := by
        have ep : (a.setFrequency 1).state.phase = a.state.phase := rfl
        unfold pullAgent; dsimp only; rw [ep]; split_ifs <;> rfl
      rw [this]; exact (d.pull s w _ hs (v a h)).1)
    nudge := fun s w a hs h => ok_phase h ((m a).nudge s w a trivial (moved_refl a)) (by
      have : (nudgeAgent c s w a).state.phase = (nudgeAgent c s w (a.setFrequency 1)).state.phase := by
        have ep : (a.setFrequency 1).state.phase = a.state.phase := rfl
        unfold nudgeAgent; dsimp only; rw [ep]; split_ifs <;> rfl
      rw [this]; exact (d.nudge s w _ hs (v a h)).1)
    walk := fun w a h => ok_phase h ((m a).walk w a (moved_refl a)) (d.walk w _ (v a h)).1
    noisy := fun w a h => ok_phase h ((m a).noisy w a (moved_refl a)) (d.noisy w _ (v a h)).1
    scale := d.scale
    shrink := d.shrink }

theorem living_moved {a b : Agent F64} (h : Spec.Living a) (hr : Spec.Repositioned a b) (hb : Spec.Born b) : Spec.Living b := by
  obtain ⟨_, s, hs⟩ := h
  obtain ⟨_, _, rfl⟩ := hr
  exact ⟨hb, s, hs.opt, hs.map, hs.rep⟩

theorem stepsKeep_kept (c : AdjustCtx F64) (hm : Spec.Moderate c.cfg) (hc : Spec.Measured c) (b : Bool) : StepsKeep (kept b) (F64.Bd 3000) c := by
  have k := stepsKeep_ok c hm hc
  have d := stepsKeep_born c hm hc
  have m := fun a : Agent F64 => stepsKeep_moved a c
  exact {
    scatter := fun a w h => ⟨k.scatter a w h.1, fun hb => living_moved (h.2 hb) ((m a).scatter a w (moved_refl a)) (d.scatter a w (h.2 hb).1)⟩
    freq := fun f a h => ⟨k.freq f a h.1, fun hb => living_moved (h.2 hb) ((m a).freq f a (moved_refl a)) (d.freq f a (h.2 hb).1)⟩
    pull := fun s w a hs h => ⟨k.pull s w a hs h.1, fun hb => living_moved (h.2 hb) ((m a).pull s w a trivial (moved_refl a)) (d.pull s w a hs (h.2 hb).1)⟩
    nudge := fun s w a hs h => ⟨k.nudge s w a hs h.1, fun hb => living_moved (h.2 hb) ((m a).nudge s w a trivial (moved_refl a)) (d.nudge s w a hs (h.2 hb).1)⟩
    walk := fun w a h => ⟨k.walk w a h.1, fun hb => living_moved (h.2 hb) ((m a).walk w a (moved_refl a)) (d.walk w a (h.2 hb).1)⟩
    noisy := fun w a h => ⟨k.noisy w a h.1, fun hb => living_moved (h.2 hb) ((m a).noisy w a (moved_refl a)) (d.noisy w a (h.2 hb).1)⟩
    scale := d.scale
    shrink := d.shrink }

/-- A swarm whose agents are at addresses below `n`, at most ten million, with everything kept. -/
def KeptSwarm (n : ℕ) (s : Swarm F64) : Prop :=
  (∀ x, kept (decide (x < n)) (s.heap x)) ∧ ∀ order : SyncMap ℕ → SyncMap ℕ, (∀ m, (order m).Perm m) →
    (∀ a ∈ s.collectAgents order, a < n) ∧ (s.collectAgents order).length ≤ 10 ^ 7

theorem keptSwarm_closed (n : ℕ) : HeapClosedAt (fun x => kept (decide (x < n))) (KeptSwarm n) :=
  fun _ _ h hk => ⟨fun x => hk x (h.1 x), h.2⟩

theorem keptSwarm_sound {n : ℕ} {s : Swarm F64} (h : KeptSwarm n s) : Spec.BornSwarm s :=
  ⟨fun o hp a ha => ((h.1 a).2 (decide_eq_true ((h.2 o hp).1 a ha))).1, fun o hp => (h.2 o hp).2⟩

theorem run_kept (n : ℕ) (g : Gds F64) (hm : Spec.Moderate g.config) (ht : F64.IsFinite g.target.phase)
    (htm : ∀ q ∈ g.engine.templates, F64.IsFinite q.2.phase) (budget : ℤ) (evs : List (SyncEvent F64)) (k : ℕ)
    (hg : KeptSwarm n g.swarm) (ho : ∀ e, .tick e ∈ evs → ∀ s, KeptSwarm n s → KeptSwarm n (e.others s)) :
    KeptSwarm n (g.loop budget evs k).2.2.swarm :=
  loop_keeps_at (keptSwarm_closed n) g budget evs k hg ho
    (fun e s hs cp v h => ⟨_, fun x => stepsKeep_kept _ hm (measured_ctx g s (bornSwarm_sound (keptSwarm_sound hs)) e ht htm cp v h) _⟩)

theorem connected_optimized (id : String) (s : Swarm F64) (d : Draws) : ConnectedTo (newOptimizedFromConfig id s.agentConfig d) ∅ := connected_new _ _ _ _ _

theorem connected_fromConfig (id : String) (cfg : AgentConfig F64) (d : Draws) (a : Agent F64) (e : newFromConfig id cfg d = .ok a) : ConnectedTo a ∅ := by
  unfold newFromConfig at e
  split_ifs at e
  cases h3 : createResourceManager cfg with
  | none => rw [h3] at e; cases e
  | some rm =>
    cases h4 : createStrategy cfg d.now with
    | none => rw [h3, h4] at e; cases e
    | some st =>
      rw [h3, h4] at e
      cases e
      exact connected_new _ _ _ _ _

theorem ok_zero : AgentOK (Agent.zero : Agent F64) := by
  have t0 : (0 : ℝ) < F64.tau.1 := by have := F64.tau_bounds; linarith [this.1]
  have z : InTurn (0 : F64) := ⟨⟨0, isDouble_zero⟩, F64.zero_def, le_rfl, t0⟩
  have u : F64.In01 (0 : F64) := ⟨0, isDouble_zero, F64.zero_def, le_rfl, zero_le_one⟩
  exact ⟨z, z, Or.inr ⟨⟨0, isDouble_zero⟩, F64.zero_def, le_rfl⟩, u, u⟩

theorem listed_lt {α : Type} [Zero α] [One α] [Add α] [Sub α] [Mul α] [Div α] [Neg α] [LT α] [LE α]
    [DecidableLT α] [DecidableLE α] [BEq α] [OfScientific α] [GoMath α] (env : SwarmEnv α) (s s' : Swarm α) (n : ℕ) (h : OptInv s n) (e : s.complete env = .ok s')
    (order : SyncMap ℕ → SyncMap ℕ) (hp : ∀ m, (order m).Perm m) : ∀ a ∈ s'.collectAgents order, a < s'.next := by
  obtain ⟨-, ⟨k1, addr, k2⟩ | ⟨k1, addr, k2⟩⟩ := complete_pop env s s' n h e
  · intro a ha
    unfold Swarm.collectAgents at ha
    rw [k1, if_pos rfl, k2.slice] at ha
    obtain ⟨i, hi, rfl⟩ := List.mem_map.1 ha
    exact k2.lt i (List.mem_range.1 hi)
  · intro a ha
    unfold Swarm.collectAgents at ha
    rw [k1, if_neg (by simp), ((hp s'.agents).map Prod.snd).mem_iff, k2.agents, List.map_map] at ha
    obtain ⟨i, hi, rfl⟩ := List.mem_map.1 ha
    exact k2.lt i (List.mem_range.1 hi)

/-- A swarm as `New` leaves it has everything that is to be kept. -/
theorem new_kept (env : SwarmEnv F64) (size : ℤ) (hsz : size ≤ 10 ^ 7) (goal : State F64) (opts : List (SwarmOption F64)) (ho : ∀ o ∈ opts, Spec.UsableOption o)
    (s : Swarm F64) (e : newSwarm env size goal opts = .ok s) : KeptSwarm s.next s := by
  have hsimple : ∀ o ∈ opts, o.Simple := fun o h => by
    have := ho o h
    cases o <;> trivial
  obtain ⟨-, hlen, -, -⟩ := C158_born env size goal opts ho s e
  obtain ⟨h1, -, c, t, hc, h3, h4⟩ := newSwarm_ok env size goal opts s e
  have hi := applyOptions_inv _ t size.toNat (initial_inv size h1 goal c) opts (fun o h => simple_proper o (hsimple o h)) h3
  obtain ⟨ha, -, hg⟩ := applyOptions_simple _ t opts hsimple h3
  obtain ⟨k1, k2, k3, k4⟩ := applyOptions_plain _ t opts hsimple h3
  have hcc : Spec.Usable c := by
    have := checkConfig_ok _ _ _ hc
    have h' := usable_normalize (autoScaleConfig size) size (usable_auto size)
    rw [this] at h'
    exact h'
  have ht : Spec.Usable t.config := by
    rcases k3 with k3 | ⟨c', hc', k3⟩
    · rw [k3]; exact hcc
    · rw [k3]; exact usable_normalize _ _ (ho _ hc')
  have hliv : ∀ a : Agent F64, Spec.Born a → ConnectedTo a ∅ → kept true a := fun a hb hs => ⟨hb.1, fun _ => ⟨hb, ∅, hs.opt, rfl, hs.rep⟩⟩
  obtain ⟨g1, -, -⟩ := complete_all (V := kept)
    (fun b a nb h => ⟨⟨h.1.phase, h.1.localGoal, h.1.energy, h.1.influence, h.1.stubbornness⟩, fun hb => by
      obtain ⟨h1, s, hs⟩ := h.2 hb
      exact ⟨born_neighbors a nb h1, s, hs.opt, rfl, hs.rep⟩⟩) env t s size.toNat hi ha k1.1
    (fun x => by
      rw [k1.2]
      exact ⟨ok_zero, fun h => absurd h (by simp)⟩)
    (fun c' hc' id d => by
      have hu : Spec.Usable c' := by
        have := checkConfig_ok _ _ _ hc'
        have h' := usable_normalize t.config t.size ht
        rw [this] at h'
        exact h'
      exact ⟨hliv _ (born_optimized id { t with config := c' } hu d) (connected_optimized _ _ _),
        fun a h => hliv _ (born_fromConfig id { t with config := c' } hu d a h) (connected_fromConfig _ _ _ _ h)⟩) h4
  exact ⟨g1, fun o hp => ⟨listed_lt env t s size.toNat hi h4 o hp, by have := hlen o hp; omega⟩⟩

/-- **C158 (while everything else goes on).** Between the ticks of the synchronisation, the agents of the swarm may be asked to propose adjustments, apply actions, update
their contexts, connect and disconnect, and their fields may be set, in any order and number, with finite arguments and positive frequencies: all agents stay as they
should be. -/
theorem C158_busy (env : SwarmEnv F64) (size : ℤ) (hsz : size ≤ 10 ^ 7) (goal : State F64) (opts : List (SwarmOption F64))
    (ho : ∀ o ∈ opts, Spec.UsableOption o) (s : Swarm F64) (e : newSwarm env size goal opts = .ok s) (order : SyncMap ℕ → SyncMap ℕ)
    (evs : List (SyncEvent F64)) (hev : ∀ t, .tick t ∈ evs → ∀ w : Swarm F64, ∃ ops : List (ℕ × AgentOp),
      (∀ o ∈ ops, o.1 < s.next ∧ o.2.Fine ∧ o.2.FreqPos) ∧ t.others w = { w with heap := ops.foldl Population.step w.heap }) :
    Spec.AllAgents Spec.Born (s.run order evs).2.2.swarm := by
  obtain ⟨-, -, h3, h4⟩ := C158_born env size goal opts ho s e
  have hk := new_kept env size hsz goal opts ho s e
  have hfin : F64.IsFinite s.goalState.phase := by
    obtain ⟨-, hv, -⟩ := newSwarm_ok env size goal opts s e
    obtain ⟨-, -, p, hp⟩ := (C08_validate_iff goal).1 hv
    rw [h3, hp]; trivial
  unfold Swarm.run Gds.achieve
  dsimp only
  split_ifs
  · exact (keptSwarm_sound hk).1
  · exact (keptSwarm_sound (run_kept s.next _ h4 (by
      show F64.IsFinite (adjustTarget _ s.targetPattern).phase
      unfold adjustTarget
      dsimp only
      split_ifs <;> exact hfin) default_templates_f64 _ evs 0 hk (fun t ht w hw => by
        obtain ⟨ops, h1, h2⟩ := hev t ht w
        rw [h2]
        exact ⟨kept_ops s.next ops h1 w.heap hw.1, hw.2⟩))).1

/-- The hypotheses are met: a swarm of five agents, and between the ticks its first agent proposes, applies an action, looks around and connects. -/
example : ∃ n s, newSwarm { SwarmEnv.simple (fun _ _ => (0 : F64)) (fun _ k => k) with fuel := n } 5 goalF [] = .ok s ∧
    ∀ o ∈ ([(0, .propose 0 goalF 0 0), (0, .apply ⟨"adjust_phase", 0, 0, 0⟩), (0, .updateContext), (0, .connect "agent-1" (some 1)), (0, .setFrequency 7)] :
      List (ℕ × AgentOp)), o.1 < s.next ∧ o.2.Fine ∧ o.2.FreqPos := by
  obtain ⟨n, s, h, -⟩ := exists_swarm (fun _ _ => (0 : F64)) 5 (by norm_num) (by norm_num) goalF goalF_valid
  refine ⟨n, s, h, ?_⟩
  have hk := new_kept _ 5 (by norm_num) goalF [] (fun o h => absurd h (by simp)) s h
  have hl := (C158_born _ 5 goalF [] (fun o h => absurd h (by simp)) s h).2.1 id (fun _ => .refl _)
  have hpos : 0 < s.next := by
    cases hc : s.collectAgents id with
    | nil => rw [hc] at hl; simp at hl
    | cons a l => exact lt_of_le_of_lt (Nat.zero_le a) ((hk.2 id (fun _ => .refl _)).1 a (by rw [hc]; simp))
  have z := zero_finite
  simp only [List.mem_cons, List.not_mem_nil, or_false, forall_eq_or_imp, forall_eq]
  exact ⟨⟨hpos, trivial, trivial⟩, ⟨hpos, ⟨z, z⟩, trivial⟩, ⟨hpos, trivial, trivial⟩, ⟨hpos, trivial, trivial⟩, hpos, trivial, by show (0 : ℤ) < 7; norm_num⟩

end
end Verif
