import Verif.Props.BornSound
import Verif.Props.SwarmConn

/-! # Agents of a new swarm know its size (C158) -/

set_option autoImplicit false
set_option linter.unusedSectionVars false

namespace Verif
open GoMath

section generic
variable {α : Type} [Zero α] [One α] [Add α] [Sub α] [Mul α] [Div α] [Neg α] [LT α] [LE α]
  [DecidableLT α] [DecidableLE α] [BEq α] [OfScientific α] [GoMath α]

/-- The agent knows that it is one of `n`. If no number of neighbours is prescribed, it counts on all others, or on 20 where there are more than a hundred agents;
a number of 0 stands for all others. -/
def Spec.Knows (n prescribed : ℤ) (a : Agent α) : Prop :=
  a.swarmSize = n ∧ (prescribed ≠ 0 → a.assumedMaxNeighbors = prescribed) ∧
  (prescribed = 0 → a.assumedMaxNeighbors = 0 ∨ a.assumedMaxNeighbors = n - 1 ∧ n ≤ 100 ∨ a.assumedMaxNeighbors = 20 ∧ 100 < n)

theorem knows_optimized (id : String) (s : Swarm α) (d : Draws) :
    Spec.Knows s.size s.config.assumedMaxNeighbors (newOptimizedFromConfig id s.agentConfig d) := by
  have key : (newOptimizedFromConfig id s.agentConfig d).swarmSize = s.size ∧ (newOptimizedFromConfig id s.agentConfig d).assumedMaxNeighbors =
      if s.config.assumedMaxNeighbors = 0 then (if s.size > 100 then 20 else s.size - 1) else s.config.assumedMaxNeighbors := by
    unfold newOptimizedFromConfig
    dsimp only
    by_cases hr : s.agentConfig.resourceManagerType = "token" ∧ s.agentConfig.maxTokens > 0
    · rw [if_pos hr]; exact ⟨rfl, rfl⟩
    · rw [if_neg hr]; exact ⟨rfl, rfl⟩
  refine ⟨key.1, fun h => by rw [key.2, if_neg h], fun h => Or.inr ?_⟩
  rw [key.2, if_pos h]
  split_ifs with h1
  · exact Or.inr ⟨rfl, h1⟩
  · exact Or.inl ⟨rfl, by omega⟩

theorem stored_fromConfig (id : String) (s : Swarm α) (hs : 0 < s.size) (d : Draws) (a : Agent α) (e : newFromConfig id s.agentConfig d = .ok a) :
    a.swarmSize = s.size ∧ a.assumedMaxNeighbors = s.config.assumedMaxNeighbors := by
  unfold newFromConfig at e
  split_ifs at e
  cases h3 : createResourceManager s.agentConfig with
  | none => rw [h3] at e; cases e
  | some rm =>
    cases h4 : createStrategy s.agentConfig d.now with
    | none => rw [h3, h4] at e; cases e
    | some st =>
      rw [h3, h4] at e
      cases e
      unfold configOptions
      by_cases hn : s.agentConfig.swarmSize > 0
      · rw [if_pos hn]; exact ⟨rfl, rfl⟩
      · exact absurd hs hn

theorem knows_fromConfig (id : String) (s : Swarm α) (hs : 0 < s.size) (d : Draws) (a : Agent α) (e : newFromConfig id s.agentConfig d = .ok a) :
    Spec.Knows s.size s.config.assumedMaxNeighbors a := by
  have key := stored_fromConfig id s hs d a e
  exact ⟨key.1, fun _ => key.2, fun h => Or.inl (key.2.trans h)⟩

theorem normalize_assumed (c : SwarmConfig α) (n : ℤ) : (c.normalizeAndValidate n).2.assumedMaxNeighbors = c.assumedMaxNeighbors := by
  rw [normalizeAndValidate_snd]
  unfold SwarmConfig.normalize SwarmConfig.autoCalculateBatchParameters SwarmConfig.normalizeConcurrencyParameters SwarmConfig.normalizePositiveDefaults
    SwarmConfig.normalizeProbabilities
  simp only [normalizeNeighbor_spec]

/-- **C158 (size).** Every agent of a swarm that `New` builds knows how many they are. If the options prescribe a number of neighbours to count on, it counts on that
many; without such options on all others, or on 20 where there are more than a hundred. -/
theorem C158_size (env : SwarmEnv α) (size : ℤ) (goal : State α) (opts : List (SwarmOption α)) (ho : ∀ o ∈ opts, o.Simple) (s : Swarm α)
    (e : newSwarm env size goal opts = .ok s) :
    ∃ k, Spec.AllAgents (Spec.Knows size k) s ∧ (k = 0 ∨ ∃ c, .config c ∈ opts ∧ k = c.assumedMaxNeighbors) := by
  obtain ⟨h1, -, c, t, hc, h3, h4⟩ := newSwarm_ok env size goal opts s e
  have hi := applyOptions_inv _ t size.toNat (initial_inv size h1 goal c) opts (fun o h => simple_proper o (ho o h)) h3
  obtain ⟨ha, -, -⟩ := applyOptions_simple _ t opts ho h3
  obtain ⟨k1, k2, k3, -⟩ := applyOptions_plain _ t opts ho h3
  have hsize : t.size = size := k2
  refine ⟨t.config.assumedMaxNeighbors, ?_, ?_⟩
  · rw [← hsize]
    obtain ⟨g1, -, -⟩ := complete_all (V := onAllocated (Spec.Knows t.size t.config.assumedMaxNeighbors)) (fun b a nb h hb => h hb) env t s size.toNat hi ha k1.1
      (fun _ h => absurd h (by simp))
      (fun c' hc' id d => by
        have hu : c'.assumedMaxNeighbors = t.config.assumedMaxNeighbors := by
          have := checkConfig_ok _ _ _ hc'
          rw [← normalize_assumed t.config t.size, this]
        have o1 := knows_optimized id { t with config := c' } d
        have o2 := knows_fromConfig id { t with config := c' } (by show 0 < t.size; omega) d
        rw [show ({ t with config := c' } : Swarm α).config.assumedMaxNeighbors = t.config.assumedMaxNeighbors from hu] at o1 o2
        exact ⟨fun _ => o1, fun a h _ => o2 a h⟩) h4
    exact (listed_alloc env t s size.toNat hi h4 g1).1
  · rcases k3 with k3 | ⟨c', hc', k3⟩
    · left
      rw [k3]
      show c.assumedMaxNeighbors = 0
      have := checkConfig_ok _ _ _ hc
      have h' := normalize_assumed (autoScaleConfig size : SwarmConfig α) size
      rw [this] at h'
      rw [h']
      unfold autoScaleConfig
      dsimp only
      split_ifs <;> rfl
    · exact Or.inr ⟨c', hc', by rw [k3, normalize_assumed]⟩

/-- **C158 (size, from a configuration).** The same for `NewSwarmFromConfig`: the agents count on as many neighbours as the configuration says. -/
theorem C158_size_config (env : SwarmEnv α) (size : ℤ) (goal : State α) (cfg : SwarmConfig α) (s : Swarm α)
    (e : newSwarmFromConfig env size goal cfg = .ok s) : Spec.AllAgents (fun a => a.swarmSize = size ∧ a.assumedMaxNeighbors = cfg.assumedMaxNeighbors) s := by
  unfold newSwarmFromConfig at e
  split_ifs at e with h1 h2
  cases hc : checkConfig cfg size with
  | error x => rw [hc] at e; cases e
  | ok c =>
    rw [hc] at e
    simp only [Except.bind] at e
    have hcu : c.assumedMaxNeighbors = cfg.assumedMaxNeighbors := by
      have := checkConfig_ok _ _ _ hc
      rw [← normalize_assumed cfg size, this]
    obtain ⟨t, ht⟩ := createDefault_total (Swarm.plain size goal c) env.draws
    rw [ht] at e
    obtain ⟨hp, rfl, hsame⟩ := finish_eq _ _ _ e
    have hall : CellsAll (onAllocated fun a : Agent α => a.swarmSize = size ∧ a.assumedMaxNeighbors = cfg.assumedMaxNeighbors) t :=
      createDefaultLoop_all _ env.draws (fun id d a h _ => by
        have := stored_fromConfig id (Swarm.plain size goal c) (by show 0 < size; omega) d a h
        exact ⟨this.1, this.2.trans hcu⟩) _ _ t (fun x hx => absurd hx (by show ¬ decide (x < 0) = true; simp)) ht
    obtain ⟨hsh, addr, hpop, -⟩ := createDefault_ok (Swarm.plain size goal c) t env.draws rfl ht
    have ho : t.optimized = false := hsh.opt
    intro order hpm a ha
    have he : (({ t with heap := hp } : Swarm α).collectAgents order).Perm ((List.range size.toNat).map addr) := by
      unfold Swarm.collectAgents
      rw [if_neg (by show ¬ t.optimized = true; rw [ho]; simp)]
      refine ((hpm t.agents).map Prod.snd).trans ?_
      rw [hpop.agents, List.map_map]
      exact List.Perm.refl _
    obtain ⟨i, hi, rfl⟩ := List.mem_map.1 (he.mem_iff.1 ha)
    obtain ⟨nb, hnb⟩ := hsame (addr i)
    show (hp (addr i)).swarmSize = size ∧ (hp (addr i)).assumedMaxNeighbors = _
    rw [hnb]
    exact hall _ (decide_eq_true (hpop.lt i (List.mem_range.1 hi)))

end generic

/-- Twenty agents know that they are twenty. -/
example : ∃ (env : SwarmEnv ℝ) (s : Swarm ℝ), newSwarm env 20 goalR [] = .ok s ∧ Spec.AllAgents (fun a => a.swarmSize = 20) s := by
  obtain ⟨n, s, e, -⟩ := exists_swarm (fun _ _ => (0 : ℝ)) 20 (by norm_num) (by norm_num) goalR goalR_valid
  obtain ⟨k, h, -⟩ := C158_size _ 20 goalR [] (by simp) s e
  exact ⟨_, s, e, fun order hp a ha => (h order hp a ha).1⟩

end Verif
