import Verif.Props.SwarmGraph
import Verif.Props.AutoScale

/-!
# Connections of a new swarm: C43 (success), C44, C45, C46
-/

set_option autoImplicit false
set_option linter.unusedSectionVars false

namespace Verif
open GoMath

section generic
variable {α : Type} [Zero α] [One α] [Add α] [Sub α] [Mul α] [Div α] [Neg α] [LT α] [LE α]
  [DecidableLT α] [DecidableLE α] [BEq α] [OfScientific α] [GoMath α]

/-- `s` was made by connecting a population `l` of fresh agents under an accepted configuration. -/
def Built (env : SwarmEnv α) (size : ℤ) (s : Swarm α) : Prop :=
  ∃ (c0 c : SwarmConfig α) (t : Swarm α) (l : List ℕ), c0.normalizeAndValidate size = ([], c) ∧ t.config = c ∧ t.size = size ∧
      FreshPop t env.order size.toNat l ∧ t.establishConnections env = some s

theorem built_fromConfig (env : SwarmEnv α) (size : ℤ) (goal : State α) (cfg : SwarmConfig α) (s : Swarm α)
    (e : newSwarmFromConfig env size goal cfg = .ok s) : 0 < size ∧ Built env size s := by
  unfold newSwarmFromConfig at e
  split_ifs at e with h1 h2
  refine ⟨by omega, ?_⟩
  cases hc : checkConfig cfg size with
  | error x => rw [hc] at e; cases e
  | ok c =>
    rw [hc] at e
    simp only [Except.bind] at e
    obtain ⟨t, ht⟩ := createDefault_total (Swarm.plain size goal c) env.draws
    obtain ⟨hsh, addr, hpop, hf⟩ := createDefault_ok (Swarm.plain size goal c) t env.draws rfl ht
    rw [ht] at e
    dsimp only at e
    refine ⟨cfg, c, t, _, checkConfig_ok _ _ _ hc, hsh.config, hsh.size,
      freshPop_of_map _ _ env.order_perm _ addr hsh.opt hpop hf, ?_⟩
    unfold Swarm.finish at e
    rw [if_neg (by rw [hsh.conn]; simp [Swarm.plain])] at e
    cases hes : t.establishConnections env with
    | none => rw [hes] at e; cases e
    | some v => rw [hes] at e; cases e; rfl

theorem fresh_graph (t : Swarm α) (order : SyncMap ℕ → SyncMap ℕ) (n : ℕ) (l : List ℕ) (h : FreshPop t order n l) :
    GraphInv t.heap l ∧ Spec.degreeSum t.heap l = 0 := by
  have he : ∀ a ∈ l, (t.heap a).neighbors = [] := fun a ha => (h.fresh a ha).2.2
  refine ⟨⟨h.nodup, h.ids, fun a ha => by rw [he a ha]; exact List.nodup_nil, fun a ha p hp => ?_, fun a ha b hb hab => ?_⟩, ?_⟩
  · rw [he a ha] at hp; simp at hp
  · unfold Spec.Adj at hab; rw [he a ha] at hab; simp at hab
  · unfold Spec.degreeSum
    rw [List.map_congr_left (g := fun _ => 0) (fun a ha => by rw [he a ha]; rfl)]
    simp

theorem normalized_bounds (c0 c : SwarmConfig α) (n : ℤ) (hn : 0 < n) (e : c0.normalizeAndValidate n = ([], c)) :
    0 ≤ c.minNeighbors ∧ c.minNeighbors ≤ c.maxNeighbors ∧ c.maxNeighbors ≤ n - 1 ∧ (n ≠ 1 → 1 ≤ c.maxNeighbors) := by
  have h2 : c = c0.normalize n := by rw [← normalizeAndValidate_snd, e]
  rw [h2]
  simp only [SwarmConfig.normalize, normalizeNeighbor_spec, SwarmConfig.normalizeProbabilities,
      SwarmConfig.normalizePositiveDefaults, SwarmConfig.normalizeConcurrencyParameters,
      SwarmConfig.autoCalculateBatchParameters, if_pos hn]
  split_ifs <;> omega

/-- Everything about the connections of a built swarm. -/
theorem built_graph (env : SwarmEnv α) (size : ℤ) (hs : 0 < size) (s : Swarm α) (hb : Built env size s) :
    GraphInv s.heap (s.collectAgents env.order) ∧ ((s.collectAgents env.order).length : ℤ) = size ∧
    (0 ≤ s.config.minNeighbors ∧ s.config.minNeighbors ≤ s.config.maxNeighbors ∧ s.config.maxNeighbors ≤ size - 1) ∧
    (useMinimal s.config size.toNat = false ∨
      (∀ i < size.toNat, ∀ j < size.toNat, ∃ k < 2 * size.toNat, env.pick i k % size.toNat = j) →
      ∀ a ∈ s.collectAgents env.order, s.config.minNeighbors ≤ (s.heap a).neighbors.length) ∧
    (Spec.degreeSum s.heap (s.collectAgents env.order) : ℤ) ≤ size * (2 * s.config.maxNeighbors) := by
  obtain ⟨c0, c, t, l, hc, rfl, -, hf, he⟩ := hb
  obtain ⟨hmin, hmm, hmax, -⟩ := normalized_bounds c0 t.config size hs hc
  obtain ⟨g, g0⟩ := fresh_graph t env.order size.toNat l hf
  have hlen : (l.length : ℤ) = size := by rw [hf.len]; omega
  have hz : ∀ p ∈ l.zipIdx, p.1 ∈ l := fun p hp => (zipIdx_facts l g.nodup p.1 p.2 hp).1
  unfold Swarm.establishConnections at he
  dsimp only at he
  rw [hf.eq] at he
  rw [hf.len] at he
  split_ifs at he with hu
  · cases he
    have hcol : Swarm.collectAgents { t with heap := minimalConnections t.config.minNeighbors l env.pick l.zipIdx t.heap }
        env.order = l := hf.eq
    rw [hcol]
    have h1 := grows_minimal t.config.minNeighbors l env.pick l.zipIdx hz t.heap g
    obtain ⟨h2, h3⟩ := minimal_spec t.config.minNeighbors hmin l (by omega) env.pick l.zipIdx hz t.heap g
    refine ⟨h1.inv, hlen, ⟨hmin, hmm, hmax⟩, fun hor a ha => ?_, ?_⟩
    · rcases hor with x | x
      · dsimp only at x; rw [hu] at x; cases x
      · obtain ⟨i, hi, rfl⟩ := List.getElem_of_mem ha
        refine h2 (fun p hp j hj => ?_) (l[i], i) (List.mem_zipIdx_iff_getElem?.2 (by simp [hi]))
        have hp2 := (List.getElem?_eq_some_iff.1 (List.mem_zipIdx_iff_getElem?.1 hp)).1
        rw [hf.len] at hp2 hj ⊢
        exact x p.2 hp2 j hj
    · rw [g0] at h3
      rw [List.length_zipIdx] at h3
      have : (l.length : ℤ) * (2 * t.config.minNeighbors) ≤ size * (2 * t.config.maxNeighbors) := by
        rw [hlen]; exact mul_le_mul_of_nonneg_left (by omega) (by omega)
      dsimp only
      push_cast at h3; linarith
  · obtain ⟨h', e', rfl⟩ := Option.map_eq_some_iff.1 he
    have hcol : Swarm.collectAgents { t with heap := h' } env.order = l := hf.eq
    rw [hcol]
    obtain ⟨h1, h2, h3⟩ := prob_spec t.config env l l.zipIdx (fun p hp => hp) ⟨hmin, hmm⟩ t.heap h' g e'
    refine ⟨h1.inv, hlen, ⟨hmin, hmm, hmax⟩, fun _ a ha => ?_, ?_⟩
    · obtain ⟨i, hi, rfl⟩ := List.getElem_of_mem ha
      exact h2 (by omega) (l[i], i) (List.mem_zipIdx_iff_getElem?.2 (by simp [hi]))
    · rw [g0, List.length_zipIdx, hlen] at h3
      dsimp only
      push_cast at h3; linarith

/-! ## C44 -/

/-- Specification: a symmetric graph without self-connections on the agents `l`, each edge entered once in the neighbour
map under the neighbour's ID. -/
structure Spec.ProperGraph (h : ℕ → Agent α) (l : List ℕ) : Prop where
  members : ∀ a ∈ l, ∀ p ∈ (h a).neighbors, p.2 ∈ l ∧ p.1 = (h p.2).id
  once : ∀ a ∈ l, ((h a).neighbors.map Prod.snd).Nodup
  loopless : ∀ a ∈ l, ∀ p ∈ (h a).neighbors, p.2 ≠ a
  symmetric : ∀ a ∈ l, ∀ p ∈ (h a).neighbors, ((h a).id, a) ∈ (h p.2).neighbors

theorem GraphInv.proper {h : ℕ → Agent α} {l : List ℕ} (g : GraphInv h l) : Spec.ProperGraph h l where
  members := fun a ha p hp => by
    obtain ⟨b, hb, -, rfl⟩ := g.mem a ha p hp
    exact ⟨hb, rfl⟩
  once := fun a ha => by
    refine (List.Nodup.of_map Prod.fst (g.keys a ha)).map_on fun x hx y hy e => ?_
    obtain ⟨b, -, -, rfl⟩ := g.mem a ha x hx
    obtain ⟨b', -, -, rfl⟩ := g.mem a ha y hy
    dsimp only at e; rw [e]
  loopless := fun a ha p hp => by
    obtain ⟨b, -, hne, rfl⟩ := g.mem a ha p hp
    exact hne
  symmetric := fun a ha p hp => by
    obtain ⟨b, hb, -, rfl⟩ := g.mem a ha p hp
    exact g.symm a ha b hb hp

/-- What the user expects of a swarm made by `New` without options. -/
def C44_claim (α : Type) [Zero α] [One α] [Add α] [Sub α] [Mul α] [Div α] [Neg α] [LT α] [LE α]
    [DecidableLT α] [DecidableLE α] [BEq α] [OfScientific α] [GoMath α] : Prop :=
  ∀ (env : SwarmEnv α) (size : ℤ) (goal : State α) (s : Swarm α), newSwarm env size goal [] = .ok s →
    Spec.ProperGraph s.heap (s.collectAgents env.order) ∧
    ∀ a ∈ s.collectAgents env.order, s.config.minNeighbors ≤ (s.heap a).neighbors.length

/-- **C44.** In every swarm made by `New`, whatever the configuration, the iteration order and the random draws, the
connections form a proper graph on the agents; every agent has the configured minimum of neighbours, provided the swarm
is not in the optimised regime, or the draws of each turn reach every agent. Without that proviso the minimum can be
missed (`C44_refuted`). -/
theorem C44_graph_partial (env : SwarmEnv α) (size : ℤ) (goal : State α) (opts : List (SwarmOption α))
    (ho : ∀ o ∈ opts, o.Simple) (s : Swarm α) (e : newSwarm env size goal opts = .ok s) :
    Spec.ProperGraph s.heap (s.collectAgents env.order) ∧
    (s.config.enableConnectionOptim = false ∨ size ≤ s.config.connectionOptimThreshold ∨
      (∀ i < size.toNat, ∀ j < size.toNat, ∃ k < 2 * size.toNat, env.pick i k % size.toNat = j) →
      ∀ a ∈ s.collectAgents env.order, s.config.minNeighbors ≤ (s.heap a).neighbors.length) := by
  have hs := (newSwarm_ok env size goal opts s e).1
  obtain ⟨g, -, -, h, -⟩ := built_graph env size hs s (newSwarm_simple env size goal opts ho s e)
  refine ⟨g.proper, fun hor => h ?_⟩
  unfold useMinimal
  rcases hor with x | x | x
  · exact Or.inl (by rw [x]; rfl)
  · exact Or.inl (by rw [Bool.and_eq_false_iff]; right; rw [decide_eq_false_iff_not]; omega)
  · exact Or.inr x

/-- The same for `NewSwarmFromConfig`. -/
theorem C44_fromConfig_partial (env : SwarmEnv α) (size : ℤ) (goal : State α) (cfg : SwarmConfig α) (s : Swarm α)
    (e : newSwarmFromConfig env size goal cfg = .ok s) :
    Spec.ProperGraph s.heap (s.collectAgents env.order) ∧
    (s.config.enableConnectionOptim = false ∨ size ≤ s.config.connectionOptimThreshold ∨
      (∀ i < size.toNat, ∀ j < size.toNat, ∃ k < 2 * size.toNat, env.pick i k % size.toNat = j) →
      ∀ a ∈ s.collectAgents env.order, s.config.minNeighbors ≤ (s.heap a).neighbors.length) := by
  obtain ⟨hs, hb⟩ := built_fromConfig env size goal cfg s e
  obtain ⟨g, -, -, h, -⟩ := built_graph env size hs s hb
  refine ⟨g.proper, fun hor => h ?_⟩
  unfold useMinimal
  rcases hor with x | x | x
  · exact Or.inl (by rw [x]; rfl)
  · exact Or.inl (by rw [Bool.and_eq_false_iff]; right; rw [decide_eq_false_iff_not]; omega)
  · exact Or.inr x

/-! ## Termination -/

/-- Fair draws: from any point on, every index is drawn again. -/
def Spec.FairPicks (pick : ℕ → ℕ) (n : ℕ) : Prop := ∀ k, ∀ j < n, ∃ k' ≥ k, pick k' % n = j

theorem forceLoop_mono (minN : ℤ) (l : List ℕ) (pick : ℕ → ℕ) (a : ℕ) (n k : ℕ) (h h' : ℕ → Agent α) (c : ℤ)
    (e : forceLoop minN l pick a n k h c = some h') (m : ℕ) (hm : n ≤ m) : forceLoop minN l pick a m k h c = some h' := by
  induction n generalizing k h c m with
  | zero =>
    unfold forceLoop at e
    split_ifs at e with h1
    cases m with
    | zero => unfold forceLoop; rw [if_neg h1]; exact e
    | succ m => unfold forceLoop; rw [if_neg h1]; exact e
  | succ n ih =>
    obtain ⟨m, rfl⟩ : ∃ m', m = m' + 1 := ⟨m - 1, by omega⟩
    unfold forceLoop at e ⊢
    dsimp only at e ⊢
    split_ifs at e ⊢ with h1 h2 h3
    · exact ih _ _ _ e m (by omega)
    · exact ih _ _ _ e m (by omega)
    · exact ih _ _ _ e m (by omega)
    · exact e

theorem forceLoop_terminates (minN : ℤ) (l : List ℕ) (pick : ℕ → ℕ) (a : ℕ) (ha : a ∈ l) (hlt : minN < l.length)
    (hfair : Spec.FairPicks pick l.length) (m : ℕ) :
    ∀ (h : ℕ → Agent α) (c : ℤ) (k : ℕ), GraphInv h l → c = (h a).neighbors.length → (minN - c).toNat ≤ m →
      ∃ n h', forceLoop minN l pick a n k h c = some h' := by
  induction m with
  | zero =>
    intro h c k g hc hm
    exact ⟨0, h, by unfold forceLoop; rw [if_neg (by omega)]⟩
  | succ m ih =>
    intro h c k g hc hm
    by_cases hcm : c < minN
    · -- some agent is not a neighbour yet
      have : ∃ b ∈ l, b ≠ a ∧ ¬ Spec.Adj h a b := by
        by_contra hno
        push Not at hno
        have := g.degree_full ha hno
        omega
      obtain ⟨b, hb, hba, hadj⟩ := this
      obtain ⟨j, hj, rfl⟩ := List.getElem_of_mem hb
      obtain ⟨k', hk', hpick⟩ := hfair k j hj
      have hget : l.getD (pick k' % l.length) 0 = l[j] := by
        rw [hpick, List.getD_eq_getElem?_getD, List.getElem?_eq_getElem hj]; rfl
      obtain ⟨d, rfl⟩ : ∃ d, k' = k + d := ⟨k' - k, by omega⟩
      clear hk'
      induction d generalizing k with
      | zero =>
        rw [Nat.add_zero] at hget
        have hab : a ≠ l.getD (pick k % l.length) 0 := by rw [hget]; exact fun e => hba e.symm
        have hb' := getD_mem l (pick k) (List.ne_nil_of_mem ha)
        have hn : hasNeighbor h a (l.getD (pick k % l.length) 0) = false := by
          rw [Bool.eq_false_iff]; intro x
          rw [g.has_iff ha hb', hget] at x
          exact hadj x
        have hl := length_link g ha hb' hab hn a
        rw [if_pos (Or.inl rfl)] at hl
        obtain ⟨n, h', e⟩ := ih _ (c + 1) (k + 1) (g.link ha hb' hab) (by rw [hl, hc]; push_cast; rfl) (by omega)
        refine ⟨n + 1, h', ?_⟩
        unfold forceLoop
        dsimp only
        rw [if_pos hcm, if_neg (fun x => hab (g.id_inj hb' ha x).symm), if_neg (by rw [hn]; simp)]
        exact e
      | succ d ihd =>
        have hb' := getD_mem l (pick k) (List.ne_nil_of_mem ha)
        by_cases h2 : (h (l.getD (pick k % l.length) 0)).id = (h a).id ∨ hasNeighbor h a (l.getD (pick k % l.length) 0) = true
        · obtain ⟨n, h', e⟩ := ihd (k + 1) (by rw [← hpick]; congr 2; omega)
            (by rw [← hget]; congr 3; omega)
          refine ⟨n + 1, h', ?_⟩
          unfold forceLoop
          dsimp only
          rw [if_pos hcm]
          by_cases h3 : (h (l.getD (pick k % l.length) 0)).id = (h a).id
          · rw [if_pos h3]; exact e
          · rw [if_neg h3, if_pos (h2.resolve_left h3)]; exact e
        · push Not at h2
          have hab : a ≠ l.getD (pick k % l.length) 0 := fun e => h2.1 (by rw [← e])
          have hn : hasNeighbor h a (l.getD (pick k % l.length) 0) = false := by simpa using h2.2
          have hl := length_link g ha hb' hab hn a
          rw [if_pos (Or.inl rfl)] at hl
          obtain ⟨n, h', e⟩ := ih _ (c + 1) (k + 1) (g.link ha hb' hab) (by rw [hl, hc]; push_cast; rfl) (by omega)
          refine ⟨n + 1, h', ?_⟩
          unfold forceLoop
          dsimp only
          rw [if_pos hcm, if_neg h2.1, if_neg h2.2]
          exact e
    · exact ⟨0, h, by unfold forceLoop; rw [if_neg hcm]⟩

theorem prob_terminates (c : SwarmConfig α) (env : SwarmEnv α) (l : List ℕ) (todo : List (ℕ × ℕ)) (ht : ∀ p ∈ todo, p ∈ l.zipIdx)
    (hmin : 0 ≤ c.minNeighbors ∧ c.minNeighbors ≤ c.maxNeighbors)
    (hfair : ∀ i, Spec.FairPicks (env.pick i) l.length) (h : ℕ → Agent α) (g : GraphInv h l) :
    ∃ N h', ∀ n ≥ N, probabilisticConnections c { env with fuel := n } l todo h = some h' := by
  induction todo generalizing h with
  | nil => exact ⟨0, h, fun n _ => rfl⟩
  | cons p ps ih =>
    obtain ⟨a, i⟩ := p
    obtain ⟨ha, hget, hz⟩ := zipIdx_facts l g.nodup a i (ht (a, i) (by simp))
    have h1 := connectLoop_spec c.connectionProbability c.maxNeighbors (env.coin i) l a i ha l [] 0 (by simp) (by simp) hget
      h g 0 (by simp) (by omega)
    have step : ∃ N h1, ∀ n ≥ N, ensureMinimum c.minNeighbors l (env.pick i) a n
        (connectLoop c.connectionProbability c.maxNeighbors (env.coin i) a i l.zipIdx h 0).1
        (connectLoop c.connectionProbability c.maxNeighbors (env.coin i) a i l.zipIdx h 0).2 = some h1 := by
      generalize connectLoop c.connectionProbability c.maxNeighbors (env.coin i) a i l.zipIdx h 0 = r at h1 ⊢
      obtain ⟨g1, g2, g3, g4⟩ := h1
      rw [g1.inv.degree ha] at g3 g4
      by_cases hc : r.2 < c.minNeighbors ∧ (l.length : ℤ) > c.minNeighbors
      · obtain ⟨N, h', e⟩ := forceLoop_terminates c.minNeighbors l (env.pick i) a ha hc.2 (hfair i) _ r.1 r.2 0 g1.inv
          (g4 (by omega)) le_rfl
        refine ⟨N, h', fun n hn => ?_⟩
        unfold ensureMinimum
        rw [if_pos hc]
        exact forceLoop_mono _ _ _ _ _ _ _ _ _ e n hn
      · exact ⟨0, r.1, fun n _ => by unfold ensureMinimum; rw [if_neg hc]⟩
    obtain ⟨N1, h1', e1⟩ := step
    obtain ⟨-, t1, -, -⟩ := turn_spec c { env with fuel := N1 } l a i (ht (a, i) (by simp)) h h1' g hmin (e1 N1 le_rfl)
    obtain ⟨N2, h2, e2⟩ := ih (fun q hq => ht q (by simp [hq])) h1' t1.inv
    refine ⟨max N1 N2, h2, fun n hn => ?_⟩
    unfold probabilisticConnections
    dsimp only
    rw [e1 n (by omega)]
    exact e2 n (by omega)

/-! ## C43: success -/

theorem complete_plain (env : SwarmEnv α) (size : ℤ) (h1 : 1 ≤ size) (goal : State α) (c : SwarmConfig α)
    (hc : checkConfig c size = .ok c) (hmax : ¬ (c.maxSwarmSize > 0 ∧ size > c.maxSwarmSize)) :
    ∃ (t : Swarm α) (l : List ℕ),
      (∀ n, (Swarm.initial size goal c).complete { env with fuel := n } = t.finish { env with fuel := n }) ∧
      t.config = c ∧ t.size = size ∧ t.connectionsEstablished = false ∧ FreshPop t env.order size.toNat l := by
  have hi := initial_inv size (by omega) goal c
  obtain ⟨t, l, e1, e2, e3, e4, e5, e6, e7⟩ := createAgents_fresh (Swarm.initial size goal c) env size.toNat hi rfl
  refine ⟨t, l, fun n => ?_, e2, by omega, e5, e7⟩
  unfold Swarm.complete
  have h0 : checkConfig (Swarm.initial size goal c).config (Swarm.initial size goal c).size = .ok c := hc
  rw [h0]
  simp only [Except.bind]
  have hm : ¬ (c.maxSwarmSize > 0 ∧ (Swarm.initial size goal c).size > c.maxSwarmSize) := hmax
  rw [if_neg hm]
  have e1' : Swarm.createAgents { Swarm.initial size goal c with config := c } { env with fuel := n } = .ok t := e1
  rw [e1']

theorem newSwarm_check (env : SwarmEnv α) (size : ℤ) (h1 : 1 ≤ size) (goal : State α) (hg : goal.validate = [])
    (c : SwarmConfig α) (hc : checkConfig (autoScaleConfig size) size = .ok c) :
    newSwarm env size goal [] = (Swarm.initial size goal c).complete env := by
  unfold newSwarm
  rw [if_neg (show ¬ size ≤ 0 by omega), if_neg (by rw [hg]; simp), hc]
  simp only [Except.bind, Swarm.applyOptions]

/-- `New` without options, for a size in the supported range and a valid goal: everything succeeds up to the connection of
the agents. -/
theorem newSwarm_plain [UnitFacts α] (env : SwarmEnv α) (size : ℤ) (h1 : 1 ≤ size) (h2 : size ≤ 1000000) (goal : State α)
    (hg : goal.validate = []) :
    ∃ (t : Swarm α) (l : List ℕ), (∀ n, newSwarm { env with fuel := n } size goal [] = t.finish { env with fuel := n }) ∧
      t.config = autoScaleConfig size ∧ t.size = size ∧ t.connectionsEstablished = false ∧
      FreshPop t env.order size.toNat l := by
  have hv := (autoScale_valid_iff (α := α) size).2 ⟨h1, h2⟩
  have hcheck : checkConfig (autoScaleConfig size : SwarmConfig α) size = .ok (autoScaleConfig size) := by
    unfold checkConfig SwarmConfig.normalizeAndValidate
    rw [if_neg (by rw [hv]; simp), autoScale_normalize size h1 h2]
  have hmax : ¬ ((autoScaleConfig size : SwarmConfig α).maxSwarmSize > 0 ∧
      size > (autoScaleConfig size : SwarmConfig α).maxSwarmSize) := by
    have := ((validate_eq_nil _ _).1 hv).1.2
    generalize (autoScaleConfig size : SwarmConfig α).maxSwarmSize = m at this ⊢
    omega
  obtain ⟨t, l, e1, e2, e3, e4, e5⟩ := complete_plain env size h1 goal (autoScaleConfig size) hcheck hmax
  refine ⟨t, l, fun n => ?_, e2, e3, e4, e5⟩
  rw [← e1 n]
  exact newSwarm_check _ size h1 goal hg _ hcheck

/-- **C43.** For every size from 1 to 1 000 000 and every valid goal, if the draws are fair then `New` succeeds. -/
theorem C43_succeeds [UnitFacts α] (env : SwarmEnv α) (size : ℤ) (h1 : 1 ≤ size) (h2 : size ≤ 1000000) (goal : State α)
    (hg : goal.validate = []) (hfair : ∀ i, Spec.FairPicks (env.pick i) size.toNat) :
    ∃ N s, ∀ n ≥ N, newSwarm { env with fuel := n } size goal [] = .ok s := by
  obtain ⟨t, l, e1, e2, -, e4, e5⟩ := newSwarm_plain env size h1 h2 goal hg
  have hv := (autoScale_valid_iff (α := α) size).2 ⟨h1, h2⟩
  have hb := ((validate_eq_nil _ _).1 hv).2.2.1
  obtain ⟨g, -⟩ := fresh_graph t env.order size.toNat l e5
  have key : ∃ N s, ∀ n ≥ N, t.establishConnections { env with fuel := n } = some s := by
    unfold Swarm.establishConnections
    dsimp only
    rw [e5.eq]
    by_cases hu : useMinimal t.config l.length = true
    · simp only [if_pos hu]; exact ⟨0, _, fun n _ => rfl⟩
    · simp only [if_neg hu]
      obtain ⟨N, h', e⟩ := prob_terminates t.config env l l.zipIdx (fun p hp => hp) (by rw [e2]; exact hb.2)
        (fun i => by rw [e5.len]; exact hfair i) t.heap g
      exact ⟨N, { t with heap := h' }, fun n hn => by rw [e n hn]; rfl⟩
  obtain ⟨N, s, e⟩ := key
  refine ⟨N, s, fun n hn => ?_⟩
  rw [e1 n]
  unfold Swarm.finish
  rw [if_neg (by rw [e4]; simp), e n hn]

/-! ## C45 -/

theorem grows_connectLoop (prob : α) (maxN : ℤ) (coin : ℕ → α) (l : List ℕ) (a i : ℕ) (ha : a ∈ l)
    (todo : List (ℕ × ℕ)) (ht : ∀ p ∈ todo, p.1 ∈ l ∧ (p.2 ≠ i → p.1 ≠ a))
    (h : ℕ → Agent α) (g : GraphInv h l) (c : ℤ) : Grows h (connectLoop prob maxN coin a i todo h c).1 l := by
  induction todo generalizing h c with
  | nil => exact Grows.refl g
  | cons p ps ih =>
    obtain ⟨b, j⟩ := p
    have h0 := ht (b, j) (by simp)
    have ih := ih (fun q hq => ht q (by simp [hq]))
    unfold connectLoop
    split_ifs with h1 h2 h3 h4
    · exact ih h g c
    · exact Grows.refl g
    · exact ih h g (c + 1)
    · have hg := grows_link g ha h0.1 (fun e => h0.2 h1 e.symm) (by simpa using h3)
      exact hg.trans (ih _ hg.inv _)
    · exact ih h g c

/-- An agent that is not the first and whose first coin succeeds ends up connected to the first agent. -/
theorem connectLoop_first (prob : α) (maxN : ℤ) (hm : 1 ≤ maxN) (coin : ℕ → α) (hc : coin 0 < prob) (l : List ℕ) (a i b : ℕ)
    (ha : a ∈ l) (hi : i ≠ 0) (todo : List (ℕ × ℕ)) (ht : ∀ p ∈ (b, 0) :: todo, p.1 ∈ l ∧ (p.2 ≠ i → p.1 ≠ a))
    (h : ℕ → Agent α) (g : GraphInv h l) :
    Spec.Adj (connectLoop prob maxN coin a i ((b, 0) :: todo) h 0).1 a b := by
  have h0 := ht (b, 0) (by simp)
  have hps : ∀ p ∈ todo, p.1 ∈ l ∧ (p.2 ≠ i → p.1 ≠ a) := fun q hq => ht q (by simp [hq])
  unfold connectLoop
  rw [if_neg (fun e => hi e.symm), if_neg (by omega)]
  by_cases h3 : hasNeighbor h a b = true
  · rw [if_pos h3]
    exact (grows_connectLoop prob maxN coin l a i ha todo hps h g _).adj a ha b h0.1 ((g.has_iff ha h0.1).1 h3)
  · rw [if_neg h3, if_pos hc]
    have hab : a ≠ b := fun e => h0.2 (fun x => hi x.symm) e.symm
    have hg := grows_link g ha h0.1 hab (by simpa using h3)
    exact (grows_connectLoop prob maxN coin l a i ha todo hps _ hg.inv _).adj a ha b h0.1
      ((adj_link g ha h0.1 hab ha h0.1).2 (Or.inr (Or.inl ⟨rfl, rfl⟩)))

theorem prob_hub (c : SwarmConfig α) (env : SwarmEnv α) (b : ℕ) (rest : List ℕ) (todo : List (ℕ × ℕ))
    (ht : ∀ p ∈ todo, p ∈ (b :: rest).zipIdx)
    (hmin : 0 ≤ c.minNeighbors ∧ c.minNeighbors ≤ c.maxNeighbors) (hm : 1 ≤ c.maxNeighbors)
    (hcoin : ∀ i, env.coin i 0 < c.connectionProbability) (h h' : ℕ → Agent α) (g : GraphInv h (b :: rest))
    (e : probabilisticConnections c env (b :: rest) todo h = some h') :
    ∀ p ∈ todo, p.2 ≠ 0 → Spec.Adj h' p.1 b := by
  induction todo generalizing h with
  | nil => intro p hp; simp at hp
  | cons p ps ih =>
    obtain ⟨a, i⟩ := p
    obtain ⟨ha, hget, hz⟩ := zipIdx_facts (b :: rest) g.nodup a i (ht (a, i) (by simp))
    unfold probabilisticConnections at e
    dsimp only at e
    obtain ⟨h1, e1, e2⟩ := Option.bind_eq_some_iff.1 e
    obtain ⟨t0, t1, -, -⟩ := turn_spec c env (b :: rest) a i (ht (a, i) (by simp)) h h1 g hmin e1
    have hps : ∀ p ∈ ps, p ∈ (b :: rest).zipIdx := fun q hq => ht q (by simp [hq])
    have g2 := (prob_spec c env (b :: rest) ps hps hmin h1 h' t1.inv e2).1
    intro q hq hq0
    rcases List.mem_cons.1 hq with rfl | hq
    · have hz' : ∀ p ∈ (b, 0) :: rest.zipIdx 1, p.1 ∈ b :: rest ∧ (p.2 ≠ i → p.1 ≠ a) := hz
      have := connectLoop_first c.connectionProbability c.maxNeighbors hm (env.coin i) (hcoin i) (b :: rest) a i b ha hq0
        (rest.zipIdx 1) hz' h g
      exact g2.adj a ha b (by simp) (t0.adj a ha b (by simp) this)
    · exact ih hps h1 t1.inv e2 q hq hq0

/-- **C45 fails for the first agent.** Outside the optimised regime, whenever every agent's first coin succeeds, the first
agent ends up connected to all the others, whatever the maximum. -/
theorem C45_hub (env : SwarmEnv α) (size : ℤ) (goal : State α) (opts : List (SwarmOption α))
    (ho : ∀ o ∈ opts, o.Simple) (s : Swarm α) (e : newSwarm env size goal opts = .ok s)
    (hreg : s.config.enableConnectionOptim = false ∨ size ≤ s.config.connectionOptimThreshold)
    (hcoin : ∀ i, env.coin i 0 < s.config.connectionProbability) :
    ∃ a ∈ s.collectAgents env.order, ((s.heap a).neighbors.length : ℤ) = size - 1 := by
  have hs := (newSwarm_ok env size goal opts s e).1
  obtain ⟨c0, c, t, l, hc, rfl, -, hf, he⟩ := newSwarm_simple env size goal opts ho s e
  obtain ⟨hmin, hmm, hmax, hone⟩ := normalized_bounds c0 t.config size hs hc
  obtain ⟨g, -⟩ := fresh_graph t env.order size.toNat l hf
  obtain ⟨h', rfl, -⟩ := establish_eq t s env he
  have hcol : Swarm.collectAgents { t with heap := h' } env.order = l := hf.eq
  rw [hcol]
  unfold Swarm.establishConnections at he
  dsimp only at he hreg hcoin ⊢
  rw [hf.eq, hf.len, if_neg] at he
  · obtain ⟨h'', e', e''⟩ := Option.map_eq_some_iff.1 he
    have hh : h'' = h' := congrArg Swarm.heap e''
    subst hh
    have hlen := hf.len
    cases l with
    | nil => simp at hlen; omega
    | cons b rest =>
      obtain ⟨g1, -, -⟩ := prob_spec t.config env (b :: rest) _ (fun p hp => hp) ⟨hmin, hmm⟩ t.heap h'' g e'
      refine ⟨b, by simp, ?_⟩
      have := g1.inv.degree_full (a := b) (by simp) fun x hx hne => by
        obtain ⟨j, hj, rfl⟩ := List.getElem_of_mem hx
        have hj0 : j ≠ 0 := by rintro rfl; exact hne rfl
        have h1 : size ≠ 1 := by
          intro h1; rw [hlen] at hj; omega
        exact g1.inv.symm _ hx _ (by simp) (prob_hub t.config env b rest _ (fun p hp => hp) ⟨hmin, hmm⟩ (hone h1) hcoin t.heap h'' g
          e' ((b :: rest)[j], j) (List.mem_zipIdx_iff_getElem?.2 (by simp)) hj0)
      omega
  · unfold useMinimal
    rcases hreg with x | x
    · rw [x]; simp
    · simp; intro _; omega

/-- **C45, what does hold.** Always fewer neighbours than agents, and the maximum holds on average up to a factor two: an
agent initiates at most `MaxNeighbors` connections, each of which adds one neighbour on both sides. -/
theorem C45_average_partial (env : SwarmEnv α) (size : ℤ) (goal : State α) (opts : List (SwarmOption α))
    (ho : ∀ o ∈ opts, o.Simple) (s : Swarm α) (e : newSwarm env size goal opts = .ok s) :
    (∀ a ∈ s.collectAgents env.order, ((s.heap a).neighbors.length : ℤ) ≤ size - 1) ∧
    (((s.collectAgents env.order).map fun a => (s.heap a).neighbors.length).sum : ℤ) ≤ 2 * s.config.maxNeighbors * size := by
  have hs := (newSwarm_ok env size goal opts s e).1
  obtain ⟨g, hlen, -, -, h⟩ := built_graph env size hs s (newSwarm_simple env size goal opts ho s e)
  refine ⟨fun a ha => ?_, ?_⟩
  · have := g.degree_lt ha; omega
  · unfold Spec.degreeSum at h
    linarith

/-- What the user expects. -/
def C45_claim (α : Type) [Zero α] [One α] [Add α] [Sub α] [Mul α] [Div α] [Neg α] [LT α] [LE α]
    [DecidableLT α] [DecidableLE α] [BEq α] [OfScientific α] [GoMath α] : Prop :=
  ∀ (env : SwarmEnv α) (size : ℤ) (goal : State α) (s : Swarm α), newSwarm env size goal [] = .ok s →
    ∀ a ∈ s.collectAgents env.order, ((s.heap a).neighbors.length : ℤ) ≤ s.config.maxNeighbors

/-! ## Refutations and examples -/

/-- Everything left open by the code, chosen simply: insertion order, first words, and the given coins and draws. -/
def SwarmEnv.simple (coin : ℕ → ℕ → α) (pick : ℕ → ℕ → ℕ) : SwarmEnv α where
  order := id
  order_perm := fun _ => List.Perm.refl _
  draws := fun _ => ⟨0, 0, 0, 0, 0, 0, 0⟩
  coin := coin
  pick := pick
  fuel := 0

theorem fair_self (n : ℕ) : Spec.FairPicks (fun k => k) n := fun k j hj =>
  ⟨n * k + j, by nlinarith [Nat.zero_le k], by dsimp only; rw [Nat.mul_add_mod, Nat.mod_eq_of_lt hj]⟩

/-- With fair draws a swarm of any supported size exists, and its configuration is the automatically scaled one. -/
theorem exists_swarm [UnitFacts α] (coin : ℕ → ℕ → α) (size : ℤ) (h1 : 1 ≤ size) (h2 : size ≤ 1000000) (goal : State α)
    (hg : goal.validate = []) :
    ∃ n s, newSwarm { SwarmEnv.simple coin (fun _ k => k) with fuel := n } size goal [] = .ok s ∧
      s.config = autoScaleConfig size := by
  obtain ⟨N, s, h⟩ := C43_succeeds (SwarmEnv.simple coin (fun _ k => k)) size h1 h2 goal hg (fun _ => fair_self _)
  refine ⟨N, s, h N le_rfl, ?_⟩
  obtain ⟨t, l, e1, e2, -, e4, -⟩ := newSwarm_plain (SwarmEnv.simple coin (fun _ k => k)) size h1 h2 goal hg
  have h3 := h N le_rfl
  rw [e1 N] at h3
  unfold Swarm.finish at h3
  rw [if_neg (by rw [e4]; simp)] at h3
  cases hes : t.establishConnections { SwarmEnv.simple coin (fun _ k => k) with fuel := N } with
  | none => rw [hes] at h3; cases h3
  | some v =>
    rw [hes] at h3
    cases h3
    obtain ⟨h', rfl, -⟩ := establish_eq t _ _ hes
    exact e2

theorem minimalLoop_self (minN : ℤ) (l : List ℕ) (pick : ℕ → ℕ) (a : ℕ) (hp : ∀ k, l.getD (pick k % l.length) 0 = a) (n k : ℕ)
    (h : ℕ → Agent α) (c : ℤ) : minimalLoop minN l pick a n k h c = h := by
  induction n generalizing k with
  | zero => rfl
  | succ n ih =>
    unfold minimalLoop
    dsimp only
    rw [hp k, ih]
    split_ifs with h1 h2
    · exact absurd rfl h2.1
    · rfl
    · rfl

theorem minimal_self (minN : ℤ) (l : List ℕ) (todo : List (ℕ × ℕ)) (ht : ∀ p ∈ todo, p ∈ l.zipIdx) (h : ℕ → Agent α) :
    minimalConnections minN l (fun i _ => i) todo h = h := by
  induction todo generalizing h with
  | nil => rfl
  | cons p ps ih =>
    obtain ⟨a, i⟩ := p
    unfold minimalConnections
    rw [minimalLoop_self, ih (fun q hq => ht q (by simp [hq]))]
    intro k
    have h1 : l[i]? = some a := List.mem_zipIdx_iff_getElem?.1 (ht (a, i) (by simp))
    have h2 : i < l.length := (List.getElem?_eq_some_iff.1 h1).1
    rw [Nat.mod_eq_of_lt h2, List.getD_eq_getElem?_getD, h1]; rfl

/-- **C44 fails in the optimised regime.** For every size above 1000 there are draws for which `New` succeeds and leaves
every single agent without any neighbour, although the configured minimum is 2. -/
theorem C44_isolated [UnitFacts α] (coin : ℕ → ℕ → α) (size : ℤ) (h1 : 1000 < size) (h2 : size ≤ 1000000) (goal : State α)
    (hg : goal.validate = []) :
    ∃ s, newSwarm (SwarmEnv.simple coin (fun i _ => i)) size goal [] = .ok s ∧ s.config.minNeighbors = 2 ∧
      ((s.collectAgents id).length : ℤ) = size ∧
      ∀ a ∈ s.collectAgents id, (s.heap a).neighbors = [] := by
  obtain ⟨t, l, e1, e2, -, e4, e5⟩ := newSwarm_plain (SwarmEnv.simple coin (fun i _ => i)) size (by omega) h2 goal hg
  have hcfg : (autoScaleConfig size : SwarmConfig α).minNeighbors = 2 ∧
      (autoScaleConfig size : SwarmConfig α).enableConnectionOptim = true ∧
      (autoScaleConfig size : SwarmConfig α).connectionOptimThreshold = 1000 := by
    unfold autoScaleConfig autoScaleBase
    rw [if_neg (show ¬ size < 10 by omega), if_neg (show ¬ size < 20 by omega), if_neg (show ¬ size < 100 by omega),
      if_neg (show ¬ size < 1000 by omega), if_pos (show size > 100 by omega)]
    exact ⟨rfl, rfl, rfl⟩
  rw [← e2] at hcfg
  have hcol : t.collectAgents id = l := e5.eq
  have hlen : (l.length : ℤ) = size := by rw [e5.len]; omega
  have hes : t.establishConnections (SwarmEnv.simple coin (fun i _ => i)) = some t := by
    unfold Swarm.establishConnections
    dsimp only
    rw [e5.eq, if_pos]
    · show some { t with heap := minimalConnections t.config.minNeighbors l (fun i _ => i) l.zipIdx t.heap } = some t
      rw [minimal_self _ _ _ (fun p hp => hp)]
    · unfold useMinimal
      rw [hcfg.2.1, hcfg.2.2]
      simp; omega
  refine ⟨t, ?_, hcfg.1, by rw [hcol]; exact hlen, fun a ha => ?_⟩
  · have := e1 0
    rw [show newSwarm (SwarmEnv.simple coin (fun i _ => i)) size goal [] =
      t.finish (SwarmEnv.simple coin (fun i _ => i)) from this]
    unfold Swarm.finish
    rw [if_neg (by rw [e4]; simp), hes]
  · rw [hcol] at ha
    exact (e5.fresh a ha).2.2

/-- In a swarm of 20 agents with the default configuration the first agent can have 19 neighbours, the maximum being 4. -/
theorem C45_nineteen [UnitFacts α] (z : α) (hz : z < 0.5) (goal : State α) (hg : goal.validate = []) :
    ∃ (env : SwarmEnv α) (s : Swarm α), newSwarm env 20 goal [] = .ok s ∧ s.config.maxNeighbors = 4 ∧
      ∃ a ∈ s.collectAgents env.order, (s.heap a).neighbors.length = 19 := by
  obtain ⟨n, s, e, hc⟩ := exists_swarm (fun _ _ => z) 20 (by norm_num) (by norm_num) goal hg
  have hcfg : (autoScaleConfig 20 : SwarmConfig α).maxNeighbors = 4 ∧
      (autoScaleConfig 20 : SwarmConfig α).connectionProbability = 0.5 ∧
      (autoScaleConfig 20 : SwarmConfig α).enableConnectionOptim = false := ⟨rfl, rfl, rfl⟩
  rw [← hc] at hcfg
  obtain ⟨a, ha, hl⟩ := C45_hub _ 20 goal [] (by simp) s e (Or.inl hcfg.2.2) (fun i => by rw [hcfg.2.1]; exact hz)
  exact ⟨_, s, e, hcfg.1, a, ha, by omega⟩

/-- In a swarm of two the agents are neighbours of each other. -/
theorem two_neighbors [UnitFacts α] (z : α) (goal : State α) (hg : goal.validate = []) :
    ∃ (env : SwarmEnv α) (s : Swarm α), newSwarm env 2 goal [] = .ok s ∧ ∃ a ∈ s.collectAgents env.order,
      ∃ b ∈ s.collectAgents env.order, hasNeighbor s.heap a b = true := by
  obtain ⟨n, s, e, hc⟩ := exists_swarm (fun _ _ => z) 2 (by norm_num) (by norm_num) goal hg
  have hcfg : (autoScaleConfig 2 : SwarmConfig α).minNeighbors = 1 ∧
      (autoScaleConfig 2 : SwarmConfig α).enableConnectionOptim = false := ⟨rfl, rfl⟩
  rw [← hc] at hcfg
  obtain ⟨g, hlen, -, h, -⟩ := built_graph _ 2 (by norm_num) s (newSwarm_simple _ 2 goal [] (by simp) s e)
  refine ⟨_, s, e, ?_⟩
  generalize Swarm.collectAgents s _ = l at g hlen h ⊢
  cases l with
  | nil => simp at hlen
  | cons a rest =>
    have h1 := h (Or.inl (by unfold useMinimal; rw [hcfg.2]; rfl)) a (by simp)
    rw [hcfg.1] at h1
    cases hn : (s.heap a).neighbors with
    | nil => rw [hn] at h1; simp at h1
    | cons p ps =>
      obtain ⟨b, hb, -, rfl⟩ := g.mem a (by simp) p (by rw [hn]; simp)
      exact ⟨a, by simp, b, hb, (g.has_iff (by simp) hb).2 (by unfold Spec.Adj; rw [hn]; simp)⟩

end generic

/-- A valid goal over the reals. -/
noncomputable def goalR : State ℝ := ⟨0, 5, 1⟩

theorem goalR_valid : goalR.validate = [] := by
  simp [goalR, State.validate]

section f64
variable [Rounding] [LibM]
open F64

/-- A valid goal in doubles. -/
noncomputable def goalF : State F64 := ⟨0, 5, 1⟩

theorem goalF_valid : goalF.validate = [] := by
  have h1 : ¬ (1 : F64) < 0 := (UnitFacts.ok (1 : F64) UnitFacts.one).1
  have h2 : ¬ (1 : F64) < 1 := (UnitFacts.ok (1 : F64) UnitFacts.one).2
  unfold goalF State.validate
  simp only [gt_iff_lt, h1, h2, or_self, if_false]
  simp [F64.zero_def, F64.one_def]

theorem zero_lt_half : (0 : F64) < 0.5 := by
  have hd : IsDouble (0.5 : ℝ) := ⟨1, -1, by norm_num, by norm_num, by norm_num, by norm_num⟩
  change (0 : F64) < F64.ofReal (0.5 : ℝ)
  rw [F64.ofReal_of_isDouble hd, F64.zero_def, F64.lt_fin]
  norm_num

end f64

/-- Of 1001 agents some are isolated, over the reals too. -/
theorem C44_refuted_real : ¬ C44_claim ℝ := fun h => by
  obtain ⟨s, e, hm, hl, hn⟩ := C44_isolated (fun _ _ => (0 : ℝ)) 1001 (by norm_num) (by norm_num) goalR goalR_valid
  have h1 := (h _ 1001 goalR s e).2
  change ∀ a ∈ s.collectAgents id, _ at h1
  generalize s.collectAgents id = l at h1 hl hn
  cases l with
  | nil => simp at hl
  | cons a rest =>
    have h2 := h1 a (by simp)
    rw [hm, hn a (by simp)] at h2
    simp at h2

/-- **C44 is false as stated.** -/
theorem C44_refuted [Rounding] [LibM] : ¬ C44_claim F64 := fun h => by
  obtain ⟨s, e, hm, hl, hn⟩ := C44_isolated (fun _ _ => (0 : F64)) 1001 (by norm_num) (by norm_num) goalF goalF_valid
  have h1 := (h _ 1001 goalF s e).2
  change ∀ a ∈ s.collectAgents id, _ at h1
  generalize s.collectAgents id = l at h1 hl hn
  cases l with
  | nil => simp at hl
  | cons a rest =>
    have h2 := h1 a (by simp)
    rw [hm, hn a (by simp)] at h2
    simp at h2

/-- **C45 is false as stated.** -/
theorem C45_refuted [Rounding] [LibM] : ¬ C45_claim F64 := fun h => by
  obtain ⟨env, s, e, hm, a, ha, hl⟩ := C45_nineteen (0 : F64) zero_lt_half goalF goalF_valid
  have := h env 20 goalF s e a ha
  omega

/-- Of 20 agents one can have 19 neighbours, over the reals too. -/
theorem C45_refuted_real : ¬ C45_claim ℝ := fun h => by
  obtain ⟨env, s, e, hm, a, ha, hl⟩ := C45_nineteen (0 : ℝ) (by norm_num) goalR goalR_valid
  have := h env 20 goalR s e a ha
  omega

/-- **C46 is false as stated.** -/
theorem C46_refuted [Rounding] [LibM] : ¬ C46_claim F64 := fun h => by
  obtain ⟨env, s, e, a, ha, b, hb, hn⟩ := two_neighbors (0 : F64) goalF goalF_valid
  have h1 := h env 2 goalF s e a ha b hb hn
  rw [(C46_invisible env 2 goalF [] (by simp) s e a ha (fun _ => 0)).1] at h1
  cases h1

/-- For C43, C44 and C45: twenty agents are built, the graph is proper, and nobody has more neighbours than there are others. -/
example : ∃ (env : SwarmEnv ℝ) (s : Swarm ℝ), newSwarm env 20 goalR [] = .ok s ∧ (∃ addr, Spec.HasExactly s env.order 20 addr) ∧
    Spec.ProperGraph s.heap (s.collectAgents env.order) ∧ ∀ a ∈ s.collectAgents env.order, ((s.heap a).neighbors.length : ℤ) ≤ 19 := by
  obtain ⟨n, s, e, -⟩ := exists_swarm (fun _ _ => (0 : ℝ)) 20 (by norm_num) (by norm_num) goalR goalR_valid
  exact ⟨_, s, e, C43_new _ 20 goalR [] (by simp) s e _ (SwarmEnv.order_perm _), (C44_graph_partial _ 20 goalR [] (by simp) s e).1,
    fun a ha => by simpa using (C45_average_partial _ 20 goalR [] (by simp) s e).1 a ha⟩

/-- For C43: with draws that take every agent in turn, 250 agents are built, whatever the coins show. -/
example (coin : ℕ → ℕ → ℝ) : ∃ N s, ∀ n ≥ N, newSwarm { SwarmEnv.simple coin (fun _ k => k) with fuel := n } 250 goalR [] = .ok s := by
  obtain ⟨N, s, h⟩ := C43_succeeds (SwarmEnv.simple coin (fun _ k => k)) 250 (by norm_num) (by norm_num) goalR goalR_valid (fun _ => fair_self _)
  exact ⟨N, s, h⟩

/-- For C45: if all coins show zero, one of fifteen agents is connected to the fourteen others. -/
example : ∃ (env : SwarmEnv ℝ) (s : Swarm ℝ), newSwarm env 15 goalR [] = .ok s ∧ ∃ a ∈ s.collectAgents env.order, ((s.heap a).neighbors.length : ℤ) = 14 := by
  obtain ⟨n, s, e, hc⟩ := exists_swarm (fun _ _ => (0 : ℝ)) 15 (by norm_num) (by norm_num) goalR goalR_valid
  refine ⟨_, s, e, ?_⟩
  have := C45_hub _ 15 goalR [] (by simp) s e (by rw [hc]; left; rfl) (fun i => by
    rw [hc]
    show (0 : ℝ) < (autoScaleConfig 15 : SwarmConfig ℝ).connectionProbability
    norm_num [autoScaleConfig, autoScaleBase, smallSwarmConfig])
  simpa using this

end Verif
