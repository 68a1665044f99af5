import Verif.Props.Topology

/-!
# The topology option: C48
-/

set_option autoImplicit false
set_option linter.unusedSectionVars false

namespace Verif
open GoMath

section generic
variable {α : Type} [Zero α] [One α] [Add α] [Sub α] [Mul α] [Div α] [Neg α] [LT α] [LE α]
  [DecidableLT α] [DecidableLE α] [BEq α] [OfScientific α] [GoMath α]

theorem connectAll_keeps (s : Swarm α) (calls : List (ℕ × ℕ)) (s' : Swarm α) (e : some { s with heap := connectAll s.heap calls } = some s') :
    s'.agents = s.agents ∧ s'.agentSlice = s.agentSlice ∧ s'.agentIndex = s.agentIndex ∧ s'.optimized = s.optimized ∧
    s'.size = s.size ∧ s'.next = s.next ∧ ∀ x, (s'.heap x).id = (s.heap x).id := by
  cases e
  exact ⟨rfl, rfl, rfl, rfl, rfl, rfl, (connectAll_cell s.heap calls 0).2⟩

/-- The three builders are proper topology builders in the sense of `C43_new`. -/
theorem builders_keep (order : SyncMap ℕ → SyncMap ℕ) :
    KeepsStorage (α := α) (ring order) ∧ KeepsStorage (α := α) (star order) ∧ KeepsStorage (α := α) (fullyConnected order) := by
  refine ⟨fun s s' e => ?_, fun s s' e => ?_, fun s s' e => connectAll_keeps s _ s' e⟩
  · unfold ring at e; dsimp only at e; split_ifs at e; exact connectAll_keeps s _ s' e
  · unfold star at e; dsimp only at e; split_ifs at e; exact connectAll_keeps s _ s' e

theorem applyOptions_append (s : Swarm α) (xs ys : List (SwarmOption α)) :
    s.applyOptions (xs ++ ys) = (s.applyOptions xs).bind fun t => t.applyOptions ys := by
  induction xs generalizing s with
  | nil => rfl
  | cons x xs ih =>
    rw [List.cons_append]
    show (s.applyOption x).bind (fun t => t.applyOptions (xs ++ ys)) =
      ((s.applyOption x).bind fun t => t.applyOptions xs).bind fun t => t.applyOptions ys
    cases s.applyOption x with
    | none => rfl
    | some t => exact ih t

theorem forEach_empty (order : SyncMap ℕ → SyncMap ℕ) (hp : ∀ m, (order m).Perm m) (s : Swarm α) (h : s.agents = []) :
    s.forEachAgent order = [] := by
  unfold Swarm.forEachAgent
  rw [h, List.perm_nil.1 (hp [])]; rfl

/-- **C48 fails for ring and star.** Unless an agent builder comes first, asking for a ring or a star makes `New` fail,
whatever the size and the other options. -/
theorem C48_ring_star_fail (env : SwarmEnv α) (size : ℤ) (goal : State α) (pre post : List (SwarmOption α))
    (hpre : ∀ o ∈ pre, o.Simple) (order : SyncMap ℕ → SyncMap ℕ) (hp : ∀ m, (order m).Perm m) (s : Swarm α) :
    newSwarm env size goal (pre ++ .topology (ring order) :: post) ≠ .ok s ∧
    newSwarm env size goal (pre ++ .topology (star order) :: post) ≠ .ok s := by
  have key : ∀ build : Swarm α → Option (Swarm α), (∀ t : Swarm α, t.agents = [] → build t = none) →
      newSwarm env size goal (pre ++ .topology build :: post) ≠ .ok s := by
    intro build hb e
    obtain ⟨-, -, c, t, -, h3, -⟩ := newSwarm_ok _ _ _ _ _ e
    rw [applyOptions_append] at h3
    obtain ⟨u, e1, e2⟩ := Option.bind_eq_some_iff.1 h3
    obtain ⟨ha, -, -⟩ := applyOptions_simple _ u pre hpre e1
    obtain ⟨v, e3, -⟩ := Option.bind_eq_some_iff.1 e2
    unfold Swarm.applyOption at e3
    dsimp only at e3
    rw [hb u ha] at e3
    cases e3
  constructor
  · refine key _ fun t ht => ?_
    unfold ring; dsimp only
    rw [forEach_empty order hp t ht, if_pos (by decide)]
  · refine key _ fun t ht => ?_
    unfold star; dsimp only
    rw [forEach_empty order hp t ht, if_pos (by decide)]

/-- An agent without any connection, in either store. -/
def Spec.Isolated (a : Agent α) : Prop :=
  a.neighbors = [] ∧ a.neighborCount = 0 ∧ a.neighborList = [] ∧ ∀ x, a.isConnectedTo x = false

theorem isolated_of_fresh (a : Agent α) (h : a.Fresh) : Spec.Isolated a := by
  obtain ⟨f1, f2, f3⟩ := h
  refine ⟨f3, ?_, ?_, fun x => ?_⟩
  · unfold Agent.neighborCount; rw [f1, f2, f3]; rfl
  · unfold Agent.neighborList; rw [f1, f2]; rfl
  · unfold Agent.isConnectedTo; rw [f1, f2]; rfl

/-- If the connections count as established before the agents exist, no agent gets any. -/
theorem complete_isolated (env : SwarmEnv α) (t s : Swarm α) (n : ℕ) (hi : OptInv t n) (ha : t.agents = [] ∨ t.optimized = true)
    (hc : t.connectionsEstablished = true) (e : t.complete env = .ok s) :
    ∀ a ∈ s.collectAgents env.order, Spec.Isolated (s.heap a) := by
  unfold Swarm.complete at e
  cases hcc : checkConfig t.config t.size with
  | error x => rw [hcc] at e; cases e
  | ok c =>
    rw [hcc] at e
    simp only [Except.bind] at e
    split_ifs at e
    have hfin : ∀ u : Swarm α, u.connectionsEstablished = true → u.finish env = .ok s → s = u := by
      intro u hu eu
      unfold Swarm.finish at eu
      rw [if_pos hu] at eu
      cases eu; rfl
    rcases ha with ha | ha
    · obtain ⟨u, l, e1, e2, e3, e4, e5, e6, e7⟩ := createAgents_fresh { t with config := c } env n
        ⟨hi.size, hi.slice, hi.index, hi.opt, Or.inl ha⟩ ha
      rw [e1] at e
      have := hfin u (e5.trans hc) e
      subst this
      intro a ha'
      rw [e7.eq] at ha'
      exact isolated_of_fresh _ (e7.fresh a ha')
    · unfold Swarm.createAgents at e
      dsimp only at e
      rw [if_pos ha, if_pos (by rw [hi.slice]; rfl)] at e
      obtain ⟨-, a2, a3, a4, a5, a6, addr, hpop, hf⟩ := createOptimized_ok { t with config := c } env.draws hi.index
      have := hfin _ (a5.trans hc) e
      subst this
      intro a ha'
      have hF := freshPop_of_slice _ env.order _ addr (a3.trans ha) hpop hf
      rw [hF.eq] at ha'
      exact isolated_of_fresh _ (hF.fresh a ha')

theorem optInv_of_eq (s s' : Swarm α) (n : ℕ) (h : OptInv s n) (e : s'.agents = s.agents ∧ s'.agentSlice = s.agentSlice ∧
    s'.agentIndex = s.agentIndex ∧ s'.optimized = s.optimized ∧ s'.size = s.size) (ha : s.agents = []) : OptInv s' n :=
  ⟨e.2.2.2.2.trans h.size, e.2.1.trans h.slice, e.2.2.1.trans h.index, e.2.2.2.1.trans h.opt, Or.inl (e.1.trans ha)⟩

/-- **C48 fails for the complete graph.** `New` succeeds, but every agent of the swarm is isolated. -/
theorem C48_full_isolated (env : SwarmEnv α) (size : ℤ) (goal : State α) (pre post : List (SwarmOption α))
    (hpre : ∀ o ∈ pre, o.Simple) (hpost : ∀ o ∈ post, o.Simple) (order : SyncMap ℕ → SyncMap ℕ)
    (s : Swarm α)
    (e : newSwarm env size goal (pre ++ .topology (fullyConnected order) :: post) = .ok s) :
    ∀ a ∈ s.collectAgents env.order, Spec.Isolated (s.heap a) := by
  obtain ⟨h1, -, c, t, -, h3, h4⟩ := newSwarm_ok _ _ _ _ _ e
  rw [applyOptions_append] at h3
  obtain ⟨u, e1, e2⟩ := Option.bind_eq_some_iff.1 h3
  obtain ⟨v, e3, e4⟩ := Option.bind_eq_some_iff.1 e2
  obtain ⟨ha, -, -⟩ := applyOptions_simple _ u pre hpre e1
  have hi := applyOptions_inv _ u size.toNat (initial_inv size h1 goal c) pre (fun o h => simple_proper o (hpre o h)) e1
  unfold Swarm.applyOption at e3
  dsimp only at e3
  obtain ⟨w, e5, e6⟩ := Option.map_eq_some_iff.1 e3
  have hk := (builders_keep (α := α) order).2.2 u w e5
  have hv : OptInv v size.toNat := by
    refine optInv_of_eq u v _ hi ?_ ha
    rw [← e6]
    exact ⟨hk.1, hk.2.1, hk.2.2.1, hk.2.2.2.1, hk.2.2.2.2.1⟩
  have hva : v.agents = [] := by rw [← e6]; exact hk.1.trans ha
  have hvc : v.connectionsEstablished = true := by rw [← e6]
  have ht := applyOptions_inv v t size.toNat hv post (fun o h => simple_proper o (hpost o h)) e4
  obtain ⟨ta, tc, -⟩ := applyOptions_simple v t post hpost e4
  exact complete_isolated env t s _ ht (Or.inl (ta.trans hva)) (tc.trans hvc) h4

/-- Above 100 agents no topology option has any effect on the agents of the swarm, even after an agent builder. -/
theorem C48_large_isolated (env : SwarmEnv α) (size : ℤ) (hs : 100 < size) (goal : State α)
    (build : ℕ → String → ℤ → SwarmConfig α → Agent α) (hb : ∀ i id n c, (build i id n c).id = id)
    (topo : Swarm α → Option (Swarm α)) (hk : KeepsStorage topo) (s : Swarm α)
    (e : newSwarm env size goal [.agentBuilder build, .topology topo] = .ok s) :
    ((s.collectAgents env.order).length : ℤ) = size ∧ ∀ a ∈ s.collectAgents env.order, Spec.Isolated (s.heap a) := by
  obtain ⟨h1, -, c, t, -, h3, h4⟩ := newSwarm_ok _ _ _ _ _ e
  have ht := applyOptions_inv _ t size.toNat (initial_inv size h1 goal c) _ (by
    intro o ho
    simp only [List.mem_cons, List.not_mem_nil, or_false] at ho
    rcases ho with rfl | rfl
    · exact hb
    · exact hk) h3
  have htc : t.connectionsEstablished = true := by
    obtain ⟨u, e1, e2⟩ := Option.bind_eq_some_iff.1 h3
    obtain ⟨v, e3, e4⟩ := Option.bind_eq_some_iff.1 e2
    cases e4
    unfold Swarm.applyOption at e3
    dsimp only at e3
    obtain ⟨w, -, e6⟩ := Option.map_eq_some_iff.1 e3
    rw [← e6]
  have hopt : t.optimized = true := by rw [ht.opt]; simp; omega
  refine ⟨?_, complete_isolated env t s _ ht (Or.inr hopt) htc h4⟩
  obtain ⟨hsz, ⟨k1, addr, k2⟩ | ⟨k1, addr, k2⟩⟩ := complete_pop env t s size.toNat ht h4
  · unfold Swarm.collectAgents
    rw [if_pos k1, k2.slice]; simp; omega
  · unfold Swarm.collectAgents
    rw [if_neg (by rw [k1]; simp), List.length_map, (env.order_perm _).length_eq, k2.agents]; simp; omega

theorem builder_unconnected (build : ℕ → String → ℤ → SwarmConfig α → Agent α) (hb : ∀ i id n c, (build i id n c).id = id)
    (hc : ∀ i id n c, ConnectedTo (build i id n c) ∅) (s : Swarm α) (h : s.agents = []) (n : ℕ) :
    ∃ addr, MapPop ((List.range n).foldl (fun s i => s.storeAgent (build i (agentID i) s.size s.config)) s) n addr ∧
      ∀ i < n, ConnectedTo (((List.range n).foldl (fun s i => s.storeAgent (build i (agentID i) s.size s.config)) s).heap
        (addr i)) ∅ := by
  induction n with
  | zero => exact ⟨fun i => i, ⟨h, by omega, by omega, by omega⟩, fun i hi => by omega⟩
  | succ n ih =>
    rw [List.range_succ, List.foldl_append]
    obtain ⟨addr, h2, h3⟩ := ih
    simp only [List.foldl_cons, List.foldl_nil]
    generalize List.foldl _ s (List.range n) = u at h2 h3 ⊢
    refine ⟨_, storeAgent_new _ n addr h2 _ (hb _ _ _ _), fun i hi => ?_⟩
    dsimp only [Swarm.storeAgent, setAt]
    split_ifs with e1 e2 e2
    · exact hc _ _ _ _
    · exact absurd rfl e2
    · have := h2.lt i (by omega); omega
    · exact h3 i (by omega)

theorem check_autoScale [UnitFacts α] (size : ℤ) (h1 : 1 ≤ size) (h2 : size ≤ 1000000) :
    checkConfig (autoScaleConfig size : SwarmConfig α) size = .ok (autoScaleConfig size) := by
  have hv := (autoScale_valid_iff (α := α) size).2 ⟨h1, h2⟩
  unfold checkConfig SwarmConfig.normalizeAndValidate
  rw [if_neg (by rw [hv]; simp), autoScale_normalize size h1 h2]

/-- **C48, what does hold.** For at most 100 agents, if an agent builder comes before the topology option then the
topology builder works on exactly the swarm's agents, all still unconnected, and the swarm is what it makes of them. -/
theorem C48_builder_first_partial [UnitFacts α] (env : SwarmEnv α) (size : ℤ) (h1 : 1 ≤ size) (h2 : size ≤ 100) (goal : State α)
    (hg : goal.validate = []) (build : ℕ → String → ℤ → SwarmConfig α → Agent α)
    (hb : ∀ i id n c, (build i id n c).id = id) (hc : ∀ i id n c, ConnectedTo (build i id n c) ∅)
    (order : SyncMap ℕ → SyncMap ℕ) (hp : ∀ m, (order m).Perm m) :
    ∃ t : Swarm α, Spec.Unconnected t.heap (t.forEachAgent order) ∧ ((t.forEachAgent order).length : ℤ) = size ∧
      ∀ topo : Swarm α → Option (Swarm α),
        (topo t = none → newSwarm env size goal [.agentBuilder build, .topology topo] = .error .option) ∧
        ∀ t', topo t = some t' → t'.optimized = t.optimized → t'.agents = t.agents → t'.size = t.size → t'.config = t.config →
          ∃ s, newSwarm env size goal [.agentBuilder build, .topology topo] = .ok s ∧ s.heap = t'.heap ∧
            s.collectAgents order = t.forEachAgent order := by
  have hauto := check_autoScale (α := α) size h1 (by omega)
  have hv := (autoScale_valid_iff (α := α) size).2 ⟨h1, by omega⟩
  have hmax := ((validate_eq_nil _ _).1 hv).1.2
  clear hv
  obtain ⟨cfg, hcfg⟩ : ∃ cfg : SwarmConfig α, autoScaleConfig size = cfg := ⟨_, rfl⟩
  rw [hcfg] at hauto hmax
  have hnew : ∀ topo : Swarm α → Option (Swarm α), newSwarm env size goal [.agentBuilder build, .topology topo] =
      match (Swarm.initial size goal cfg).applyOptions [.agentBuilder build, .topology topo] with
      | none => .error .option
      | some s => s.complete env := by
    intro topo
    unfold newSwarm
    rw [if_neg (show ¬ size ≤ 0 by omega), if_neg (by rw [hg]; simp), hcfg, hauto]
    simp only [Except.bind]
    cases (Swarm.initial size goal cfg).applyOptions [.agentBuilder build, .topology topo] <;> rfl
  have hsh := (builder_new build hb (Swarm.initial size goal cfg) rfl size.toNat).1
  obtain ⟨addr, hpop, hun⟩ := builder_unconnected build hb hc (Swarm.initial size goal cfg) rfl size.toNat
  have happ : ∀ topo : Swarm α → Option (Swarm α),
      (Swarm.initial size goal cfg).applyOptions [.agentBuilder build, .topology topo] =
      (topo ((List.range size.toNat).foldl (fun s i => s.storeAgent (build i (agentID i) s.size s.config))
        (Swarm.initial size goal cfg))).map fun s => { s with connectionsEstablished := true } := by
    intro topo
    show ((topo ((List.range size.toNat).foldl (fun s i => s.storeAgent (build i (agentID i) s.size s.config))
        (Swarm.initial size goal cfg))).map _).bind _ = _
    generalize topo ((List.range size.toNat).foldl (fun s i => s.storeAgent (build i (agentID i) s.size s.config))
        (Swarm.initial size goal cfg)) = r
    cases r <;> rfl
  generalize (List.range size.toNat).foldl (fun s i => s.storeAgent (build i (agentID i) s.size s.config))
    (Swarm.initial size goal cfg) = t at hsh hpop hun happ
  have hperm : (t.forEachAgent order).Perm ((List.range size.toNat).map addr) := by
    unfold Swarm.forEachAgent
    refine ((hp t.agents).map Prod.snd).trans ?_
    rw [hpop.agents, List.map_map]; exact List.Perm.refl _
  have hopt : t.optimized = false := by rw [hsh.opt]; show decide (size > 100) = false; simp; omega
  refine ⟨t, ⟨?_, fun a ha => ?_⟩, ?_, fun topo => ⟨fun e => ?_, fun t' e k1 k2 k3 k4 => ?_⟩⟩
  · rw [(hperm.map _).nodup_iff, List.map_map]
    have : (List.range size.toNat).map ((fun a => (t.heap a).id) ∘ addr) = (List.range size.toNat).map agentID :=
      List.map_congr_left fun i hi => hpop.ids i (List.mem_range.1 hi)
    rw [this]; exact agentIDs_nodup _
  · obtain ⟨i, hi, rfl⟩ := List.mem_map.1 (hperm.mem_iff.1 ha)
    exact hun i (List.mem_range.1 hi)
  · rw [hperm.length_eq]; simp; omega
  · rw [hnew, happ, e]; rfl
  · rw [hnew, happ, e]
    simp only [Option.map_some]
    refine ⟨{ t' with connectionsEstablished := true, config := cfg }, ?_, rfl, ?_⟩
    · unfold Swarm.complete
      dsimp only
      rw [k4, k3, hsh.config, hsh.size]
      have h0 : checkConfig (Swarm.initial size goal cfg).config (Swarm.initial size goal cfg).size = .ok cfg := hauto
      rw [h0]
      simp only [Except.bind]
      have hm : ¬ (cfg.maxSwarmSize > 0 ∧ (Swarm.initial size goal cfg).size > cfg.maxSwarmSize) := by
        show ¬ (cfg.maxSwarmSize > 0 ∧ size > cfg.maxSwarmSize); omega
      rw [if_neg hm]
      unfold Swarm.createAgents
      dsimp only
      rw [if_neg (by rw [k1, hopt]; simp), if_neg (by rw [k2, hpop.agents]; simp; omega)]
      simp only [Swarm.finish, if_true]
    · unfold Swarm.collectAgents Swarm.forEachAgent
      dsimp only
      rw [if_neg (by rw [k1, hopt]; simp), k2]

/-- In particular a ring asked for after an agent builder is a ring, for 2 to 100 agents. -/
theorem C48_ring_partial [UnitFacts α] (env : SwarmEnv α) (size : ℤ) (h1 : 2 ≤ size) (h2 : size ≤ 100) (goal : State α)
    (hg : goal.validate = []) (build : ℕ → String → ℤ → SwarmConfig α → Agent α)
    (hb : ∀ i id n c, (build i id n c).id = id) (hc : ∀ i id n c, ConnectedTo (build i id n c) ∅)
    (order : SyncMap ℕ → SyncMap ℕ) (hp : ∀ m, (order m).Perm m) :
    ∃ s, newSwarm env size goal [.agentBuilder build, .topology (ring order)] = .ok s ∧
      ((s.collectAgents order).length : ℤ) = size ∧
      Spec.Realises s.heap (s.collectAgents order) (Spec.Ring size.toNat) := by
  obtain ⟨t, hu, hl, h⟩ := C48_builder_first_partial env size (by omega) h2 goal hg build hb hc order hp
  obtain ⟨t', e, ea, hr⟩ := (C47_ring order t hu).2 (by omega)
  have hk := (builders_keep (α := α) order).1 t t' e
  have hcfg : t'.config = t.config := by
    unfold ring at e; dsimp only at e; split_ifs at e; cases e; rfl
  obtain ⟨s, e1, e2, e3⟩ := (h (ring order)).2 t' e hk.2.2.2.1 ea hk.2.2.2.2.1 hcfg
  refine ⟨s, e1, by rw [e3]; exact hl, ?_⟩
  rw [e2, e3]
  have : (t.forEachAgent order).length = size.toNat := by omega
  rw [← this]; exact hr

/-- In the other order `New` fails. -/
theorem C48_builder_last (env : SwarmEnv α) (size : ℤ) (goal : State α)
    (build : ℕ → String → ℤ → SwarmConfig α → Agent α) (order : SyncMap ℕ → SyncMap ℕ) (hp : ∀ m, (order m).Perm m) (s : Swarm α) :
    newSwarm env size goal [.topology (ring order), .agentBuilder build] ≠ .ok s :=
  (C48_ring_star_fail env size goal [] [.agentBuilder build] (by simp) order hp s).1

/-- What the user expects: the topology asked for is the topology of the swarm. -/
def C48_claim (α : Type) [Zero α] [One α] [Add α] [Sub α] [Mul α] [Div α] [Neg α] [LT α] [LE α]
    [DecidableLT α] [DecidableLE α] [BEq α] [OfScientific α] [GoMath α] : Prop :=
  ∀ (env : SwarmEnv α) (size : ℤ) (goal : State α) (order : SyncMap ℕ → SyncMap ℕ), 2 ≤ size → size ≤ 21 →
    goal.validate = [] → (∀ m, (order m).Perm m) →
    (∃ s, newSwarm env size goal [.topology (ring order)] = .ok s ∧
      Spec.Realises s.heap (s.collectAgents order) (Spec.Ring size.toNat)) ∧
    (∃ s, newSwarm env size goal [.topology (star order)] = .ok s ∧
      Spec.Realises s.heap (s.collectAgents order) Spec.Star) ∧
    ∃ s, newSwarm env size goal [.topology (fullyConnected order)] = .ok s ∧
      Spec.Realises s.heap (s.collectAgents order) Spec.Complete

end generic

/-- **C48 is false as stated.** -/
theorem C48_refuted [Rounding] [LibM] : ¬ C48_claim F64 := fun h => by
  obtain ⟨⟨s, e, -⟩, -⟩ := h (SwarmEnv.simple (fun _ _ => 0) (fun _ k => k)) 2 goalF id (by norm_num) (by norm_num) goalF_valid
    (fun _ => List.Perm.refl _)
  exact (C48_ring_star_fail _ 2 goalF [] [] (by simp) id (fun _ => List.Perm.refl _) s).1 e

/-- The builder that calls `agent.New`. -/
noncomputable def plainBuilder : ℕ → String → ℤ → SwarmConfig ℝ → Agent ℝ := fun _ id _ _ => Agent.new id 0 0 0 []

/-- It meets the hypotheses on builders. -/
theorem plainBuilder_ok : (∀ i id n c, (plainBuilder i id n c).id = id) ∧ ∀ i id n c, ConnectedTo (plainBuilder i id n c) ∅ :=
  ⟨fun _ id _ _ => (new_struct id 0 0 0 []).1, fun _ id _ _ => connected_new id 0 0 0 []⟩

/-- A ring of five. -/
example : ∃ s, newSwarm (SwarmEnv.simple (fun _ _ => (0 : ℝ)) (fun _ k => k)) 5 goalR
    [.agentBuilder plainBuilder, .topology (ring id)] = .ok s ∧
    ((s.collectAgents id).length : ℤ) = 5 ∧ Spec.Realises s.heap (s.collectAgents id) (Spec.Ring 5) :=
  C48_ring_partial _ 5 (by norm_num) (by norm_num) goalR goalR_valid _ plainBuilder_ok.1 plainBuilder_ok.2 id
    (fun _ => List.Perm.refl _)

/-- Unconnected agents, as the builders of C47 find them. -/
example : Spec.Unconnected (fun i : ℕ => (Agent.new (agentID i) 0 0 0 [] : Agent ℝ)) (List.range 30) :=
  ⟨by
    have : (List.range 30).map (fun a => (Agent.new (agentID a) 0 0 0 [] : Agent ℝ).id) = (List.range 30).map agentID :=
      List.map_congr_left fun a _ => (new_struct _ 0 0 0 []).1
    rw [this]; exact agentIDs_nodup 30, fun a _ => connected_new _ 0 0 0 []⟩

/-- For every n there is a swarm of n agents without connections, as the builders of C47 find it. -/
theorem exists_unconnected (n : ℕ) : ∃ s : Swarm ℝ, Spec.Unconnected s.heap (s.forEachAgent id) ∧ (s.forEachAgent id).length = n := by
  obtain ⟨-, t, -, -⟩ := exists_swarm (fun _ _ => (0 : ℝ)) 20 (by norm_num) (by norm_num) goalR goalR_valid
  refine ⟨{ t with heap := fun i => Agent.new (agentID i) 0 0 0 [], agents := (List.range n).map fun i => (agentID i, i) }, ?_, ?_⟩
  · have e : ((List.range n).map fun i => (agentID i, i)).map Prod.snd = List.range n := by simp [Function.comp_def]
    show Spec.Unconnected (fun i : ℕ => (Agent.new (agentID i) 0 0 0 [] : Agent ℝ)) (((List.range n).map fun i => (agentID i, i)).map Prod.snd)
    rw [e]
    refine ⟨?_, fun a _ => connected_new _ 0 0 0 []⟩
    have : (List.range n).map (fun a => (Agent.new (agentID a) 0 0 0 [] : Agent ℝ).id) = (List.range n).map agentID :=
      List.map_congr_left fun a _ => (new_struct _ 0 0 0 []).1
    rw [this]; exact agentIDs_nodup n
  · show (((List.range n).map fun i => (agentID i, i)).map Prod.snd).length = n
    simp

/-- For C47: twenty agents become a ring, a star and a complete graph. -/
example : ∃ s : Swarm ℝ, (∃ s', ring id s = some s' ∧ Spec.Realises s'.heap (s.forEachAgent id) (Spec.Ring 20)) ∧
    (∃ s', star id s = some s' ∧ Spec.Realises s'.heap (s.forEachAgent id) Spec.Star) ∧
    ∃ s', fullyConnected id s = some s' ∧ Spec.Realises s'.heap (s.forEachAgent id) Spec.Complete := by
  obtain ⟨s, u, hl⟩ := exists_unconnected 20
  obtain ⟨s1, e1, -, r1⟩ := (C47_ring id s u).2 (by omega)
  obtain ⟨s2, e2, -, r2⟩ := C47_star id s u (by omega) (by omega)
  obtain ⟨s3, e3, -, r3⟩ := C47_full id s u (by omega)
  exact ⟨s, ⟨s1, e1, hl ▸ r1⟩, ⟨s2, e2, r2⟩, ⟨s3, e3, r3⟩⟩

/-- For C47: with thirty agents the builders succeed and produce something else than a star or a complete graph. -/
example : ∃ s : Swarm ℝ, (∃ s', star id s = some s' ∧ ¬ Spec.Realises s'.heap (s.forEachAgent id) Spec.Star) ∧
    ∃ s', fullyConnected id s = some s' ∧ ¬ Spec.Realises s'.heap (s.forEachAgent id) Spec.Complete := by
  obtain ⟨s, u, hl⟩ := exists_unconnected 30
  obtain ⟨s2, e2, -⟩ := (C47_star_exact id s u).2 (by omega)
  obtain ⟨s3, e3, -⟩ := C47_full_exact id s u
  obtain ⟨h2, h3⟩ := C47_truncated id s u (by omega)
  exact ⟨s, ⟨s2, e2, h2 s2 e2⟩, ⟨s3, e3, h3 s3 e3⟩⟩

end Verif
