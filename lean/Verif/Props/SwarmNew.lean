import Verif.Model.Swarm
import Verif.Lemmas.SyncMap
import Verif.Props.Agent
import Verif.Props.AutoScale

/-!
# Creating swarms: C43 and C46
-/

set_option autoImplicit false
set_option linter.unusedSectionVars false

namespace Verif
open GoMath

theorem agentID_injective : Function.Injective agentID := by
  intro i j h
  unfold agentID at h
  have h1 : ("agent-" ++ toString i).toList = ("agent-" ++ toString j).toList := by rw [h]
  rw [String.toList_append, String.toList_append, List.append_cancel_left_eq] at h1
  have e : ∀ n : ℕ, (toString n).toList = Nat.toDigits 10 n := fun n => Nat.toList_repr
  rw [e, e] at h1
  rw [← Nat.ofDigitChars_toDigits (b := 10) (n := i) (by norm_num) (by norm_num), h1,
    Nat.ofDigitChars_toDigits (by norm_num) (by norm_num)]

theorem agentIDs_nodup (n : ℕ) : ((List.range n).map agentID).Nodup :=
  List.nodup_range.map agentID_injective

section generic
variable {α : Type} [Zero α] [One α] [Add α] [Sub α] [Mul α] [Div α] [Neg α] [LT α] [LE α]
  [DecidableLT α] [DecidableLE α] [BEq α] [OfScientific α] [GoMath α]

/-! ## What connecting leaves alone -/

/-- The heaps agree except for the neighbour maps. -/
def SameBut (h h' : ℕ → Agent α) : Prop := ∀ x, ∃ nb, h' x = { h x with neighbors := nb }

theorem SameBut.refl (h : ℕ → Agent α) : SameBut h h := fun x => ⟨(h x).neighbors, rfl⟩

theorem SameBut.trans {h h' h'' : ℕ → Agent α} (a : SameBut h h') (b : SameBut h' h'') : SameBut h h'' := fun x => by
  obtain ⟨n1, e1⟩ := a x
  obtain ⟨n2, e2⟩ := b x
  exact ⟨n2, by rw [e2, e1]⟩

theorem SameBut.id {h h' : ℕ → Agent α} (s : SameBut h h') (x : ℕ) : (h' x).id = (h x).id := by
  obtain ⟨n, e⟩ := s x; rw [e]

theorem sameBut_store (h : ℕ → Agent α) (a b : ℕ) : SameBut h (storeNeighbor h a b) := fun x => by
  unfold storeNeighbor setAt
  split_ifs with e
  · subst e; exact ⟨_, rfl⟩
  · exact ⟨_, rfl⟩

theorem sameBut_link (h : ℕ → Agent α) (a b : ℕ) : SameBut h (link h a b) :=
  (sameBut_store h a b).trans (sameBut_store _ b a)

theorem sameBut_minimalLoop (minN : ℤ) (l : List ℕ) (pick : ℕ → ℕ) (a : ℕ) (n k : ℕ) (h : ℕ → Agent α) (c : ℤ) :
    SameBut h (minimalLoop minN l pick a n k h c) := by
  induction n generalizing k h c with
  | zero => exact SameBut.refl h
  | succ n ih =>
    unfold minimalLoop
    dsimp only
    split_ifs
    · exact (sameBut_link _ _ _).trans (ih _ _ _)
    · exact ih _ _ _
    · exact SameBut.refl h

theorem sameBut_minimal (minN : ℤ) (l : List ℕ) (pick : ℕ → ℕ → ℕ) (todo : List (ℕ × ℕ)) (h : ℕ → Agent α) :
    SameBut h (minimalConnections minN l pick todo h) := by
  induction todo generalizing h with
  | nil => exact SameBut.refl h
  | cons p ps ih => exact (sameBut_minimalLoop _ _ _ _ _ _ _ _).trans (ih _)

theorem sameBut_connectLoop (prob : α) (maxN : ℤ) (coin : ℕ → α) (a i : ℕ) (todo : List (ℕ × ℕ)) (h : ℕ → Agent α)
    (c : ℤ) : SameBut h (connectLoop prob maxN coin a i todo h c).1 := by
  induction todo generalizing h c with
  | nil => exact SameBut.refl h
  | cons p ps ih =>
    obtain ⟨b, j⟩ := p
    unfold connectLoop
    split_ifs
    · exact ih _ _
    · exact SameBut.refl h
    · exact ih _ _
    · exact (sameBut_link _ _ _).trans (ih _ _)
    · exact ih _ _

theorem sameBut_forceLoop (minN : ℤ) (l : List ℕ) (pick : ℕ → ℕ) (a : ℕ) (n k : ℕ) (h : ℕ → Agent α) (c : ℤ)
    (h' : ℕ → Agent α) (e : forceLoop minN l pick a n k h c = some h') : SameBut h h' := by
  induction n generalizing k h c with
  | zero =>
    unfold forceLoop at e
    split_ifs at e
    cases e; exact SameBut.refl _
  | succ n ih =>
    unfold forceLoop at e
    dsimp only at e
    split_ifs at e
    · exact ih _ _ _ e
    · exact ih _ _ _ e
    · exact (sameBut_link _ _ _).trans (ih _ _ _ e)
    · cases e; exact SameBut.refl _

theorem sameBut_prob (c : SwarmConfig α) (env : SwarmEnv α) (l : List ℕ) (todo : List (ℕ × ℕ)) (h h' : ℕ → Agent α)
    (e : probabilisticConnections c env l todo h = some h') : SameBut h h' := by
  induction todo generalizing h with
  | nil => cases e; exact SameBut.refl _
  | cons p ps ih =>
    obtain ⟨a, i⟩ := p
    unfold probabilisticConnections at e
    dsimp only at e
    obtain ⟨h1, e1, e2⟩ := Option.bind_eq_some_iff.1 e
    refine (sameBut_connectLoop c.connectionProbability c.maxNeighbors (env.coin i) a i l.zipIdx h 0).trans
      (SameBut.trans ?_ (ih _ e2))
    unfold ensureMinimum at e1
    split_ifs at e1
    · exact sameBut_forceLoop _ _ _ _ _ _ _ _ _ e1
    · cases e1; exact SameBut.refl _

theorem establish_eq (s s' : Swarm α) (env : SwarmEnv α) (e : s.establishConnections env = some s') :
    ∃ h, s' = { s with heap := h } ∧ SameBut s.heap h := by
  unfold Swarm.establishConnections at e
  dsimp only at e
  split_ifs at e
  · cases e; exact ⟨_, rfl, sameBut_minimal _ _ _ _ _⟩
  · obtain ⟨h, eh, rfl⟩ := Option.map_eq_some_iff.1 e
    exact ⟨h, rfl, sameBut_prob _ _ _ _ _ _ eh⟩

theorem finish_eq (s s' : Swarm α) (env : SwarmEnv α) (e : s.finish env = .ok s') :
    ∃ h, s' = { s with heap := h } ∧ SameBut s.heap h := by
  unfold Swarm.finish at e
  split_ifs at e
  · cases e; exact ⟨s.heap, rfl, SameBut.refl _⟩
  · cases he : s.establishConnections env with
    | none => rw [he] at e; cases e
    | some s2 => rw [he] at e; cases e; exact establish_eq s _ env he

/-! ## Populations -/

/-- Fresh connections: the storage the agent consults is the empty one made by `agent.New`, and so is the map. -/
def Agent.Fresh (a : Agent α) : Prop :=
  a.useOptimized = true ∧ a.optNeighbors = NeighborStorage.new 20 ∧ a.neighbors = []

theorem newFromConfig_struct (id : String) (cfg : AgentConfig α) (d : Draws) (a : Agent α)
    (h : newFromConfig id cfg d = .ok a) : a.id = id ∧ a.Fresh := by
  unfold newFromConfig at h
  split_ifs at h
  cases h1 : createResourceManager cfg with
  | none => rw [h1] at h; cases h
  | some rm =>
    cases h2 : createStrategy cfg d.now with
    | none => rw [h1, h2] at h; cases h
    | some st =>
      rw [h1, h2] at h; cases h
      obtain ⟨e1, e2, e3, e4, -⟩ := new_struct (α := α) id d.phase0 d.goal0 d.freq0
        ([.resourceManager rm, .strategy st] ++ configOptions cfg d)
      exact ⟨e1, e4, e2, e3⟩

theorem newOptimized_struct (id : String) (cfg : AgentConfig α) (d : Draws) :
    (newOptimizedFromConfig id cfg d : Agent α).id = id ∧ (newOptimizedFromConfig id cfg d : Agent α).Fresh := by
  obtain ⟨e1, e2, e3, e4, -⟩ := new_struct (α := α) id d.phase0 d.goal0 d.freq0 _
  exact ⟨e1, e4, e2, e3⟩

theorem newFromConfig_fromSwarm (id : String) (s : Swarm α) (d : Draws) :
    ∃ a, newFromConfig id s.agentConfig d = .ok a := by
  unfold newFromConfig
  have h0 : s.agentConfig.decisionMakerType = "simple" := rfl
  have h1 : s.agentConfig.goalManagerType = "weighted" := rfl
  have h2 : s.agentConfig.resourceManagerType = "token" := rfl
  have h3 : s.agentConfig.strategyType = "phase_nudge" := rfl
  obtain ⟨rm, e1⟩ : ∃ rm, createResourceManager s.agentConfig = some rm := by
    unfold createResourceManager; rw [if_pos (Or.inr h2)]; exact ⟨_, rfl⟩
  obtain ⟨st, e2⟩ : ∃ st, createStrategy s.agentConfig d.now = some st := by
    unfold createStrategy; rw [if_pos (Or.inr h3)]; exact ⟨_, rfl⟩
  rw [if_neg (not_not.2 (Or.inr (Or.inl h0))), if_neg (not_not.2 (Or.inr h1)), e1, e2]
  exact ⟨_, rfl⟩

/-- The map holds exactly the agents at `addr 0 … addr (n-1)` under the IDs agent-0 … agent-(n-1). -/
structure MapPop (s : Swarm α) (n : ℕ) (addr : ℕ → ℕ) : Prop where
  agents : s.agents = (List.range n).map fun i => (agentID i, addr i)
  lt : ∀ i < n, addr i < s.next
  inj : ∀ i < n, ∀ j < n, addr i = addr j → i = j
  ids : ∀ i < n, (s.heap (addr i)).id = agentID i

/-- The same for slice and index. -/
structure SlicePop (s : Swarm α) (n : ℕ) (addr : ℕ → ℕ) : Prop where
  slice : s.agentSlice = (List.range n).map addr
  index : s.agentIndex = (List.range n).map fun i => (agentID i, i)
  lt : ∀ i < n, addr i < s.next
  inj : ∀ i < n, ∀ j < n, addr i = addr j → i = j
  ids : ∀ i < n, (s.heap (addr i)).id = agentID i

theorem keys_range (n : ℕ) (addr : ℕ → ℕ) :
    (((List.range n).map fun i => (agentID i, addr i)) : SyncMap ℕ).map Prod.fst = (List.range n).map agentID := by
  rw [List.map_map]; rfl

theorem mem_ids (n k : ℕ) : agentID k ∈ (List.range n).map agentID ↔ k < n := by
  rw [List.mem_map]
  constructor
  · rintro ⟨i, hi, e⟩
    rw [← agentID_injective e]; exact List.mem_range.1 hi
  · intro h; exact ⟨k, List.mem_range.2 h, rfl⟩

theorem store_new (n : ℕ) (addr : ℕ → ℕ) (x : ℕ) :
    SyncMap.store ((List.range n).map fun i => (agentID i, addr i)) (agentID n) x =
      (List.range (n + 1)).map fun i => (agentID i, if i = n then x else addr i) := by
  unfold SyncMap.store
  rw [if_neg, List.range_succ, List.map_append, List.map_singleton, if_pos rfl]
  · congr 1
    apply List.map_congr_left
    intro i hi
    rw [if_neg (by have := List.mem_range.1 hi; omega)]
  · rw [SyncMap.any_iff, keys_range, mem_ids]; omega

theorem store_old (n : ℕ) (addr : ℕ → ℕ) (k x : ℕ) (hk : k < n) :
    SyncMap.store ((List.range n).map fun i => (agentID i, addr i)) (agentID k) x =
      (List.range n).map fun i => (agentID i, if i = k then x else addr i) := by
  unfold SyncMap.store
  rw [if_pos, List.map_map]
  · apply List.map_congr_left
    intro i _
    simp only [Function.comp]
    by_cases h : i = k
    · subst h; simp
    · have : agentID i ≠ agentID k := fun e => h (agentID_injective e)
      simp [h, this]
  · rw [SyncMap.any_iff, keys_range, mem_ids]; exact hk

theorem storeAgent_new (s : Swarm α) (n : ℕ) (addr : ℕ → ℕ) (h : MapPop s n addr) (a : Agent α) (ha : a.id = agentID n) :
    MapPop (s.storeAgent a) (n + 1) (fun i => if i = n then s.next else addr i) := by
  unfold Swarm.storeAgent
  refine ⟨?_, ?_, ?_, ?_⟩
  · dsimp only; rw [ha, h.agents, store_new]
  · intro i hi
    dsimp only
    split_ifs with e
    · omega
    · have := h.lt i (by omega); omega
  · intro i hi j hj
    split_ifs with e1 e2 e2
    · omega
    · have := h.lt j (by omega); omega
    · have := h.lt i (by omega); omega
    · exact h.inj i (by omega) j (by omega)
  · intro i hi
    dsimp only [setAt]
    split_ifs with e1 e2 e2
    · rw [ha, e1]
    · omega
    · have := h.lt i (by omega); omega
    · exact h.ids i (by omega)

theorem storeAgent_old (s : Swarm α) (n : ℕ) (addr : ℕ → ℕ) (h : MapPop s n addr) (k : ℕ) (hk : k < n) (a : Agent α)
    (ha : a.id = agentID k) :
    MapPop (s.storeAgent a) n (fun i => if i = k then s.next else addr i) := by
  unfold Swarm.storeAgent
  refine ⟨?_, ?_, ?_, ?_⟩
  · dsimp only; rw [ha, h.agents, store_old n addr k s.next hk]
  · intro i hi
    dsimp only
    split_ifs with e
    · omega
    · have := h.lt i (by omega); omega
  · intro i hi j hj
    split_ifs with e1 e2 e2
    · omega
    · have := h.lt j (by omega); omega
    · have := h.lt i (by omega); omega
    · exact h.inj i (by omega) j (by omega)
  · intro i hi
    dsimp only [setAt]
    split_ifs with e1 e2 e2
    · rw [ha, e1]
    · omega
    · have := h.lt i (by omega); omega
    · exact h.ids i (by omega)

/-- Everything except heap, next address and map is the same. -/
structure SameShell (s s' : Swarm α) : Prop where
  slice : s'.agentSlice = s.agentSlice
  index : s'.agentIndex = s.agentIndex
  opt : s'.optimized = s.optimized
  size : s'.size = s.size
  config : s'.config = s.config
  conn : s'.connectionsEstablished = s.connectionsEstablished
  goal : s'.goalState = s.goalState

theorem SameShell.refl (s : Swarm α) : SameShell s s := ⟨rfl, rfl, rfl, rfl, rfl, rfl, rfl⟩

theorem SameShell.trans {s s' s'' : Swarm α} (a : SameShell s s') (b : SameShell s' s'') : SameShell s s'' :=
  ⟨b.slice.trans a.slice, b.index.trans a.index, b.opt.trans a.opt, b.size.trans a.size, b.config.trans a.config,
    b.conn.trans a.conn, b.goal.trans a.goal⟩

theorem createDefaultLoop_ok (cfg : AgentConfig α) (draws : ℕ → Draws) (m k : ℕ) (s s' : Swarm α) (addr : ℕ → ℕ)
    (h : MapPop s k addr) (hf : ∀ i < k, (s.heap (addr i)).Fresh)
    (e : createDefaultLoop cfg draws (List.range' k m) s = .ok s') :
    SameShell s s' ∧ ∃ addr', MapPop s' (k + m) addr' ∧ ∀ i < k + m, (s'.heap (addr' i)).Fresh := by
  induction m generalizing k s addr with
  | zero => cases e; exact ⟨SameShell.refl _, addr, h, hf⟩
  | succ m ih =>
    rw [List.range'_succ] at e
    unfold createDefaultLoop at e
    cases ha : newFromConfig (agentID k) cfg (draws k) with
    | error x => rw [ha] at e; cases e
    | ok a =>
      rw [ha] at e
      obtain ⟨hid, hfr⟩ := newFromConfig_struct _ _ _ _ ha
      have h2 := storeAgent_new s k addr h a hid
      obtain ⟨hs, addr', hp, hq⟩ := ih (k + 1) (s.storeAgent a) _ h2 (fun i hi => by
        dsimp only [Swarm.storeAgent, setAt]
        split_ifs with e1 e2 e2
        · exact hfr
        · omega
        · have := h.lt i (by omega); omega
        · exact hf i (by omega)) e
      have h0 : SameShell s (s.storeAgent a) := ⟨rfl, rfl, rfl, rfl, rfl, rfl, rfl⟩
      refine ⟨h0.trans hs, addr', ?_, ?_⟩
      · rw [show k + (m + 1) = k + 1 + m by omega]; exact hp
      · rw [show k + (m + 1) = k + 1 + m by omega]; exact hq

theorem createDefault_ok (s s' : Swarm α) (draws : ℕ → Draws) (h : s.agents = [])
    (e : s.createDefaultAgents draws = .ok s') :
    SameShell s s' ∧ ∃ addr, MapPop s' s.size.toNat addr ∧ ∀ i < s.size.toNat, (s'.heap (addr i)).Fresh := by
  unfold Swarm.createDefaultAgents at e
  rw [List.range_eq_range'] at e
  have := createDefaultLoop_ok s.agentConfig draws s.size.toNat 0 s s' (fun i => i)
    ⟨by rw [h]; rfl, by omega, by omega, by omega⟩ (by omega) e
  simpa using this

theorem createDefault_total (s : Swarm α) (draws : ℕ → Draws) : ∃ s', s.createDefaultAgents draws = .ok s' := by
  unfold Swarm.createDefaultAgents
  have key : ∀ (l : List ℕ) (t : Swarm α), ∃ s', createDefaultLoop s.agentConfig draws l t = .ok s' := by
    intro l
    induction l with
    | nil => intro t; exact ⟨t, rfl⟩
    | cons i is ih =>
      intro t
      unfold createDefaultLoop
      obtain ⟨a, ha⟩ := newFromConfig_fromSwarm (agentID i) s (draws i)
      rw [ha]
      exact ih _
  exact key _ _

theorem createOptimized_ok (s : Swarm α) (draws : ℕ → Draws) (h : s.agentIndex = []) :
    (s.createOptimizedAgents draws).agents = s.agents ∧ (s.createOptimizedAgents draws).size = s.size ∧
    (s.createOptimizedAgents draws).optimized = s.optimized ∧ (s.createOptimizedAgents draws).config = s.config ∧
    (s.createOptimizedAgents draws).connectionsEstablished = s.connectionsEstablished ∧
    (s.createOptimizedAgents draws).goalState = s.goalState ∧
    ∃ addr, SlicePop (s.createOptimizedAgents draws) s.size.toNat addr ∧
      ∀ i < s.size.toNat, ((s.createOptimizedAgents draws).heap (addr i)).Fresh := by
  unfold Swarm.createOptimizedAgents
  dsimp only
  generalize s.agentConfig = cfg
  generalize s.size.toNat = n
  induction n with
  | zero =>
    exact ⟨rfl, rfl, rfl, rfl, rfl, rfl, fun i => i, ⟨rfl, h, by omega, by omega, by omega⟩, by omega⟩
  | succ n ih =>
    rw [List.range_succ, List.foldl_append]
    generalize hst : List.foldl _ { s with agentSlice := [] } (List.range n) = t at ih ⊢
    obtain ⟨e1, e2, e3, e4, e5, e6, addr, hp, hf⟩ := ih
    refine ⟨e1, e2, e3, e4, e5, e6, fun i => if i = n then t.next else addr i, ?_, ?_⟩
    · refine ⟨?_, ?_, ?_, ?_, ?_⟩
      · dsimp only [List.foldl]
        rw [hp.slice, List.range_succ, List.map_append, List.map_singleton, if_pos rfl]
        congr 1
        apply List.map_congr_left
        intro i hi
        rw [if_neg (by have := List.mem_range.1 hi; omega)]
      · dsimp only [List.foldl]
        rw [hp.index, store_new]
        apply List.map_congr_left
        intro i hi
        split_ifs with e
        · rw [e]
        · rfl
      · intro i hi
        dsimp only [List.foldl]
        split_ifs with e
        · omega
        · have := hp.lt i (by omega); omega
      · intro i hi j hj
        split_ifs with a1 a2 a2
        · omega
        · have := hp.lt j (by omega); omega
        · have := hp.lt i (by omega); omega
        · exact hp.inj i (by omega) j (by omega)
      · intro i hi
        dsimp only [List.foldl, setAt]
        split_ifs with a1 a2 a2
        · rw [a1]; exact (newOptimized_struct _ _ _).1
        · omega
        · have := hp.lt i (by omega); omega
        · exact hp.ids i (by omega)
    · intro i hi
      dsimp only [List.foldl, setAt]
      split_ifs with a1 a2 a2
      · exact (newOptimized_struct _ _ _).2
      · omega
      · have := hp.lt i (by omega); omega
      · exact hf i (by omega)

/-! ## Options -/

/-- A topology builder that only touches what the agents contain, not which agents there are. -/
def KeepsStorage (build : Swarm α → Option (Swarm α)) : Prop := ∀ s s', build s = some s' →
  s'.agents = s.agents ∧ s'.agentSlice = s.agentSlice ∧ s'.agentIndex = s.agentIndex ∧ s'.optimized = s.optimized ∧
  s'.size = s.size ∧ s'.next = s.next ∧ ∀ x, (s'.heap x).id = (s.heap x).id

/-- Options as they are meant to be used: agent builders give the agent the ID they are asked to, topology builders
only connect agents. -/
def SwarmOption.Proper : SwarmOption α → Prop
  | .agentBuilder build => ∀ i id n c, (build i id n c).id = id
  | .topology build => KeepsStorage build
  | _ => True

/-- What holds while the options are applied. -/
structure OptInv (s : Swarm α) (n : ℕ) : Prop where
  size : s.size = n
  slice : s.agentSlice = []
  index : s.agentIndex = []
  opt : s.optimized = decide ((n : ℤ) > 100)
  map : s.agents = [] ∨ ∃ addr, MapPop s n addr

theorem builder_new (build : ℕ → String → ℤ → SwarmConfig α → Agent α) (hb : ∀ i id n c, (build i id n c).id = id)
    (s : Swarm α) (h : s.agents = []) (n : ℕ) :
    SameShell s ((List.range n).foldl (fun s i => s.storeAgent (build i (agentID i) s.size s.config)) s) ∧
    ∃ addr, MapPop ((List.range n).foldl (fun s i => s.storeAgent (build i (agentID i) s.size s.config)) s) n addr := by
  induction n with
  | zero => exact ⟨SameShell.refl s, fun i => i, ⟨h, by omega, by omega, by omega⟩⟩
  | succ n ih =>
    rw [List.range_succ, List.foldl_append]
    obtain ⟨h1, addr, h2⟩ := ih
    refine ⟨h1.trans ⟨rfl, rfl, rfl, rfl, rfl, rfl, rfl⟩, _, storeAgent_new _ n addr h2 _ (hb _ _ _ _)⟩

theorem builder_again (build : ℕ → String → ℤ → SwarmConfig α → Agent α) (hb : ∀ i id n c, (build i id n c).id = id)
    (s : Swarm α) (n : ℕ) (addr : ℕ → ℕ) (h : MapPop s n addr) (k : ℕ) (hk : k ≤ n) :
    SameShell s ((List.range k).foldl (fun s i => s.storeAgent (build i (agentID i) s.size s.config)) s) ∧
    ∃ addr', MapPop ((List.range k).foldl (fun s i => s.storeAgent (build i (agentID i) s.size s.config)) s) n addr' := by
  induction k with
  | zero => exact ⟨SameShell.refl s, addr, h⟩
  | succ k ih =>
    rw [List.range_succ, List.foldl_append]
    obtain ⟨h1, addr', h2⟩ := ih (by omega)
    exact ⟨h1.trans ⟨rfl, rfl, rfl, rfl, rfl, rfl, rfl⟩, _, storeAgent_old _ n addr' h2 k (by omega) _ (hb _ _ _ _)⟩

theorem applyOption_inv (s s' : Swarm α) (n : ℕ) (h : OptInv s n) (o : SwarmOption α) (ho : o.Proper)
    (e : s.applyOption o = some s') : OptInv s' n := by
  obtain ⟨h1, h2, h3, h4, h5⟩ := h
  cases o with
  | config c =>
    unfold Swarm.applyOption at e; dsimp only at e
    split_ifs at e
    cases e
    refine ⟨h1, h2, h3, h4, ?_⟩
    rcases h5 with h5 | ⟨addr, h5⟩
    · exact Or.inl h5
    · exact Or.inr ⟨addr, h5.agents, h5.lt, h5.inj, h5.ids⟩
  | goalConfig c =>
    unfold Swarm.applyOption at e; dsimp only at e
    split_ifs at e
    cases e
    refine ⟨h1, h2, h3, h4, ?_⟩
    rcases h5 with h5 | ⟨addr, h5⟩
    · exact Or.inl h5
    · exact Or.inr ⟨addr, h5.agents, h5.lt, h5.inj, h5.ids⟩
  | monitor => cases e; exact ⟨h1, h2, h3, h4, h5⟩
  | recovery c =>
    cases e
    refine ⟨h1, h2, h3, h4, ?_⟩
    rcases h5 with h5 | ⟨addr, h5⟩
    · exact Or.inl h5
    · exact Or.inr ⟨addr, h5.agents, h5.lt, h5.inj, h5.ids⟩
  | agentBuilder build =>
    cases e
    have hn : s.size.toNat = n := by omega
    rw [hn]
    rcases h5 with h5 | ⟨addr, h5⟩
    · obtain ⟨hs, hp⟩ := builder_new build ho s h5 n
      exact ⟨hs.size.trans h1, hs.slice.trans h2, hs.index.trans h3, hs.opt.trans h4, Or.inr hp⟩
    · obtain ⟨hs, hp⟩ := builder_again build ho s n addr h5 n le_rfl
      exact ⟨hs.size.trans h1, hs.slice.trans h2, hs.index.trans h3, hs.opt.trans h4, Or.inr hp⟩
  | topology build =>
    obtain ⟨t, ht, rfl⟩ := Option.map_eq_some_iff.1 e
    obtain ⟨k1, k2, k3, k4, k5, k6, k7⟩ := ho s t ht
    refine ⟨k5.trans h1, k2.trans h2, k3.trans h3, k4.trans h4, ?_⟩
    rcases h5 with h5 | ⟨addr, h5⟩
    · exact Or.inl (k1.trans h5)
    · refine Or.inr ⟨addr, k1.trans h5.agents, fun i hi => ?_, h5.inj, fun i hi => (k7 _).trans (h5.ids i hi)⟩
      show addr i < t.next
      rw [k6]; exact h5.lt i hi

theorem applyOptions_inv (s s' : Swarm α) (n : ℕ) (h : OptInv s n) (os : List (SwarmOption α))
    (ho : ∀ o ∈ os, o.Proper) (e : s.applyOptions os = some s') : OptInv s' n := by
  induction os generalizing s with
  | nil => cases e; exact h
  | cons o os ih =>
    obtain ⟨t, e1, e2⟩ := Option.bind_eq_some_iff.1 e
    exact ih t (applyOption_inv s t n h o (ho o (by simp)) e1) (fun o' ho' => ho o' (by simp [ho'])) e2

theorem checkConfig_ok (c c' : SwarmConfig α) (n : ℤ) (h : checkConfig c n = .ok c') :
    c.normalizeAndValidate n = ([], c') := by
  unfold checkConfig at h
  split at h
  · next x e => cases h; exact e
  · cases h

/-! ## C43 -/

/-- Specification: the swarm has exactly the agents agent-0 … agent-(n-1). They sit at distinct addresses; enumeration,
lookup by ID, the map returned to callers and the size all agree on them, for the given order of traversal. -/
structure Spec.HasExactly (s : Swarm α) (order : SyncMap ℕ → SyncMap ℕ) (n : ℕ) (addr : ℕ → ℕ) : Prop where
  inj : ∀ i < n, ∀ j < n, addr i = addr j → i = j
  ids : ∀ i < n, (s.heap (addr i)).id = "agent-" ++ toString i
  listed : (s.collectAgents order).Perm ((List.range n).map addr)
  found : ∀ i < n, s.agent ("agent-" ++ toString i) = .ok (some (addr i))
  others : ∀ id, (∀ i < n, id ≠ "agent-" ++ toString i) → s.agent id = .ok none
  mapped : ∀ id a, (id, a) ∈ s.allAgents order ↔ ∃ i < n, id = "agent-" ++ toString i ∧ a = addr i
  count : (s.allAgents order).length = n
  size : s.size = n

theorem exactly_of_map (s : Swarm α) (order : SyncMap ℕ → SyncMap ℕ) (ho : ∀ m, (order m).Perm m) (n : ℕ)
    (addr : ℕ → ℕ) (hs : s.size = n) (hopt : s.optimized = false) (h : MapPop s n addr) :
    Spec.HasExactly s order n addr := by
  have hok : SyncMap.Ok s.agents := by
    unfold SyncMap.Ok; rw [h.agents, keys_range]; exact agentIDs_nodup n
  have hall : s.allAgents order = order s.agents := by
    unfold Swarm.allAgents
    rw [hopt, if_neg (by simp)]
    have := SyncMap.foldl_store (β := ℕ) (fun p : String × ℕ => p.1) (fun p => p.2) (order s.agents) [] (by
      simp only [List.map_nil, List.nil_append]
      exact ((ho s.agents).map Prod.fst).nodup_iff.2 hok)
    simpa using this
  refine ⟨h.inj, h.ids, ?_, ?_, ?_, ?_, ?_, hs⟩
  · unfold Swarm.collectAgents
    rw [hopt, if_neg (by simp)]
    refine ((ho s.agents).map Prod.snd).trans ?_
    rw [h.agents, List.map_map]; exact List.Perm.refl _
  · intro i hi
    unfold Swarm.agent
    rw [hopt, if_neg (by simp)]
    congr 1
    rw [SyncMap.load_eq_some hok, h.agents]
    exact List.mem_map.2 ⟨i, List.mem_range.2 hi, rfl⟩
  · intro id hid
    unfold Swarm.agent
    rw [hopt, if_neg (by simp)]
    congr 1
    rw [SyncMap.load_eq_none, h.agents, keys_range]
    intro hm
    obtain ⟨i, hi, e⟩ := List.mem_map.1 hm
    exact hid i (List.mem_range.1 hi) e.symm
  · intro id a
    rw [hall, (ho s.agents).mem_iff, h.agents, List.mem_map]
    constructor
    · rintro ⟨i, hi, e⟩
      cases e
      exact ⟨i, List.mem_range.1 hi, rfl, rfl⟩
    · rintro ⟨i, hi, rfl, rfl⟩
      exact ⟨i, List.mem_range.2 hi, rfl⟩
  · rw [hall, (ho s.agents).length_eq, h.agents, List.length_map, List.length_range]

theorem exactly_of_slice (s : Swarm α) (order : SyncMap ℕ → SyncMap ℕ) (n : ℕ)
    (addr : ℕ → ℕ) (hs : s.size = n) (hopt : s.optimized = true) (h : SlicePop s n addr) :
    Spec.HasExactly s order n addr := by
  have hok : SyncMap.Ok s.agentIndex := by
    unfold SyncMap.Ok; rw [h.index, keys_range]; exact agentIDs_nodup n
  have hids : s.agentSlice.map (fun a => (s.heap a).id) = (List.range n).map agentID := by
    rw [h.slice, List.map_map]
    apply List.map_congr_left
    intro i hi
    exact h.ids i (List.mem_range.1 hi)
  have hall : s.allAgents order = s.agentSlice.map fun a => ((s.heap a).id, a) := by
    unfold Swarm.allAgents
    rw [hopt, if_pos rfl]
    have := SyncMap.foldl_store (β := ℕ) (fun a => (s.heap a).id) (fun a => a) s.agentSlice [] (by
      simp only [List.map_nil, List.nil_append]
      rw [hids]; exact agentIDs_nodup n)
    simpa using this
  refine ⟨h.inj, h.ids, ?_, ?_, ?_, ?_, ?_, hs⟩
  · unfold Swarm.collectAgents
    rw [hopt, if_pos rfl, h.slice]
  · intro i hi
    unfold Swarm.agent
    rw [hopt, if_pos rfl]
    have hl : SyncMap.load s.agentIndex ("agent-" ++ toString i) = some i := by
      rw [SyncMap.load_eq_some hok, h.index]
      exact List.mem_map.2 ⟨i, List.mem_range.2 hi, rfl⟩
    have hg : s.agentSlice[i]? = some (addr i) := by
      rw [h.slice, List.getElem?_map, List.getElem?_range hi]; rfl
    rw [hl]; dsimp only; rw [hg]
  · intro id hid
    unfold Swarm.agent
    rw [hopt, if_pos rfl]
    have hl : SyncMap.load s.agentIndex id = none := by
      rw [SyncMap.load_eq_none, h.index, keys_range]
      intro hm
      obtain ⟨i, hi, e⟩ := List.mem_map.1 hm
      exact hid i (List.mem_range.1 hi) e.symm
    rw [hl]
  · intro id a
    rw [hall, h.slice, List.map_map, List.mem_map]
    constructor
    · rintro ⟨i, hi, e⟩
      have hi := List.mem_range.1 hi
      cases e
      exact ⟨i, hi, h.ids i hi, rfl⟩
    · rintro ⟨i, hi, rfl, rfl⟩
      refine ⟨i, List.mem_range.2 hi, ?_⟩
      simp only [Function.comp]
      rw [h.ids i hi]; rfl
  · rw [hall, h.slice, List.length_map, List.length_map, List.length_range]

/-- The agents of a newly created swarm, in its storage. -/
theorem complete_pop (env : SwarmEnv α) (s s' : Swarm α) (n : ℕ) (h : OptInv s n) (e : s.complete env = .ok s') :
    s'.size = n ∧ ((s'.optimized = true ∧ ∃ addr, SlicePop s' n addr) ∨ (s'.optimized = false ∧ ∃ addr, MapPop s' n addr)) := by
  unfold Swarm.complete at e
  cases hc : checkConfig s.config s.size with
  | error x => rw [hc] at e; cases e
  | ok c =>
    rw [hc] at e
    simp only [Except.bind] at e
    split_ifs at e
    obtain ⟨h1, h2, h3, h4, h5⟩ := h
    have hn : s.size.toNat = n := by omega
    unfold Swarm.createAgents at e
    dsimp only at e
    split_ifs at e with ho hl hl
    · obtain ⟨hp, rfl, hsame⟩ := finish_eq _ _ _ e
      obtain ⟨-, a2, a3, -, -, -, addr, hpop, -⟩ := createOptimized_ok { s with config := c } env.draws h3
      dsimp only at a2 a3 hpop ⊢
      rw [hn] at hpop
      refine ⟨a2.trans h1, Or.inl ⟨a3.trans ho, addr, hpop.slice, hpop.index, hpop.lt, hpop.inj, fun i hi => ?_⟩⟩
      exact (hsame.id _).trans (hpop.ids i hi)
    · rw [h2] at hl; exact absurd rfl hl
    · have h6 : s.agents = [] := List.length_eq_zero_iff.1 hl
      obtain ⟨t, ht⟩ := createDefault_total { s with config := c } env.draws
      rw [ht] at e
      obtain ⟨hp, rfl, hsame⟩ := finish_eq _ _ _ e
      obtain ⟨hsh, addr, hpop, -⟩ := createDefault_ok { s with config := c } t env.draws h6 ht
      dsimp only at hpop ⊢
      rw [hn] at hpop
      refine ⟨hsh.size.trans h1, Or.inr ⟨hsh.opt.trans (by simpa using ho), addr, hpop.agents, hpop.lt, hpop.inj, fun i hi => ?_⟩⟩
      exact (hsame.id _).trans (hpop.ids i hi)
    · obtain ⟨hp, rfl, hsame⟩ := finish_eq _ _ _ e
      rcases h5 with h5 | ⟨addr, h5⟩
      · rw [h5] at hl; exact absurd rfl hl
      · refine ⟨h1, Or.inr ⟨by simpa using ho, addr, h5.agents, h5.lt, h5.inj, fun i hi => ?_⟩⟩
        exact (hsame.id _).trans (h5.ids i hi)

theorem newSwarm_ok (env : SwarmEnv α) (size : ℤ) (goal : State α) (opts : List (SwarmOption α)) (s : Swarm α)
    (e : newSwarm env size goal opts = .ok s) :
    0 < size ∧ goal.validate = [] ∧ ∃ c t, checkConfig (autoScaleConfig size) size = .ok c ∧
      (Swarm.initial size goal c).applyOptions opts = some t ∧ t.complete env = .ok s := by
  unfold newSwarm at e
  split_ifs at e with h1 h2
  refine ⟨by omega, not_not.1 h2, ?_⟩
  cases hc : checkConfig (autoScaleConfig size : SwarmConfig α) size with
  | error x => rw [hc] at e; cases e
  | ok c =>
    rw [hc] at e
    simp only [Except.bind] at e
    cases ht : (Swarm.initial size goal c).applyOptions opts with
    | none => rw [ht] at e; cases e
    | some t => rw [ht] at e; exact ⟨c, t, rfl, ht, e⟩

theorem initial_inv (size : ℤ) (hs : 0 < size) (goal : State α) (c : SwarmConfig α) :
    OptInv (Swarm.initial size goal c) size.toNat := by
  refine ⟨?_, rfl, rfl, ?_, Or.inl rfl⟩
  · show size = _; omega
  · show decide (size > 100) = _
    congr 1
    rw [Int.toNat_of_nonneg hs.le]

/-- **C43.** Whatever proper options are given, a swarm that `New` creates has exactly the requested agents, and every
way of asking for them agrees, in every order of traversal of the map. -/
theorem C43_new (env : SwarmEnv α) (size : ℤ) (goal : State α) (opts : List (SwarmOption α)) (ho : ∀ o ∈ opts, o.Proper)
    (s : Swarm α) (e : newSwarm env size goal opts = .ok s) (order : SyncMap ℕ → SyncMap ℕ) (hp : ∀ m, (order m).Perm m) :
    ∃ addr, Spec.HasExactly s order size.toNat addr := by
  obtain ⟨h1, -, c, t, -, h3, h4⟩ := newSwarm_ok env size goal opts s e
  have hi := applyOptions_inv _ t size.toNat (initial_inv size h1 goal c) opts ho h3
  obtain ⟨hs, ⟨k1, addr, k2⟩ | ⟨k1, addr, k2⟩⟩ := complete_pop env t s size.toNat hi h4
  · exact ⟨addr, exactly_of_slice s order _ addr hs k1 k2⟩
  · exact ⟨addr, exactly_of_map s order hp _ addr hs k1 k2⟩

/-- **C43.** The same for `NewSwarmFromConfig`. -/
theorem C43_fromConfig (env : SwarmEnv α) (size : ℤ) (goal : State α) (cfg : SwarmConfig α) (s : Swarm α)
    (e : newSwarmFromConfig env size goal cfg = .ok s) (order : SyncMap ℕ → SyncMap ℕ) (hp : ∀ m, (order m).Perm m) :
    ∃ addr, Spec.HasExactly s order size.toNat addr := by
  unfold newSwarmFromConfig at e
  split_ifs at e with h1 h2
  cases hc : checkConfig cfg size with
  | error x => rw [hc] at e; cases e
  | ok c =>
    rw [hc] at e
    simp only [Except.bind] at e
    obtain ⟨t, ht⟩ := createDefault_total (Swarm.plain size goal c) env.draws
    rw [ht] at e
    obtain ⟨hh, rfl, hsame⟩ := finish_eq _ _ _ e
    obtain ⟨hsh, addr, hpop, -⟩ := createDefault_ok _ t env.draws rfl ht
    refine ⟨addr, exactly_of_map _ order hp _ addr ?_ hsh.opt ⟨hpop.agents, hpop.lt, hpop.inj, fun i hi => ?_⟩⟩
    · show t.size = _
      rw [hsh.size]; show size = _; omega
    · exact (hsame.id _).trans (hpop.ids i hi)

/-! ## Swarms made without agent builders and topologies -/

/-- Options that neither build agents nor connect them. -/
def SwarmOption.Simple : SwarmOption α → Prop
  | .agentBuilder _ => False
  | .topology _ => False
  | _ => True

/-- `l` lists the agents of the swarm, which are fresh and have different IDs. -/
structure FreshPop (s : Swarm α) (order : SyncMap ℕ → SyncMap ℕ) (n : ℕ) (l : List ℕ) : Prop where
  eq : s.collectAgents order = l
  nodup : l.Nodup
  len : l.length = n
  ids : (l.map fun a => (s.heap a).id).Nodup
  fresh : ∀ a ∈ l, (s.heap a).Fresh

theorem freshPop_of_slice (s : Swarm α) (order : SyncMap ℕ → SyncMap ℕ) (n : ℕ) (addr : ℕ → ℕ)
    (ho : s.optimized = true) (h : SlicePop s n addr) (hf : ∀ i < n, (s.heap (addr i)).Fresh) :
    FreshPop s order n ((List.range n).map addr) := by
  refine ⟨?_, ?_, by simp, ?_, ?_⟩
  · unfold Swarm.collectAgents; rw [ho, if_pos rfl, h.slice]
  · refine (List.nodup_range).map_on fun i hi j hj => h.inj i (List.mem_range.1 hi) j (List.mem_range.1 hj)
  · rw [List.map_map]
    have : (List.range n).map ((fun a => (s.heap a).id) ∘ addr) = (List.range n).map agentID :=
      List.map_congr_left fun i hi => h.ids i (List.mem_range.1 hi)
    rw [this]; exact agentIDs_nodup n
  · intro a ha
    obtain ⟨i, hi, rfl⟩ := List.mem_map.1 ha
    exact hf i (List.mem_range.1 hi)

theorem freshPop_of_map (s : Swarm α) (order : SyncMap ℕ → SyncMap ℕ) (hp : ∀ m, (order m).Perm m) (n : ℕ)
    (addr : ℕ → ℕ) (ho : s.optimized = false) (h : MapPop s n addr) (hf : ∀ i < n, (s.heap (addr i)).Fresh) :
    FreshPop s order n (s.collectAgents order) := by
  have hperm : (s.collectAgents order).Perm ((List.range n).map addr) := by
    unfold Swarm.collectAgents
    rw [ho, if_neg (by simp)]
    refine ((hp s.agents).map Prod.snd).trans ?_
    rw [h.agents, List.map_map]; exact List.Perm.refl _
  refine ⟨rfl, ?_, ?_, ?_, ?_⟩
  · rw [hperm.nodup_iff]
    exact (List.nodup_range).map_on fun i hi j hj => h.inj i (List.mem_range.1 hi) j (List.mem_range.1 hj)
  · rw [hperm.length_eq]; simp
  · rw [(hperm.map _).nodup_iff, List.map_map]
    have : (List.range n).map ((fun a => (s.heap a).id) ∘ addr) = (List.range n).map agentID :=
      List.map_congr_left fun i hi => h.ids i (List.mem_range.1 hi)
    rw [this]; exact agentIDs_nodup n
  · intro a ha
    obtain ⟨i, hi, rfl⟩ := List.mem_map.1 (hperm.mem_iff.1 ha)
    exact hf i (List.mem_range.1 hi)

theorem createAgents_fresh (s : Swarm α) (env : SwarmEnv α) (n : ℕ) (h : OptInv s n) (ha : s.agents = []) :
    ∃ t l, s.createAgents env = .ok t ∧ t.config = s.config ∧ t.size = n ∧ t.optimized = s.optimized ∧
      t.connectionsEstablished = s.connectionsEstablished ∧ t.goalState = s.goalState ∧ FreshPop t env.order n l := by
  obtain ⟨h1, h2, h3, h4, h5⟩ := h
  have hn : s.size.toNat = n := by omega
  unfold Swarm.createAgents
  by_cases ho : s.optimized = true
  · rw [if_pos ho, if_pos (by rw [h2]; rfl)]
    obtain ⟨-, a2, a3, a4, a5, a6, addr, hpop, hf⟩ := createOptimized_ok s env.draws h3
    rw [hn] at hpop hf
    exact ⟨_, _, rfl, a4, a2.trans h1, a3, a5, a6, freshPop_of_slice _ _ _ _ (a3.trans ho) hpop hf⟩
  · rw [if_neg ho, if_pos (by rw [ha]; rfl)]
    obtain ⟨t, ht⟩ := createDefault_total s env.draws
    obtain ⟨hsh, addr, hpop, hf⟩ := createDefault_ok s t env.draws ha ht
    rw [hn] at hpop hf
    exact ⟨t, _, ht, hsh.config, hsh.size.trans h1, hsh.opt, hsh.conn, hsh.goal,
      freshPop_of_map _ _ env.order_perm _ addr (hsh.opt.trans (by simpa using ho)) hpop hf⟩

theorem simple_proper (o : SwarmOption α) (h : o.Simple) : o.Proper := by
  cases o <;> first | exact h.elim | trivial

theorem applyOptions_simple (s s' : Swarm α) (os : List (SwarmOption α)) (ho : ∀ o ∈ os, o.Simple)
    (e : s.applyOptions os = some s') :
    s'.agents = s.agents ∧ s'.connectionsEstablished = s.connectionsEstablished ∧ s'.goalState = s.goalState := by
  induction os generalizing s with
  | nil => cases e; exact ⟨rfl, rfl, rfl⟩
  | cons o os ih =>
    obtain ⟨t, e1, e2⟩ := Option.bind_eq_some_iff.1 e
    have h0 := ho o (by simp)
    obtain ⟨i1, i2, i3⟩ := ih t (fun o' ho' => ho o' (by simp [ho'])) e2
    have : t.agents = s.agents ∧ t.connectionsEstablished = s.connectionsEstablished ∧ t.goalState = s.goalState := by
      cases o with
      | config c =>
        unfold Swarm.applyOption at e1; dsimp only at e1
        split_ifs at e1
        cases e1; exact ⟨rfl, rfl, rfl⟩
      | goalConfig c =>
        unfold Swarm.applyOption at e1; dsimp only at e1
        split_ifs at e1
        cases e1; exact ⟨rfl, rfl, rfl⟩
      | monitor => cases e1; exact ⟨rfl, rfl, rfl⟩
      | recovery c => cases e1; exact ⟨rfl, rfl, rfl⟩
      | agentBuilder b => exact h0.elim
      | topology b => exact h0.elim
    exact ⟨i1.trans this.1, i2.trans this.2.1, i3.trans this.2.2⟩

/-- A swarm made by `New` with simple options is a fresh population whose connections have been established. -/
theorem newSwarm_simple (env : SwarmEnv α) (size : ℤ) (goal : State α) (opts : List (SwarmOption α))
    (ho : ∀ o ∈ opts, o.Simple) (s : Swarm α) (e : newSwarm env size goal opts = .ok s) :
    ∃ (c0 c : SwarmConfig α) (t : Swarm α) (l : List ℕ), c0.normalizeAndValidate size = ([], c) ∧ t.config = c ∧ t.size = size ∧
      FreshPop t env.order size.toNat l ∧ t.establishConnections env = some s := by
  obtain ⟨h1, -, c1, t, -, h3, h4⟩ := newSwarm_ok env size goal opts s e
  have hi := applyOptions_inv _ t size.toNat (initial_inv size h1 goal c1) opts (fun o h => simple_proper o (ho o h)) h3
  obtain ⟨ha, hc, -⟩ := applyOptions_simple _ t opts ho h3
  unfold Swarm.complete at h4
  cases hcc : checkConfig t.config t.size with
  | error x => rw [hcc] at h4; cases h4
  | ok c =>
    rw [hcc] at h4
    simp only [Except.bind] at h4
    split_ifs at h4
    obtain ⟨u, l, e1, e2, e3, e4, e5, e6, e7⟩ := createAgents_fresh { t with config := c } env size.toNat
      ⟨hi.size, hi.slice, hi.index, hi.opt, Or.inl ha⟩ ha
    rw [e1] at h4
    dsimp only at h4
    have hsz : t.size = size := by rw [hi.size]; omega
    refine ⟨t.config, c, u, l, ?_, e2, by omega, e7, ?_⟩
    · have := checkConfig_ok _ _ _ hcc
      rwa [hsz] at this
    · unfold Swarm.finish at h4
      rw [if_neg (by rw [e5]; show ¬ t.connectionsEstablished = true; rw [hc]; simp [Swarm.initial])] at h4
      cases hes : u.establishConnections env with
      | none => rw [hes] at h4; cases h4
      | some v => rw [hes] at h4; cases h4; rfl

/-! ## C46 -/

/-- What the user expects: neighbours in the connection graph are connected from the agents' own point of view. -/
def C46_claim (α : Type) [Zero α] [One α] [Add α] [Sub α] [Mul α] [Div α] [Neg α] [LT α] [LE α]
    [DecidableLT α] [DecidableLE α] [BEq α] [OfScientific α] [GoMath α] : Prop :=
  ∀ (env : SwarmEnv α) (size : ℤ) (goal : State α) (s : Swarm α), newSwarm env size goal [] = .ok s →
    ∀ a ∈ s.collectAgents env.order, ∀ b ∈ s.collectAgents env.order, hasNeighbor s.heap a b = true →
      (s.heap a).isConnectedTo (s.heap b).id = true

/-- **C46 is false, always.** In every swarm made without agent builder and topology, no agent reports being connected
to anybody, and every agent's context is that of an isolated agent, whatever the connection graph is. -/
theorem C46_invisible (env : SwarmEnv α) (size : ℤ) (goal : State α) (opts : List (SwarmOption α))
    (ho : ∀ o ∈ opts, o.Simple) (s : Swarm α) (e : newSwarm env size goal opts = .ok s) (a : ℕ)
    (ha : a ∈ s.collectAgents env.order) (phaseOf : ℕ → α) :
    (∀ id, (s.heap a).isConnectedTo id = false) ∧ (s.heap a).neighborList = [] ∧
    ((s.heap a).updateContext phaseOf).context =
      { neighbors := 0, density := 0, localCoherence := 0, stability := 0.5, progress := 0 } ∧
    ((s.heap a).updateContext phaseOf).state = (s.heap a).state := by
  obtain ⟨c0, c, t, l, -, -, -, hf, he⟩ := newSwarm_simple env size goal opts ho s e
  obtain ⟨h, rfl, hsame⟩ := establish_eq t s env he
  have ha' : a ∈ l := by rw [← hf.eq]; exact ha
  obtain ⟨f1, f2, f3⟩ := hf.fresh a ha'
  obtain ⟨nb, hnb⟩ := hsame a
  have hl : (h a).neighborList = [] := by
    unfold Agent.neighborList
    rw [hnb]; dsimp only
    rw [f1, if_pos rfl, f2]; rfl
  refine ⟨fun id => ?_, hl, ?_, ?_⟩
  · show (h a).isConnectedTo id = false
    rw [hnb]
    unfold Agent.isConnectedTo
    dsimp only
    rw [f1, if_pos rfl, f2]; rfl
  · show ((h a).updateContext phaseOf).context = _
    unfold Agent.updateContext
    rw [hl]; rfl
  · show ((h a).updateContext phaseOf).state = (h a).state
    unfold Agent.updateContext
    rw [hl]; rfl

end generic
end Verif
