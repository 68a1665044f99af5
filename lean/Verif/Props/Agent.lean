import Verif.Model.Agent
import Verif.Props.Neighbors
import Verif.Props.Strategy
import Verif.Props.Decision
import Verif.Props.Resource
import Verif.Props.Phase

/-!
# Agents: C34, C36–C39
-/

set_option autoImplicit false
set_option linter.unusedSectionVars false

namespace Verif
open GoMath Spec

section generic
variable {α : Type} [Zero α] [One α] [Add α] [Sub α] [Mul α] [Div α] [Neg α] [LT α] [LE α]
  [DecidableLT α] [DecidableLE α] [BEq α] [OfScientific α] [GoMath α]

/-! ## C34 Connecting makes agents connected -/

/-- A connection request on an agent. -/
inductive ConnOp where
  | connect (id : String) (other : Option ℕ)
  | disconnect (id : String)

/-- Carrying it out. -/
def Agent.connStep (a : Agent α) : ConnOp → Agent α
  | .connect id other => a.connectTo id other
  | .disconnect id => a.disconnectFrom id

/-- Specification: the set of peers after a history of requests, if there is no limit. An agent does not connect to
itself or to nil. -/
def Spec.peers (self : String) (ops : List ConnOp) : Finset String :=
  ops.foldl (fun s op => match op with
    | .connect id (some _) => if id = self then s else insert id s
    | .connect _ none => s
    | .disconnect id => s.erase id) ∅

/-- Specification: the same with room for `cap` peers; requests from new peers beyond it are ignored. -/
def Spec.peersUpTo (cap : ℕ) (self : String) (ops : List ConnOp) : Finset String :=
  ops.foldl (fun s op => match op with
    | .connect id (some _) => if id = self ∨ (id ∉ s ∧ cap ≤ s.card) then s else insert id s
    | .connect _ none => s
    | .disconnect id => s.erase id) ∅

theorem applyOption_struct (a : Agent α) (o : AgentOption α) :
    (a.applyOption o).id = a.id ∧ (a.applyOption o).optNeighbors = a.optNeighbors ∧
    (a.applyOption o).neighbors = a.neighbors ∧ (a.applyOption o).useOptimized = a.useOptimized ∧
    (a.applyOption o).context = a.context := by
  cases o <;> exact ⟨rfl, rfl, rfl, rfl, rfl⟩

theorem new_struct (id : String) (w1 w2 w3 : ℕ) (opts : List (AgentOption α)) :
    (Agent.new id w1 w2 w3 opts).id = id ∧ (Agent.new id w1 w2 w3 opts).optNeighbors = NeighborStorage.new 20 ∧
    (Agent.new id w1 w2 w3 opts).neighbors = [] ∧ (Agent.new id w1 w2 w3 opts).useOptimized = true ∧
    (Agent.new id w1 w2 w3 opts).context = Context.zero := by
  unfold Agent.new
  have : ∀ a : Agent α, (opts.foldl Agent.applyOption a).id = a.id ∧
      (opts.foldl Agent.applyOption a).optNeighbors = a.optNeighbors ∧
      (opts.foldl Agent.applyOption a).neighbors = a.neighbors ∧
      (opts.foldl Agent.applyOption a).useOptimized = a.useOptimized ∧
      (opts.foldl Agent.applyOption a).context = a.context := by
    induction opts with
    | nil => intro a; exact ⟨rfl, rfl, rfl, rfl, rfl⟩
    | cons o os ih =>
      intro a
      obtain ⟨h1, h2, h3, h4, h5⟩ := applyOption_struct a o
      obtain ⟨i1, i2, i3, i4, i5⟩ := ih (a.applyOption o)
      exact ⟨i1.trans h1, i2.trans h2, i3.trans h3, i4.trans h4, i5.trans h5⟩
  exact this _

/-- The connections of an agent are the set `s`, as far as the agent's own methods can tell. -/
structure ConnectedTo (a : Agent α) (s : Finset String) : Prop where
  opt : a.useOptimized = true
  map : a.neighbors = []
  rep : ∃ m : BMap ℕ, Represents a.optNeighbors m ∧ m.cap = 20 ∧ m.keys = s

theorem ConnectedTo.isConnectedTo {a : Agent α} {s : Finset String} (h : ConnectedTo a s) (id : String) :
    a.isConnectedTo id = true ↔ id ∈ s := by
  obtain ⟨m, hr, -, rfl⟩ := h.rep
  unfold Agent.isConnectedTo
  rw [h.opt, if_pos rfl, C33_load _ m hr]
  unfold BMap.load
  split_ifs with hk <;> simp [hk]

theorem ConnectedTo.count {a : Agent α} {s : Finset String} (h : ConnectedTo a s) : a.neighborCount = s.card := by
  obtain ⟨m, hr, -, rfl⟩ := h.rep
  unfold Agent.neighborCount
  rw [h.opt, h.map, if_pos rfl, C33_count _ m hr]
  dsimp only
  rw [List.length_nil]
  split_ifs with hk
  · rfl
  · omega

theorem ConnectedTo.list_length {a : Agent α} {s : Finset String} (h : ConnectedTo a s) :
    a.neighborList.length = s.card := by
  obtain ⟨m, hr, -, rfl⟩ := h.rep
  unfold Agent.neighborList
  rw [h.opt, if_pos rfl, hr.card]
  unfold NeighborStorage.all
  rw [List.length_take, hr.nbrLen]
  have := hr.count_le
  omega

theorem ConnectedTo.card_le {a : Agent α} {s : Finset String} (h : ConnectedTo a s) : s.card ≤ 20 := by
  obtain ⟨m, hr, hc, rfl⟩ := h.rep
  rw [hr.card, ← hc, ← hr.cap]
  exact hr.count_le

theorem connStep_id (a : Agent α) (op : ConnOp) : (a.connStep op).id = a.id := by
  cases op with
  | connect id other =>
    cases other with
    | none => rfl
    | some o =>
      simp only [Agent.connStep, Agent.connectTo]
      split_ifs <;> rfl
  | disconnect id =>
    simp only [Agent.connStep, Agent.disconnectFrom]
    split_ifs <;> rfl

theorem connStep_connected (a : Agent α) (s : Finset String) (h : ConnectedTo a s) (op : ConnOp) :
    ConnectedTo (a.connStep op) (match op with
      | .connect id (some _) => if id = a.id ∨ (id ∉ s ∧ 20 ≤ s.card) then s else insert id s
      | .connect _ none => s
      | .disconnect id => s.erase id) := by
  obtain ⟨ho, hm, m, hr, hc, rfl⟩ := h
  cases op with
  | connect id other =>
    cases other with
    | none => exact ⟨ho, hm, m, hr, hc, rfl⟩
    | some o =>
      simp only [Agent.connStep, Agent.connectTo]
      by_cases hid : id = a.id
      · rw [if_pos hid, if_pos (Or.inl hid)]; exact ⟨ho, hm, m, hr, hc, rfl⟩
      · rw [if_neg hid, if_pos ho]
        refine ⟨ho, hm, (m.store id o).2, (C33_store _ m hr id o).2, ?_, ?_⟩
        · unfold BMap.store; split_ifs <;> exact hc
        · unfold BMap.store
          by_cases hk : id ∈ m.keys ∨ m.keys.card < m.cap
          · rw [if_pos hk, if_neg]
            rintro (h1 | ⟨h1, h2⟩)
            · exact hid h1
            · rcases hk with hk | hk
              · exact h1 hk
              · omega
          · rw [if_neg hk, if_pos]
            push Not at hk
            exact Or.inr ⟨hk.1, by omega⟩
  | disconnect id =>
    simp only [Agent.connStep, Agent.disconnectFrom]
    rw [if_pos ho]
    exact ⟨ho, hm, m.delete id, C33_delete _ m hr id, hc, rfl⟩

theorem connected_run (a : Agent α) (s : Finset String) (h : ConnectedTo a s) (ops : List ConnOp) :
    ConnectedTo (ops.foldl Agent.connStep a) (ops.foldl (fun s op => match op with
      | .connect id (some _) => if id = a.id ∨ (id ∉ s ∧ 20 ≤ s.card) then s else insert id s
      | .connect _ none => s
      | .disconnect id => s.erase id) s) := by
  induction ops generalizing a s with
  | nil => exact h
  | cons op ops ih =>
    have := ih _ _ (connStep_connected a s h op)
    rw [connStep_id] at this
    exact this

theorem connected_new (id : String) (w1 w2 w3 : ℕ) (opts : List (AgentOption α)) :
    ConnectedTo (Agent.new id w1 w2 w3 opts) ∅ := by
  obtain ⟨-, h2, h3, h4, -⟩ := new_struct id w1 w2 w3 opts
  refine ⟨h4, h3, BMap.empty 20, ?_, rfl, rfl⟩
  rw [h2]
  exact represents_new 20

/-- **C34, exact behaviour.** After any history of connection requests on a new agent (built with any options), the agent
reports being connected to exactly the peers of the specification with room for 20, and counts them correctly. -/
theorem C34_exact (id : String) (w1 w2 w3 : ℕ) (opts : List (AgentOption α)) (ops : List ConnOp) :
    (∀ x, (ops.foldl Agent.connStep (Agent.new id w1 w2 w3 opts)).isConnectedTo x = true ↔
      x ∈ peersUpTo 20 id ops) ∧
    (ops.foldl Agent.connStep (Agent.new id w1 w2 w3 opts)).neighborCount = (peersUpTo 20 id ops).card := by
  have h := connected_run _ _ (connected_new id w1 w2 w3 opts) ops
  rw [(new_struct id w1 w2 w3 opts).1] at h
  exact ⟨h.isConnectedTo, h.count⟩

/-- **C34 (partial).** As long as the history never asks for more than 20 peers at a time, the agent is connected to
exactly the peers it was asked to connect to and not to disconnect from since. Missing: more than 20 peers, where the
claim is false (`C34_refuted`). -/
theorem C34_connected_partial (id : String) (w1 w2 w3 : ℕ) (opts : List (AgentOption α)) (ops : List ConnOp)
    (h : ∀ n, (peers id (ops.take n)).card ≤ 20) :
    (∀ x, (ops.foldl Agent.connStep (Agent.new id w1 w2 w3 opts)).isConnectedTo x = true ↔ x ∈ peers id ops) ∧
    (ops.foldl Agent.connStep (Agent.new id w1 w2 w3 opts)).neighborCount = (peers id ops).card := by
  have key : peersUpTo 20 id ops = peers id ops := by
    clear w1 w2 w3 opts
    induction ops using List.reverseRecOn with
    | nil => rfl
    | append_singleton l op ih =>
      have hl : ∀ n, (peers id (l.take n)).card ≤ 20 := fun n => by
        have := h (min n l.length)
        rwa [List.take_append_of_le_length (by omega), ← List.take_eq_take_min] at this
      have ih := ih hl
      have hfull := h (l ++ [op]).length
      rw [List.take_length] at hfull
      unfold peersUpTo peers at *
      rw [List.foldl_append, List.foldl_append, ih]
      rw [List.foldl_append] at hfull
      simp only [List.foldl_cons, List.foldl_nil] at hfull ⊢
      cases op with
      | disconnect x => rfl
      | connect x other =>
        cases other with
        | none => rfl
        | some o =>
          dsimp only at hfull ⊢
          by_cases hx : x = id
          · rw [if_pos hx, if_pos (Or.inl hx)]
          · rw [if_neg hx] at hfull ⊢
            rw [if_neg]
            rintro (h1 | ⟨h1, h2⟩)
            · exact hx h1
            · rw [Finset.card_insert_of_notMem h1] at hfull
              omega
  rw [← key]
  exact C34_exact id w1 w2 w3 opts ops

/-- Disconnecting removes exactly that connection, and connecting keeps all others, whatever the history. -/
theorem C34_others_kept (id : String) (w1 w2 w3 : ℕ) (opts : List (AgentOption α)) (ops : List ConnOp) (op : ConnOp)
    (x : String) (hx : match op with | .connect y _ => x ≠ y | .disconnect y => x ≠ y) :
    ((ops.foldl Agent.connStep (Agent.new id w1 w2 w3 opts)).connStep op).isConnectedTo x =
      (ops.foldl Agent.connStep (Agent.new id w1 w2 w3 opts)).isConnectedTo x := by
  have h := connected_run _ _ (connected_new id w1 w2 w3 opts) ops
  have h' := connStep_connected _ _ h op
  rw [Bool.eq_iff_iff, h'.isConnectedTo, h.isConnectedTo]
  cases op with
  | disconnect y => simp only at hx; simp [hx]
  | connect y other =>
    cases other with
    | none => rfl
    | some o =>
      simp only at hx ⊢
      split_ifs
      · rfl
      · simp [hx]

/-- After disconnecting from a peer an agent is not connected to it, whatever happened before. -/
theorem C34_disconnected (id : String) (w1 w2 w3 : ℕ) (opts : List (AgentOption α)) (ops : List ConnOp) (x : String) :
    ((ops.foldl Agent.connStep (Agent.new id w1 w2 w3 opts)).disconnectFrom x).isConnectedTo x = false := by
  have h := connected_run _ _ (connected_new id w1 w2 w3 opts) ops
  have h' := connStep_connected _ _ h (.disconnect x)
  rw [Bool.eq_false_iff]
  intro hc
  have := (h'.isConnectedTo x).1 hc
  simp at this

end generic

/-- The full claim, kept in view: connecting to another agent makes it a peer. -/
def C34_claim : Prop := ∀ (id : String) (w1 w2 w3 : ℕ) (ops : List ConnOp) (x : String) (o : ℕ), x ≠ id →
  ((ops.foldl Agent.connStep (Agent.new id w1 w2 w3 ([] : List (AgentOption ℝ)))).connectTo x (some o)).isConnectedTo x
    = true

/-- Twenty different peers. -/
def twentyPeers : List ConnOp :=
  ["a", "b", "c", "d", "e", "f", "g", "h", "i", "j", "k", "l", "m", "n", "o", "p", "q", "r", "s", "t"].map
    fun x => .connect x (some 1)

theorem twentyPeers_full : (peersUpTo 20 "me" twentyPeers).card = 20 ∧ "u" ∉ peersUpTo 20 "me" twentyPeers := by
  decide

/-- The claim is false: the 21st peer is dropped without an error. -/
theorem C34_refuted : ¬ C34_claim := fun h => by
  have h1 := h "me" 0 0 0 twentyPeers "u" 7 (by decide)
  have hc := connected_run _ _ (connected_new "me" 0 0 0 ([] : List (AgentOption ℝ))) (twentyPeers ++ [.connect "u" (some 7)])
  rw [List.foldl_append] at hc
  have h2 := (hc.isConnectedTo "u").1 h1
  rw [(new_struct "me" 0 0 0 []).1] at h2
  revert h2
  decide

example : (∀ n, (peers "me" (([.connect "a" (some 1), .connect "me" (some 0), .connect "b" (some 2),
    .disconnect "a", .connect "c" none] : List ConnOp).take n)).card ≤ 20) ∧
    peers "me" [.connect "a" (some 1), .connect "me" (some 0), .connect "b" (some 2), .disconnect "a",
      .connect "c" none] = {"b"} := by
  constructor
  · intro n
    rcases n with _ | _ | _ | _ | _ | n <;> simp [peers]
  · decide


/-! ## C36 Applying an action is all-or-nothing -/

section generic
variable {α : Type} [Zero α] [One α] [Add α] [Sub α] [Mul α] [Div α] [Neg α] [LT α] [LE α]
  [DecidableLT α] [DecidableLE α] [BEq α] [OfScientific α] [GoMath α]

theorem applyUpdate_isSome (act : Action α) : (applyUpdate act).isSome = true ↔ act.type ∈ knownTypes := by
  unfold applyUpdate knownTypes
  split_ifs with h1 h2
  · simp only [Option.isSome_some, true_iff]
    rcases h1 with h | h | h | h | h <;> simp [h]
  · simp [h2]
  · simp only [Option.isSome_none, Bool.false_eq_true, false_iff]
    simp only [List.mem_cons, List.not_mem_nil, or_false]
    rintro (h | h | h | h | h | h) <;> simp [h] at h1 h2

/-- **C36.** Applying an action fails exactly when its cost exceeds the energy (checked first) or its type is unknown;
otherwise it reports the cost. For every number type, including IEEE doubles with NaN. -/
theorem C36_outcome (a : Agent α) (act : Action α) :
    (act.cost > a.state.energy → (a.applyAction act).1 = .error .insufficientEnergy) ∧
    (¬ act.cost > a.state.energy → act.type ∉ knownTypes → (a.applyAction act).1 = .error .unknownActionType) ∧
    (¬ act.cost > a.state.energy → act.type ∈ knownTypes → (a.applyAction act).1 = .ok act.cost) := by
  unfold Agent.applyAction
  refine ⟨fun h => by rw [if_pos h], fun h hk => ?_, fun h hk => ?_⟩
  · rw [if_neg h]
    have : applyUpdate act = none := by
      rw [← Option.not_isSome_iff_eq_none, applyUpdate_isSome]; exact hk
    rw [this]
  · rw [if_neg h]
    obtain ⟨f, hf⟩ := Option.isSome_iff_exists.1 ((applyUpdate_isSome act).2 hk)
    rw [hf]

/-- A failed application leaves the whole agent as it was. -/
theorem C36_failure_unchanged (a : Agent α) (act : Action α) (e : ApplyErr) (h : (a.applyAction act).1 = .error e) :
    (a.applyAction act).2 = a := by
  unfold Agent.applyAction at *
  split_ifs at * with h1
  · rfl
  · cases hf : applyUpdate act with
    | none => rfl
    | some f => simp only [hf] at h; cases h

/-- A successful application changes nothing but the phase, the energy and the token budget, and takes the cost out of
the budget. -/
theorem C36_success_frame (a : Agent α) (act : Action α) (c : α) (h : (a.applyAction act).1 = .ok c) :
    c = act.cost ∧ (a.applyAction act).2 = { a with
      state := { a.state with phase := (a.applyAction act).2.state.phase, energy := (a.applyAction act).2.state.energy }
      resources := a.resources.map fun t => (t.request act.cost).2 } := by
  unfold Agent.applyAction at *
  by_cases h1 : act.cost > a.state.energy
  · rw [if_pos h1] at h; cases h
  · simp only [if_neg h1] at h ⊢
    cases hf : applyUpdate act with
    | none => rw [hf] at h; cases h
    | some f =>
      rw [hf] at h
      refine ⟨by cases h; rfl, ?_⟩
      unfold applyUpdate at hf
      split_ifs at hf <;> cases hf <;> rfl

end generic

/-- **C36.** In exact arithmetic a successful application takes exactly the cost from the energy; a maintain action keeps
the phase and any other action advances it by its value, modulo whole turns. -/
theorem C36_success (a : Agent ℝ) (act : Action ℝ) (c : ℝ) (h : (a.applyAction act).1 = .ok c) :
    (a.applyAction act).2.state.energy = a.state.energy - c ∧
    0 ≤ (a.applyAction act).2.state.energy ∧
    (act.type = "maintain" → (a.applyAction act).2.state.phase = a.state.phase) ∧
    (act.type ≠ "maintain" → SameAngle (a.applyAction act).2.state.phase (a.state.phase + act.value) ∧
      0 ≤ (a.applyAction act).2.state.phase ∧ (a.applyAction act).2.state.phase < 2 * Real.pi) := by
  unfold Agent.applyAction at *
  by_cases h1 : act.cost > a.state.energy
  · rw [if_pos h1] at h; cases h
  · simp only [if_neg h1] at h ⊢
    push Not at h1
    have hmax : max 0 (a.state.energy - act.cost) = a.state.energy - act.cost := max_eq_right (by linarith)
    cases hf : applyUpdate act with
    | none => rw [hf] at h; cases h
    | some f =>
      rw [hf] at h
      have hc : c = act.cost := by cases h; rfl
      subst hc
      unfold applyUpdate at hf
      split_ifs at hf with h2 h3
      · cases hf
        simp only [GoMath.fmax_real, hmax]
        refine ⟨trivial, by linarith, fun hm => ?_, fun _ => ⟨wrapPhase_sameAngle _, wrapPhase_nonneg _, wrapPhase_lt _⟩⟩
        rw [hm] at h2; simp at h2
      · cases hf
        simp only [GoMath.fmax_real, hmax]
        exact ⟨trivial, by linarith, fun _ => trivial, fun hm => absurd h3 hm⟩

/-- A test agent over the reals with energy 10. -/
noncomputable def tenAgent : Agent ℝ := (Agent.initial "me" 0 0 0).setEnergy 10

theorem tenAgent_energy : tenAgent.state.energy = 10 := by
  simp [tenAgent, Agent.setEnergy, GoMath.fmax_real]

example : (tenAgent.applyAction ⟨"pulse", 1, 4, 0⟩).1 = .ok 4 :=
  (C36_outcome _ _).2.2 (by rw [tenAgent_energy]; norm_num) (by simp [knownTypes])
example : (tenAgent.applyAction ⟨"pulse", 1, 14, 0⟩).1 = .error .insufficientEnergy :=
  (C36_outcome _ _).1 (by rw [tenAgent_energy]; norm_num)
example : (tenAgent.applyAction ⟨"dance", 1, 4, 0⟩).1 = .error .unknownActionType :=
  (C36_outcome _ _).2.1 (by rw [tenAgent_energy]; norm_num) (by simp [knownTypes])

/-! ## C37 Energy accounting over histories -/

/-- Applying a sequence of actions: the costs reported by the successful ones and the final agent. -/
noncomputable def applyAll (a : Agent ℝ) : List (Action ℝ) → List ℝ × Agent ℝ
  | [] => ([], a)
  | act :: acts =>
    let r := a.applyAction act
    let rs := applyAll r.2 acts
    (match r.1 with | .ok c => c :: rs.1 | .error _ => rs.1, rs.2)

/-- **C37.** Over any sequence of actions the remaining energy is the initial energy minus the reported costs. -/
theorem C37_accounting (a : Agent ℝ) (acts : List (Action ℝ)) :
    (applyAll a acts).2.state.energy = a.state.energy - (applyAll a acts).1.sum := by
  induction acts generalizing a with
  | nil => simp [applyAll]
  | cons act acts ih =>
    simp only [applyAll]
    cases hr : (a.applyAction act).1 with
    | ok c =>
      rw [ih, (C36_success a act c hr).1]
      simp; ring
    | error e => rw [ih, C36_failure_unchanged a act e hr]

/-- The full claim, kept in view: an agent never ends up with more energy than it had. -/
def C37_claim : Prop := ∀ (a : Agent ℝ) (acts : List (Action ℝ)), 0 ≤ a.state.energy →
  (applyAll a acts).2.state.energy ≤ a.state.energy

/-- The claim is false: a negative cost creates energy. -/
theorem C37_refuted : ¬ C37_claim := fun h => by
  have h1 := h tenAgent [⟨"maintain", 0, -5, 0⟩] (by rw [tenAgent_energy]; norm_num)
  rw [C37_accounting] at h1
  have h2 : (tenAgent.applyAction ⟨"maintain", 0, -5, 0⟩).1 = .ok (-5) :=
    (C36_outcome _ _).2.2 (by rw [tenAgent_energy]; norm_num) (by simp [knownTypes])
  simp only [applyAll, h2] at h1
  norm_num at h1

/-- **C37 (partial).** For actions of non-negative cost (all built-in strategies, `C13`) the total spent is at most the
initial energy and the energy stays non-negative and never grows. Missing: negative costs, where the claim is false. -/
theorem C37_spend_partial (a : Agent ℝ) (acts : List (Action ℝ)) (h0 : 0 ≤ a.state.energy)
    (hc : ∀ act ∈ acts, 0 ≤ act.cost) :
    (applyAll a acts).1.sum ≤ a.state.energy ∧ 0 ≤ (applyAll a acts).1.sum ∧
    0 ≤ (applyAll a acts).2.state.energy ∧ (applyAll a acts).2.state.energy ≤ a.state.energy := by
  have hs : 0 ≤ (applyAll a acts).1.sum := by
    clear h0
    induction acts generalizing a with
    | nil => simp [applyAll]
    | cons act acts ih =>
      have i := ih (a.applyAction act).2 (fun x hx => hc x (List.mem_cons_of_mem _ hx))
      simp only [applyAll]
      cases hr : (a.applyAction act).1 with
      | ok c =>
        have := hc act List.mem_cons_self
        rw [(C36_success_frame a act c hr).1]
        simp only [List.sum_cons]; linarith
      | error e => exact i
  have he : 0 ≤ (applyAll a acts).2.state.energy := by
    clear hs
    induction acts generalizing a with
    | nil => exact h0
    | cons act acts ih =>
      simp only [applyAll]
      apply ih
      · cases hr : (a.applyAction act).1 with
        | ok c => exact (C36_success a act c hr).2.1
        | error e => rw [C36_failure_unchanged a act e hr]; exact h0
      · exact fun x hx => hc x (List.mem_cons_of_mem _ hx)
  have := C37_accounting a acts
  exact ⟨by linarith, hs, he, by linarith⟩

/-- As long as energy and token budget start equal and costs are non-negative, they stay equal: the two books kept by the
code agree. -/
theorem C37_tokens_track (a : Agent ℝ) (acts : List (Action ℝ)) (t : TokenManager ℝ) (ht : a.resources = some t)
    (he : t.tokens = a.state.energy) (h0 : 0 ≤ a.state.energy) (hc : ∀ act ∈ acts, 0 ≤ act.cost) :
    ∃ t', (applyAll a acts).2.resources = some t' ∧ t'.tokens = (applyAll a acts).2.state.energy := by
  induction acts generalizing a t with
  | nil => exact ⟨t, ht, he⟩
  | cons act acts ih =>
    simp only [applyAll]
    have hc' : ∀ x ∈ acts, 0 ≤ x.cost := fun x hx => hc x (List.mem_cons_of_mem _ hx)
    cases hr : (a.applyAction act).1 with
    | error e => rw [C36_failure_unchanged a act e hr]; exact ih a t ht he h0 hc'
    | ok c =>
      obtain ⟨rfl, hf⟩ := C36_success_frame a act c hr
      obtain ⟨s1, s2, -⟩ := C36_success a act _ hr
      refine ih _ (t.request act.cost).2 ?_ ?_ s2 hc'
      · rw [hf, ht]; rfl
      · obtain ⟨r1, r2, -⟩ := C29_request t (by rw [he]; exact h0) act.cost
        rw [s1]
        have : (t.request act.cost).1 = act.cost := by
          rw [r1, he, min_eq_left (by linarith), max_eq_right (hc act List.mem_cons_self)]
        linarith

example : (applyAll tenAgent [⟨"pulse", 1, 4, 0⟩, ⟨"pulse", 1, 7, 0⟩, ⟨"maintain", 0, 6, 0⟩]).1 = [4, 6] := by
  have h1 : (tenAgent.applyAction ⟨"pulse", 1, 4, 0⟩).1 = .ok 4 :=
    (C36_outcome _ _).2.2 (by rw [tenAgent_energy]; norm_num) (by simp [knownTypes])
  have e1 := (C36_success _ _ _ h1).1
  rw [tenAgent_energy] at e1
  have h2 : ((tenAgent.applyAction ⟨"pulse", 1, 4, 0⟩).2.applyAction ⟨"pulse", 1, 7, 0⟩).1 = .error .insufficientEnergy :=
    (C36_outcome _ _).1 (by rw [e1]; norm_num)
  have e2 := C36_failure_unchanged _ _ _ h2
  have h3 : ((tenAgent.applyAction ⟨"pulse", 1, 4, 0⟩).2.applyAction ⟨"maintain", 0, 6, 0⟩).1 = .ok 6 :=
    (C36_outcome _ _).2.2 (by rw [e1]; norm_num) (by simp [knownTypes])
  simp only [applyAll, h1, h2, e2, h3]

/-! ## C38 Accepted proposals can always be carried out -/

section generic
variable {α : Type} [Zero α] [One α] [Add α] [Sub α] [Mul α] [Div α] [Neg α] [LT α] [LE α]
  [DecidableLT α] [DecidableLE α] [BEq α] [OfScientific α] [GoMath α]

theorem decide_mem (s : State α) (options : List (Action α)) (h : options ≠ []) : (decide' s options).1 ∈ options := by
  cases options with
  | nil => exact absurd rfl h
  | cons o os =>
    simp only [decide']
    have : ∀ (l : List (Action α)) (b : Action α × α),
        (l.foldl (fun (b : Action α × α) a => if actionScore a > b.2 then (a, actionScore a) else b) b).1 = b.1 ∨
        (l.foldl (fun (b : Action α × α) a => if actionScore a > b.2 then (a, actionScore a) else b) b).1 ∈ l := by
      intro l
      induction l with
      | nil => intro b; exact Or.inl rfl
      | cons x xs ih =>
        intro b
        simp only [List.foldl_cons]
        split_ifs with hx
        · rcases ih (x, actionScore x) with h | h
          · exact Or.inr (by rw [h]; exact List.mem_cons_self)
          · exact Or.inr (List.mem_cons_of_mem _ h)
        · rcases ih b with h | h
          · exact Or.inl h
          · exact Or.inr (List.mem_cons_of_mem _ h)
    rcases this (o :: os) (o, -maxFloat) with h | h
    · rw [h]; exact List.mem_cons_self
    · exact h

theorem strat_known (s : Strat α) (now : ℤ) (cur tgt : State α) (ctx : Context α) :
    (s.propose now cur tgt ctx).1.1.type ∈ knownTypes := by
  cases s with
  | phaseNudge r => simp [Strat.propose, phaseNudgePropose, knownTypes]
  | frequencyLock r => simp [Strat.propose, frequencyLockPropose, knownTypes]
  | energyAware t =>
    simp only [Strat.propose, energyAwarePropose]
    split_ifs <;> simp [knownTypes]
  | pulse p =>
    simp only [Strat.propose, Pulse.propose]
    split_ifs <;> simp [knownTypes]

/-- No built-in strategy ever panics, and each proposes an action of a known type. -/
theorem agentStrategy_known (s : AgentStrategy α) (now : ℤ) (cur tgt : State α) (ctx : Context α) :
    ∃ p c s', s.propose now cur tgt ctx = .ok ((p, c), s') ∧ p.type ∈ knownTypes := by
  cases s with
  | basic b => exact ⟨_, _, _, rfl, strat_known b now cur tgt ctx⟩
  | adaptive l =>
    simp only [AgentStrategy.propose]
    unfold adaptivePropose
    by_cases hl : l.length = 0
    · rw [if_pos (by simpa using hl)]
      exact ⟨_, _, _, rfl, by simp [Action.maintain0, knownTypes]⟩
    · rw [if_neg (by simpa using hl)]
      dsimp only
      generalize hi : (if defaultSelector l.length ctx < 0 ∨ defaultSelector l.length ctx ≥ (l.zipIdx.length : ℤ) then
        (0 : ℤ) else defaultSelector l.length ctx) = i
      have hb : 0 ≤ i ∧ i < l.length := by
        rw [← hi, List.length_zipIdx]
        split_ifs with hh
        · omega
        · push Not at hh; exact hh
      rw [if_neg (by omega)]
      have hlt : i.toNat < l.zipIdx.length := by rw [List.length_zipIdx]; omega
      rw [List.getElem?_eq_getElem hlt]
      exact ⟨_, _, _, rfl, strat_known _ now cur tgt ctx⟩

theorem judge_spec (dec : State α → List (Action α) → Action α × α) (energy : α) (cur : State α) (ctx : Context α)
    (p : Action α) (c d2 : α)
    (hd : ∀ options, options ≠ [] → (dec cur options).1 ∈ options) :
    ((judgeProposal dec energy cur ctx p c d2).2 = true →
      ((judgeProposal dec energy cur ctx p c d2).1 = p ∨
        (judgeProposal dec energy cur ctx p c d2).1 = ⟨"maintain", 0, 0.1, ctx.stability⟩) ∧
      ¬ (judgeProposal dec energy cur ctx p c d2).1.cost > energy) ∧
    ((judgeProposal dec energy cur ctx p c d2).2 = false →
      (judgeProposal dec energy cur ctx p c d2).1 = Action.maintain0) := by
  unfold judgeProposal
  dsimp only
  have hm := hd [p, { type := "maintain", value := 0, cost := 0.1, benefit := ctx.stability }] (by simp)
  by_cases h1 : (dec cur [p, { type := "maintain", value := 0, cost := 0.1, benefit := ctx.stability }]).1.cost > energy
  · rw [if_pos h1]; exact ⟨fun h => (Bool.false_ne_true h).elim, fun _ => rfl⟩
  · rw [if_neg h1]
    split_ifs
    · refine ⟨fun _ => ⟨?_, h1⟩, fun h => by cases h⟩
      simpa using hm
    · exact ⟨fun h => (by cases h), fun _ => rfl⟩

/-- **C38.** Proposing never panics and changes nothing but the strategy's own memory. If the proposal is accepted, then
applying it right away succeeds; if it is rejected, it is the maintain action. For every number type (so also for IEEE
doubles including NaN), agent, goal, draws, neighbour phases and built-in strategy. -/
theorem C38_accepted_applies (a : Agent α) (phaseOf : ℕ → α) (now : ℤ) (goal : State α) (d1 d2 : α) :
    ∃ act ok s, a.proposeAdjustment phaseOf now goal d1 d2 = .ok ((act, ok), { a with strategy := s }) ∧
      (ok = true → ({ a with strategy := s }.applyAction act).1 = .ok act.cost) ∧
      (ok = false → act = Action.maintain0) := by
  unfold Agent.proposeAdjustment
  by_cases h1 : d1 < a.behavior.stubbornness
  · rw [if_pos h1]
    exact ⟨_, _, a.strategy, rfl, fun h => (Bool.false_ne_true h).elim, fun _ => rfl⟩
  · rw [if_neg h1]
    dsimp only
    obtain ⟨p, c, s', hp, hk⟩ := agentStrategy_known a.strategy now
      { phase := a.state.phase, frequency := a.state.frequency, coherence := a.localCoherence phaseOf }
      { phase := a.state.localGoal, frequency := a.state.frequency, coherence := goal.coherence } a.context
    rw [hp]
    dsimp only
    obtain ⟨j1, j2⟩ := judge_spec decide' a.state.energy
      { phase := a.state.phase, frequency := a.state.frequency, coherence := a.localCoherence phaseOf } a.context p c d2
      (fun o ho => decide_mem _ o ho)
    generalize judgeProposal decide' a.state.energy
      { phase := a.state.phase, frequency := a.state.frequency, coherence := a.localCoherence phaseOf } a.context p c d2
      = r at *
    obtain ⟨act, ok⟩ := r
    refine ⟨act, ok, s', rfl, fun h => ?_, j2⟩
    obtain ⟨j3, j4⟩ := j1 h
    refine (C36_outcome _ _).2.2 j4 ?_
    rcases j3 with e | e
    · dsimp only at e; rw [e]; exact hk
    · dsimp only at e; rw [e]; simp [knownTypes]

/-- **C38, when a proposal is accepted**: exactly if the first draw does not fall below the stubbornness, the option chosen
among the strategy's proposal and staying put is affordable, and the second draw falls below the product of the strategy's
confidence and the acceptance of the choice. The chosen option is what is returned. -/
theorem C38_acceptance (a : Agent α) (phaseOf : ℕ → α) (now : ℤ) (goal : State α) (d1 d2 : α) (act : Action α) :
    (∃ b, a.proposeAdjustment phaseOf now goal d1 d2 = .ok ((act, true), b)) ↔
      ¬ d1 < a.behavior.stubbornness ∧ ∃ p conf s acc,
        a.strategy.propose now { phase := a.state.phase, frequency := a.state.frequency, coherence := a.localCoherence phaseOf }
          { phase := a.state.localGoal, frequency := a.state.frequency, coherence := goal.coherence } a.context = .ok ((p, conf), s) ∧
        decide' { phase := a.state.phase, frequency := a.state.frequency, coherence := a.localCoherence phaseOf }
          [p, ⟨"maintain", 0, 0.1, a.context.stability⟩] = (act, acc) ∧
        ¬ act.cost > a.state.energy ∧ d2 < conf * acc := by
  unfold Agent.proposeAdjustment
  by_cases h1 : d1 < a.behavior.stubbornness
  · rw [if_pos h1]
    refine ⟨fun ⟨b, h⟩ => ?_, fun h => absurd h1 h.1⟩
    injection h with h
    injection h with h
    injection h with _ h
    cases h
  rw [if_neg h1]
  dsimp only
  obtain ⟨p, c, s', hp, -⟩ := agentStrategy_known a.strategy now
    { phase := a.state.phase, frequency := a.state.frequency, coherence := a.localCoherence phaseOf }
    { phase := a.state.localGoal, frequency := a.state.frequency, coherence := goal.coherence } a.context
  rw [hp]
  dsimp only
  generalize hr : decide' { phase := a.state.phase, frequency := a.state.frequency, coherence := a.localCoherence phaseOf }
    [p, ⟨"maintain", 0, 0.1, a.context.stability⟩] = r
  obtain ⟨ch, acc⟩ := r
  have hj : judgeProposal decide' a.state.energy
      { phase := a.state.phase, frequency := a.state.frequency, coherence := a.localCoherence phaseOf } a.context p c d2 =
      if ch.cost > a.state.energy then (Action.maintain0, false) else if d2 < c * acc then (ch, true) else (Action.maintain0, false) := by
    unfold judgeProposal
    dsimp only
    rw [hr]
  rw [hj]
  constructor
  · rintro ⟨b, h⟩
    injection h with h
    injection h with h _
    split_ifs at h with h2 h3
    · cases h
    · cases h
      exact ⟨h1, p, c, s', acc, rfl, hr, h2, h3⟩
    · cases h
  · rintro ⟨-, p', c', s'', acc', e, h3, h4, h5⟩
    cases e
    rw [hr] at h3
    cases h3
    rw [if_neg h4, if_pos h5]
    exact ⟨_, rfl⟩

end generic


/-- A fully stubborn agent never accepts, whatever the random words. -/
theorem C38_stubborn (a : Agent ℝ) (h : a.behavior.stubbornness = 1) (phaseOf : ℕ → ℝ) (now : ℤ) (goal : State ℝ)
    (w : ℕ) (d2 : ℝ) :
    a.proposeAdjustment phaseOf now goal (randFloat64 w) d2 = .ok ((Action.maintain0, false), a) := by
  unfold Agent.proposeAdjustment
  rw [if_pos]
  rw [h]
  have hlt : w % 2 ^ 53 < 2 ^ 53 := Nat.mod_lt _ (by norm_num)
  unfold randFloat64
  simp only [GoMath.ofInt_real]
  rw [div_lt_one (by norm_num)]
  exact_mod_cast hlt

/-- The same in IEEE doubles. -/
theorem C38_stubborn_f64 [Rounding] [LibM] (a : Agent F64) (h : a.behavior.stubbornness = 1) (phaseOf : ℕ → F64)
    (now : ℤ) (goal : State F64) (w : ℕ) (d2 : F64) :
    a.proposeAdjustment phaseOf now goal (randFloat64 w) d2 = .ok ((Action.maintain0, false), a) := by
  unfold Agent.proposeAdjustment
  rw [if_pos]
  obtain ⟨x, e, -, hx⟩ := C32_float_range.1 w
  rw [h, e]
  exact hx

/-- Acceptance does occur: an agent at its goal, with the smallest draws. -/
example : ∃ act a', (((Agent.initial "me" 0 0 0 : Agent ℝ).setStubbornness 0).proposeAdjustment (fun _ => 0) 0
    ⟨0, 1, 1⟩ 0 0) = .ok ((act, true), a') ∧ act.type = "phase_nudge" := by
  have h0 : phaseDifference (0 : ℝ) 0 = 0 := by
    rw [phaseDifference_eq_principal]
    · have h1 : principal (0 - 0) = 0 := by
        rw [principal_eq, sub_zero]
        have := Real.pi_pos
        rw [toIocMod_eq_self]; constructor <;> linarith
      exact h1
    · have := Real.pi_gt_three
      simp only [SpecialPair, zero_sub, abs_neg, abs_zero, not_or, not_and, not_lt]
      constructor
      · intro _
        rw [abs_of_pos (by positivity)]; norm_num; linarith
      · intro h
        rw [abs_of_pos (by positivity)] at h; norm_num at h; linarith
  have hz : (randPhase 0 : ℝ) = 0 := by simp [randPhase, randFloat64]
  unfold Agent.proposeAdjustment
  rw [if_neg (by simp only [Agent.setStubbornness, clampUnit]; norm_num)]
  simp only [Agent.setStubbornness, Agent.initial, AgentStrategy.propose, Strat.propose, phaseNudgePropose, hz, h0]
  simp only [judgeProposal, decide', List.foldl_cons, List.foldl_nil, actionScore, Context.zero,
    GoMath.fmax_real, GoMath.fmin_real, GoMath.abs_real]
  norm_num
  have hm : -maxDouble < (15 : ℝ) := by have := maxDouble_pos; linarith
  simp only [if_pos hm]
  norm_num

/-! ## C39 Context figures are proper fractions -/

theorem foldl_phaseSums (my : ℝ) (l : List ℝ) (a b : ℝ) :
    l.foldl (fun (s : ℝ × ℝ) p => (s.1 + cos (p - my), s.2 + sin (p - my))) (a, b) =
      (l.map (· + -my)).foldl (fun (s : ℝ × ℝ) p => (s.1 + cos p, s.2 + sin p)) (a, b) := by
  induction l generalizing a b with
  | nil => rfl
  | cons p ps ih =>
    simp only [List.foldl_cons, List.map_cons]
    rw [ih, sub_eq_add_neg]

/-- The local coherence computed by an agent is the order parameter of its neighbours' phases (and does not depend on
its own phase). -/
theorem local_eq_orderParameter (my : ℝ) (l : List ℝ) (hl : l.length ≠ 0) :
    Real.sqrt ((phaseSums my l).1 * (phaseSums my l).1 + (phaseSums my l).2 * (phaseSums my l).2) / l.length =
      orderParameter l := by
  rw [← C03_coherence_eq_orderParameter, ← C04_coherence_rotate l (-my)]
  unfold measureCoherence phaseSums
  rw [if_neg (by simpa using hl), foldl_phaseSums]
  simp

/-- **C39.** The coherence an agent perceives is the order parameter of its neighbours' phases. -/
theorem C39_local_coherence (a : Agent ℝ) (phaseOf : ℕ → ℝ) :
    a.localCoherence phaseOf = orderParameter (a.neighborList.map phaseOf) ∧
    (a.updateContext phaseOf).context.localCoherence = orderParameter (a.neighborList.map phaseOf) := by
  by_cases hl : a.neighborList.length = 0
  · have h0 : orderParameter (a.neighborList.map phaseOf) = 0 := by
      rw [List.length_eq_zero_iff.1 hl]; simp [orderParameter]
    rw [h0]
    unfold Agent.localCoherence Agent.updateContext
    dsimp only
    rw [if_pos hl, if_pos hl]; exact ⟨rfl, rfl⟩
  · have h1 := local_eq_orderParameter a.state.phase (a.neighborList.map phaseOf) (by simpa using hl)
    rw [List.length_map] at h1
    unfold Agent.localCoherence Agent.updateContext
    dsimp only
    rw [if_neg hl, if_neg hl, ← h1]
    exact ⟨by simp, by simp⟩

/-- **C39.** After updating its context, an agent's local coherence is in `[0, 1]`, the neighbour count is right, and its
local goal is in `[0, 2π)` if it has a neighbour (and otherwise unchanged); nothing but goal and context changes. -/
theorem C39_ranges (a : Agent ℝ) (phaseOf : ℕ → ℝ) :
    0 ≤ (a.updateContext phaseOf).context.localCoherence ∧ (a.updateContext phaseOf).context.localCoherence ≤ 1 ∧
    (a.updateContext phaseOf).context.neighbors = a.neighborList.length ∧
    (a.neighborList ≠ [] → 0 ≤ (a.updateContext phaseOf).state.localGoal ∧
      (a.updateContext phaseOf).state.localGoal < 2 * Real.pi) ∧
    (a.neighborList = [] → (a.updateContext phaseOf).state = a.state) ∧
    (a.updateContext phaseOf) = { a with
      state := { a.state with localGoal := (a.updateContext phaseOf).state.localGoal }
      context := (a.updateContext phaseOf).context } := by
  rw [(C39_local_coherence a phaseOf).2]
  refine ⟨orderParameter_nonneg _, orderParameter_le_one _, ?_⟩
  unfold Agent.updateContext
  dsimp only
  by_cases hl : a.neighborList.length = 0
  · rw [if_pos hl]
    exact ⟨by rw [hl]; rfl, fun h => absurd (List.length_eq_zero_iff.1 hl) h, fun _ => rfl, rfl⟩
  · rw [if_neg hl]
    exact ⟨rfl, fun _ => ⟨wrapPhase_nonneg _, wrapPhase_lt _⟩, fun h => absurd (by rw [h]; rfl) hl, rfl⟩

/-- If all neighbours agree on an angle, the goal becomes exactly that angle. -/
theorem C39_unanimous_goal (a : Agent ℝ) (phaseOf : ℕ → ℝ) (p : ℝ) (hne : a.neighborList ≠ [])
    (h : ∀ n ∈ a.neighborList, SameAngle (phaseOf n) p) :
    SameAngle (a.updateContext phaseOf).state.localGoal p := by
  have hl : a.neighborList.length ≠ 0 := fun h => hne (List.length_eq_zero_iff.1 h)
  have hsum : ∀ (l : List ℝ) (x y : ℝ), (∀ q ∈ l, SameAngle q p) →
      l.foldl (fun (s : ℝ × ℝ) q => (s.1 + cos (q - a.state.phase), s.2 + sin (q - a.state.phase))) (x, y) =
        (x + l.length * Real.cos (p - a.state.phase), y + l.length * Real.sin (p - a.state.phase)) := by
    intro l
    induction l with
    | nil => intro x y _; simp
    | cons q qs ih =>
      intro x y hq
      have hqp : SameAngle (q - a.state.phase) (p - a.state.phase) := by
        have := (hq q List.mem_cons_self).add_right (-a.state.phase)
        simpa [sub_eq_add_neg] using this
      simp only [List.foldl_cons]
      rw [ih _ _ (fun r hr => hq r (List.mem_cons_of_mem _ hr))]
      simp only [GoMath.cos_real, GoMath.sin_real, hqp.cos_eq, hqp.sin_eq, List.length_cons]
      push_cast
      ext <;> simp only <;> ring
  have hs : phaseSums a.state.phase (a.neighborList.map phaseOf) =
      (a.neighborList.length * Real.cos (p - a.state.phase), a.neighborList.length * Real.sin (p - a.state.phase)) := by
    unfold phaseSums
    rw [hsum _ _ _ (by simpa using h), List.length_map]; simp
  have hn : (0 : ℝ) < a.neighborList.length := by exact_mod_cast Nat.pos_of_ne_zero hl
  have hcoh : Real.sqrt ((phaseSums a.state.phase (a.neighborList.map phaseOf)).1 *
      (phaseSums a.state.phase (a.neighborList.map phaseOf)).1 +
      (phaseSums a.state.phase (a.neighborList.map phaseOf)).2 *
      (phaseSums a.state.phase (a.neighborList.map phaseOf)).2) / a.neighborList.length = 1 := by
    rw [hs]
    dsimp only
    have : ∀ n c s : ℝ, n * c * (n * c) + n * s * (n * s) = n ^ 2 * (s ^ 2 + c ^ 2) := by intros; ring
    rw [this, Real.sin_sq_add_cos_sq, mul_one, Real.sqrt_sq hn.le, div_self hn.ne']
  unfold Agent.updateContext
  dsimp only
  rw [if_neg hl]
  dsimp only
  simp only [GoMath.sqrt_real, GoMath.ofInt_real, Int.cast_natCast, hcoh]
  rw [hs]
  dsimp only
  rw [mul_div_cancel_left₀ _ hn.ne', mul_div_cancel_left₀ _ hn.ne']
  refine (wrapPhase_sameAngle _).trans ?_
  have hp : (atan2 (Real.sin (p - a.state.phase)) (Real.cos (p - a.state.phase)) : ℝ) = principal (p - a.state.phase) := by
    simp [principal]
  rw [hp]
  norm_num
  have := (principal_sameAngle (p - a.state.phase)).add_right a.state.phase
  rw [sub_add_cancel] at this
  rwa [add_comm]

/-- The full claim about the density, kept in view. -/
def C39_claim : Prop := ∀ (a : Agent ℝ) (phaseOf : ℕ → ℝ),
  0 ≤ (a.updateContext phaseOf).context.density ∧ (a.updateContext phaseOf).context.density ≤ 1

/-- A default agent connected to one peer. -/
noncomputable def pairedAgent : Agent ℝ := (Agent.initial "me" 0 0 0).connectTo "you" (some 1)

theorem pairedAgent_list : pairedAgent.neighborList = [1] := by
  simp [pairedAgent, Agent.connectTo, Agent.initial, Agent.neighborList, NeighborStorage.new, NeighborStorage.store,
    NeighborStorage.find, NeighborStorage.all]

/-- The claim is false: an agent without swarm information has density −1. -/
theorem C39_refuted : ¬ C39_claim := fun h => by
  have h1 := (h pairedAgent fun _ => 0).1
  unfold Agent.updateContext at h1
  have h2 : pairedAgent.assumedMaxNeighbors = 0 ∧ pairedAgent.swarmSize = 0 := by
    simp [pairedAgent, Agent.connectTo, Agent.initial]
  rw [pairedAgent_list, h2.1, h2.2] at h1
  norm_num at h1

/-- **C39 (partial).** The exact density, which is in `[0, 1]` exactly when the agent has no neighbour or the assumed
maximum (or the swarm size without the agent, if that is 0) is at least the number of neighbours; that a maximum of 0 gives
a density of 0 is only the convention of the exact numbers for a division by zero (`C39_density_double` has infinity). Missing: other
settings, where the claim is false. -/
theorem C39_density_partial (a : Agent ℝ) (phaseOf : ℕ → ℝ) (M : ℤ)
    (hM : M = if a.assumedMaxNeighbors = 0 then a.swarmSize - 1 else a.assumedMaxNeighbors) :
    (a.updateContext phaseOf).context.density =
      (if a.neighborList = [] then 0 else (a.neighborList.length : ℝ) / M) ∧
    (0 ≤ (a.updateContext phaseOf).context.density ∧ (a.updateContext phaseOf).context.density ≤ 1 ↔
      a.neighborList = [] ∨ M = 0 ∨ (a.neighborList.length : ℤ) ≤ M) := by
  have e : (a.updateContext phaseOf).context.density =
      (if a.neighborList = [] then 0 else (a.neighborList.length : ℝ) / M) := by
    unfold Agent.updateContext
    dsimp only
    by_cases hl : a.neighborList = []
    · rw [if_pos (by rw [hl]; rfl), if_pos hl]
    · rw [if_neg (fun h => hl (List.length_eq_zero_iff.1 h)), if_neg hl, hM]; simp
  refine ⟨e, ?_⟩
  rw [e]
  by_cases hl : a.neighborList = []
  · simp [hl]
  · rw [if_neg hl]
    have hn : (0 : ℤ) < a.neighborList.length := by
      have := List.length_pos_of_ne_nil hl; exact_mod_cast this
    have hn' : (0 : ℝ) < a.neighborList.length := by exact_mod_cast hn
    simp only [hl, false_or]
    rcases lt_trichotomy M 0 with h | h | h
    · have h' : (M : ℝ) < 0 := by exact_mod_cast h
      constructor
      · rintro ⟨h1, -⟩
        exact absurd (div_neg_of_pos_of_neg hn' h') (not_lt.2 h1)
      · intro h2; omega
    · subst h; simp
    · have h' : (0 : ℝ) < M := by exact_mod_cast h
      rw [div_le_one h']
      constructor
      · rintro ⟨-, h1⟩; exact Or.inr (by exact_mod_cast h1)
      · intro h2
        exact ⟨by positivity, by exact_mod_cast h2.resolve_left h.ne'⟩

/-- the hypotheses of `C39_unanimous_goal` are met: one neighbour at phase 1 -/
example : pairedAgent.neighborList ≠ [] ∧ ∀ n ∈ pairedAgent.neighborList, SameAngle ((fun _ => 1) n) 1 :=
  ⟨by rw [pairedAgent_list]; simp, fun _ _ => SameAngle.refl 1⟩

end Verif
