import Verif.Props.SwarmConn
import Verif.Props.Agent

/-!
# Topology builders: C47
-/

set_option autoImplicit false
set_option linter.unusedSectionVars false

namespace Verif
open GoMath

/-! ## Specifications: the named graphs on the positions 0 … n−1 -/

/-- Neighbours on a ring of `n`. -/
def Spec.Ring (n i j : ℕ) : Prop := i ≠ j ∧ ((i + 1) % n = j ∨ (j + 1) % n = i)

/-- Neighbours in a star whose centre is the position 0. -/
def Spec.Star (i j : ℕ) : Prop := i ≠ j ∧ (i = 0 ∨ j = 0)

/-- Neighbours in the complete graph. -/
def Spec.Complete (i j : ℕ) : Prop := i ≠ j

section generic
variable {α : Type} [Zero α] [One α] [Add α] [Sub α] [Mul α] [Div α] [Neg α] [LT α] [LE α]
  [DecidableLT α] [DecidableLE α] [BEq α] [OfScientific α] [GoMath α]

/-! ## One agent's share of the calls -/

/-- What `connectAll` does to one agent: its own calls, in order. -/
theorem connectAll_cell (h : ℕ → Agent α) (calls : List (ℕ × ℕ)) (a : ℕ) :
    connectAll h calls a =
      ((calls.filter fun c => c.1 == a).map fun c => ConnOp.connect (h c.2).id (some c.2)).foldl Agent.connStep (h a) ∧
    ∀ x, (connectAll h calls x).id = (h x).id := by
  unfold connectAll
  induction calls using List.reverseRecOn with
  | nil => exact ⟨rfl, fun _ => rfl⟩
  | append_singleton cs c ih =>
    obtain ⟨ih1, ih2⟩ := ih
    rw [List.foldl_append, List.filter_append, List.map_append, List.foldl_append]
    simp only [List.foldl_cons, List.foldl_nil]
    generalize List.foldl (fun h c => connectCell h c.1 c.2) h cs = h' at ih1 ih2 ⊢
    unfold connectCell setAt
    refine ⟨?_, fun x => ?_⟩
    · by_cases hc : a = c.1
      · subst hc
        rw [if_pos rfl, ih2 c.2, ← ih1]
        simp [Agent.connStep]
      · have : (c.1 == a) = false := by rw [beq_eq_false_iff_ne]; exact fun e => hc e.symm
        rw [if_neg hc, ← ih1]; simp [this]
    · split_ifs with hx
      · rw [hx, ← ih2 c.1]
        exact connStep_id (h' c.1) (.connect (h' c.2).id (some c.2))
      · exact ih2 x

/-- The calls an agent makes are those of its own turn. -/
theorem filter_turns (zs : List (ℕ × ℕ)) (f : ℕ × ℕ → List (ℕ × ℕ)) (hf : ∀ p ∈ zs, ∀ q ∈ f p, q.1 = p.1)
    (hz : (zs.map Prod.fst).Nodup) (p : ℕ × ℕ) (hp : p ∈ zs) : (zs.flatMap f).filter (fun c => c.1 == p.1) = f p := by
  induction zs with
  | nil => simp at hp
  | cons z zs ih =>
    rw [List.flatMap_cons, List.filter_append]
    rw [List.map_cons, List.nodup_cons] at hz
    rcases List.mem_cons.1 hp with rfl | hp'
    · have h1 : (f p).filter (fun c => c.1 == p.1) = f p :=
        List.filter_eq_self.2 fun q hq => by rw [hf p (by simp) q hq]; simp
      have h2 : (zs.flatMap f).filter (fun c => c.1 == p.1) = [] := by
        rw [List.filter_eq_nil_iff]
        intro q hq
        obtain ⟨y, hy, hqy⟩ := List.mem_flatMap.1 hq
        rw [hf y (by simp [hy]) q hqy]
        simp only [beq_iff_eq]
        intro e
        exact hz.1 (List.mem_map.2 ⟨y, hy, e⟩)
      rw [h1, h2, List.append_nil]
    · have h1 : (f z).filter (fun c => c.1 == p.1) = [] := by
        rw [List.filter_eq_nil_iff]
        intro q hq
        rw [hf z (by simp) q hq]
        simp only [beq_iff_eq]
        intro e
        exact hz.1 (List.mem_map.2 ⟨p, hp', e.symm⟩)
      rw [h1, List.nil_append]
      exact ih (fun y hy => hf y (by simp [hy])) hz.2 hp'

/-- Connecting to different others, none of them the agent itself: the first twenty are kept. -/
theorem connect_list (a : Agent α) (h : ℕ → Agent α) (ts : List ℕ) (hn : (ts.map fun t => (h t).id).Nodup)
    (hs : ∀ t ∈ ts, (h t).id ≠ a.id) (hc : ConnectedTo a ∅) :
    ConnectedTo ((ts.map fun t => ConnOp.connect (h t).id (some t)).foldl Agent.connStep a)
      ((ts.take 20).map fun t => (h t).id).toFinset := by
  have key : ∀ (ts : List ℕ) (a : Agent α) (s : Finset String), (ts.map fun t => (h t).id).Nodup →
      (∀ t ∈ ts, (h t).id ≠ a.id ∧ (h t).id ∉ s) → ConnectedTo a s →
      ConnectedTo ((ts.map fun t => ConnOp.connect (h t).id (some t)).foldl Agent.connStep a)
        (s ∪ ((ts.take (20 - s.card)).map fun t => (h t).id).toFinset) := by
    intro ts
    induction ts with
    | nil => intro a s _ _ hc; simpa using hc
    | cons t ts ih =>
      intro a s hn hs hc
      rw [List.map_cons, List.nodup_cons] at hn
      have h0 := hs t (by simp)
      have hstep := connStep_connected a s hc (.connect (h t).id (some t))
      dsimp only at hstep
      rw [List.map_cons, List.foldl_cons]
      by_cases hcard : 20 ≤ s.card
      · rw [if_pos (Or.inr ⟨h0.2, hcard⟩)] at hstep
        have := ih _ s hn.2 (fun x hx => by rw [connStep_id]; exact hs x (by simp [hx])) hstep
        rw [show 20 - s.card = 0 by omega] at this ⊢
        simpa using this
      · rw [if_neg (by rintro (x | x); exacts [h0.1 x, hcard x.2])] at hstep
        have := ih _ _ hn.2 (fun x hx => by
          rw [connStep_id]
          refine ⟨(hs x (by simp [hx])).1, ?_⟩
          rw [Finset.mem_insert]
          rintro (e | e)
          · exact hn.1 (List.mem_map.2 ⟨x, hx, e⟩)
          · exact (hs x (by simp [hx])).2 e) hstep
        rw [Finset.card_insert_of_notMem h0.2] at this
        obtain ⟨d, hd⟩ : ∃ d, 20 - s.card = d + 1 := ⟨19 - s.card, by omega⟩
        rw [show 20 - (s.card + 1) = d by omega] at this
        rw [hd, List.take_succ_cons, List.map_cons, List.toFinset_cons]
        convert this using 1
        ext x; simp
  have := key ts a ∅ hn (fun t ht => ⟨hs t ht, by simp⟩) hc
  simpa using this

/-- The others in order. -/
theorem others_eq (l : List ℕ) (i : ℕ) (a : ℕ) (k : ℕ) :
    (l.zipIdx k).filterMap (fun bj => if k + i ≠ bj.2 then some (a, bj.1) else none) = (l.eraseIdx i).map fun b => (a, b) := by
  induction l generalizing i k with
  | nil => simp
  | cons b l ih =>
    rw [List.zipIdx_cons]
    cases i with
    | zero =>
      rw [List.filterMap_cons_none (by simp), List.eraseIdx_cons_zero]
      clear ih
      have : ∀ (l : List ℕ) (m : ℕ), k < m →
          (l.zipIdx m).filterMap (fun bj => if k + 0 ≠ bj.2 then some (a, bj.1) else none) = l.map fun b => (a, b) := by
        intro l
        induction l with
        | nil => intro m _; rfl
        | cons c l ih =>
          intro m hm
          rw [List.zipIdx_cons, List.filterMap_cons_some (b := (a, c)) (by rw [if_pos]; dsimp only; omega), ih (m + 1) (by omega)]
          rfl
      exact this l (k + 1) (by omega)
    | succ i =>
      rw [List.filterMap_cons_some (b := (a, b)) (by rw [if_pos]; dsimp only; omega), List.eraseIdx_cons_succ, List.map_cons]
      rw [show k + (i + 1) = (k + 1) + i by omega, ih]

/-- What the builders start from: agents with different IDs and no connection yet. -/
structure Spec.Unconnected (h : ℕ → Agent α) (l : List ℕ) : Prop where
  ids : (l.map fun a => (h a).id).Nodup
  none : ∀ a ∈ l, ConnectedTo (h a) ∅

theorem Spec.Unconnected.nodup {h : ℕ → Agent α} {l : List ℕ} (u : Spec.Unconnected h l) : l.Nodup := List.Nodup.of_map _ u.ids

theorem getElem_mem_zipIdx (l : List ℕ) (i : ℕ) (hi : i < l.length) : (l[i], i) ∈ l.zipIdx :=
  List.mem_zipIdx_iff_getElem?.2 (by simp [hi])

theorem Spec.Unconnected.id_ne {h : ℕ → Agent α} {l : List ℕ} (u : Spec.Unconnected h l) {i j : ℕ} (hi : i < l.length)
    (hj : j < l.length) (hne : i ≠ j) : (h l[i]).id ≠ (h l[j]).id := fun e =>
  hne ((u.nodup.getElem_inj_iff).1 (List.inj_on_of_nodup_map u.ids (List.getElem_mem hi) (List.getElem_mem hj) e))

/-- Connections of the agent at position `i` after the calls of `f`, if its own calls go to the agents at the positions
`js`, all different and none of them `i`. -/
theorem turn_result {h : ℕ → Agent α} {l : List ℕ} (u : Spec.Unconnected h l) (f : ℕ × ℕ → List (ℕ × ℕ))
    (hf : ∀ p ∈ l.zipIdx, ∀ q ∈ f p, q.1 = p.1) (i : ℕ) (hi : i < l.length) (ts : List ℕ)
    (hts : f (l[i], i) = ts.map fun t => (l[i], t)) (hsub : ∀ t ∈ ts, t ∈ l ∧ t ≠ l[i]) (hnd : ts.Nodup) :
    ConnectedTo (connectAll h (l.zipIdx.flatMap f) l[i]) ((ts.take 20).map fun t => (h t).id).toFinset := by
  have hz : (l.zipIdx.map Prod.fst).Nodup := by rw [List.zipIdx_map_fst]; exact u.nodup
  have hflt := filter_turns l.zipIdx f hf hz (l[i], i) (getElem_mem_zipIdx l i hi)
  rw [(connectAll_cell h (l.zipIdx.flatMap f) l[i]).1, hflt, hts, List.map_map]
  refine connect_list (h l[i]) h ts ?_ ?_ (u.none _ (List.getElem_mem hi))
  · exact hnd.map_on fun x hx y hy e => List.inj_on_of_nodup_map u.ids (hsub x hx).1 (hsub y hy).1 e
  · intro t ht e
    exact (hsub t ht).2 (List.inj_on_of_nodup_map u.ids (hsub t ht).1 (List.getElem_mem hi) e)

theorem others_facts {l : List ℕ} (hn : l.Nodup) (i : ℕ) (hi : i < l.length) :
    (∀ t ∈ l.eraseIdx i, t ∈ l ∧ t ≠ l[i]) ∧ (l.eraseIdx i).Nodup := by
  refine ⟨fun t ht => ⟨List.mem_of_mem_eraseIdx ht, ?_⟩, hn.sublist (List.eraseIdx_sublist l i)⟩
  intro e
  rw [← List.Nodup.erase_getElem hn i hi, e] at ht
  exact (hn.mem_erase_iff.1 ht).1 rfl

theorem mem_take_others (h : ℕ → Agent α) (l : List ℕ) (i : ℕ) (hi : i < l.length) (x : String) :
    x ∈ (((l.eraseIdx i).take 20).map fun t => (h t).id).toFinset ↔
      ∃ j, ∃ hj : j < l.length, i ≠ j ∧ (if j < i then j else j - 1) < 20 ∧ x = (h l[j]).id := by
  rw [List.mem_toFinset, List.mem_map]
  constructor
  · rintro ⟨t, ht, rfl⟩
    obtain ⟨k, hk, rfl⟩ := List.getElem_of_mem ht
    rw [List.length_take, List.length_eraseIdx_of_lt hi] at hk
    rw [List.getElem_take, List.getElem_eraseIdx]
    split_ifs with hki
    · exact ⟨k, by omega, by omega, by rw [if_pos hki]; omega, rfl⟩
    · exact ⟨k + 1, by omega, by omega, by rw [if_neg (by omega)]; omega, rfl⟩
  · rintro ⟨j, hj, hne, hlt, rfl⟩
    refine ⟨l[j], ?_, rfl⟩
    rw [List.mem_iff_getElem]
    split_ifs at hlt with hji
    · refine ⟨j, by rw [List.length_take, List.length_eraseIdx_of_lt hi]; omega, ?_⟩
      rw [List.getElem_take, List.getElem_eraseIdx, dif_pos hji]
    · refine ⟨j - 1, by rw [List.length_take, List.length_eraseIdx_of_lt hi]; omega, ?_⟩
      rw [List.getElem_take, List.getElem_eraseIdx, dif_neg (by omega)]
      congr 1; omega

/-! ## C47 -/

/-- Specification: the agents `l` report exactly the connections of the graph `G` on their positions. -/
def Spec.Realises (h : ℕ → Agent α) (l : List ℕ) (G : ℕ → ℕ → Prop) : Prop :=
  ∀ i, ∀ hi : i < l.length, ∀ x : String,
    (h l[i]).isConnectedTo x = true ↔ ∃ j, ∃ hj : j < l.length, G i j ∧ x = (h l[j]).id

/-- **C47, complete graph.** Every agent gets connected to the first 20 of the others. -/
theorem C47_full_exact (order : SyncMap ℕ → SyncMap ℕ) (s : Swarm α) (u : Spec.Unconnected s.heap (s.forEachAgent order)) :
    ∃ s', fullyConnected order s = some s' ∧ s'.agents = s.agents ∧
      Spec.Realises s'.heap (s.forEachAgent order) fun i j => i ≠ j ∧ (if j < i then j else j - 1) < 20 := by
  refine ⟨_, rfl, rfl, fun i hi x => ?_⟩
  dsimp only
  generalize s.forEachAgent order = l at u hi ⊢
  have hz : ∀ p ∈ l.zipIdx, ∀ q ∈ l.zipIdx.filterMap (fun bj => if p.2 ≠ bj.2 then some (p.1, bj.1) else none), q.1 = p.1 := by
    intro p _ q hq
    obtain ⟨bj, -, e⟩ := List.mem_filterMap.1 hq
    split_ifs at e
    cases e; rfl
  have := turn_result u (fun ai => l.zipIdx.filterMap fun bj => if ai.2 ≠ bj.2 then some (ai.1, bj.1) else none) hz i hi
    (l.eraseIdx i) (by have := others_eq l i l[i] 0; rw [Nat.zero_add] at this; exact this)
    (others_facts u.nodup i hi).1 (others_facts u.nodup i hi).2
  rw [show connectAll s.heap (fullCalls l) = connectAll s.heap (l.zipIdx.flatMap fun ai =>
    l.zipIdx.filterMap fun bj => if ai.2 ≠ bj.2 then some (ai.1, bj.1) else none) from rfl, this.isConnectedTo,
    mem_take_others _ _ _ hi]
  have hid := (connectAll_cell s.heap (l.zipIdx.flatMap fun ai =>
    l.zipIdx.filterMap fun bj => if ai.2 ≠ bj.2 then some (ai.1, bj.1) else none) 0).2
  constructor
  · rintro ⟨j, hj, h1, h2, rfl⟩; exact ⟨j, hj, ⟨h1, h2⟩, (hid _).symm⟩
  · rintro ⟨j, hj, ⟨h1, h2⟩, rfl⟩; exact ⟨j, hj, h1, h2, hid _⟩

/-- **C47, star.** Everybody gets connected to the centre and the centre to the next 20 agents; fewer than two agents are
refused. -/
theorem C47_star_exact (order : SyncMap ℕ → SyncMap ℕ) (s : Swarm α) (u : Spec.Unconnected s.heap (s.forEachAgent order)) :
    ((s.forEachAgent order).length < 2 → star order s = none) ∧
    (2 ≤ (s.forEachAgent order).length → ∃ s', star order s = some s' ∧ s'.agents = s.agents ∧
      Spec.Realises s'.heap (s.forEachAgent order) fun i j => Spec.Star i j ∧ (i = 0 → j ≤ 20)) := by
  unfold star
  dsimp only
  refine ⟨fun h => if_pos h, fun h => ?_⟩
  rw [if_neg (by omega)]
  refine ⟨_, rfl, rfl, fun i hi x => ?_⟩
  dsimp only
  generalize s.forEachAgent order = l at u hi h ⊢
  have h0 : l.headD 0 = l[0] := by
    cases l with
    | nil => simp at h
    | cons a l => rfl
  let f : ℕ × ℕ → List (ℕ × ℕ) := fun ai =>
    if ai.2 = 0 then l.zipIdx.filterMap fun bj => if bj.2 ≠ 0 then some (l.headD 0, bj.1) else none
    else [(ai.1, l.headD 0)]
  have hf : ∀ p ∈ l.zipIdx, ∀ q ∈ f p, q.1 = p.1 := by
    intro p hp q hq
    have hp' : l[p.2]? = some p.1 := List.mem_zipIdx_iff_getElem?.1 hp
    simp only [f] at hq
    split_ifs at hq with hp0
    · obtain ⟨bj, -, e⟩ := List.mem_filterMap.1 hq
      split_ifs at e
      cases e
      rw [hp0, List.getElem?_eq_getElem (by omega)] at hp'
      rw [h0]; exact Option.some.inj hp'
    · rw [List.mem_singleton] at hq; rw [hq]
  have hid := (connectAll_cell s.heap (l.zipIdx.flatMap f) 0).2
  have hcalls : connectAll s.heap (starCalls l) = connectAll s.heap (l.zipIdx.flatMap f) := rfl
  rw [hcalls]
  by_cases hi0 : i = 0
  · subst hi0
    have hfe : f (l[0], 0) = (l.eraseIdx 0).map fun t => (l[0], t) := by
      have := others_eq l 0 l[0] 0
      rw [← this]
      simp only [f, if_true, h0]
      congr 1
      funext bj
      by_cases e : bj.2 = 0 <;> simp [e]
      omega
    have := turn_result u f hf 0 hi (l.eraseIdx 0) hfe (others_facts u.nodup 0 hi).1 (others_facts u.nodup 0 hi).2
    rw [this.isConnectedTo, mem_take_others _ _ _ hi]
    constructor
    · rintro ⟨j, hj, h1, h2, rfl⟩
      rw [if_neg (by omega)] at h2
      exact ⟨j, hj, ⟨⟨h1, Or.inl rfl⟩, fun _ => by omega⟩, (hid _).symm⟩
    · rintro ⟨j, hj, ⟨⟨h1, -⟩, h2⟩, rfl⟩
      exact ⟨j, hj, h1, by rw [if_neg (by omega)]; have := h2 rfl; omega, hid _⟩
  · have hfe : f (l[i], i) = [l[0]].map fun t => (l[i], t) := by
      simp only [f, if_neg hi0, h0]; rfl
    have hne : l[0] ≠ l[i] := fun e => hi0 (u.nodup.getElem_inj_iff.1 e).symm
    have := turn_result u f hf i hi [l[0]] hfe (by
      intro t ht; rw [List.mem_singleton] at ht; subst ht; exact ⟨List.getElem_mem _, hne⟩) (List.nodup_singleton _)
    rw [this.isConnectedTo]
    simp only [List.take_succ_cons, List.take_nil, List.map_cons, List.map_nil, List.mem_toFinset, List.mem_singleton]
    constructor
    · rintro rfl
      exact ⟨0, by omega, ⟨⟨hi0, Or.inr rfl⟩, fun e => absurd e hi0⟩, (hid _).symm⟩
    · rintro ⟨j, hj, ⟨⟨-, h1⟩, -⟩, rfl⟩
      have : j = 0 := h1.resolve_left hi0
      subst this
      exact hid _

theorem connect_two (a : Agent α) (x y : String) (p q : ℕ) (hx : x ≠ a.id) (hy : y ≠ a.id) (hc : ConnectedTo a ∅) :
    ConnectedTo ([ConnOp.connect x (some p), ConnOp.connect y (some q)].foldl Agent.connStep a) {x, y} := by
  have h1 := connStep_connected a ∅ hc (.connect x (some p))
  dsimp only at h1
  rw [if_neg (by rintro (e | e); exacts [hx e, by simp at e])] at h1
  have h2 := connStep_connected _ _ h1 (.connect y (some q))
  dsimp only at h2
  rw [connStep_id, if_neg (by rintro (e | e); exacts [hy e, by simp at e])] at h2
  simp only [List.foldl_cons, List.foldl_nil]
  convert h2 using 1
  ext z; simp; tauto

theorem prev_iff (n i j : ℕ) (hn : 2 ≤ n) (hi : i < n) (hj : j < n) : (i + n - 1) % n = j ↔ (j + 1) % n = i := by
  rcases Nat.eq_zero_or_pos i with rfl | h
  · rw [Nat.mod_eq_of_lt (by omega)]
    by_cases e : j + 1 = n
    · rw [e, Nat.mod_self]; omega
    · rw [Nat.mod_eq_of_lt (by omega)]; omega
  · rw [show i + n - 1 = (i - 1) + n by omega, Nat.add_mod_right, Nat.mod_eq_of_lt (by omega)]
    by_cases e : j + 1 = n
    · rw [e, Nat.mod_self]; omega
    · rw [Nat.mod_eq_of_lt (by omega)]; omega

theorem next_ne (n i : ℕ) (hn : 2 ≤ n) (hi : i < n) : (i + 1) % n ≠ i := by
  by_cases e : i + 1 = n
  · rw [e, Nat.mod_self]; omega
  · rw [Nat.mod_eq_of_lt (by omega)]; omega

theorem getD_lt (l : List ℕ) (k : ℕ) (hk : k < l.length) : l.getD k 0 = l[k] := by
  rw [List.getD_eq_getElem?_getD, List.getElem?_eq_getElem hk]; rfl

/-- **C47, ring.** For every number of agents from two on, exactly the ring; fewer are refused. -/
theorem C47_ring (order : SyncMap ℕ → SyncMap ℕ) (s : Swarm α) (u : Spec.Unconnected s.heap (s.forEachAgent order)) :
    ((s.forEachAgent order).length < 2 → ring order s = none) ∧
    (2 ≤ (s.forEachAgent order).length → ∃ s', ring order s = some s' ∧ s'.agents = s.agents ∧
      Spec.Realises s'.heap (s.forEachAgent order) (Spec.Ring (s.forEachAgent order).length)) := by
  unfold ring
  dsimp only
  refine ⟨fun h => if_pos h, fun h => ?_⟩
  rw [if_neg (by omega)]
  refine ⟨_, rfl, rfl, fun i hi x => ?_⟩
  dsimp only
  generalize s.forEachAgent order = l at u hi h ⊢
  let f : ℕ × ℕ → List (ℕ × ℕ) := fun ai =>
    [(ai.1, l.getD ((ai.2 + l.length - 1) % l.length) 0), (ai.1, l.getD ((ai.2 + 1) % l.length) 0)]
  have hf : ∀ p ∈ l.zipIdx, ∀ q ∈ f p, q.1 = p.1 := by
    intro p hp q hq
    simp only [f, List.mem_cons, List.not_mem_nil, or_false] at hq
    rcases hq with rfl | rfl <;> rfl
  have hid := (connectAll_cell s.heap (l.zipIdx.flatMap f) 0).2
  have hcalls : connectAll s.heap (ringCalls l) = connectAll s.heap (l.zipIdx.flatMap f) := rfl
  have hpl : (i + l.length - 1) % l.length < l.length := Nat.mod_lt _ (by omega)
  have hql : (i + 1) % l.length < l.length := Nat.mod_lt _ (by omega)
  have hp1 := prev_iff l.length i _ h hi hpl
  have hpi : (i + l.length - 1) % l.length ≠ i := fun e => by
    have := hp1.1 rfl
    rw [e] at this
    exact next_ne l.length i h hi this
  have hqi := next_ne l.length i h hi
  have hz : (l.zipIdx.map Prod.fst).Nodup := by rw [List.zipIdx_map_fst]; exact u.nodup
  have hflt := filter_turns l.zipIdx f hf hz (l[i], i) (getElem_mem_zipIdx l i hi)
  have hres : ConnectedTo (connectAll s.heap (l.zipIdx.flatMap f) l[i])
      {(s.heap l[(i + l.length - 1) % l.length]).id, (s.heap l[(i + 1) % l.length]).id} := by
    rw [(connectAll_cell s.heap (l.zipIdx.flatMap f) l[i]).1, hflt]
    simp only [f, List.map_cons, List.map_nil]
    rw [getD_lt l _ hpl, getD_lt l _ hql]
    exact connect_two _ _ _ _ _ (u.id_ne hpl hi hpi) (u.id_ne hql hi hqi) (u.none _ (List.getElem_mem hi))
  rw [hcalls, hres.isConnectedTo, Finset.mem_insert, Finset.mem_singleton]
  unfold Spec.Ring
  constructor
  · rintro (rfl | rfl)
    · exact ⟨_, hpl, ⟨fun e => hpi e.symm, Or.inr (hp1.1 rfl)⟩, (hid _).symm⟩
    · exact ⟨_, hql, ⟨fun e => hqi e.symm, Or.inl rfl⟩, (hid _).symm⟩
  · rintro ⟨j, hj, ⟨-, e | e⟩, rfl⟩
    · right; rw [hid]; subst e; rfl
    · left; rw [hid]
      have := (prev_iff l.length i j h hi hj).2 e
      subst this; rfl

/-- **C47, star up to 21 agents.** Exactly the star. -/
theorem C47_star (order : SyncMap ℕ → SyncMap ℕ) (s : Swarm α)
    (u : Spec.Unconnected s.heap (s.forEachAgent order)) (h2 : 2 ≤ (s.forEachAgent order).length)
    (h : (s.forEachAgent order).length ≤ 21) :
    ∃ s', star order s = some s' ∧ s'.agents = s.agents ∧ Spec.Realises s'.heap (s.forEachAgent order) Spec.Star := by
  obtain ⟨s', e, ea, hr⟩ := (C47_star_exact order s u).2 h2
  refine ⟨s', e, ea, fun i hi x => (hr i hi x).trans ?_⟩
  constructor
  · rintro ⟨j, hj, ⟨h1, -⟩, rfl⟩; exact ⟨j, hj, h1, rfl⟩
  · rintro ⟨j, hj, h1, rfl⟩; exact ⟨j, hj, ⟨h1, fun _ => by omega⟩, rfl⟩

/-- **C47, complete graph up to 21 agents.** Exactly the complete graph. -/
theorem C47_full (order : SyncMap ℕ → SyncMap ℕ) (s : Swarm α)
    (u : Spec.Unconnected s.heap (s.forEachAgent order)) (h : (s.forEachAgent order).length ≤ 21) :
    ∃ s', fullyConnected order s = some s' ∧ s'.agents = s.agents ∧
      Spec.Realises s'.heap (s.forEachAgent order) Spec.Complete := by
  obtain ⟨s', e, ea, hr⟩ := C47_full_exact order s u
  refine ⟨s', e, ea, fun i hi x => (hr i hi x).trans ?_⟩
  constructor
  · rintro ⟨j, hj, ⟨h1, -⟩, rfl⟩; exact ⟨j, hj, h1, rfl⟩
  · rintro ⟨j, hj, h1, rfl⟩
    exact ⟨j, hj, ⟨h1, by unfold Spec.Complete at h1; split_ifs <;> omega⟩, rfl⟩

/-- Beyond 21 agents neither the star nor the complete graph is built. -/
theorem C47_truncated (order : SyncMap ℕ → SyncMap ℕ) (s : Swarm α)
    (u : Spec.Unconnected s.heap (s.forEachAgent order)) (h : 21 < (s.forEachAgent order).length) :
    (∀ s', star order s = some s' → ¬ Spec.Realises s'.heap (s.forEachAgent order) Spec.Star) ∧
    (∀ s', fullyConnected order s = some s' → ¬ Spec.Realises s'.heap (s.forEachAgent order) Spec.Complete) := by
  have ids : ∀ s' : Swarm α, (∀ x, (s'.heap x).id = (s.heap x).id) → ∀ j, ∀ hj : j < (s.forEachAgent order).length,
      (s'.heap (s.forEachAgent order)[21]).id = (s'.heap (s.forEachAgent order)[j]).id → j = 21 := by
    intro s' hs' j hj e
    rw [hs', hs'] at e
    by_contra hne
    exact u.id_ne h hj (fun x => hne x.symm) e
  constructor
  · intro s' e hr
    obtain ⟨s'', e2, -, hr2⟩ := (C47_star_exact order s u).2 (by omega)
    rw [e] at e2; cases e2
    have h1 := (hr 0 (by omega) _).2 ⟨21, h, ⟨by omega, Or.inl rfl⟩, rfl⟩
    obtain ⟨j, hj, ⟨-, h2⟩, h3⟩ := (hr2 0 (by omega) _).1 h1
    have hs' : ∀ x, (s'.heap x).id = (s.heap x).id := by
      unfold star at e; dsimp only at e
      split_ifs at e; cases e
      exact (connectAll_cell _ _ 0).2
    have := ids s' hs' j hj h3
    have := h2 rfl
    omega
  · intro s' e hr
    obtain ⟨s'', e2, -, hr2⟩ := C47_full_exact order s u
    rw [e] at e2; cases e2
    have h1 := (hr 0 (by omega) _).2 ⟨21, h, by unfold Spec.Complete; omega, rfl⟩
    obtain ⟨j, hj, ⟨-, h2⟩, h3⟩ := (hr2 0 (by omega) _).1 h1
    have hs' : ∀ x, (s'.heap x).id = (s.heap x).id := by
      cases e
      exact (connectAll_cell _ _ 0).2
    have := ids s' hs' j hj h3
    rw [if_neg (by omega)] at h2
    omega

end generic
end Verif
