import Verif.Model.TestTopology
import Verif.Props.TopologyOption

/-!
# Topologies of the test utilities: C119
-/

set_option autoImplicit false
set_option linter.unusedSectionVars false

namespace Verif
open GoMath

section generic
variable {α : Type} [Zero α] [One α] [Add α] [Sub α] [Mul α] [Div α] [Neg α] [LT α] [LE α]
  [DecidableLT α] [DecidableLE α] [BEq α] [OfScientific α] [GoMath α]

/-- Specification: the maps returned by `Neighbors()` hold exactly the graph `G` on the positions, without repetition,
and under every ID the agent with that ID. -/
def Spec.Filed (h : ℕ → Agent α) (l : List ℕ) (G : ℕ → ℕ → Prop) : Prop :=
  ∀ i, ∀ hi : i < l.length, ((h l[i]).neighbors.map Prod.fst).Nodup ∧ ∀ p : String × ℕ,
    p ∈ (h l[i]).neighbors ↔ ∃ j, ∃ hj : j < l.length, G i j ∧ p = ((h l[j]).id, l[j])

theorem storeAll_keeps (h : ℕ → Agent α) (calls : List (ℕ × ℕ)) (a : ℕ) :
    ∃ m, storeAll h calls a = { h a with neighbors := m } := by
  unfold storeAll
  induction calls generalizing h with
  | nil => exact ⟨_, rfl⟩
  | cons c cs ih =>
    obtain ⟨m, e⟩ := ih (storeNeighbor h c.1 c.2)
    rw [List.foldl_cons, e]
    unfold storeNeighbor setAt
    by_cases ha : a = c.1
    · exact ⟨m, by simp [ha]⟩
    · exact ⟨m, by simp [ha]⟩

theorem storeAll_id (h : ℕ → Agent α) (calls : List (ℕ × ℕ)) (a : ℕ) : (storeAll h calls a).id = (h a).id := by
  obtain ⟨m, e⟩ := storeAll_keeps h calls a
  rw [e]

/-- What the stores leave in the maps. -/
theorem storeAll_mem (h : ℕ → Agent α) (l : List ℕ) (hl : ∀ x ∈ l, ∀ y ∈ l, (h x).id = (h y).id → x = y)
    (calls : List (ℕ × ℕ)) (hc : ∀ c ∈ calls, c.2 ∈ l) (a : ℕ)
    (hok : ((h a).neighbors.map Prod.fst).Nodup) (hin : ∀ p ∈ (h a).neighbors, ∃ y ∈ l, p = ((h y).id, y)) :
    ((storeAll h calls a).neighbors.map Prod.fst).Nodup ∧
    ∀ p : String × ℕ, p ∈ (storeAll h calls a).neighbors ↔
      p ∈ (h a).neighbors ∨ ∃ c ∈ calls, c.1 = a ∧ p = ((h c.2).id, c.2) := by
  unfold storeAll
  induction calls generalizing h with
  | nil => exact ⟨hok, fun p => by simp⟩
  | cons c cs ih =>
    have hid : ∀ x, (storeNeighbor h c.1 c.2 x).id = (h x).id := by
      intro x; unfold storeNeighbor setAt; split_ifs with e
      · rw [e]
      · rfl
    have hnb : (storeNeighbor h c.1 c.2 a).neighbors =
        if a = c.1 then SyncMap.store (h a).neighbors (h c.2).id c.2 else (h a).neighbors := by
      unfold storeNeighbor setAt; split_ifs with e
      · rw [e]
      · rfl
    have hmem : ∀ p : String × ℕ, p ∈ (storeNeighbor h c.1 c.2 a).neighbors ↔
        p ∈ (h a).neighbors ∨ (c.1 = a ∧ p = ((h c.2).id, c.2)) := by
      rintro ⟨k, v⟩
      rw [hnb]
      split_ifs with e
      · rw [SyncMap.mem_store]
        constructor
        · rintro (⟨rfl, rfl⟩ | ⟨-, x⟩)
          · exact Or.inr ⟨e.symm, rfl⟩
          · exact Or.inl x
        · rintro (x | ⟨-, x⟩)
          · by_cases hk : k = (h c.2).id
            · obtain ⟨y, hy, ey⟩ := hin _ x
              have e1 : k = (h y).id := congrArg Prod.fst ey
              have e2 : v = y := congrArg Prod.snd ey
              left
              refine ⟨hk, ?_⟩
              rw [e2]
              exact hl y hy c.2 (hc c (by simp)) (e1.symm.trans hk)
            · exact Or.inr ⟨hk, x⟩
          · cases x; exact Or.inl ⟨rfl, rfl⟩
      · constructor
        · exact Or.inl
        · rintro (x | ⟨x, -⟩)
          · exact x
          · exact absurd x.symm e
    obtain ⟨i1, i2⟩ := ih (storeNeighbor h c.1 c.2)
      (fun x hx y hy e => hl x hx y hy (by rw [hid, hid] at e; exact e)) (fun d hd => hc d (by simp [hd]))
      (by
        rw [hnb]; split_ifs
        · exact SyncMap.Ok.store hok _ _
        · exact hok)
      (fun p hp => by
        rcases (hmem p).1 hp with x | ⟨-, x⟩
        · obtain ⟨y, hy, ey⟩ := hin p x
          exact ⟨y, hy, by rw [hid]; exact ey⟩
        · exact ⟨c.2, hc c (by simp), by rw [hid]; exact x⟩)
    rw [List.foldl_cons]
    refine ⟨i1, fun p => ?_⟩
    rw [i2, hmem]
    constructor
    · rintro ((x | ⟨x, y⟩) | ⟨d, hd, x, y⟩)
      · exact Or.inl x
      · exact Or.inr ⟨c, by simp, x, y⟩
      · exact Or.inr ⟨d, by simp [hd], x, by rw [hid] at y; exact y⟩
    · rintro (x | ⟨d, hd, x, y⟩)
      · exact Or.inl (Or.inl x)
      · rcases List.mem_cons.1 hd with rfl | hd
        · exact Or.inl (Or.inr ⟨x, y⟩)
        · exact Or.inr ⟨d, hd, x, by rw [hid]; exact y⟩

/-- The stores build `G` if they are the edges of `G`. -/
theorem storeAll_filed {h : ℕ → Agent α} {l : List ℕ} (u : Spec.Unconnected h l) (calls : List (ℕ × ℕ)) (G : ℕ → ℕ → Prop)
    (hc : ∀ i, ∀ hi : i < l.length, ∀ b, (l[i], b) ∈ calls ↔ ∃ j, ∃ hj : j < l.length, G i j ∧ b = l[j])
    (hl : ∀ c ∈ calls, c.2 ∈ l) : Spec.Filed (storeAll h calls) l G := by
  intro i hi
  have e0 : (h l[i]).neighbors = [] := (u.none _ (List.getElem_mem hi)).map
  obtain ⟨h1, h2⟩ := storeAll_mem h l (fun x hx y hy e => List.inj_on_of_nodup_map u.ids hx hy e) calls hl l[i]
    (by rw [e0]; simp) (by rw [e0]; simp)
  refine ⟨h1, fun p => ?_⟩
  rw [h2, e0]
  simp only [List.not_mem_nil, false_or, storeAll_id]
  constructor
  · rintro ⟨⟨x, y⟩, hd, rfl, rfl⟩
    obtain ⟨j, hj, g, rfl⟩ := (hc i hi y).1 hd
    exact ⟨j, hj, g, rfl⟩
  · rintro ⟨j, hj, g, rfl⟩
    exact ⟨(l[i], l[j]), (hc i hi _).2 ⟨j, hj, g, rfl⟩, rfl, rfl⟩

theorem mem_zipIdx_pos {l : List ℕ} (hn : l.Nodup) {p : ℕ × ℕ} (hp : p ∈ l.zipIdx) {i : ℕ} (hi : i < l.length)
    (e : p.1 = l[i]) : p.2 = i := by
  have h := List.mem_zipIdx_iff_getElem?.1 hp
  obtain ⟨hlt, e2⟩ := List.getElem?_eq_some_iff.1 h
  exact (hn.getElem_inj_iff).1 (e2.trans e)

theorem zipIdx_lt {l : List ℕ} {p : ℕ × ℕ} (hp : p ∈ l.zipIdx) : ∃ hlt : p.2 < l.length, l[p.2] = p.1 :=
  List.getElem?_eq_some_iff.1 (List.mem_zipIdx_iff_getElem?.1 hp)

/-- **C119, complete graph.** The maps hold the complete graph, whatever the number of agents and in whatever orders the
map of agents is visited. -/
theorem C119_full (h : ℕ → Agent α) (l : List ℕ) (inner : ℕ → List ℕ) (u : Spec.Unconnected h l)
    (hp : ∀ i, (inner i).Perm l) : ∃ h', testFull h l inner = some h' ∧ Spec.Filed h' l Spec.Complete := by
  refine ⟨_, rfl, storeAll_filed u _ _ (fun i hi b => ?_) (fun c hc => ?_)⟩
  · unfold testFullCalls Spec.Complete
    rw [List.mem_flatMap]
    constructor
    · rintro ⟨p, hpz, hb⟩
      obtain ⟨b', hb', e⟩ := List.mem_filterMap.1 hb
      split_ifs at e with hne
      simp only [Option.some.injEq, Prod.mk.injEq] at e
      obtain ⟨e1, rfl⟩ := e
      obtain ⟨j, hj, rfl⟩ := List.getElem_of_mem ((hp _).mem_iff.1 hb')
      exact ⟨j, hj, fun e => hne (by subst e; rw [e1]), rfl⟩
    · rintro ⟨j, hj, hne, rfl⟩
      refine ⟨(l[i], i), getElem_mem_zipIdx l i hi, List.mem_filterMap.2 ⟨l[j], (hp i).mem_iff.2 (List.getElem_mem hj), ?_⟩⟩
      exact if_pos (u.id_ne hi hj hne)
  · unfold testFullCalls at hc
    obtain ⟨p, hpz, hb⟩ := List.mem_flatMap.1 hc
    obtain ⟨b', hb', e⟩ := List.mem_filterMap.1 hb
    split_ifs at e with hne
    cases e
    exact (hp _).mem_iff.1 hb'

/-- **C119, ring.** -/
theorem C119_ring (h : ℕ → Agent α) (l : List ℕ) (u : Spec.Unconnected h l) :
    (l.length < 2 → testRing h l = none) ∧
    (2 ≤ l.length → ∃ h', testRing h l = some h' ∧ Spec.Filed h' l (Spec.Ring l.length)) := by
  unfold testRing
  refine ⟨fun hl => if_pos hl, fun hl => ?_⟩
  rw [if_neg (by omega)]
  refine ⟨_, rfl, storeAll_filed u _ _ (fun i hi b => ?_) (fun c hc => ?_)⟩
  · have hpl : (i + l.length - 1) % l.length < l.length := Nat.mod_lt _ (by omega)
    have hql : (i + 1) % l.length < l.length := Nat.mod_lt _ (by omega)
    have hp1 := prev_iff l.length i _ hl hi hpl
    have hpi : (i + l.length - 1) % l.length ≠ i := fun e => by
      have := hp1.1 rfl
      rw [e] at this
      exact next_ne l.length i hl hi this
    have hqi := next_ne l.length i hl hi
    unfold testRingCalls Spec.Ring
    dsimp only
    rw [List.mem_flatMap]
    constructor
    · rintro ⟨p, hpz, hb⟩
      simp only [List.mem_cons, List.not_mem_nil, or_false, Prod.mk.injEq] at hb
      have hpi2 : p.2 = i := by
        rcases hb with hb | hb <;> exact mem_zipIdx_pos u.nodup hpz hi hb.1.symm
      rw [hpi2, getD_lt l _ hpl, getD_lt l _ hql] at hb
      rcases hb with hb | hb
      · exact ⟨_, hpl, ⟨fun e => hpi e.symm, Or.inr (hp1.1 rfl)⟩, hb.2⟩
      · exact ⟨_, hql, ⟨fun e => hqi e.symm, Or.inl rfl⟩, hb.2⟩
    · rintro ⟨j, hj, ⟨-, e⟩, rfl⟩
      refine ⟨(l[i], i), getElem_mem_zipIdx l i hi, ?_⟩
      dsimp only
      rw [getD_lt l _ hpl, getD_lt l _ hql]
      rcases e with e | e
      · subst e; simp
      · have := (prev_iff l.length i j hl hi hj).2 e
        subst this; simp
  · unfold testRingCalls at hc
    obtain ⟨p, hpz, hb⟩ := List.mem_flatMap.1 hc
    have hpl : (p.2 + l.length - 1) % l.length < l.length := Nat.mod_lt _ (by omega)
    have hql : (p.2 + 1) % l.length < l.length := Nat.mod_lt _ (by omega)
    simp only [List.mem_cons, List.not_mem_nil, or_false] at hb
    rw [getD_lt l _ hpl, getD_lt l _ hql] at hb
    rcases hb with rfl | rfl
    · exact List.getElem_mem hpl
    · exact List.getElem_mem hql

/-- **C119, star.** The centre is the agent visited first. -/
theorem C119_star (h : ℕ → Agent α) (l : List ℕ) (u : Spec.Unconnected h l) :
    (l.length < 2 → testStar h l = none) ∧
    (2 ≤ l.length → ∃ h', testStar h l = some h' ∧ Spec.Filed h' l Spec.Star) := by
  unfold testStar
  refine ⟨fun hl => if_pos hl, fun hl => ?_⟩
  rw [if_neg (by omega)]
  have h0 : 0 < l.length := by omega
  have hhub : l.headD 0 = l[0] := by
    cases l with
    | nil => simp at h0
    | cons x xs => rfl
  refine ⟨_, rfl, storeAll_filed u _ _ (fun i hi b => ?_) (fun c hc => ?_)⟩
  · unfold testStarCalls Spec.Star
    dsimp only
    rw [hhub, List.mem_flatMap]
    constructor
    · rintro ⟨p, hpz, hb⟩
      split_ifs at hb with h2
      · obtain ⟨q, hq, e⟩ := List.mem_filterMap.1 hb
        split_ifs at e with hq0
        simp only [Option.some.injEq, Prod.mk.injEq] at e
        obtain ⟨e1, rfl⟩ := e
        have hi0 : 0 = i := (u.nodup.getElem_inj_iff).1 e1
        obtain ⟨hlt, e2⟩ := zipIdx_lt hq
        exact ⟨q.2, hlt, ⟨by omega, by omega⟩, e2.symm⟩
      · rw [List.mem_singleton, Prod.mk.injEq] at hb
        have hpi := mem_zipIdx_pos u.nodup hpz hi hb.1.symm
        exact ⟨0, h0, ⟨by omega, Or.inr rfl⟩, hb.2⟩
    · rintro ⟨j, hj, ⟨hne, e⟩, rfl⟩
      refine ⟨(l[i], i), getElem_mem_zipIdx l i hi, ?_⟩
      dsimp only
      by_cases hi0 : i = 0
      · subst hi0
        rw [if_pos rfl]
        exact List.mem_filterMap.2 ⟨(l[j], j), getElem_mem_zipIdx l j hj, if_pos (by dsimp only; omega)⟩
      · rw [if_neg hi0]
        have : j = 0 := by omega
        subst this
        exact List.mem_singleton.2 rfl
  · unfold testStarCalls at hc
    dsimp only at hc
    rw [hhub] at hc
    obtain ⟨p, hpz, hb⟩ := List.mem_flatMap.1 hc
    split_ifs at hb with h2
    · obtain ⟨q, hq, e⟩ := List.mem_filterMap.1 hb
      split_ifs at e with hq0
      simp only [Option.some.injEq] at e
      subst e
      obtain ⟨hlt, e2⟩ := zipIdx_lt hq
      dsimp only
      rw [← e2]; exact List.getElem_mem hlt
    · rw [List.mem_singleton] at hb
      subst hb
      exact List.getElem_mem h0

/-- Every builder changes nothing but the maps. -/
theorem testTopology_keeps (h h' : ℕ → Agent α) (l : List ℕ) (inner : ℕ → List ℕ)
    (e : testFull h l inner = some h' ∨ testRing h l = some h' ∨ testStar h l = some h') (a : ℕ) :
    ∃ m, h' a = { h a with neighbors := m } := by
  unfold testFull testRing testStar at e
  rcases e with e | e | e
  · cases e; exact storeAll_keeps _ _ _
  · split_ifs at e; cases e; exact storeAll_keeps _ _ _
  · split_ifs at e; cases e; exact storeAll_keeps _ _ _

/-- **C119, what the agents notice.** Nothing: whichever builder ran, no agent counts as connected to any other, none sees
a neighbour when it updates its context or its local coherence, and its state, strategy and resources are what they were. -/
theorem C119_unnoticed (h h' : ℕ → Agent α) (l : List ℕ) (inner : ℕ → List ℕ) (u : Spec.Unconnected h l)
    (e : testFull h l inner = some h' ∨ testRing h l = some h' ∨ testStar h l = some h') (a : ℕ) (ha : a ∈ l) :
    (∀ x, (h' a).isConnectedTo x = false) ∧ (h' a).neighborList = [] ∧ (h' a).state = (h a).state ∧
      (h' a).id = (h a).id := by
  obtain ⟨m, em⟩ := testTopology_keeps h h' l inner e a
  have c := u.none a ha
  obtain ⟨bm, hr, -, hk⟩ := c.rep
  rw [em]
  refine ⟨fun x => ?_, ?_, rfl, rfl⟩
  · have := c.isConnectedTo x
    unfold Agent.isConnectedTo at this ⊢
    rw [c.opt] at this ⊢
    simp only [if_true] at this ⊢
    rw [Bool.eq_false_iff]
    intro hx
    exact absurd (this.1 hx) (by simp)
  · have := c.list_length
    unfold Agent.neighborList at this ⊢
    rw [c.opt] at this ⊢
    simp only [if_true, Finset.card_empty] at this ⊢
    exact List.eq_nil_of_length_eq_zero this

/-- **C119, what they report.** In the complete graph every agent reports all the others as its neighbours. -/
theorem C119_count (h h' : ℕ → Agent α) (l : List ℕ) (inner : ℕ → List ℕ) (u : Spec.Unconnected h l)
    (hp : ∀ i, (inner i).Perm l) (e : testFull h l inner = some h') (a : ℕ) (ha : a ∈ l) :
    (h' a).neighborCount = l.length - 1 := by
  obtain ⟨h'', e', hf⟩ := C119_full h l inner u hp
  rw [e] at e'; cases e'
  obtain ⟨i, hi, rfl⟩ := List.getElem_of_mem ha
  obtain ⟨f1, f2⟩ := hf i hi
  have hid : ∀ x, (h' x).id = (h x).id := by
    intro x
    obtain ⟨m, em⟩ := testTopology_keeps h h' l inner (Or.inl e) x
    rw [em]
  have hlen : (h' l[i]).neighbors.length = l.length - 1 := by
    have hnd : ((l.eraseIdx i).map fun t => ((h' t).id, t)).Nodup :=
      (others_facts u.nodup i hi).2.map fun x y exy => congrArg Prod.snd exy
    have hperm : (h' l[i]).neighbors.Perm ((l.eraseIdx i).map fun t => ((h' t).id, t)) := by
      rw [List.perm_ext_iff_of_nodup f1.of_map hnd]
      intro p
      rw [f2, List.mem_map]
      constructor
      · rintro ⟨j, hj, hne, rfl⟩
        refine ⟨l[j], ?_, rfl⟩
        rw [← List.Nodup.erase_getElem u.nodup i hi, u.nodup.mem_erase_iff]
        exact ⟨fun e => hne ((u.nodup.getElem_inj_iff).1 e).symm, List.getElem_mem hj⟩
      · rintro ⟨t, ht, rfl⟩
        obtain ⟨htl, hne⟩ := (others_facts u.nodup i hi).1 t ht
        obtain ⟨j, hj, rfl⟩ := List.getElem_of_mem htl
        exact ⟨j, hj, fun e => hne (by subst e; rfl), rfl⟩
    rw [hperm.length_eq, List.length_map, List.length_eraseIdx_of_lt hi]
  obtain ⟨m, em⟩ := testTopology_keeps h h' l inner (Or.inl e) l[i]
  have c := u.none _ ha
  have hc := c.count
  unfold Agent.neighborCount at hc ⊢
  rw [hlen]
  have e1 : (h' l[i]).useOptimized = true := by rw [em]; exact c.opt
  have e2 : (h' l[i]).optNeighbors = (h l[i]).optNeighbors := by rw [em]
  rw [e1, e2]
  rw [c.opt, c.map] at hc
  simp only [if_true, List.length_nil, Finset.card_empty] at hc ⊢
  have h0 : (h l[i]).optNeighbors.countOf = 0 := by
    split_ifs at hc with hx <;> omega
  rw [h0]
  simp

/-- What the comment of `FullyConnectedTopology` says: "Every agent is connected to every other agent." -/
def C119_claim (α : Type) [Zero α] [One α] [Add α] [Sub α] [Mul α] [Div α] [Neg α] [LT α] [LE α]
    [DecidableLT α] [DecidableLE α] [BEq α] [OfScientific α] [GoMath α] : Prop :=
  ∀ (h h' : ℕ → Agent α) (l : List ℕ) (inner : ℕ → List ℕ), Spec.Unconnected h l → (∀ i, (inner i).Perm l) →
    testFull h l inner = some h' → Spec.Realises h' l Spec.Complete

/-- It fails for any two or more agents. -/
theorem C119_never (h h' : ℕ → Agent α) (l : List ℕ) (inner : ℕ → List ℕ) (u : Spec.Unconnected h l)
    (h2 : 2 ≤ l.length) :
    (testFull h l inner = some h' → ¬ Spec.Realises h' l Spec.Complete) ∧
    (testRing h l = some h' → ¬ Spec.Realises h' l (Spec.Ring l.length)) ∧
    (testStar h l = some h' → ¬ Spec.Realises h' l Spec.Star) := by
  have key : ∀ G : ℕ → ℕ → Prop, G 0 1 → (testFull h l inner = some h' ∨ testRing h l = some h' ∨ testStar h l = some h') →
      ¬ Spec.Realises h' l G := by
    intro G g e hr
    have h1 := (hr 0 (by omega) _).2 ⟨1, by omega, g, rfl⟩
    rw [(C119_unnoticed h h' l inner u e l[0] (List.getElem_mem _)).1] at h1
    exact Bool.noConfusion h1
  refine ⟨fun e => key _ (by unfold Spec.Complete; omega) (Or.inl e), fun e => key _ ?_ (Or.inr (Or.inl e)),
    fun e => key _ ⟨by omega, Or.inl rfl⟩ (Or.inr (Or.inr e))⟩
  refine ⟨by omega, Or.inl ?_⟩
  exact Nat.mod_eq_of_lt (by omega)

end generic

/-- Agents made by `agent.New`, as the builders find them. -/
theorem plain_unconnected (n : ℕ) :
    Spec.Unconnected (fun i : ℕ => (Agent.new (agentID i) 0 0 0 [] : Agent ℝ)) (List.range n) :=
  ⟨by
    have : (List.range n).map (fun a => (Agent.new (agentID a) 0 0 0 [] : Agent ℝ).id) = (List.range n).map agentID :=
      List.map_congr_left fun a _ => (new_struct _ 0 0 0 []).1
    rw [this]; exact agentIDs_nodup n, fun a _ => connected_new _ 0 0 0 []⟩

/-- **C119 is false as stated.** -/
theorem C119_refuted : ¬ C119_claim ℝ := fun h =>
  (C119_never _ _ _ (fun _ => List.range 3) (plain_unconnected 3) (by simp)).1 rfl
    (h _ _ _ (fun _ => List.range 3) (plain_unconnected 3) (fun _ => List.Perm.refl _) rfl)

/-- Thirty agents: 29 neighbours each are reported, none is noticed. -/
example : ∃ h' : ℕ → Agent ℝ, Spec.Filed h' (List.range 30) Spec.Complete ∧
    ∀ a ∈ List.range 30, (h' a).neighborCount = 29 ∧ ∀ x, (h' a).isConnectedTo x = false := by
  obtain ⟨h', e, hf⟩ := C119_full _ _ (fun _ => (List.range 30).reverse) (plain_unconnected 30)
    (fun _ => List.reverse_perm _)
  refine ⟨h', hf, fun a ha => ⟨?_, (C119_unnoticed _ h' _ _ (plain_unconnected 30) (Or.inl e) a ha).1⟩⟩
  have := C119_count _ h' _ _ (plain_unconnected 30) (fun _ => List.reverse_perm _) e a ha
  rwa [List.length_range] at this

/-- A ring and a star of five. -/
example : (∃ h' : ℕ → Agent ℝ, Spec.Filed h' (List.range 5) (Spec.Ring 5)) ∧
    ∃ h' : ℕ → Agent ℝ, Spec.Filed h' (List.range 5) Spec.Star := by
  obtain ⟨h', -, hf⟩ := (C119_ring _ _ (plain_unconnected 5)).2 (by simp)
  obtain ⟨h'', -, hs⟩ := (C119_star _ _ (plain_unconnected 5)).2 (by simp)
  rw [List.length_range] at hf
  exact ⟨⟨h', hf⟩, h'', hs⟩

end Verif
