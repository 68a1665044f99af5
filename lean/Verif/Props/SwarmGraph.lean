import Verif.Props.SwarmNew
import Verif.Props.SwarmConfig

/-!
# The connection graph of a new swarm: C44 and C45
-/

set_option autoImplicit false
set_option linter.unusedSectionVars false

namespace Verif
open GoMath

section generic
variable {α : Type} [Zero α] [One α] [Add α] [Sub α] [Mul α] [Div α] [Neg α] [LT α] [LE α]
  [DecidableLT α] [DecidableLE α] [BEq α] [OfScientific α] [GoMath α]

/-- Specification: `b` is a neighbour of `a`: the entry for `b`'s ID in `a`'s neighbour map is `b`. -/
def Spec.Adj (h : ℕ → Agent α) (a b : ℕ) : Prop := ((h b).id, b) ∈ (h a).neighbors

/-- The invariant of the construction, for the agents `l`. -/
structure GraphInv (h : ℕ → Agent α) (l : List ℕ) : Prop where
  nodup : l.Nodup
  ids : (l.map fun a => (h a).id).Nodup
  keys : ∀ a ∈ l, SyncMap.Ok (h a).neighbors
  mem : ∀ a ∈ l, ∀ p ∈ (h a).neighbors, ∃ b ∈ l, b ≠ a ∧ p = ((h b).id, b)
  symm : ∀ a ∈ l, ∀ b ∈ l, Spec.Adj h a b → Spec.Adj h b a

theorem GraphInv.id_inj {h : ℕ → Agent α} {l : List ℕ} (g : GraphInv h l) {a b : ℕ} (ha : a ∈ l) (hb : b ∈ l)
    (e : (h a).id = (h b).id) : a = b := List.inj_on_of_nodup_map g.ids ha hb e

theorem GraphInv.has_iff {h : ℕ → Agent α} {l : List ℕ} (g : GraphInv h l) {a b : ℕ} (ha : a ∈ l) (hb : b ∈ l) :
    hasNeighbor h a b = true ↔ Spec.Adj h a b := by
  unfold hasNeighbor Spec.Adj
  rw [SyncMap.load_isSome, List.mem_map]
  constructor
  · rintro ⟨p, hp, e⟩
    obtain ⟨c, hc, -, rfl⟩ := g.mem a ha p hp
    have : c = b := g.id_inj hc hb e
    rw [← this]; exact hp
  · intro hm; exact ⟨_, hm, rfl⟩

theorem GraphInv.loopless {h : ℕ → Agent α} {l : List ℕ} (g : GraphInv h l) {a : ℕ} (ha : a ∈ l) : ¬ Spec.Adj h a a := by
  intro hm
  obtain ⟨b, -, hne, e⟩ := g.mem a ha _ hm
  simp only [Prod.mk.injEq] at e
  exact hne e.2.symm

theorem link_neighbors (h : ℕ → Agent α) (a b : ℕ) (hab : a ≠ b) (x : ℕ) :
    (link h a b x).neighbors =
      if x = a then SyncMap.store (h a).neighbors (h b).id b
      else if x = b then SyncMap.store (h b).neighbors (h a).id a else (h x).neighbors := by
  unfold link storeNeighbor setAt
  by_cases h1 : x = b
  · subst h1
    have h2 : x ≠ a := fun e => hab e.symm
    simp only [if_true, if_neg h2]
  · by_cases h2 : x = a
    · subst h2; simp only [if_neg h1, if_true]
    · simp only [if_neg h1, if_neg h2]

theorem adj_link {h : ℕ → Agent α} {l : List ℕ} (g : GraphInv h l) {a b : ℕ} (ha : a ∈ l) (hb : b ∈ l) (hab : a ≠ b)
    {x y : ℕ} (_hx : x ∈ l) (hy : y ∈ l) :
    Spec.Adj (link h a b) x y ↔ Spec.Adj h x y ∨ (x = a ∧ y = b) ∨ (x = b ∧ y = a) := by
  unfold Spec.Adj
  rw [link_neighbors h a b hab, (sameBut_link h a b).id y]
  by_cases h1 : x = a
  · subst h1
    rw [if_pos rfl, SyncMap.mem_store]
    constructor
    · rintro (⟨e, rfl⟩ | ⟨e, hm⟩)
      · exact Or.inr (Or.inl ⟨rfl, rfl⟩)
      · exact Or.inl hm
    · rintro (hm | ⟨-, rfl⟩ | ⟨e, -⟩)
      · by_cases e : (h y).id = (h b).id
        · exact Or.inl ⟨e, g.id_inj hy hb e⟩
        · exact Or.inr ⟨e, hm⟩
      · exact Or.inl ⟨rfl, rfl⟩
      · exact absurd e hab
  · rw [if_neg h1]
    by_cases h2 : x = b
    · subst h2
      rw [if_pos rfl, SyncMap.mem_store]
      constructor
      · rintro (⟨e, rfl⟩ | ⟨e, hm⟩)
        · exact Or.inr (Or.inr ⟨rfl, rfl⟩)
        · exact Or.inl hm
      · rintro (hm | ⟨e, -⟩ | ⟨-, rfl⟩)
        · by_cases e : (h y).id = (h a).id
          · exact Or.inl ⟨e, g.id_inj hy ha e⟩
          · exact Or.inr ⟨e, hm⟩
        · exact absurd e h1
        · exact Or.inl ⟨rfl, rfl⟩
    · rw [if_neg h2]
      constructor
      · exact Or.inl
      · rintro (hm | ⟨e, -⟩ | ⟨e, -⟩)
        · exact hm
        · exact absurd e h1
        · exact absurd e h2

theorem GraphInv.link {h : ℕ → Agent α} {l : List ℕ} (g : GraphInv h l) {a b : ℕ} (ha : a ∈ l) (hb : b ∈ l)
    (hab : a ≠ b) : GraphInv (link h a b) l := by
  have hid := fun x => (sameBut_link h a b).id x
  refine ⟨g.nodup, ?_, ?_, ?_, ?_⟩
  · have : (l.map fun x => (Verif.link h a b x).id) = l.map fun x => (h x).id := List.map_congr_left fun x _ => hid x
    rw [this]; exact g.ids
  · intro x hx
    rw [link_neighbors h a b hab]
    split_ifs with h1 h2
    · exact (g.keys a ha).store _ _
    · exact (g.keys b hb).store _ _
    · exact g.keys x hx
  · intro x hx p hp
    rw [link_neighbors h a b hab] at hp
    obtain ⟨k, v⟩ := p
    split_ifs at hp with h1 h2
    · subst h1
      rcases SyncMap.mem_store.1 hp with ⟨e1, e2⟩ | ⟨-, hm⟩
      · exact ⟨b, hb, fun e => hab e.symm, by rw [hid b, e1, e2]⟩
      · obtain ⟨y, hy, hne, e⟩ := g.mem x hx _ hm
        exact ⟨y, hy, hne, by rw [hid y, e]⟩
    · subst h2
      rcases SyncMap.mem_store.1 hp with ⟨e1, e2⟩ | ⟨-, hm⟩
      · exact ⟨a, ha, hab, by rw [hid a, e1, e2]⟩
      · obtain ⟨y, hy, hne, e⟩ := g.mem x hx _ hm
        exact ⟨y, hy, hne, by rw [hid y, e]⟩
    · obtain ⟨y, hy, hne, e⟩ := g.mem x hx _ hp
      exact ⟨y, hy, hne, by rw [hid y, e]⟩
  · intro x hx y hy hxy
    rw [adj_link g ha hb hab hx hy] at hxy
    rw [adj_link g ha hb hab hy hx]
    rcases hxy with h1 | ⟨rfl, rfl⟩ | ⟨rfl, rfl⟩
    · exact Or.inl (g.symm x hx y hy h1)
    · exact Or.inr (Or.inr ⟨rfl, rfl⟩)
    · exact Or.inr (Or.inl ⟨rfl, rfl⟩)

/-- Linking two agents not yet connected adds one neighbour to each and changes no other count. -/
theorem length_link {h : ℕ → Agent α} {l : List ℕ} (g : GraphInv h l) {a b : ℕ} (ha : a ∈ l) (hb : b ∈ l) (hab : a ≠ b)
    (hn : hasNeighbor h a b = false) (x : ℕ) :
    (link h a b x).neighbors.length = (h x).neighbors.length + if x = a ∨ x = b then 1 else 0 := by
  have h1 : (h b).id ∉ (h a).neighbors.map Prod.fst := by
    rw [← SyncMap.load_isSome]
    unfold hasNeighbor at hn
    rw [hn]; simp
  have h2 : (h a).id ∉ (h b).neighbors.map Prod.fst := by
    rw [← SyncMap.load_isSome]
    intro hh
    have : hasNeighbor h b a = true := hh
    have h3 := g.symm b hb a ha ((g.has_iff hb ha).1 this)
    rw [(g.has_iff ha hb).2 h3] at hn
    cases hn
  rw [link_neighbors h a b hab]
  by_cases e1 : x = a
  · subst e1
    rw [if_pos rfl, if_pos (Or.inl rfl), SyncMap.length_store, if_neg h1]
  · by_cases e2 : x = b
    · subst e2
      rw [if_neg e1, if_pos rfl, if_pos (Or.inr rfl), SyncMap.length_store, if_neg h2]
    · rw [if_neg e1, if_neg e2, if_neg (by tauto)]; rfl

/-- `h'` extends `h`: the invariant is kept and neighbours are only added. -/
structure Grows (h h' : ℕ → Agent α) (l : List ℕ) : Prop where
  inv : GraphInv h' l
  same : SameBut h h'
  adj : ∀ x ∈ l, ∀ y ∈ l, Spec.Adj h x y → Spec.Adj h' x y
  len : ∀ x, (h x).neighbors.length ≤ (h' x).neighbors.length

theorem Grows.refl {h : ℕ → Agent α} {l : List ℕ} (g : GraphInv h l) : Grows h h l :=
  ⟨g, SameBut.refl h, fun _ _ _ _ e => e, fun _ => le_rfl⟩

theorem Grows.trans {h h' h'' : ℕ → Agent α} {l : List ℕ} (a : Grows h h' l) (b : Grows h' h'' l) : Grows h h'' l :=
  ⟨b.inv, a.same.trans b.same, fun x hx y hy e => b.adj x hx y hy (a.adj x hx y hy e), fun x => (a.len x).trans (b.len x)⟩

theorem grows_link {h : ℕ → Agent α} {l : List ℕ} (g : GraphInv h l) {a b : ℕ} (ha : a ∈ l) (hb : b ∈ l) (hab : a ≠ b)
    (hn : hasNeighbor h a b = false) : Grows h (link h a b) l :=
  ⟨g.link ha hb hab, sameBut_link h a b, fun _ hx _ hy e => (adj_link g ha hb hab hx hy).2 (Or.inl e),
    fun x => by rw [length_link g ha hb hab hn x]; omega⟩

theorem getD_mem (l : List ℕ) (k : ℕ) (hl : l ≠ []) : l.getD (k % l.length) 0 ∈ l := by
  have hlt : k % l.length < l.length := Nat.mod_lt _ (List.length_pos_iff.2 hl)
  rw [List.getD_eq_getElem?_getD, List.getElem?_eq_getElem hlt]
  exact List.getElem_mem hlt

/-! ### The loops -/

theorem grows_minimalLoop (minN : ℤ) (l : List ℕ) (pick : ℕ → ℕ) (a : ℕ) (ha : a ∈ l) (n k : ℕ) (h : ℕ → Agent α) (c : ℤ)
    (g : GraphInv h l) : Grows h (minimalLoop minN l pick a n k h c) l := by
  induction n generalizing k h c with
  | zero => exact Grows.refl g
  | succ n ih =>
    unfold minimalLoop
    dsimp only
    have hb := getD_mem l (pick k) (List.ne_nil_of_mem ha)
    generalize l.getD (pick k % l.length) 0 = b at hb ⊢
    split_ifs with h1 h2
    · have hab : a ≠ b := fun e => h2.1 (by rw [e])
      have := grows_link g ha hb hab h2.2
      exact this.trans (ih _ _ _ this.inv)
    · exact ih _ _ _ g
    · exact Grows.refl g

theorem grows_minimal (minN : ℤ) (l : List ℕ) (pick : ℕ → ℕ → ℕ) (todo : List (ℕ × ℕ)) (ht : ∀ p ∈ todo, p.1 ∈ l)
    (h : ℕ → Agent α) (g : GraphInv h l) : Grows h (minimalConnections minN l pick todo h) l := by
  induction todo generalizing h with
  | nil => exact Grows.refl g
  | cons p ps ih =>
    obtain ⟨a, i⟩ := p
    have h1 := grows_minimalLoop minN l (pick i) a (ht (a, i) (by simp)) (l.length * 2) 0 h 0 g
    exact h1.trans (ih (fun q hq => ht q (by simp [hq])) _ h1.inv)

/-- The scan of `connectToNeighbors` for the agent `a` at position `i`: the count is that of the neighbours among the
agents scanned, all of them unless the maximum was reached. -/
theorem connectLoop_spec (prob : α) (maxN : ℤ) (coin : ℕ → α) (l : List ℕ) (a i : ℕ) (ha : a ∈ l)
    (todo done : List ℕ) (k : ℕ) (hl : done ++ todo = l) (hk : k = done.length) (hi : l[i]? = some a)
    (h : ℕ → Agent α) (g : GraphInv h l) (c : ℤ) (hc : c = ((done.filter fun b => hasNeighbor h a b).length : ℤ))
    (hc2 : c ≤ max 0 maxN) :
    Grows h (connectLoop prob maxN coin a i (todo.zipIdx k) h c).1 l ∧
    (connectLoop prob maxN coin a i (todo.zipIdx k) h c).2 ≤ max 0 maxN ∧
    (connectLoop prob maxN coin a i (todo.zipIdx k) h c).2 ≤
      (((l.filter fun b => hasNeighbor (connectLoop prob maxN coin a i (todo.zipIdx k) h c).1 a b).length : ℕ) : ℤ) ∧
    ((connectLoop prob maxN coin a i (todo.zipIdx k) h c).2 < maxN →
      (connectLoop prob maxN coin a i (todo.zipIdx k) h c).2 =
      (((l.filter fun b => hasNeighbor (connectLoop prob maxN coin a i (todo.zipIdx k) h c).1 a b).length : ℕ) : ℤ)) := by
  induction todo generalizing done k h c with
  | nil =>
    rw [List.append_nil] at hl
    subst hl
    refine ⟨Grows.refl g, hc2, ?_, fun _ => ?_⟩
    · exact hc.le
    · exact hc
  | cons b bs ih =>
    have hbl : b ∈ l := by rw [← hl]; simp
    have hbk : l[k]? = some b := by rw [← hl, hk]; simp
    have hl' : (done ++ [b]) ++ bs = l := by rw [← hl]; simp
    have hk' : k + 1 = (done ++ [b]).length := by simp [hk]
    rw [List.zipIdx_cons]
    unfold connectLoop
    have hfil : ∀ h' : ℕ → Agent α, ((done ++ [b]).filter fun b => hasNeighbor h' a b).length =
        (done.filter fun b => hasNeighbor h' a b).length + if hasNeighbor h' a b = true then 1 else 0 := by
      intro h'
      rw [List.filter_append, List.length_append]
      congr 1
      by_cases e : hasNeighbor h' a b = true
      · simp [e]
      · simp [e]
    by_cases hki : k = i
    · rw [if_pos hki]
      have hba : b = a := by rw [hki, hi] at hbk; exact (Option.some.inj hbk).symm
      refine ih (done ++ [b]) (k + 1) hl' hk' h g c ?_ hc2
      rw [hfil, if_neg]
      · simpa using hc
      · rw [hba, g.has_iff ha ha]; exact g.loopless ha
    · rw [if_neg hki]
      have hba : a ≠ b := by
        intro e
        have h1 : k < l.length := (List.getElem?_eq_some_iff.1 hbk).1
        exact hki ((List.getElem?_inj h1 g.nodup).1 (by rw [hbk, hi, e]))
      by_cases hcm : c ≥ maxN
      · rw [if_pos hcm]
        refine ⟨Grows.refl g, hc2, ?_, fun hlt => absurd hlt (not_lt.2 hcm)⟩
        rw [hc, ← hl, List.filter_append, List.length_append]
        push_cast; omega
      · rw [if_neg hcm]
        by_cases hn : hasNeighbor h a b = true
        · rw [if_pos hn]
          refine ih (done ++ [b]) (k + 1) hl' hk' h g (c + 1) ?_ (by omega)
          rw [hfil, if_pos hn, hc]; push_cast; rfl
        · rw [if_neg hn]
          have hn' : hasNeighbor h a b = false := by simpa using hn
          by_cases hcoin : coin k < prob
          · rw [if_pos hcoin]
            have hg := grows_link g ha hbl hba hn'
            have := ih (done ++ [b]) (k + 1) hl' hk' (link h a b) hg.inv (c + 1) (by
              rw [hfil, if_pos ((hg.inv.has_iff ha hbl).2 ((adj_link g ha hbl hba ha hbl).2 (Or.inr (Or.inl ⟨rfl, rfl⟩)))),
                hc]
              push_cast
              congr 2
              refine congrArg List.length (List.filter_congr fun x hx => ?_)
              have hxl : x ∈ l := by rw [← hl]; simp [hx]
              have hxb : x ≠ b := by
                intro e
                have hnd := g.nodup
                rw [← hl, List.nodup_append] at hnd
                exact hnd.2.2 x hx b (by simp) e
              rw [Bool.eq_iff_iff, g.has_iff ha hxl, hg.inv.has_iff ha hxl, adj_link g ha hbl hba ha hxl]
              constructor
              · exact Or.inl
              · rintro (e | ⟨-, e⟩ | ⟨e, -⟩)
                · exact e
                · exact absurd e hxb
                · exact absurd e hba) (by omega)
            exact ⟨hg.trans this.1, this.2⟩
          · rw [if_neg hcoin]
            refine ih (done ++ [b]) (k + 1) hl' hk' h g c ?_ hc2
            rw [hfil, if_neg hn, hc]; simp

/-! ### Degrees -/

/-- Scanning the agents for neighbours of `a` counts the entries of its neighbour map. -/
theorem GraphInv.degree {h : ℕ → Agent α} {l : List ℕ} (g : GraphInv h l) {a : ℕ} (ha : a ∈ l) :
    (l.filter fun b => hasNeighbor h a b).length = (h a).neighbors.length := by
  have hperm : ((l.filter fun b => hasNeighbor h a b).map fun b => ((h b).id, b)).Perm (h a).neighbors := by
    refine (List.perm_ext_iff_of_nodup ?_ ?_).2 fun p => ?_
    · refine (g.nodup.filter _).map_on fun x _ y _ e => ?_
      simp only [Prod.mk.injEq] at e; exact e.2
    · exact List.Nodup.of_map Prod.fst (g.keys a ha)
    · rw [List.mem_map]
      constructor
      · rintro ⟨b, hb, rfl⟩
        rw [List.mem_filter] at hb
        exact (g.has_iff ha hb.1).1 hb.2
      · intro hp
        obtain ⟨b, hb, -, rfl⟩ := g.mem a ha p hp
        exact ⟨b, List.mem_filter.2 ⟨hb, (g.has_iff ha hb).2 hp⟩, rfl⟩
  rw [← hperm.length_eq, List.length_map]

theorem GraphInv.degree_lt {h : ℕ → Agent α} {l : List ℕ} (g : GraphInv h l) {a : ℕ} (ha : a ∈ l) :
    (h a).neighbors.length + 1 ≤ l.length := by
  rw [← g.degree ha]
  have h1 : (l.filter fun b => hasNeighbor h a b).length ≤ (l.erase a).length := by
    refine List.Subperm.length_le (List.subperm_of_subset (g.nodup.filter _) fun x hx => ?_)
    rw [List.mem_filter] at hx
    refine (List.mem_erase_of_ne ?_).2 hx.1
    rintro rfl
    exact g.loopless ha ((g.has_iff ha ha).1 hx.2)
  rw [List.length_erase_of_mem ha] at h1
  have := List.length_pos_of_mem ha
  omega

/-- If every other agent is a neighbour, the degree is maximal. -/
theorem GraphInv.degree_full {h : ℕ → Agent α} {l : List ℕ} (g : GraphInv h l) {a : ℕ} (ha : a ∈ l)
    (hall : ∀ b ∈ l, b ≠ a → Spec.Adj h a b) : (h a).neighbors.length + 1 = l.length := by
  have h1 := g.degree_lt ha
  rw [← g.degree ha] at h1 ⊢
  have h2 : (l.erase a).length ≤ (l.filter fun b => hasNeighbor h a b).length := by
    refine List.Subperm.length_le (List.subperm_of_subset (g.nodup.erase a) fun x hx => ?_)
    rw [g.nodup.mem_erase_iff] at hx
    exact List.mem_filter.2 ⟨hx.2, (g.has_iff ha hx.2).2 (hall x hx.2 hx.1)⟩
  rw [List.length_erase_of_mem ha] at h2
  omega

/-- Sum of the degrees. -/
def Spec.degreeSum (h : ℕ → Agent α) (l : List ℕ) : ℕ := (l.map fun a => (h a).neighbors.length).sum

theorem degreeSum_link {h : ℕ → Agent α} {l : List ℕ} (g : GraphInv h l) {a b : ℕ} (ha : a ∈ l) (hb : b ∈ l) (hab : a ≠ b)
    (hn : hasNeighbor h a b = false) : Spec.degreeSum (link h a b) l = Spec.degreeSum h l + 2 := by
  unfold Spec.degreeSum
  have e : (l.map fun x => (link h a b x).neighbors.length) =
      l.map fun x => (h x).neighbors.length + ((if x = a then 1 else 0) + if x = b then 1 else 0) := by
    refine List.map_congr_left fun x _ => ?_
    rw [length_link g ha hb hab hn x]
    congr 1
    by_cases h1 : x = a
    · have h2 : x ≠ b := fun e => hab (h1.symm.trans e)
      simp [h1, hab]
    · by_cases h2 : x = b
      · simp [h2, hab.symm]
      · simp [h1, h2]
  rw [e, List.sum_map_add, List.sum_map_add]
  have cnt : ∀ (c : ℕ) (m : List ℕ), (m.map fun x => if x = c then 1 else 0).sum = m.count c := by
    intro c m
    induction m with
    | nil => rfl
    | cons x m ih => rw [List.map_cons, List.sum_cons, ih, List.count_cons]; simp; omega
  have one : ∀ c ∈ l, (l.map fun x => if x = c then 1 else 0).sum = 1 := by
    intro c hc
    rw [cnt, List.count_eq_one_of_mem g.nodup hc]
  rw [one a ha, one b hb]

/-! ### The turn of one agent -/

theorem connectLoop_sum (prob : α) (maxN : ℤ) (coin : ℕ → α) (l : List ℕ) (a i : ℕ) (ha : a ∈ l)
    (todo : List (ℕ × ℕ)) (ht : ∀ p ∈ todo, p.1 ∈ l ∧ (p.2 ≠ i → p.1 ≠ a))
    (h : ℕ → Agent α) (g : GraphInv h l) (c : ℤ) :
    (Spec.degreeSum (connectLoop prob maxN coin a i todo h c).1 l : ℤ) ≤
      Spec.degreeSum h l + 2 * ((connectLoop prob maxN coin a i todo h c).2 - c) := by
  induction todo generalizing h c with
  | nil => unfold connectLoop; simp
  | cons p ps ih =>
    obtain ⟨b, j⟩ := p
    have h0 := ht (b, j) (by simp)
    have ih := ih (fun q hq => ht q (by simp [hq]))
    unfold connectLoop
    split_ifs with h1 h2 h3 h4
    · exact ih h g c
    · simp
    · have := ih h g (c + 1); omega
    · have hn : hasNeighbor h a b = false := by simpa using h3
      have hab : a ≠ b := fun e => h0.2 h1 e.symm
      have := ih _ (g.link ha h0.1 hab) (c + 1)
      rw [degreeSum_link g ha h0.1 hab hn] at this
      push_cast at this; omega
    · exact ih h g c

theorem forceLoop_spec (minN : ℤ) (l : List ℕ) (pick : ℕ → ℕ) (a : ℕ) (ha : a ∈ l) (n k : ℕ) (h h' : ℕ → Agent α) (c : ℤ)
    (g : GraphInv h l) (hc : c ≤ (h a).neighbors.length) (e : forceLoop minN l pick a n k h c = some h') :
    Grows h h' l ∧ minN ≤ (h' a).neighbors.length ∧
    (Spec.degreeSum h' l : ℤ) ≤ Spec.degreeSum h l + 2 * max 0 (minN - c) := by
  induction n generalizing k h c with
  | zero =>
    unfold forceLoop at e
    split_ifs at e with h1
    cases e
    exact ⟨Grows.refl g, by omega, by omega⟩
  | succ n ih =>
    unfold forceLoop at e
    dsimp only at e
    have hb := getD_mem l (pick k) (List.ne_nil_of_mem ha)
    generalize l.getD (pick k % l.length) 0 = b at hb e
    split_ifs at e with h1 h2 h3
    · exact ih _ h c g hc e
    · exact ih _ h c g hc e
    · have hab : a ≠ b := fun x => h2 (by rw [x])
      have hn : hasNeighbor h a b = false := by simpa using h3
      have hg := grows_link g ha hb hab hn
      have hl := length_link g ha hb hab hn a
      rw [if_pos (Or.inl rfl)] at hl
      obtain ⟨i1, i2, i3⟩ := ih _ _ (c + 1) hg.inv (by rw [hl]; push_cast; omega) e
      rw [degreeSum_link g ha hb hab hn] at i3
      refine ⟨hg.trans i1, i2, ?_⟩
      push_cast at i3; omega
    · cases e
      exact ⟨Grows.refl g, by omega, by omega⟩

theorem zipIdx_facts (l : List ℕ) (hl : l.Nodup) (a i : ℕ) (hi : (a, i) ∈ l.zipIdx) :
    a ∈ l ∧ l[i]? = some a ∧ ∀ p ∈ l.zipIdx, p.1 ∈ l ∧ (p.2 ≠ i → p.1 ≠ a) := by
  have h1 : l[i]? = some a := List.mem_zipIdx_iff_getElem?.1 hi
  refine ⟨List.mem_of_getElem? h1, h1, fun p hp => ?_⟩
  have h2 : l[p.2]? = some p.1 := List.mem_zipIdx_iff_getElem?.1 hp
  refine ⟨List.mem_of_getElem? h2, fun hne e => hne ?_⟩
  have h3 : p.2 < l.length := (List.getElem?_eq_some_iff.1 h2).1
  exact (List.getElem?_inj h3 hl).1 (by rw [h2, h1, e])

/-- One agent's turn in the probabilistic construction. -/
theorem turn_spec (c : SwarmConfig α) (env : SwarmEnv α) (l : List ℕ) (a i : ℕ) (hi : (a, i) ∈ l.zipIdx)
    (h h' : ℕ → Agent α) (g : GraphInv h l)
    (hmin : 0 ≤ c.minNeighbors ∧ c.minNeighbors ≤ c.maxNeighbors)
    (e : ensureMinimum c.minNeighbors l (env.pick i) a env.fuel
      (connectLoop c.connectionProbability c.maxNeighbors (env.coin i) a i l.zipIdx h 0).1
      (connectLoop c.connectionProbability c.maxNeighbors (env.coin i) a i l.zipIdx h 0).2 = some h') :
    Grows (connectLoop c.connectionProbability c.maxNeighbors (env.coin i) a i l.zipIdx h 0).1 h' l ∧
    Grows h h' l ∧ (c.minNeighbors < l.length → c.minNeighbors ≤ (h' a).neighbors.length) ∧
    (Spec.degreeSum h' l : ℤ) ≤ Spec.degreeSum h l + 2 * c.maxNeighbors := by
  obtain ⟨ha, hget, hz⟩ := zipIdx_facts l g.nodup a i hi
  have h1 := connectLoop_spec c.connectionProbability c.maxNeighbors (env.coin i) l a i ha l [] 0 (by simp) (by simp) hget
    h g 0 (by simp) (by omega)
  have h2 := connectLoop_sum c.connectionProbability c.maxNeighbors (env.coin i) l a i ha l.zipIdx hz h g 0
  generalize connectLoop c.connectionProbability c.maxNeighbors (env.coin i) a i l.zipIdx h 0 = r at h1 h2 e
  obtain ⟨g1, g2, g3, g4⟩ := h1
  rw [g1.inv.degree ha] at g3 g4
  unfold ensureMinimum at e
  split_ifs at e with hc
  · obtain ⟨f1, f2, f3⟩ := forceLoop_spec c.minNeighbors l (env.pick i) a ha env.fuel 0 r.1 h' r.2 g1.inv g3 e
    exact ⟨f1, g1.trans f1, fun _ => f2, by omega⟩
  · cases e
    exact ⟨Grows.refl g1.inv, g1, fun hlt => by omega, by omega⟩

theorem prob_spec (c : SwarmConfig α) (env : SwarmEnv α) (l : List ℕ) (todo : List (ℕ × ℕ)) (ht : ∀ p ∈ todo, p ∈ l.zipIdx)
    (hmin : 0 ≤ c.minNeighbors ∧ c.minNeighbors ≤ c.maxNeighbors) (h h' : ℕ → Agent α) (g : GraphInv h l)
    (e : probabilisticConnections c env l todo h = some h') :
    Grows h h' l ∧ (c.minNeighbors < l.length → ∀ p ∈ todo, c.minNeighbors ≤ (h' p.1).neighbors.length) ∧
    (Spec.degreeSum h' l : ℤ) ≤ Spec.degreeSum h l + todo.length * (2 * c.maxNeighbors) := by
  induction todo generalizing h with
  | nil => cases e; exact ⟨Grows.refl g, fun _ p hp => by simp at hp, by simp⟩
  | cons p ps ih =>
    obtain ⟨a, i⟩ := p
    unfold probabilisticConnections at e
    dsimp only at e
    obtain ⟨h1, e1, e2⟩ := Option.bind_eq_some_iff.1 e
    obtain ⟨-, t1, t2, t3⟩ := turn_spec c env l a i (ht (a, i) (by simp)) h h1 g hmin e1
    obtain ⟨i1, i2, i3⟩ := ih (fun q hq => ht q (by simp [hq])) h1 t1.inv e2
    refine ⟨t1.trans i1, fun hlt q hq => ?_, ?_⟩
    · rcases List.mem_cons.1 hq with rfl | hq
      · have := i1.len a
        have := t2 hlt
        dsimp only; omega
      · exact i2 hlt q hq
    · rw [List.length_cons]; push_cast; linarith

/-! ### The minimal construction -/

theorem minimalLoop_spec (minN : ℤ) (l : List ℕ) (pick : ℕ → ℕ) (a : ℕ) (ha : a ∈ l) (n k : ℕ) (h : ℕ → Agent α) (c : ℤ)
    (g : GraphInv h l) (hc : c ≤ (h a).neighbors.length) :
    (minN ≤ ((minimalLoop minN l pick a n k h c) a).neighbors.length ∨
      (l.length : ℤ) - 1 ≤ ((minimalLoop minN l pick a n k h c) a).neighbors.length ∨
      ∀ j, k ≤ j → j < k + n → l.getD (pick j % l.length) 0 ≠ a →
        Spec.Adj (minimalLoop minN l pick a n k h c) a (l.getD (pick j % l.length) 0)) ∧
    (Spec.degreeSum (minimalLoop minN l pick a n k h c) l : ℤ) ≤ Spec.degreeSum h l + 2 * max 0 (minN - c) := by
  induction n generalizing k h c with
  | zero => exact ⟨Or.inr (Or.inr fun j h1 h2 => by omega), by unfold minimalLoop; omega⟩
  | succ n ih =>
    have hb := getD_mem l (pick k) (List.ne_nil_of_mem ha)
    have key : ∀ (h1 : ℕ → Agent α) (c1 : ℤ), GraphInv h1 l →
        (l.getD (pick k % l.length) 0 ≠ a → Spec.Adj h1 a (l.getD (pick k % l.length) 0)) →
        (minN ≤ ((minimalLoop minN l pick a n (k + 1) h1 c1) a).neighbors.length ∨
          (l.length : ℤ) - 1 ≤ ((minimalLoop minN l pick a n (k + 1) h1 c1) a).neighbors.length ∨
          ∀ j, k + 1 ≤ j → j < k + 1 + n → l.getD (pick j % l.length) 0 ≠ a →
            Spec.Adj (minimalLoop minN l pick a n (k + 1) h1 c1) a (l.getD (pick j % l.length) 0)) →
        (minN ≤ ((minimalLoop minN l pick a n (k + 1) h1 c1) a).neighbors.length ∨
          (l.length : ℤ) - 1 ≤ ((minimalLoop minN l pick a n (k + 1) h1 c1) a).neighbors.length ∨
          ∀ j, k ≤ j → j < k + (n + 1) → l.getD (pick j % l.length) 0 ≠ a →
            Spec.Adj (minimalLoop minN l pick a n (k + 1) h1 c1) a (l.getD (pick j % l.length) 0)) := by
      intro h1 c1 g1 hk hor
      rcases hor with x | x | x
      · exact Or.inl x
      · exact Or.inr (Or.inl x)
      · refine Or.inr (Or.inr fun j j1 j2 hne => ?_)
        rcases Nat.eq_or_lt_of_le j1 with rfl | j1
        · exact (grows_minimalLoop minN l pick a ha n (k + 1) h1 c1 g1).adj a ha _ hb (hk hne)
        · exact x j j1 (by omega) hne
    unfold minimalLoop
    dsimp only
    by_cases h1 : c < minN ∧ c < (l.length : ℤ) - 1
    · rw [if_pos h1]
      by_cases h2 : (h (l.getD (pick k % l.length) 0)).id ≠ (h a).id ∧ hasNeighbor h a (l.getD (pick k % l.length) 0) = false
      · rw [if_pos h2]
        have hab : a ≠ l.getD (pick k % l.length) 0 := fun e => h2.1 (by rw [← e])
        have hg := grows_link g ha hb hab h2.2
        have hl := length_link g ha hb hab h2.2 a
        rw [if_pos (Or.inl rfl)] at hl
        obtain ⟨i1, i2⟩ := ih (k + 1) _ (c + 1) hg.inv (by rw [hl]; push_cast; omega)
        rw [degreeSum_link g ha hb hab h2.2] at i2
        refine ⟨key _ _ hg.inv (fun _ => (adj_link g ha hb hab ha hb).2 (Or.inr (Or.inl ⟨rfl, rfl⟩))) i1, ?_⟩
        push_cast at i2; omega
      · rw [if_neg h2]
        obtain ⟨i1, i2⟩ := ih (k + 1) h c g hc
        refine ⟨key _ _ g (fun hne => ?_) i1, i2⟩
        rw [← g.has_iff ha hb]
        by_contra hn
        exact h2 ⟨fun e => hne (g.id_inj hb ha e), by simpa using hn⟩
    · rw [if_neg h1]
      refine ⟨?_, by omega⟩
      by_cases h3 : minN ≤ c
      · exact Or.inl (by omega)
      · exact Or.inr (Or.inl (by omega))

theorem minimal_spec (minN : ℤ) (hm : 0 ≤ minN) (l : List ℕ) (hlt : minN < l.length) (pick : ℕ → ℕ → ℕ) (todo : List (ℕ × ℕ))
    (ht : ∀ p ∈ todo, p.1 ∈ l) (h : ℕ → Agent α) (g : GraphInv h l) :
    ((∀ p ∈ todo, ∀ j < l.length, ∃ k < 2 * l.length, pick p.2 k % l.length = j) →
      ∀ p ∈ todo, minN ≤ ((minimalConnections minN l pick todo h) p.1).neighbors.length) ∧
    (Spec.degreeSum (minimalConnections minN l pick todo h) l : ℤ) ≤ Spec.degreeSum h l + todo.length * (2 * minN) := by
  induction todo generalizing h with
  | nil => exact ⟨fun _ p hp => by simp at hp, by unfold minimalConnections; simp⟩
  | cons p ps ih =>
    obtain ⟨a, i⟩ := p
    have ha : a ∈ l := ht (a, i) (by simp)
    obtain ⟨s1, s2⟩ := minimalLoop_spec minN l (pick i) a ha (l.length * 2) 0 h 0 g (by omega)
    have g1 := grows_minimalLoop minN l (pick i) a ha (l.length * 2) 0 h 0 g
    unfold minimalConnections
    generalize minimalLoop minN l (pick i) a (l.length * 2) 0 h 0 = h1 at s1 s2 g1 ⊢
    have hps : ∀ p ∈ ps, p.1 ∈ l := fun q hq => ht q (by simp [hq])
    obtain ⟨i1, i2⟩ := ih hps h1 g1.inv
    have g2 := grows_minimal minN l pick ps hps h1 g1.inv
    refine ⟨fun hf q hq => ?_, ?_⟩
    · rcases List.mem_cons.1 hq with rfl | hq
      · have hlen := g2.len a
        have : minN ≤ (h1 a).neighbors.length := by
          rcases s1 with x | x | x
          · exact x
          · omega
          · have := g1.inv.degree_full ha fun b hb hne => by
              obtain ⟨j, hj, rfl⟩ := List.getElem_of_mem hb
              obtain ⟨k, hk, e⟩ := hf (a, i) (by simp) j hj
              have hget : l.getD (pick i k % l.length) 0 = l[j] := by
                dsimp only at e
                rw [e, List.getD_eq_getElem?_getD, List.getElem?_eq_getElem hj]; rfl
              have := x k (by omega) (by omega)
              rw [hget] at this
              exact this hne
            omega
        dsimp only; omega
      · exact i1 (fun p hp => hf p (by simp [hp])) q hq
    · rw [List.length_cons]; push_cast
      have : max 0 (minN - 0) = minN := by omega
      rw [this] at s2; linarith

end generic
end Verif
