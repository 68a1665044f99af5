import Verif.Props.PatternsDouble

/-!
# C99: pattern templates and the library that identifies them
-/

set_option autoImplicit false
set_option linter.unusedSectionVars false

namespace Verif
open GoMath Spec

namespace Spec

/-- The patterns a template stands for: its base and its variations. -/
def members {α : Type} (t : Template α) : List (Temporal α) := t.base :: t.variations

end Spec

section
variable {α : Type} [Zero α] [One α] [Add α] [Sub α] [Mul α] [Div α] [Neg α] [LT α] [LE α]
  [DecidableLT α] [DecidableLE α] [BEq α] [OfScientific α] [GoMath α]

/-- **C99** A pattern matches a template exactly when it is similar enough to one of the patterns the template stands for. -/
theorem C99_matches (t : Template α) (p : Option (Temporal α)) :
    t.isMatch p = true ↔ ∃ m ∈ members t, 1 - t.tolerance ≤ m.similarity p := by
  unfold Template.isMatch members
  split_ifs with h
  · exact ⟨fun _ => ⟨t.base, by simp, h⟩, fun _ => rfl⟩
  · rw [List.any_eq_true]
    constructor
    · rintro ⟨m, hm, hs⟩
      exact ⟨m, by simp [hm], of_decide_eq_true hs⟩
    · rintro ⟨m, hm, hs⟩
      rcases List.mem_cons.1 hm with rfl | hm
      · exact absurd hs h
      · exact ⟨m, hm, decide_eq_true hs⟩

end

/-- **C99** Over the reals a template with a tolerance of at least 0 matches its base and each of its variations, whatever the others are. -/
theorem C99_own (t : Template ℝ) (h0 : 0 ≤ t.tolerance) (p : Temporal ℝ) (hp : p ∈ members t) (hn : p.phases ≠ []) (ha : 0 < p.amplitude)
    (hd : 0 < p.period) : t.isMatch (some p) = true :=
  (C99_matches t _).2 ⟨p, hp, by rw [C64_self p hn ha hd]; linarith⟩

/-- **C99** A tolerance of 1 accepts even a missing pattern. -/
theorem C99_anything (t : Template ℝ) (h : 1 ≤ t.tolerance) : t.isMatch none = true :=
  (C99_matches t _).2 ⟨t.base, by simp [members], by simp only [Temporal.similarity]; linarith⟩

/-- A pattern matched by a template of the library is identified as one that it matches. -/
def C99_claim : Prop := ∀ (lib : List (String × Template ℝ)) (p : Temporal ℝ), (lib.map Prod.fst).Nodup →
  (∃ t ∈ lib, t.2.isMatch (some p) = true) → ∃ t ∈ lib, t.1 = (identify lib (some p)).1 ∧ t.2.isMatch (some p) = true

/-- **C99** What holds of the claim: in a library without variations and with one tolerance below 1, a pattern is identified as a template
it matches if there is any, and otherwise as the most similar one that it does not match, or as none. The full claim is `C99_claim`. -/
theorem C99_identified_partial (lib : List (String × Template ℝ)) (tol : ℝ) (h1 : tol < 1) (h : ∀ t ∈ lib, t.2.variations = [] ∧ t.2.tolerance = tol)
    (p : Temporal ℝ) :
    (∃ t ∈ lib, t.2.isMatch (some p) = true) ↔
      ∃ t ∈ lib, t.1 = (identify lib (some p)).1 ∧ t.2.base.similarity (some p) = (identify lib (some p)).2 ∧ t.2.isMatch (some p) = true := by
  constructor
  · rintro ⟨t, ht, hm⟩
    obtain ⟨m, hmem, hs⟩ := (C99_matches t.2 _).1 hm
    rw [members, (h t ht).1, List.mem_singleton] at hmem
    rw [hmem, (h t ht).2] at hs
    obtain ⟨hmax, hid⟩ := C64_identify lib (some p)
    have hle := not_lt.1 (hmax t ht)
    rcases hid with hid | ⟨-, u, hu, hid⟩
    · rw [hid] at hle; dsimp only at hle; linarith
    · refine ⟨u, hu, by rw [hid], by rw [hid], (C99_matches u.2 _).2 ⟨u.2.base, by simp [members], ?_⟩⟩
      rw [hid] at hle; dsimp only at hle
      rw [(h u hu).2]; linarith
  · rintro ⟨t, ht, -, -, hm⟩
    exact ⟨t, ht, hm⟩

/-- A pattern with another period. -/
theorem similarity_period (p : Temporal ℝ) (q : ℤ) (hn : p.phases ≠ []) (ha : 0 < p.amplitude) (hd : 0 < p.period) :
    ({ p with period := q } : Temporal ℝ).similarity (some p) = 0.7 + 0.3 * (1 - min (|((q - p.period : ℤ) : ℝ)| / ((max q p.period : ℤ) : ℝ)) 1) := by
  have hs := C64_self p hn ha hd
  have n : p.phases.length ≠ 0 := fun h => hn (List.length_eq_zero_iff.1 h)
  unfold Temporal.similarity at hs ⊢
  dsimp only at hs ⊢
  rw [if_neg (not_or.2 ⟨n, n⟩)] at hs ⊢
  have e : (1 : ℝ) - fmin (GoMath.abs (ofInt (p.period - p.period)) / ofInt (max p.period p.period)) 1 = 1 := by simp
  rw [e] at hs
  simp only [GoMath.abs_real, GoMath.ofInt_real, GoMath.fmin_real] at hs ⊢
  linarith

/-- Two agents a radian apart, with a period of `k`. -/
noncomputable def pairPattern (k : ℤ) : Temporal ℝ := { phases := [0, 1], frequencies := [], amplitude := 1, period := k, confidence := 1 }

theorem pair_similar (k : ℤ) (hk : 1 ≤ k) : (pairPattern k).similarity (some (pairPattern 1)) = 0.7 + 0.3 * (1 / k) := by
  have h := similarity_period (pairPattern 1) k (by simp [pairPattern]) (by simp [pairPattern]) (by simp [pairPattern])
  have e : ({ pairPattern 1 with period := k } : Temporal ℝ) = pairPattern k := rfl
  have hk' : (1 : ℝ) ≤ k := by exact_mod_cast hk
  rw [e] at h
  rw [h]
  simp only [pairPattern]
  rw [max_eq_left hk, Int.cast_sub, Int.cast_one, abs_of_nonneg (by linarith), min_eq_left ((div_le_one (by linarith)).2 (by linarith))]
  have : (1 : ℝ) - (k - 1) / k = 1 / k := by field_simp; ring
  rw [this]

/-- A template whose variation is the pattern, and one whose base is more similar to the pattern than the first one's base. -/
noncomputable def twoTemplates : List (String × Template ℝ) :=
  [("a", { base := pairPattern 4, variations := [pairPattern 1], tolerance := 0 }), ("b", { base := pairPattern 2, variations := [], tolerance := 0 })]

/-- **C99** `Identify` looks neither at variations nor at tolerances: here the pattern is a variation of "a", and is identified as "b", which it does
not match. -/
theorem C99_wrong_template :
    ((identify twoTemplates (some (pairPattern 1))).1 = "b") ∧
    (∀ t ∈ twoTemplates, t.2.isMatch (some (pairPattern 1)) = true ↔ t.1 = "a") := by
  have h1 := pair_similar 1 le_rfl
  have h2 := pair_similar 2 (by norm_num)
  have h4 := pair_similar 4 (by norm_num)
  norm_num at h1 h2 h4
  constructor
  · simp only [twoTemplates, identify, List.foldl_cons, List.foldl_nil, identifyStep]
    rw [h4, if_pos (by norm_num : (31 / 40 : ℝ) > 0)]
    dsimp only
    rw [if_pos (by rw [h2]; norm_num)]
  · intro t ht
    simp only [twoTemplates, List.mem_cons, List.not_mem_nil, or_false] at ht
    rw [C99_matches]
    rcases ht with rfl | rfl
    · simp only [iff_true]
      exact ⟨pairPattern 1, by simp [members], by rw [h1]; norm_num⟩
    · simp only [members, List.mem_singleton, exists_eq_left, h2]
      constructor
      · intro h; norm_num at h
      · intro h; exact absurd h (by decide)

/-- A variation of "a" is identified as "b", which it does not match. -/
theorem C99_refuted : ¬ C99_claim := by
  intro h
  obtain ⟨w1, w2⟩ := C99_wrong_template
  have ha : ("a", ({ base := pairPattern 4, variations := [pairPattern 1], tolerance := 0 } : Template ℝ)) ∈ twoTemplates := by simp [twoTemplates]
  obtain ⟨t, ht, hn, hm⟩ := h twoTemplates (pairPattern 1) (by simp [twoTemplates]) ⟨_, ha, (w2 _ ha).2 rfl⟩
  have := (w2 t ht).1 hm
  rw [hn, w1] at this
  exact absurd this (by decide)

/-- The hypotheses of `C99_own` and `C99_identified_partial` are met by a library of two templates without variations. -/
example : (∀ t ∈ ([("a", { base := pairPattern 4, variations := [], tolerance := 0.5 }), ("b", { base := pairPattern 2, variations := [], tolerance := 0.5 })] :
      List (String × Template ℝ)), t.2.variations = [] ∧ t.2.tolerance = 0.5) ∧
    (pairPattern 4).phases ≠ [] ∧ 0 < (pairPattern 4).amplitude ∧ 0 < (pairPattern 4).period := by
  simp [pairPattern]

end Verif
