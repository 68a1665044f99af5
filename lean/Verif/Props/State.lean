import Verif.Lemmas.Normalize

/-!
# C08–C10: validation and normalisation of goal states
-/

set_option autoImplicit false

namespace Verif
open Rounding

/-! ## C08 Validation -/

section
variable [Rounding] [LibM]
open F64

/-- Validation of IEEE states succeeds exactly on the meaningful ones. -/
theorem C08_validate_iff (s : State F64) :
    s.validate = [] ↔
      0 < s.frequency ∧ (∃ c : Dbl, s.coherence = fin c ∧ 0 ≤ c.1 ∧ c.1 ≤ 1) ∧ (∃ p : Dbl, s.phase = fin p) := by
  obtain ⟨p, f, c⟩ := s
  unfold State.validate
  rcases lt_or_ge 0 f with hf | hf
  · have hf' : ¬ f ≤ 0 := not_le.mpr hf
    cases p <;> cases c <;> simp [hf, hf', zero_def, one_def]
  · have hf' : ¬ 0 < f := not_lt.mpr hf
    simp [hf, hf']

/-- Each message is produced exactly for its own defect. -/
theorem C08_validate_messages (s : State F64) :
    (StateErr.frequencyNotPositive ∈ s.validate ↔ s.frequency ≤ 0) ∧
    (StateErr.coherenceNaN ∈ s.validate ↔ s.coherence = nan) ∧
    (StateErr.coherenceRange ∈ s.validate ↔ s.coherence = pinf ∨ s.coherence = ninf ∨
      ∃ c : Dbl, s.coherence = fin c ∧ (c.1 < 0 ∨ 1 < c.1)) ∧
    (StateErr.phaseNaN ∈ s.validate ↔ s.phase = nan) ∧
    (StateErr.phaseInf ∈ s.validate ↔ s.phase = pinf ∨ s.phase = ninf) := by
  obtain ⟨p, f, c⟩ := s
  have key : ∀ (e : StateErr) (q : Prop) [Decidable q] (a : StateErr) (l : List StateErr),
      e ∈ (if q then [a] else l) ↔ (q ∧ e = a) ∨ (¬ q ∧ e ∈ l) := by
    intro e q _ a l; split_ifs with h <;> simp [h]
  unfold State.validate
  simp only [List.mem_append, key]
  refine ⟨?_, ?_, ?_, ?_, ?_⟩
  · simp
  · cases c <;> simp
  · cases c <;> simp [zero_def, one_def]
  · cases p <;> simp
  · cases p <;> simp

example : ∃ s : State F64, s.validate = [] ∧ s.frequency = 5 :=
  ⟨⟨fin ⟨1, isDouble_one⟩, 5, fin ⟨1, isDouble_one⟩⟩,
    (C08_validate_iff _).mpr ⟨by norm_num, ⟨_, rfl, by norm_num, by norm_num⟩, ⟨_, rfl⟩⟩, rfl⟩

end

/-! ## C09 Normalisation -/

section
open Real

/-- Normalisation of a state with real-valued fields: for enough loop fuel (the loops terminate) it succeeds, and the
result is valid, keeps the angle, keeps everything already in range, and is a fixed point. -/
theorem C09_normalize_real (s : State ℝ) : ∃ s' : State ℝ,
    (∃ N, ∀ n ≥ N, s.normalizeAndValidate n = some (s', [])) ∧
    s'.validate = [] ∧
    0 ≤ s'.phase ∧ s'.phase < 2 * π ∧ Spec.SameAngle s'.phase s.phase ∧
    (0 ≤ s'.coherence ∧ s'.coherence ≤ 1 ∧ ∀ c, 0 ≤ c → c ≤ 1 → |s'.coherence - s.coherence| ≤ |c - s.coherence|) ∧
    0 < s'.frequency ∧ (0 < s.frequency → s'.frequency = s.frequency) ∧
    ∀ n, s'.normalizeAndValidate n = some (s', []) := by
  obtain ⟨N, hN⟩ := loops_real s.phase
  have hw0 := wrapPhase_nonneg s.phase
  have hw1 := wrapPhase_lt s.phase
  set c' : ℝ := if s.coherence < 0 then 0 else if s.coherence > 1 then 1 else s.coherence with hc'
  have c01 : 0 ≤ c' ∧ c' ≤ 1 := by
    rw [hc']; split_ifs <;> constructor <;> linarith
  set f' : ℤ := if s.frequency ≤ 0 then 100000000 else s.frequency with hf'
  have f0 : 0 < f' := by rw [hf']; split_ifs <;> omega
  let s' : State ℝ := ⟨wrapPhase s.phase, f', c'⟩
  have hv : s'.validate = [] := by
    simp only [State.validate, s', GoMath.isNaN_real, GoMath.isInf_real]
    have h1 : ¬ f' ≤ 0 := by omega
    have h2 : ¬ (c' < 0 ∨ c' > 1) := by
      rintro (h | h) <;> linarith [c01.1, c01.2]
    simp [h1, h2]
  have hnorm : ∀ n ≥ N, s.normalize n = some s' := by
    intro n hn
    simp only [State.normalize, GoMath.isNaN_real, GoMath.isInf_real, Bool.not_false, Bool.and_self, if_true, hN n hn,
      Option.map_some]
    rfl
  refine ⟨s', ⟨N, fun n hn => ?_⟩, hv, hw0, hw1, wrapPhase_sameAngle _, ⟨c01.1, c01.2, ?_⟩, f0, ?_, ?_⟩
  · unfold State.normalizeAndValidate
    rw [hnorm n hn, Option.map_some, Option.map_some, hv]
    simp
  · intro c h0 h1
    simp only [s', hc']
    split_ifs with ha hb
    · rw [abs_of_nonneg (by linarith), abs_of_nonneg (by linarith)]; linarith
    · rw [abs_of_nonpos (by linarith), abs_of_nonpos (by linarith)]; linarith
    · simp
  · intro h; simp only [s', hf']; rw [if_neg (by omega)]
  · intro n
    have h2 : (GoMath.piMul 2 : ℝ) = 2 * π := by simp
    have hl : (loopUp n s'.phase).bind (loopDown n) = some s'.phase := by
      have e1 : loopUp n s'.phase = some s'.phase := by
        cases n <;> rw [loopUp, if_neg (not_lt.mpr hw0)]
      have e2 : loopDown n s'.phase = some s'.phase := by
        cases n <;> rw [loopDown, h2, if_neg (not_le.mpr hw1)]
      rw [e1, Option.bind_some, e2]
    have hn : s'.normalize n = some s' := by
      simp only [State.normalize, GoMath.isNaN_real, GoMath.isInf_real, Bool.not_false, Bool.and_self, if_true, hl,
        Option.map_some]
      simp only [s']
      rw [if_neg (not_lt.mpr c01.1), if_neg (not_lt.mpr c01.2), if_neg (not_le.mpr f0)]
    unfold State.normalizeAndValidate
    rw [hn]
    simp [hv]

end

section
variable [Rounding] [LibM]
open F64

theorem loops_f64_of_some {x : Dbl} {n : ℕ} {p : F64} (h : (loopUp n (fin x : F64)).bind (loopDown n) = some p) :
    ∃ y : Dbl, p = fin y ∧ 0 ≤ y.1 ∧ y.1 < tau.1 := by
  by_cases hx : |x.1| ≤ 2 ^ 56
  · obtain ⟨N, y, hy, y0, y1⟩ := loops_f64 x hx
    have e1 := loops_mono (le_max_left n N) h
    have e2 := loops_mono (le_max_right n N) hy
    rw [e1] at e2
    exact ⟨y, Option.some.inj e2, y0, y1⟩
  · rw [loops_stuck x (not_le.mp hx)] at h
    cases h

theorem loops_f64_fixed {y : Dbl} (y0 : 0 ≤ y.1) (y1 : y.1 < tau.1) (n : ℕ) :
    (loopUp n (fin y : F64)).bind (loopDown n) = some (fin y) := by
  have e1 : loopUp n (fin y : F64) = some (fin y) := by
    cases n <;> rw [loopUp, if_neg (by simpa using y0)]
  have e2 : loopDown n (fin y : F64) = some (fin y) := by
    cases n <;> rw [loopDown, piMul_two, if_neg (by simpa using y1)]
  rw [e1, Option.bind_some, e2]

theorem normalize_f64_shape {s s' : State F64} {n : ℕ} (h : s.normalize n = some s') :
    s'.frequency = (if s.frequency ≤ 0 then 100000000 else s.frequency) ∧
    (s.coherence = nan → s'.coherence = nan) ∧
    (s.coherence ≠ nan → ∃ c : Dbl, s'.coherence = fin c ∧ 0 ≤ c.1 ∧ c.1 ≤ 1 ∧
      ∀ d : Dbl, s.coherence = fin d → 0 ≤ d.1 → d.1 ≤ 1 → c = d) ∧
    ((∃ x, s.phase = fin x) → ∃ y : Dbl, s'.phase = fin y ∧ 0 ≤ y.1 ∧ y.1 < tau.1) ∧
    ((¬ ∃ x, s.phase = fin x) → s'.phase = s.phase) := by
  obtain ⟨p, f, c⟩ := s
  unfold State.normalize at h
  rw [Option.map_eq_some_iff] at h
  obtain ⟨q, hq, rfl⟩ := h
  refine ⟨rfl, ?_, ?_, ?_, ?_⟩
  · rintro rfl; simp
  · intro hc
    cases c with
    | nan => exact absurd rfl hc
    | pinf => exact ⟨⟨1, isDouble_one⟩, by simp [zero_def, one_def], by norm_num, by norm_num, fun d h => by cases h⟩
    | ninf => exact ⟨⟨0, isDouble_zero⟩, by simp [zero_def], by norm_num, by norm_num, fun d h => by cases h⟩
    | fin d =>
      by_cases h0 : d.1 < 0
      · refine ⟨⟨0, isDouble_zero⟩, by simp [zero_def, h0], by norm_num, by norm_num, ?_⟩
        rintro d' ⟨⟩ h1 h2
        linarith
      · by_cases h1 : 1 < d.1
        · refine ⟨⟨1, isDouble_one⟩, by simp [zero_def, one_def, h0, h1], by norm_num, by norm_num, ?_⟩
          rintro d' ⟨⟩ h3 h2
          linarith
        · refine ⟨d, by simp [zero_def, one_def, h0, h1], not_lt.mp h0, not_lt.mp h1, ?_⟩
          rintro d' ⟨⟩ h3 h2
          rfl
  · rintro ⟨x, hx⟩
    simp only at hx
    subst hx
    simp only [isNaN_fin, isInf_fin, Bool.not_false, Bool.and_self, if_true] at hq
    exact loops_f64_of_some hq
  · intro hx
    cases p with
    | fin x => exact absurd ⟨x, rfl⟩ hx
    | nan => simpa using hq.symm
    | pinf => simpa using hq.symm
    | ninf => simpa using hq.symm

/-- Normalisation of IEEE states: whenever it returns, it reports failure exactly for NaN coherence or non-finite
phase; on success the stored state is valid with a phase in `[0, 2π)` (as a double), in-range coherence and positive
frequency are untouched, and a second normalisation changes nothing. -/
theorem C09_normalize_f64 (s s' : State F64) (errs : List StateErr) (n : ℕ)
    (h : s.normalizeAndValidate n = some (s', errs)) :
    (errs = [] ↔ s.coherence ≠ nan ∧ ∃ x, s.phase = fin x) ∧
    errs = s'.validate ∧
    (errs = [] → (∃ y : Dbl, s'.phase = fin y ∧ 0 ≤ y.1 ∧ y.1 < tau.1) ∧
      (0 < s.frequency → s'.frequency = s.frequency) ∧
      (∀ d : Dbl, s.coherence = fin d → 0 ≤ d.1 → d.1 ≤ 1 → s'.coherence = fin d) ∧
      ∀ m, s'.normalizeAndValidate m = some (s', [])) := by
  have hs : ∃ e', s.normalize n = some s' ∧ e' = errs ∧ (e' = s'.validate ∨ s.validate = [] ∧ e' = []) := by
    unfold State.normalizeAndValidate at h
    split_ifs at h with hv
    all_goals
      rw [Option.map_eq_some_iff] at h
      obtain ⟨t, ht, e⟩ := h
      injection e with e1 e2
      subst e1
    · exact ⟨_, ht, rfl, Or.inl e2.symm⟩
    · exact ⟨_, ht, rfl, Or.inr ⟨not_not.mp hv, e2.symm⟩⟩
  obtain ⟨e', hn, rfl, he⟩ := hs
  obtain ⟨hf, hc1, hc2, hp1, hp2⟩ := normalize_f64_shape hn
  have hf0 : 0 < s'.frequency := by rw [hf]; split_ifs <;> omega
  have hvalid : s'.validate = [] ↔ s.coherence ≠ nan ∧ ∃ x, s.phase = fin x := by
    rw [C08_validate_iff]
    constructor
    · rintro ⟨-, ⟨c, hc, -⟩, ⟨p, hp⟩⟩
      refine ⟨fun h => ?_, ?_⟩
      · rw [hc1 h] at hc; cases hc
      · by_contra hx
        exact hx ⟨p, by rw [← hp2 hx]; exact hp⟩
    · rintro ⟨h1, h2⟩
      obtain ⟨c, e, c0, c1, -⟩ := hc2 h1
      obtain ⟨y, ey, -⟩ := hp1 h2
      exact ⟨hf0, ⟨c, e, c0, c1⟩, ⟨y, ey⟩⟩
  have heq : e' = s'.validate := by
    rcases he with he | ⟨hv, he⟩
    · exact he
    · rw [he, eq_comm, hvalid]
      obtain ⟨-, ⟨c, hc, -⟩, hp⟩ := (C08_validate_iff s).mp hv
      exact ⟨by rw [hc]; simp, hp⟩
  refine ⟨by rw [heq]; exact hvalid, heq, fun h0 => ?_⟩
  rw [heq] at h0
  obtain ⟨h1, h2⟩ := hvalid.mp h0
  obtain ⟨c, ec, c0, c1, hd⟩ := hc2 h1
  obtain ⟨y, ey, y0, y1⟩ := hp1 h2
  refine ⟨⟨y, ey, y0, y1⟩, fun hfp => by rw [hf, if_neg (by omega)], fun d h3 h4 h5 => by rw [ec, hd d h3 h4 h5], ?_⟩
  intro m
  have hn' : s'.normalize m = some s' := by
    obtain ⟨p, f, cc⟩ := s'
    simp only at ey ec hf0
    subst ey ec
    simp only [State.normalize, isNaN_fin, isInf_fin, Bool.not_false, Bool.and_self, if_true, loops_f64_fixed y0 y1,
      Option.map_some]
    rw [if_neg (by omega), if_neg (by simpa using c0), if_neg (by simpa using c1)]
  unfold State.normalizeAndValidate
  rw [hn', h0]
  simp

/-! ## C10 Termination -/

/-- The claim: normalising any state whose phase is a finite number returns. -/
def C10_claim : Prop := ∀ s : State F64, (∃ x, s.phase = fin x) → ∃ n, s.normalizeAndValidate n ≠ none

omit [Rounding] [LibM] in
theorem isDouble_two_pow_60 : IsDouble (2 ^ 60 : ℝ) := ⟨1, 60, by norm_num, by norm_num, by norm_num, by norm_num⟩

/-- Exactly the phases of magnitude at most `2^56` can be normalised; beyond that the loop never exits. -/
theorem C10_terminates_iff (s : State F64) (x : Dbl) (hx : s.phase = fin x) :
    (∃ n, s.normalizeAndValidate n ≠ none) ↔ |x.1| ≤ 2 ^ 56 := by
  have hiff : ∀ n, s.normalizeAndValidate n = none ↔ (loopUp n (fin x : F64)).bind (loopDown n) = none := by
    intro n
    unfold State.normalizeAndValidate State.normalize
    rw [hx]
    simp only [isNaN_fin, isInf_fin, Bool.not_false, Bool.and_self, if_true]
    split_ifs <;> simp only [Option.map_eq_none_iff]
  constructor
  · rintro ⟨n, hn⟩
    by_contra hc
    exact hn ((hiff n).mpr (loops_stuck x (not_le.mp hc) n))
  · intro h
    obtain ⟨N, y, hy, -⟩ := loops_f64 x h
    exact ⟨N, fun hn => by rw [(hiff N).mp hn] at hy; cases hy⟩

/-- A phase of `2^60` is never normalised. -/
theorem C10_refuted : ¬ C10_claim := by
  intro h
  have := h ⟨fin ⟨2 ^ 60, isDouble_two_pow_60⟩, 1, 0⟩ ⟨_, rfl⟩
  rw [C10_terminates_iff _ _ rfl] at this
  norm_num at this

/-- What holds of C10: normalisation terminates for every finite phase of magnitude at most `2^56`
(about 7.2·10^16 rad), and in exact arithmetic for every phase (`C09_normalize_real`). -/
theorem C10_terminates_partial (s : State F64) (x : Dbl) (hx : s.phase = fin x) (hb : |x.1| ≤ 2 ^ 56) :
    ∃ n s' errs, s.normalizeAndValidate n = some (s', errs) := by
  obtain ⟨n, hn⟩ := (C10_terminates_iff s x hx).mpr hb
  obtain ⟨⟨s', e⟩, h⟩ := Option.ne_none_iff_exists'.mp hn
  exact ⟨n, s', e, h⟩

example : ∃ s : State F64, ∃ x : Dbl, s.phase = fin x ∧ |x.1| ≤ 2 ^ 56 ∧ s.validate ≠ [] :=
  ⟨⟨fin ⟨1, isDouble_one⟩, -3, nan⟩, _, rfl, by norm_num, fun h => by
    have := ((C08_validate_iff _).mp h).1; norm_num at this⟩

end
end Verif
