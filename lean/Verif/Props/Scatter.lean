import Verif.Props.Adjust
import Verif.Props.ConsensusPanel

/-!
# C110: scattering a swarm that is more coherent than it should be
-/

set_option autoImplicit false
set_option linter.unusedSectionVars false

namespace Verif
open GoMath Spec

local notation "π" => Real.pi

theorem scatterLoop_other {α : Type} [Zero α] [One α] [Add α] [Sub α] [Mul α] [Div α] [Neg α] [LT α] [LE α]
    [DecidableLT α] [DecidableLE α] [BEq α] [OfScientific α] [GoMath α] (word : ℕ → ℕ → ℕ) (l : List ℕ) (i : ℕ) (h : ℕ → Agent α) (x : ℕ) (hx : x ∉ l) :
    scatterLoop word l i h x = h x := by
  induction l generalizing i h with
  | nil => rfl
  | cons a l ih =>
    rw [scatterLoop, ih _ _ (fun hm => hx (by simp [hm]))]
    exact if_neg (fun e => hx (by simp [e]))

namespace Spec

/-- The agent's phase moved by `m`; nothing else changed. -/
def Moved (a a' : Agent ℝ) (m : ℝ) : Prop := SameAngle a'.state.phase (a.state.phase + m) ∧ 0 ≤ a'.state.phase ∧ a'.state.phase < 2 * π ∧
  a' = { a with state := { a.state with phase := a'.state.phase } }

/-- The swarm after `n` scatters. -/
noncomputable def scattered (word : ℕ → ℕ → ℕ → ℕ) (agents : List ℕ) (h : ℕ → Agent ℝ) : ℕ → ℕ → Agent ℝ
  | 0 => h
  | n + 1 => scatterLoop (word n) agents 0 (scattered word agents h n)

end Spec

/-- **C110** When a low target is exceeded, `applyPatternCompletion` moves each agent once, by at most 0.15π either way, and touches nothing else. -/
theorem C110_once (c : AdjustCtx ℝ) (hlow : c.targetCoherence < 0.4) (hex : c.targetCoherence < c.coherence) (word : ℕ → ℕ → ℕ) (agents : List ℕ)
    (hn : agents.Nodup) (h : ℕ → Agent ℝ) :
    (∀ x, x ∉ agents → applyCompletion c word agents h x = h x) ∧
    ∀ x ∈ agents, ∃ m, |m| ≤ 0.15 * π ∧ Moved (h x) (applyCompletion c word agents h x) m := by
  have hp := Real.pi_pos
  unfold applyCompletion
  rw [if_pos ⟨hlow, hex⟩]
  refine ⟨fun x hx => scatterLoop_other word agents 0 h x hx, ?_⟩
  have key : ∀ (l : List ℕ) (j : ℕ) (h : ℕ → Agent ℝ), l.Nodup → ∀ x ∈ l, ∃ m, |m| ≤ 0.15 * π ∧ Moved (h x) (scatterLoop word l j h x) m := by
    intro l
    induction l with
    | nil => intro j h _ x hx; simp at hx
    | cons a l ih =>
      intro j h hnd x hx
      rw [List.nodup_cons] at hnd
      rw [scatterLoop]
      by_cases hxa : x = a
      · subst hxa
        rw [scatterLoop_other word l _ _ x hnd.1]
        have e : setAt h x (scatterAgent (h x) (word j 0)) x = scatterAgent (h x) (word j 0) := if_pos rfl
        rw [e]
        obtain ⟨r0, r1⟩ := randFloat64_real_mem (word j 0)
        refine ⟨(randFloat64 (word j 0) - 0.5) * π * 0.3, ?_, ?_, wrapPhase_nonneg _, wrapPhase_lt _, rfl⟩
        · rw [abs_le]
          constructor <;> norm_num <;> nlinarith
        · have := wrapPhase_sameAngle ((h x).state.phase + (randFloat64 (word j 0) - 0.5) * π * 0.3)
          have e2 : (scatterAgent (h x) (word j 0)).state.phase = wrapPhase ((h x).state.phase + (randFloat64 (word j 0) - 0.5) * π * 0.3) := by
            unfold scatterAgent
            rw [setPhase_phase, GoMath.piMul_real]
            norm_num
          rw [e2]; exact this
      · have hxl : x ∈ l := by simpa [hxa] using hx
        have e : setAt h a (scatterAgent (h a) (word j 0)) x = h x := if_neg hxa
        have := ih (j + 1) (setAt h a (scatterAgent (h a) (word j 0))) hnd.2 x hxl
        rwa [e] at this
  exact fun x hx => key agents 0 h hn x hx

theorem scatter_moved (word : ℕ → ℕ → ℕ) (agents : List ℕ) (hn : agents.Nodup) (h : ℕ → Agent ℝ) (x : ℕ) (hx : x ∈ agents) :
    ∃ m, |m| ≤ 0.15 * π ∧ Moved (h x) (scatterLoop word agents 0 h x) m := by
  let c : AdjustCtx ℝ := { calm with targetCoherence := 0.2 }
  have := (C110_once c (by norm_num [c]) (by norm_num [c, calm]) word agents hn h).2 x hx
  have e : applyCompletion c word agents h = scatterLoop word agents 0 h := by
    unfold applyCompletion
    exact if_pos ⟨by norm_num [c], by norm_num [c, calm]⟩
  rwa [e] at this

theorem unit_sameAngle {a b : ℝ} (h : SameAngle a b) : Spec.unit a = Spec.unit b := by
  obtain ⟨k, hk⟩ := h
  rw [hk, unit_add]
  have : Spec.unit ((k : ℝ) * (2 * π)) = 1 := by
    unfold Spec.unit
    rw [Complex.exp_eq_one_iff]
    exact ⟨k, by push_cast; ring⟩
  rw [this, mul_one]

/-- **C110** One scatter changes the coherence by at most 2·sin(0.075π), which is 0.467. -/
theorem C110_change (word : ℕ → ℕ → ℕ) (agents : List ℕ) (hn : agents.Nodup) (h : ℕ → Agent ℝ) :
    |measureCoherence (agents.map fun x => (scatterLoop word agents 0 h x).state.phase) - measureCoherence (agents.map fun x => (h x).state.phase)| ≤
      2 * Real.sin (0.075 * π) := by
  have hp := Real.pi_pos
  have hs0 : 0 ≤ Real.sin (0.075 * π) := Real.sin_nonneg_of_nonneg_of_le_pi (by positivity) (by norm_num; linarith)
  rcases List.eq_nil_or_concat agents with rfl | ⟨l', x', hl'⟩
  · simp [C03_coherence_nil, hs0]
  have hpos : (0 : ℝ) < agents.length := by rw [hl']; simp; positivity
  have key : ∀ l : List ℕ, (∀ x ∈ l, x ∈ agents) →
      ‖total (l.map fun x => (scatterLoop word agents 0 h x).state.phase) - total (l.map fun x => (h x).state.phase)‖ ≤ l.length * (2 * Real.sin (0.075 * π)) := by
    intro l hl
    induction l with
    | nil => simp [total]
    | cons a l ih =>
      obtain ⟨m, hm, hmv, -⟩ := scatter_moved word agents hn h a (hl a (by simp))
      have i := ih fun x hx => hl x (by simp [hx])
      have e : ∀ (f : ℕ → ℝ), total ((a :: l).map f) = Spec.unit (f a) + total (l.map f) := fun f => by simp [total]
      rw [e, e, unit_sameAngle hmv, unit_add]
      have hu : ‖Spec.unit (h a).state.phase * Spec.unit m - Spec.unit (h a).state.phase‖ ≤ 2 * Real.sin (0.075 * π) := by
        have : Spec.unit (h a).state.phase * Spec.unit m - Spec.unit (h a).state.phase = Spec.unit (h a).state.phase * (Spec.unit m - 1) := by ring
        rw [this, norm_mul, norm_unit, one_mul, unit_sub_one]
        have h2 : |m / 2| ≤ 0.075 * π := by
          rw [abs_div, abs_of_pos (show (0 : ℝ) < 2 by norm_num), div_le_iff₀ (by norm_num)]
          norm_num at hm ⊢; linarith
        rw [Real.abs_sin_eq_sin_abs_of_abs_le_pi (h2.trans (by norm_num; linarith))]
        have := Real.sin_le_sin_of_le_of_le_pi_div_two (by linarith [abs_nonneg (m / 2)]) (by norm_num; linarith) h2
        linarith
      calc _ = ‖(Spec.unit (h a).state.phase * Spec.unit m - Spec.unit (h a).state.phase) +
            (total (l.map fun x => (scatterLoop word agents 0 h x).state.phase) - total (l.map fun x => (h x).state.phase))‖ := by congr 1; ring
        _ ≤ _ := norm_add_le _ _
        _ ≤ _ := by rw [List.length_cons]; push_cast; linarith
  have := key agents fun x hx => hx
  rw [C03_coherence_eq_orderParameter, C03_coherence_eq_orderParameter, orderParameter_eq_total, orderParameter_eq_total, List.length_map, List.length_map,
    ← sub_div, abs_div, abs_of_pos hpos, div_le_iff₀ hpos]
  refine (abs_norm_sub_norm_le _ _).trans (this.trans_eq (by ring))

/-- **C110** From a fully synchronised swarm `n ≤ 6` scatters leave a coherence of at least `cos (0.15·n·π)`. -/
theorem C110_synchronised (word : ℕ → ℕ → ℕ → ℕ) (agents : List ℕ) (hn : agents.Nodup) (hne : agents ≠ []) (h : ℕ → Agent ℝ) (φ : ℝ)
    (hφ : ∀ x ∈ agents, (h x).state.phase = φ) (n : ℕ) (h6 : n ≤ 6) :
    Real.cos (0.15 * n * π) ≤ measureCoherence (agents.map fun x => (scattered word agents h n x).state.phase) := by
  have hp := Real.pi_pos
  have hmv : ∀ n : ℕ, ∀ x ∈ agents, ∃ m, |m| ≤ 0.15 * n * π ∧ SameAngle (scattered word agents h n x).state.phase (φ + m) := by
    intro n
    induction n with
    | zero => exact fun x hx => ⟨0, by simp, ⟨0, by simp [scattered, hφ x hx]⟩⟩
    | succ n ih =>
      intro x hx
      obtain ⟨m, hm, k, hk⟩ := ih x hx
      obtain ⟨m', hm', ⟨k', hk'⟩, -⟩ := scatter_moved (word n) agents hn (scattered word agents h n) x hx
      refine ⟨m + m', (abs_add_le _ _).trans ?_, ⟨k + k', ?_⟩⟩
      · push_cast; linarith
      · show (scatterLoop (word n) agents 0 (scattered word agents h n) x).state.phase = _
        rw [hk', hk]; push_cast; ring
  have hpos : (0 : ℝ) < agents.length := by exact_mod_cast List.length_pos_of_ne_nil hne
  rw [C03_coherence_eq_orderParameter, orderParameter_eq_total, List.length_map, le_div_iff₀ hpos]
  refine le_trans ?_ (re_le_norm_total _ φ)
  have key : ∀ l : List ℕ, (∀ x ∈ l, x ∈ agents) →
      Real.cos (0.15 * n * π) * l.length ≤ ((l.map fun x => (scattered word agents h n x).state.phase).map fun p => Real.cos (p - φ)).sum := by
    intro l hl
    induction l with
    | nil => simp
    | cons a l ih =>
      obtain ⟨m, hm, k, hk⟩ := hmv n a (hl a (by simp))
      have i := ih fun x hx => hl x (by simp [hx])
      have e : Real.cos ((scattered word agents h n a).state.phase - φ) = Real.cos m := by
        rw [hk]
        rw [show φ + m + (k : ℝ) * (2 * π) - φ = m + k * (2 * π) by ring, Real.cos_add_int_mul_two_pi]
      have hc : Real.cos (0.15 * n * π) ≤ Real.cos m := by
        rw [← Real.cos_abs m]
        have h6' : (n : ℝ) ≤ 6 := by exact_mod_cast h6
        exact Real.cos_le_cos_of_nonneg_of_le_pi (abs_nonneg _) (by norm_num; nlinarith) hm
      simp only [List.map_cons, List.sum_cons, List.length_cons, e]
      push_cast
      linarith
  exact key agents fun x hx => hx

/-- **C110** So from synchrony at least three scatters are needed to come below 0.4, whatever the random numbers. -/
theorem C110_three (word : ℕ → ℕ → ℕ → ℕ) (agents : List ℕ) (hn : agents.Nodup) (hne : agents ≠ []) (h : ℕ → Agent ℝ) (φ : ℝ)
    (hφ : ∀ x ∈ agents, (h x).state.phase = φ) (n : ℕ) (h2 : n ≤ 2) :
    0.5 ≤ measureCoherence (agents.map fun x => (scattered word agents h n x).state.phase) := by
  have hp := Real.pi_pos
  refine le_trans ?_ (C110_synchronised word agents hn hne h φ hφ n (by omega))
  have : (0.5 : ℝ) = Real.cos (π / 3) := by rw [Real.cos_pi_div_three]; norm_num
  rw [this]
  have h2' : (n : ℝ) ≤ 2 := by exact_mod_cast h2
  exact Real.cos_le_cos_of_nonneg_of_le_pi (by positivity) (by linarith) (by norm_num; nlinarith)

/-- A swarm more coherent than its low target does not become more coherent by the adjustment. -/
def C110_claim : Prop := ∀ (c : AdjustCtx ℝ) (word : ℕ → ℕ → ℕ) (agents : List ℕ) (h : ℕ → Agent ℝ), agents.Nodup → c.targetCoherence < 0.4 →
  c.coherence = measureCoherence (agents.map fun x => (h x).state.phase) → c.targetCoherence < c.coherence →
  measureCoherence (agents.map fun x => (applyCompletion c word agents h x).state.phase) ≤ c.coherence

/-- **C110** False: two agents may be moved onto each other. -/
theorem C110_refuted : ¬ C110_claim := by
  intro hcl
  have hp := Real.pi_pos
  let ag : ℝ → Agent ℝ := fun p => { (Agent.zero : Agent ℝ) with state := { (Agent.zero : Agent ℝ).state with phase := p } }
  let h : ℕ → Agent ℝ := fun x => if x = 0 then ag 0 else ag (0.15 * π)
  let word : ℕ → ℕ → ℕ := fun i _ => if i = 0 then 2 ^ 52 else 0
  have h0 : (h 0).state.phase = 0 := rfl
  have h1 : (h 1).state.phase = 0.15 * π := rfl
  have hl : ([0, 1].map fun x => (h x).state.phase) = [0, 0.15 * π] := by simp [h0, h1]
  have hcoh : measureCoherence [0, 0.15 * π] < 1 := by
    refine lt_of_le_of_ne (C03_coherence_range _).2 fun e => ?_
    obtain ⟨k, hk⟩ := ((C03_coherence_eq_one_iff _).1 e).2 (0.15 * π) (by simp) 0 (by simp)
    have : (0.15 : ℝ) = 2 * k := by
      have : π * (0.15 - 2 * k) = 0 := by rw [mul_sub]; linarith
      rcases mul_eq_zero.1 this with h | h <;> linarith
    have h2 : (3 : ℤ) = 40 * k := by
      have : (3 : ℝ) = 40 * k := by norm_num at this; linarith
      exact_mod_cast this
    omega
  have hlow : 0.2 < measureCoherence [0, 0.15 * π] := by
    rw [C03_coherence_eq_orderParameter, orderParameter_eq_total, lt_div_iff₀ (by simp)]
    refine lt_of_lt_of_le ?_ (re_le_norm_total _ 0)
    have : 0 ≤ Real.cos (0.15 * π) := Real.cos_nonneg_of_neg_pi_div_two_le_of_le (by norm_num; linarith) (by norm_num; linarith)
    simp
    norm_num at this ⊢; linarith
  let c : AdjustCtx ℝ := { calm with targetCoherence := 0.2, coherence := measureCoherence [0, 0.15 * π] }
  have := hcl c word [0, 1] h (by decide) (by norm_num [c]) (by rw [hl]) hlow
  have e : applyCompletion c word [0, 1] h = scatterLoop word [0, 1] 0 h := by
    unfold applyCompletion
    exact if_pos ⟨by norm_num [c], hlow⟩
  rw [e] at this
  have r0 : (randFloat64 (2 ^ 52) : ℝ) = 0.5 := by
    simp only [randFloat64, GoMath.ofInt_real]; norm_num
  have r1 : (randFloat64 0 : ℝ) = 0 := by simp [randFloat64]
  have w0 : wrapPhase (0 : ℝ) = 0 := wrapPhase_of_mem le_rfl (by positivity)
  have p0 : (scatterLoop word [0, 1] 0 h 0).state.phase = 0 := by
    show (scatterAgent (h 0) (2 ^ 52)).state.phase = 0
    unfold scatterAgent
    rw [setPhase_phase, h0, r0, sub_self, zero_mul, zero_mul, add_zero, w0]
  have p1 : (scatterLoop word [0, 1] 0 h 1).state.phase = 0 := by
    show (scatterAgent (h 1) 0).state.phase = 0
    unfold scatterAgent
    rw [setPhase_phase, h1, r1, GoMath.piMul_real, show 0.15 * π + (0 - 0.5) * (((1 : ℚ) : ℝ) * π) * 0.3 = 0 by norm_num; ring, w0]
  have hfull : measureCoherence ([0, 1].map fun x => (scatterLoop word [0, 1] 0 h x).state.phase) = 1 := by
    rw [C03_coherence_eq_one_iff]
    refine ⟨by simp, ?_⟩
    simp only [List.map_cons, List.map_nil, p0, p1]
    intro a ha b hb
    simp at ha hb
    rw [ha, hb]; exact ⟨0, by simp⟩
  rw [hfull] at this
  exact absurd this (not_le.2 hcoh)

/-- Three synchronised agents, scattered twice. -/
example (word : ℕ → ℕ → ℕ → ℕ) (a : Agent ℝ) :
    0.5 ≤ measureCoherence ([0, 1, 2].map fun x => (scattered word [0, 1, 2] (fun _ => a) 2 x).state.phase) :=
  C110_three word [0, 1, 2] (by decide) (by simp) (fun _ => a) a.state.phase (fun _ _ => rfl) 2 le_rfl

end Verif
