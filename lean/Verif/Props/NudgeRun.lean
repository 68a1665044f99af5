import Verif.Props.Scatter

/-!
# C111: repeated adjustments synchronise a swarm
-/

set_option autoImplicit false
set_option linter.unusedSectionVars false

namespace Verif
open GoMath Spec

local notation "π" => Real.pi

namespace Spec

/-- Successive adjustments of a swarm with the default configuration towards the phase `t`: `h n` are the agents before the n-th, `order n` the order in which it
visits them, `c n` what it has measured. The pattern has no phase gap, so that the completion asks for no common shift. -/
structure NudgeRun (agents : List ℕ) (t : ℝ) (c : ℕ → AdjustCtx ℝ) (order : ℕ → List ℕ) (word : ℕ → ℕ → ℕ → ℕ) (h : ℕ → ℕ → Agent ℝ) : Prop where
  nodup : agents.Nodup
  many : 7 ≤ agents.length
  perm : ∀ n, (order n).Perm agents
  step : ∀ n, h (n + 1) = applyCompletion (c n) (word n) (order n) (h n)
  cfg : ∀ n, (c n).cfg = minAPIConfig
  shift : ∀ n, (c n).phaseAdj = 0
  phase : ∀ n, (c n).targetPhase = t
  target : ∀ n, 0.4 ≤ (c n).targetCoherence
  size : ∀ n, (c n).sizeNormalized = min ((agents.length : ℝ) / 100) 1
  coherence : ∀ n, (c n).coherence = measureCoherence (agents.map fun x => (h n x).state.phase)

end Spec

theorem Spec.NudgeRun.usual {agents : List ℕ} {t : ℝ} {c : ℕ → AdjustCtx ℝ} {order : ℕ → List ℕ} {word : ℕ → ℕ → ℕ → ℕ} {h : ℕ → ℕ → Agent ℝ}
    (r : NudgeRun agents t c order word h) (n : ℕ) (hc : (c n).coherence ≤ 0.8) : Usual (c n) ∧ (c n).settled = false := by
  have h7 : (7 : ℝ) ≤ agents.length := by exact_mod_cast r.many
  have hr := C03_coherence_range (agents.map fun x => (h n x).state.phase)
  rw [← r.coherence n] at hr
  norm_num at hc
  refine ⟨⟨r.cfg n, r.shift n, ?_, ?_, hr.1, hr.2, ?_⟩, ?_⟩
  · rw [r.size n]; exact le_min (by norm_num; linarith) (by norm_num)
  · rw [r.size n]; exact min_le_right _ _
  · unfold AdjustCtx.spread
    rw [r.cfg n, Bool.and_eq_false_iff]
    left
    rw [decide_eq_false_iff_not]
    simp only [minAPIConfig]
    norm_num; linarith
  · unfold AdjustCtx.settled
    rw [r.cfg n, Bool.and_eq_false_iff]
    left
    rw [decide_eq_false_iff_not]
    simp only [minAPIConfig]
    norm_num; linarith

/-- **C111** As long as the coherence is at most 0.8, every agent's way forward to the target shrinks by at least six percent each time, until the agent is within
0.06 radians behind the target and rests. -/
theorem C111_contracts {agents : List ℕ} {t : ℝ} {c : ℕ → AdjustCtx ℝ} {order : ℕ → List ℕ} {word : ℕ → ℕ → ℕ → ℕ} {h : ℕ → ℕ → Agent ℝ}
    (r : NudgeRun agents t c order word h) (n : ℕ) (hc : ∀ k < n, (c k).coherence ≤ 0.8) (x : ℕ) (hx : x ∈ agents) (d : ℝ)
    (hd : IsForward (h 0 x).state.phase t d) :
    ∃ d', IsForward (h n x).state.phase t d' ∧ d' ≤ max 0.06 (0.94 ^ n * d) := by
  induction n with
  | zero => exact ⟨d, hd, by simp⟩
  | succ n ih =>
    obtain ⟨d', hd', hle⟩ := ih fun k hk => hc k (by omega)
    have hcn := hc n (by omega)
    obtain ⟨hu, hs⟩ := r.usual n hcn
    have hone : h (n + 1) x = adjustFrequency (c n).freqAdj (nudgeAgent (c n) (c n).scale (word n ((order n).idxOf x)) (h n x)) := by
      rw [r.step n]
      unfold applyCompletion
      rw [if_neg (fun hcon => absurd hcon.1 (not_lt.2 (r.target n)))]
      have hx' : x ∈ order n := (r.perm n).mem_iff.2 hx
      have hi := List.idxOf_lt_length_of_mem hx'
      have hb : (!(c n).spread && (c n).settled) = false := by rw [hs, Bool.and_false]
      have := (C108_once (c n) (word n) (order n) ((r.perm n).nodup_iff.2 r.nodup) (h n)).2 _ hi
      rw [List.getElem_idxOf, hb, (C108_scale _ _).2] at this
      rw [this]
      unfold adjustAgent
      rw [hu.spread, hs]
      rfl
    have hph : (h (n + 1) x).state.phase = (nudgeAgent (c n) (c n).scale (word n ((order n).idxOf x)) (h n x)).state.phase := by
      rw [hone, adjustFrequency_phase]
    rw [hph]
    have hd'' : IsForward (h n x).state.phase (c n).targetPhase d' := by rw [r.phase n]; exact hd'
    have hthr : (c n).threshold ≤ 0.06 := by
      unfold AdjustCtx.threshold
      have := hu.size0
      norm_num at hcn this ⊢
      linarith
    rcases le_or_gt d' (c n).threshold with hth | hth
    · rw [(C109_rest (c n) hu _ _ d' hd'' hth).1 hcn]
      exact ⟨d', hd', le_max_of_le_left (hth.trans hthr)⟩
    · obtain ⟨d2, hd2, hb⟩ := C109_forward (c n) hu (word n ((order n).idxOf x)) _ d' hd'' hth
      rw [r.phase n] at hd2
      refine ⟨d2, hd2, hb.trans ?_⟩
      rcases le_max_iff.1 hle with h' | h'
      · refine le_max_of_le_left ?_
        norm_num at h' ⊢; linarith
      · refine le_max_of_le_right ?_
        calc 0.94 * d' ≤ 0.94 * (0.94 ^ n * d) := mul_le_mul_of_nonneg_left h' (by norm_num)
          _ = _ := by ring

/-- **C111** Within 38 adjustments the coherence exceeds 0.8 at least once, whatever the phases, the random numbers and the orders in which agents are visited. -/
theorem C111_synchronises {agents : List ℕ} {t : ℝ} {c : ℕ → AdjustCtx ℝ} {order : ℕ → List ℕ} {word : ℕ → ℕ → ℕ → ℕ} {h : ℕ → ℕ → Agent ℝ}
    (r : NudgeRun agents t c order word h) : ∃ n ≤ 38, 0.8 < measureCoherence (agents.map fun x => (h n x).state.phase) := by
  by_contra hcon
  have hall : ∀ n ≤ 38, (c n).coherence ≤ 0.8 := by
    intro n hn
    by_contra h'
    exact hcon ⟨n, hn, by rw [← r.coherence n]; exact not_le.1 h'⟩
  have hlast := hall 38 le_rfl
  refine absurd hlast (not_le.2 ?_)
  rw [r.coherence 38]
  have hp := Real.pi_pos
  have hp4 := Real.pi_lt_d2
  have hpos : (0 : ℝ) < agents.length := by have := r.many; exact_mod_cast (by omega : 0 < agents.length)
  rw [C03_coherence_eq_orderParameter, orderParameter_eq_total, List.length_map, lt_div_iff₀ hpos]
  have hcos : 0.8 < Real.cos 0.61 := by
    have := Real.one_sub_sq_div_two_le_cos (x := 0.61)
    refine lt_of_lt_of_le ?_ this
    norm_num
  refine lt_of_lt_of_le ?_ (re_le_norm_total _ t)
  have key : ∀ l : List ℕ, (∀ x ∈ l, x ∈ agents) →
      Real.cos 0.61 * l.length ≤ ((l.map fun x => (h 38 x).state.phase).map fun p => Real.cos (p - t)).sum := by
    intro l hl
    induction l with
    | nil => simp
    | cons a l ih =>
      have i := ih fun x hx => hl x (by simp [hx])
      obtain ⟨d', hd', hle⟩ := C111_contracts r 38 (fun k hk => hall k (by omega)) a (hl a (by simp)) _ (isForward_wrap (h 0 a).state.phase t)
      have hw := wrapPhase_lt (t - (h 0 a).state.phase)
      have hsmall : d' ≤ 0.61 := by
        refine hle.trans (max_le (by norm_num) ?_)
        have h94 : (0.94 : ℝ) ^ 38 ≤ 0.0954 := by norm_num
        have hw0 := wrapPhase_nonneg (t - (h 0 a).state.phase)
        calc (0.94 : ℝ) ^ 38 * wrapPhase (t - (h 0 a).state.phase) ≤ 0.0954 * (2 * π) := mul_le_mul h94 hw.le hw0 (by norm_num)
          _ ≤ _ := by norm_num at hp4 ⊢; linarith
      obtain ⟨k, hk⟩ := hd'.lands
      have e : Real.cos ((h 38 a).state.phase - t) = Real.cos d' := by
        rw [hk, show (h 38 a).state.phase - ((h 38 a).state.phase + d' + (k : ℝ) * (2 * π)) = -(d' + k * (2 * π)) by ring, Real.cos_neg,
          Real.cos_add_int_mul_two_pi]
      have hc : Real.cos 0.61 ≤ Real.cos d' := Real.cos_le_cos_of_nonneg_of_le_pi hd'.nonneg (by norm_num; linarith [Real.pi_gt_three]) hsmall
      simp only [List.map_cons, List.sum_cons, List.length_cons, e]
      push_cast
      linarith
  have := key agents fun x hx => hx
  calc 0.8 * (agents.length : ℝ) < Real.cos 0.61 * agents.length := mul_lt_mul_of_pos_right hcos hpos
    _ ≤ _ := this

/-- **C111** The hypothesis on the shift: without a phase gap the completion asks for none. -/
theorem C111_no_gap (e : Engine ℝ) (o : List (String × TargetPattern ℝ) → List (String × TargetPattern ℝ)) (cur t : TargetPattern ℝ)
    (hno : ¬ PhaseOut cur t) (cp : CompletedPattern ℝ) (hcp : e.completePattern o cur (identifyGaps' cur t) = .ok cp) : cp.phaseAdjustment = 0 := by
  have hg : ∀ g ∈ identifyGaps' cur t, g.type ≠ .phase := by
    intro g hg he
    have := C07_gap_types cur t
    rw [if_neg hno, List.nil_append] at this
    have hm : GapType.phase ∈ (identifyGaps' cur t).map (·.type) := List.mem_map.2 ⟨g, hg, he⟩
    rw [this] at hm
    split_ifs at hm <;> simp at hm
  have h1 : ∀ (l : List (PatternGap ℝ)) (f : Filled ℝ), (∀ g ∈ l, g.type ≠ .phase) → f.phase = none → (l.foldl interpolateStep f).phase = none := by
    intro l
    induction l with
    | nil => exact fun f _ hf => hf
    | cons g l ih =>
      intro f hl hf
      refine ih _ (fun x hx => hl x (by simp [hx])) ?_
      have := hl g (by simp)
      unfold interpolateStep
      cases hgt : g.type <;> simp_all
  have h2 : ∀ (tm : TargetPattern ℝ) (l : List (PatternGap ℝ)) (f f' : Filled ℝ), (∀ g ∈ l, g.type ≠ .phase) → f.phase = none →
      templateFills cur tm l f = .ok f' → f'.phase = none := by
    intro tm l
    induction l with
    | nil => intro f f' _ hf he; simp only [templateFills, Outcome.ok.injEq] at he; rw [← he]; exact hf
    | cons g l ih =>
      intro f f' hl hf he
      rw [templateFills] at he
      have hgp := hl g (by simp)
      have h3 : ∀ f1, templateFill cur tm f g = .ok f1 → f1.phase = none := by
        intro f1 h1
        unfold templateFill at h1
        cases hgt : g.type
        · exact absurd hgt hgp
        all_goals
          rw [hgt] at h1
          simp only at h1
        · cases h1; exact hf
        · cases h1; exact hf
        · split_ifs at h1
          · split at h1
            · cases h1; exact hf
            · cases h1
          · cases h1; exact hf
      split at he
      · rename_i f1 h1
        exact ih f1 f' (fun x hx => hl x (by simp [hx])) (h3 f1 h1) he
      · cases he
  unfold Engine.completePattern at hcp
  unfold CompletedPattern.phaseAdjustment
  split at hcp
  · cases hcp
    simp only [interpolatePattern]
    rw [h1 _ _ hg rfl]
  · split at hcp
    · rename_i f hf
      cases hcp
      simp only
      rw [h2 _ _ _ _ hg rfl hf]
    · cases hcp

namespace Spec

/-- What is measured in a swarm of seven agents on its way to the phase 1 and the coherence 0.9. -/
noncomputable def seven (h : ℕ → Agent ℝ) : AdjustCtx ℝ :=
  { cfg := minAPIConfig, phaseAdj := 0, freqAdj := 0, coherence := measureCoherence ((List.range 7).map fun x => (h x).state.phase), variance := 1, targetPhase := 1
    targetCoherence := 0.9, sizeNormalized := min (((List.range 7).length : ℝ) / 100) 1 }

/-- The agents of that swarm before the n-th adjustment. -/
noncomputable def sevenRun (word : ℕ → ℕ → ℕ → ℕ) (h : ℕ → Agent ℝ) : ℕ → ℕ → Agent ℝ
  | 0 => h
  | n + 1 => applyCompletion (seven (sevenRun word h n)) (word n) (List.range 7) (sevenRun word h n)

end Spec

/-- A run from any state of seven agents, for instance spread evenly. -/
example (word : ℕ → ℕ → ℕ → ℕ) (h : ℕ → Agent ℝ) : ∃ n ≤ 38, 0.8 < measureCoherence ((List.range 7).map fun x => (sevenRun word h n x).state.phase) :=
  C111_synchronises (t := 1) (c := fun n => seven (sevenRun word h n)) (order := fun _ => List.range 7) (word := word)
    { nodup := List.nodup_range, many := by simp, perm := fun _ => List.Perm.refl _, step := fun _ => rfl, cfg := fun _ => rfl, shift := fun _ => rfl
      phase := fun _ => rfl, target := fun _ => by norm_num [seven], size := fun _ => rfl, coherence := fun _ => rfl }

end Verif
