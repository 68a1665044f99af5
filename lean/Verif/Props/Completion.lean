import Verif.Model.Completion
import Verif.Props.Pattern
import Verif.Props.Phase
import Verif.Props.AgentRange

/-!
# C65, C66: waveform morphing and pattern completion
-/

set_option autoImplicit false
set_option linter.unusedSectionVars false

namespace Verif
open GoMath Spec

/-- `x` is the sample of the waveform `l` at position `i` of `n`: the `j`-th value, where `j / length` is the largest
sample position not beyond `i / n`. -/
def Spec.IsSample {α : Type} (l : List α) (n i : ℕ) (x : α) : Prop :=
  ∃ j, l[j]? = some x ∧ j * n ≤ i * l.length ∧ i * l.length < (j + 1) * n

section Generic
variable {α : Type} [Zero α] [One α] [Add α] [Sub α] [Mul α] [Div α] [Neg α] [LT α] [LE α]
  [DecidableLT α] [DecidableLE α] [BEq α] [OfScientific α] [GoMath α]

/-! ## C65 -/

theorem sample_exists (l : List α) (n i : ℕ) (hi : i < n) (hl : l.length ≠ 0) :
    ∃ x, l[i * l.length / n]? = some x ∧ IsSample l n i x := by
  have hn : 0 < n := by omega
  have h : i * l.length / n < l.length := by
    rw [Nat.div_lt_iff_lt_mul hn, Nat.mul_comm l.length]
    exact Nat.mul_lt_mul_of_pos_right hi (by omega)
  refine ⟨l[i * l.length / n], List.getElem?_eq_getElem h, _, List.getElem?_eq_getElem h, Nat.div_mul_le_self _ _, ?_⟩
  exact (Nat.div_lt_iff_lt_mul hn).1 (Nat.lt_succ_self _)

theorem mapM_range_ok {β : Type} (n : ℕ) (f : ℕ → Option β) (h : ∀ i < n, (f i).isSome) :
    ∃ l, (List.range n).mapM f = some l ∧ l.length = n ∧ ∀ i < n, l[i]? = f i := by
  have key : ∀ (xs : List ℕ), (∀ i ∈ xs, (f i).isSome) →
      ∃ l, xs.mapM f = some l ∧ l.length = xs.length ∧ ∀ (k i : ℕ), xs[k]? = some i → l[k]? = f i := by
    intro xs
    induction xs with
    | nil => exact fun _ => ⟨[], rfl, rfl, fun k i h => by simp at h⟩
    | cons x xs ih =>
      intro hx
      obtain ⟨l, e, el, hl⟩ := ih fun i hi => hx i (List.mem_cons_of_mem _ hi)
      obtain ⟨y, hy⟩ := Option.isSome_iff_exists.1 (hx x List.mem_cons_self)
      refine ⟨y :: l, by rw [List.mapM_cons, hy, e]; rfl, by simp [el], fun k i hk => ?_⟩
      cases k with
      | zero => simp at hk; subst hk; simp [hy]
      | succ k => simp only [List.getElem?_cons_succ] at hk ⊢; exact hl k i hk
  obtain ⟨l, e, el, hl⟩ := key (List.range n) fun i hi => h i (List.mem_range.1 hi)
  refine ⟨l, e, by simpa using el, fun i hi => hl i i ?_⟩
  rw [List.getElem?_range hi]

/-- Every morph of two non-empty waveforms, sample by sample. -/
theorem morph_spec (current template : List α) (w : α) (hc : current.length ≠ 0) (ht : template.length ≠ 0) :
    ∃ l, morphWaveform current template w = .ok l ∧ l.length = max current.length template.length ∧
      ∀ i < l.length, ∃ c t, IsSample current l.length i c ∧ IsSample template l.length i t ∧
        l[i]? = some (c * (1 - w) + t * w) := by
  unfold morphWaveform
  rw [if_neg hc, if_neg ht]
  have hm : (if template.length > current.length then template.length else current.length) =
      max current.length template.length := by split_ifs <;> omega
  simp only [hm]
  generalize hn : max current.length template.length = n
  have hf : ∀ i < n, ∃ c t, IsSample current n i c ∧ IsSample template n i t ∧
      morphAt current template w n i = some (c * (1 - w) + t * w) := by
    intro i hi
    obtain ⟨c, e1, h1⟩ := sample_exists current n i hi hc
    obtain ⟨t, e2, h2⟩ := sample_exists template n i hi ht
    exact ⟨c, t, h1, h2, by unfold morphAt; rw [e1, e2]⟩
  obtain ⟨l, e, el, hl⟩ := mapM_range_ok n (morphAt current template w n) fun i hi => by
    obtain ⟨_, _, _, _, e⟩ := hf i hi; rw [e]; rfl
  refine ⟨l, by rw [e], el, fun i hi => ?_⟩
  rw [el] at hi ⊢
  obtain ⟨c, t, h1, h2, h3⟩ := hf i hi
  exact ⟨c, t, h1, h2, by rw [hl i hi, h3]⟩

/-- Morphing never reads out of range, whatever the lengths and the progress (any number type), and yields the longer of
the two lengths. -/
theorem C65_total (current template : List α) (w : α) :
    ∃ l, morphWaveform current template w = .ok l ∧ l.length = max current.length template.length := by
  by_cases hc : current.length = 0
  · exact ⟨template, by unfold morphWaveform; rw [if_pos hc], by omega⟩
  by_cases ht : template.length = 0
  · exact ⟨current, by unfold morphWaveform; rw [if_neg hc, if_pos ht], by omega⟩
  obtain ⟨l, e, el, -⟩ := morph_spec current template w hc ht
  exact ⟨l, e, el⟩

theorem IsSample.self {l : List α} {i : ℕ} {x : α} (h : IsSample l l.length i x) : l[i]? = some x := by
  obtain ⟨j, hj, h1, h2⟩ := h
  have hl : 0 < l.length := by
    rcases Nat.eq_zero_or_pos l.length with h0 | h0
    · rw [h0] at h2; omega
    · exact h0
  have h3 := Nat.le_of_mul_le_mul_right h1 hl
  have h4 := Nat.lt_of_mul_lt_mul_right h2
  have : j = i := by omega
  rw [← this]; exact hj

end Generic

/-- Over the reals the morph lies pointwise between the two resampled waveforms, at the given progress. -/
theorem C65_between (current template l : List ℝ) (w : ℝ) (hc : current ≠ []) (ht : template ≠ [])
    (h0 : 0 ≤ w) (h1 : w ≤ 1) (e : morphWaveform current template w = .ok l) (i : ℕ) (hi : i < l.length) :
    ∃ c t x, IsSample current l.length i c ∧ IsSample template l.length i t ∧ l[i]? = some x ∧
      x = c + w * (t - c) ∧ min c t ≤ x ∧ x ≤ max c t := by
  obtain ⟨l', e', -, h⟩ := morph_spec current template w (by simpa using hc) (by simpa using ht)
  rw [e] at e'; injection e' with e'; subst e'
  obtain ⟨c, t, hs, hs', hx⟩ := h i hi
  refine ⟨c, t, _, hs, hs', hx, by ring, ?_, ?_⟩
  · rcases le_total c t with h | h
    · rw [min_eq_left h]; nlinarith
    · rw [min_eq_right h]; nlinarith
  · rcases le_total c t with h | h
    · rw [max_eq_right h]; nlinarith
    · rw [max_eq_left h]; nlinarith

example : ([0, 1, 2] : List ℝ) ≠ [] ∧ ∃ l, morphWaveform [0, 1, 2] [5, 6] (0.25 : ℝ) = .ok l ∧ 2 < l.length := by
  obtain ⟨l, e, el⟩ := C65_total [0, 1, 2] [5, 6] (0.25 : ℝ)
  exact ⟨by simp, l, e, by rw [el]; norm_num⟩

/-- The end points of the claim: at progress 0 the (resampled) current waveform, at progress 1 the target. -/
def C65_claim : Prop := ∀ current template l : List ℝ,
  (morphWaveform current template 0 = .ok l → ∀ i x, l[i]? = some x → IsSample current l.length i x) ∧
  (morphWaveform current template 1 = .ok l → ∀ i x, l[i]? = some x → IsSample template l.length i x)

/-- False when exactly one waveform is empty: the other one is returned at every progress. -/
theorem C65_refuted : ¬ C65_claim := fun h => by
  obtain ⟨j, hj, -⟩ := (h [] [7] [7]).1 (by simp [morphWaveform]) 0 7 rfl
  simp at hj

/-- Exactly what happens with an empty waveform, at every progress. -/
theorem C65_empty (l : List ℝ) (w : ℝ) : morphWaveform [] l w = .ok l ∧ morphWaveform l [] w = .ok l := by
  constructor
  · simp [morphWaveform]
  · unfold morphWaveform
    split_ifs with h h'
    · rw [List.length_eq_zero_iff.1 h]
    · rfl
    · exact absurd rfl h'
    · exact absurd rfl h'

/-- For non-empty waveforms both end points hold; the waveform that is not shorter comes back unchanged. -/
theorem C65_endpoints_partial (current template l : List ℝ) (hc : current ≠ []) (ht : template ≠ []) :
    (morphWaveform current template 0 = .ok l →
      (∀ i x, l[i]? = some x → IsSample current l.length i x) ∧
      (template.length ≤ current.length → l = current)) ∧
    (morphWaveform current template 1 = .ok l →
      (∀ i x, l[i]? = some x → IsSample template l.length i x) ∧
      (current.length ≤ template.length → l = template)) := by
  have key : ∀ (side : List ℝ), (∀ i x, l[i]? = some x → IsSample side l.length i x) → side.length = l.length →
      l = side := by
    intro side h hl
    apply List.ext_getElem? fun i => ?_
    by_cases hi : i < l.length
    · have := h i _ (List.getElem?_eq_getElem hi)
      rw [← hl] at this
      rw [IsSample.self this, List.getElem?_eq_getElem hi]
    · rw [List.getElem?_eq_none (by omega), List.getElem?_eq_none (by omega)]
  refine ⟨fun e => ?_, fun e => ?_⟩
  all_goals
    obtain ⟨l', e', el, h⟩ := morph_spec current template _ (by simpa using hc) (by simpa using ht)
    rw [e] at e'; injection e' with e'; subst e'
  · have hs : ∀ i x, l[i]? = some x → IsSample current l.length i x := fun i x hx => by
      obtain ⟨c, t, h1, -, h3⟩ := h i (List.getElem?_eq_some_iff.1 hx).1
      rw [hx] at h3
      simp only [sub_zero, mul_one, mul_zero, add_zero, Option.some.injEq] at h3
      rw [h3]; exact h1
    exact ⟨hs, fun hle => key current hs (by omega)⟩
  · have hs : ∀ i x, l[i]? = some x → IsSample template l.length i x := fun i x hx => by
      obtain ⟨c, t, -, h2, h3⟩ := h i (List.getElem?_eq_some_iff.1 hx).1
      rw [hx] at h3
      simp only [sub_self, mul_zero, mul_one, zero_add, Option.some.injEq] at h3
      rw [h3]; exact h2
    exact ⟨hs, fun hle => key template hs (by omega)⟩

example : ([3, 4] : List ℝ) ≠ [] ∧ ∃ l, morphWaveform [3, 4] [5, 6, 7] (0 : ℝ) = .ok l ∧ l.length = 3 :=
  ⟨by simp, by simpa using C65_total [3, 4] [5, 6, 7] (0 : ℝ)⟩

/-! ## C66 -/

section Search
variable {α : Type} [Zero α] [One α] [Add α] [Sub α] [Mul α] [Div α] [Neg α] [LT α] [LE α]
  [DecidableLT α] [DecidableLE α] [BEq α] [OfScientific α] [GoMath α] [IsStrictOrder α (· < ·)]

/-- Distance from the current pattern, as the search computes it. -/
def distTo (c t : TargetPattern α) : α := patternDistance (some c) (some t)

/-- `r` is a best acceptable element of the list: acceptable with no closer one, or nothing is acceptable. -/
def Spec.Nearest (d : TargetPattern α → α) (threshold : α) (l : List (TargetPattern α)) :
    Option (TargetPattern α) → Prop
  | some t => t ∈ l ∧ d t < threshold ∧ ∀ t' ∈ l, ¬ d t' < d t
  | none => ∀ t' ∈ l, ¬ d t' < threshold

theorem search_inv (c : TargetPattern α) (th : α) (hth : ∀ x : α, x < th → x < maxFloat)
    (l seen : List (TargetPattern α)) (b : Option (TargetPattern α) × α)
    (hb : Nearest (distTo c) th seen b.1 ∧ match b.1 with | some t => b.2 = distTo c t | none => b.2 = maxFloat) :
    Nearest (distTo c) th (seen ++ l) (l.foldl (templateStep c th) b).1 := by
  induction l generalizing seen b with
  | nil => simpa using hb.1
  | cons t l ih =>
    rw [List.foldl_cons, show seen ++ t :: l = (seen ++ [t]) ++ l by simp]
    apply ih
    obtain ⟨bt, bd⟩ := b
    unfold templateStep
    simp only
    by_cases h : patternDistance (some c) (some t) < bd ∧ patternDistance (some c) (some t) < th
    · rw [if_pos h]
      have h1 : distTo c t < bd := h.1
      refine ⟨⟨by simp, h.2, ?_⟩, rfl⟩
      intro t' ht' hlt
      rcases List.mem_append.1 ht' with hs | hs
      · cases bt with
        | none => exact hb.1 t' hs (_root_.trans hlt h.2)
        | some b =>
          simp only at hb
          obtain ⟨⟨-, -, hbest⟩, rfl⟩ := hb
          exact hbest t' hs (_root_.trans hlt h1)
      · rw [List.mem_singleton] at hs
        subst hs
        exact irrefl (r := (· < ·)) _ hlt
    · rw [if_neg h]
      cases bt with
      | none =>
        simp only at hb
        obtain ⟨h0, rfl⟩ := hb
        refine ⟨fun t' ht' hlt => ?_, rfl⟩
        rcases List.mem_append.1 ht' with hs | hs
        · exact h0 t' hs hlt
        · rw [List.mem_singleton] at hs
          subst hs
          exact h ⟨hth _ hlt, hlt⟩
      | some b =>
        simp only at hb
        obtain ⟨⟨hm, hacc, hbest⟩, rfl⟩ := hb
        refine ⟨⟨by simp [hm], hacc, fun t' ht' hlt => ?_⟩, rfl⟩
        rcases List.mem_append.1 ht' with hs | hs
        · exact hbest t' hs hlt
        · rw [List.mem_singleton] at hs
          subst hs
          exact h ⟨hlt, _root_.trans hlt hacc⟩

/-- The search finds a nearest acceptable template, and finds none only if none is acceptable. -/
theorem findBest_nearest (c : TargetPattern α) (th : α) (hth : ∀ x : α, x < th → x < maxFloat)
    (l : List (TargetPattern α)) : Nearest (distTo c) th l (findBestTemplate th l c) := by
  have := search_inv c th hth l [] (none, maxFloat) ⟨by intro t' h; simp at h, rfl⟩
  rw [List.nil_append] at this
  exact this

end Search

instance [Rounding] [LibM] : IsStrictOrder F64 (· < ·) where
  irrefl a h := by cases a <;> simp at h
  trans a b c h h' := by
    cases a <;> cases b <;> cases c <;> simp_all
    exact lt_trans h h'

/-- The numbers below which `0.7 < MaxFloat64` is used. -/
class ThresholdFacts (α : Type) [Zero α] [One α] [Add α] [Sub α] [Mul α] [Div α] [Neg α] [LT α] [LE α]
    [DecidableLT α] [DecidableLE α] [BEq α] [OfScientific α] [GoMath α] : Prop where
  below : ∀ x : α, x < 0.7 → x < maxFloat

theorem one_lt_maxDouble : (1 : ℝ) < maxDouble := by
  unfold maxDouble
  have : (1 : ℝ) ≤ 2 ^ 971 := one_le_pow₀ (by norm_num)
  generalize (2 : ℝ) ^ 971 = t at *
  norm_num; linarith

instance : ThresholdFacts ℝ where
  below x h := by rw [maxFloat_real]; norm_num at h; linarith [one_lt_maxDouble]

instance [Rounding] [LibM] : ThresholdFacts F64 where
  below x h := by
    obtain ⟨y, hy, e, -, h1⟩ := F64.in01_ofReal (x := 0.7) (by norm_num) (by norm_num)
    change x < F64.ofReal _ at h
    rw [e] at h
    change x < F64.fin ⟨maxDouble, isDouble_maxDouble⟩
    refine _root_.trans h ?_
    rw [F64.lt_fin]
    exact h1.trans_lt one_lt_maxDouble

/-- Engines a program can have: `NewEngine` followed by any `AddTemplate` calls (`LoadDefaultTemplates` is three). -/
def Engine.Reachable {α : Type} [Zero α] [One α] [Add α] [Sub α] [Mul α] [Div α] [Neg α] [LT α] [LE α]
    [DecidableLT α] [DecidableLE α] [BEq α] [OfScientific α] [GoMath α] (e : Engine α) : Prop :=
  ∃ l : List (String × TargetPattern α), e = l.foldl (fun e q => e.addTemplate q.1 q.2) Engine.new

section Engine
variable {α : Type} [Zero α] [One α] [Add α] [Sub α] [Mul α] [Div α] [Neg α] [LT α] [LE α]
  [DecidableLT α] [DecidableLE α] [BEq α] [OfScientific α] [GoMath α]

theorem Engine.Reachable.threshold {e : Engine α} (h : e.Reachable) : e.matchThreshold = 0.7 := by
  obtain ⟨l, rfl⟩ := h
  suffices ∀ e : Engine α, (l.foldl (fun e q => e.addTemplate q.1 q.2) e).matchThreshold = e.matchThreshold from this _
  induction l with
  | nil => exact fun _ => rfl
  | cons q l ih => intro e; rw [List.foldl_cons, ih]; rfl

theorem Engine.reachable_default : (Engine.new.loadDefaultTemplates : Engine α).Reachable := 
  ⟨[("perfect_sync", _), ("partial_sync", _), ("recovery", _)], rfl⟩

/-- What the loop of the template branch leaves under the key "phase". -/
theorem templateFills_phase (P : α → Prop) (c t : TargetPattern α) (gaps : List (PatternGap α)) (f f' : Filled α)
    (h : templateFills c t gaps f = .ok f') (hf : ∀ p, f.phase = some p → P p)
    (hg : ∀ g ∈ gaps, g.type = .phase → P (blendPhase c.phase t.phase g.severity)) :
    ∀ p, f'.phase = some p → P p := by
  induction gaps generalizing f with
  | nil => injection h with h; subst h; exact hf
  | cons g gs ih =>
    unfold templateFills at h
    cases e : templateFill c t f g with
    | panic => rw [e] at h; cases h
    | ok f1 =>
      rw [e] at h
      refine ih f1 h ?_ fun g' h' => hg g' (List.mem_cons_of_mem _ h')
      intro p hp
      unfold templateFill at e
      cases ht : g.type with
      | phase =>
        rw [ht] at e; injection e with e; subst e
        simp only [Option.some.injEq] at hp
        rw [← hp]; exact hg g List.mem_cons_self ht
      | frequency => rw [ht] at e; injection e with e; subst e; exact hf p hp
      | coherence => rw [ht] at e; injection e with e; subst e; exact hf p hp
      | waveform =>
        rw [ht] at e
        simp only at e
        split_ifs at e
        · split at e
          · injection e with e; subst e; exact hf p hp
          · cases e
        · injection e with e; subst e; exact hf p hp

theorem interpolate_phase (P : α → Prop) (gaps : List (PatternGap α)) (f : Filled α)
    (hf : ∀ p, f.phase = some p → P p)
    (hg : ∀ g ∈ gaps, g.type = .phase →
      P (wrapPhase (g.current + phaseDifference g.target g.current * fmin g.severity 0.5))) :
    ∀ p, (gaps.foldl interpolateStep f).phase = some p → P p := by
  induction gaps generalizing f with
  | nil => exact hf
  | cons g gs ih =>
    rw [List.foldl_cons]
    refine ih _ ?_ fun g' h' => hg g' (List.mem_cons_of_mem _ h')
    intro p hp
    unfold interpolateStep at hp
    cases ht : g.type with
    | phase =>
      rw [ht] at hp
      simp only [Option.some.injEq] at hp
      rw [← hp]; exact hg g List.mem_cons_self ht
    | frequency => rw [ht] at hp; exact hf p hp
    | coherence => rw [ht] at hp; exact hf p hp
    | waveform => rw [ht] at hp; exact hf p hp

/-- `CompletePattern` never panics, and keeps its argument as the base. -/
theorem completePattern_ok (e : Engine α) (order : List (String × TargetPattern α) → List (String × TargetPattern α))
    (c : TargetPattern α) (gaps : List (PatternGap α)) :
    ∃ cp, e.completePattern order c gaps = .ok cp ∧ cp.base = c := by
  have key : ∀ (t : TargetPattern α) (gaps : List (PatternGap α)) (f : Filled α),
      ∃ f', templateFills c t gaps f = .ok f' := by
    intro t gaps
    induction gaps with
    | nil => exact fun f => ⟨f, rfl⟩
    | cons g gs ih =>
      intro f
      have : ∃ f1, templateFill c t f g = .ok f1 := by
        unfold templateFill
        cases g.type with
        | phase => exact ⟨_, rfl⟩
        | frequency => exact ⟨_, rfl⟩
        | coherence => exact ⟨_, rfl⟩
        | waveform =>
          simp only
          obtain ⟨l, el, -⟩ := C65_total c.waveform t.waveform g.severity
          rw [el]
          split_ifs <;> exact ⟨_, rfl⟩
      obtain ⟨f1, e1⟩ := this
      obtain ⟨f2, e2⟩ := ih f1
      exact ⟨f2, by unfold templateFills; rw [e1]; exact e2⟩
  unfold Engine.completePattern
  cases findBestTemplate e.matchThreshold ((order e.templates).map Prod.snd) c with
  | none => exact ⟨_, rfl, rfl⟩
  | some t =>
    obtain ⟨f, ef⟩ := key t gaps Filled.empty
    simp only [ef]
    exact ⟨_, rfl, rfl⟩

/-- An already matching pattern (no gaps) is left alone: nothing is filled and both adjustments are zero. -/
theorem C66_matching_unchanged (e : Engine α)
    (order : List (String × TargetPattern α) → List (String × TargetPattern α)) (c t : TargetPattern α)
    (h : identifyGaps' c t = []) :
    ∃ cp, e.completePattern order c (identifyGaps' c t) = .ok cp ∧ cp.base = c ∧
      cp.filled.phase = none ∧ cp.filled.frequency = none ∧ cp.filled.coherenceBoost = none ∧
      cp.filled.waveform = none ∧ cp.phaseAdjustment = 0 ∧ cp.frequencyAdjustment = 0 := by
  rw [h]
  unfold Engine.completePattern
  cases findBestTemplate e.matchThreshold ((order e.templates).map Prod.snd) c with
  | none => exact ⟨_, rfl, rfl, rfl, rfl, rfl, rfl, rfl, rfl⟩
  | some t => exact ⟨_, rfl, rfl, rfl, rfl, rfl, rfl, rfl, rfl⟩

variable [IsStrictOrder α (· < ·)] [ThresholdFacts α]

/-- The template used is a nearest one among those closer than 0.7; none is used only if none is that close. For doubles
(where distances may be NaN) and for the reals. -/
theorem C66_nearest (e : Engine α) (he : e.Reachable)
    (order : List (String × TargetPattern α) → List (String × TargetPattern α)) (ho : ∀ m, (order m).Perm m)
    (c : TargetPattern α) :
    Nearest (fun t => patternDistance (some c) (some t)) 0.7 (e.templates.map Prod.snd)
      (findBestTemplate e.matchThreshold ((order e.templates).map Prod.snd) c) := by
  have h := findBest_nearest c e.matchThreshold (by rw [he.threshold]; exact ThresholdFacts.below)
    ((order e.templates).map Prod.snd)
  have hm : ∀ t, t ∈ (order e.templates).map Prod.snd ↔ t ∈ e.templates.map Prod.snd := fun t =>
    ((ho e.templates).map Prod.snd).mem_iff
  rw [he.threshold] at h ⊢
  cases hr : findBestTemplate 0.7 ((order e.templates).map Prod.snd) c with
  | none => rw [hr] at h; exact fun t' ht' => h t' ((hm t').2 ht')
  | some t => rw [hr] at h; exact ⟨(hm t).1 h.1, h.2.1, fun t' ht' => h.2.2 t' ((hm t').2 ht')⟩

/-- The choice does not depend on the order in which the map is enumerated, up to ties. -/
theorem C66_order_independent (e : Engine α) (he : e.Reachable)
    (o1 o2 : List (String × TargetPattern α) → List (String × TargetPattern α)) (h1 : ∀ m, (o1 m).Perm m)
    (h2 : ∀ m, (o2 m).Perm m) (c : TargetPattern α) :
    match findBestTemplate e.matchThreshold ((o1 e.templates).map Prod.snd) c,
      findBestTemplate e.matchThreshold ((o2 e.templates).map Prod.snd) c with
    | none, none => True
    | some t1, some t2 => ¬ patternDistance (some c) (some t1) < patternDistance (some c) (some t2) ∧
        ¬ patternDistance (some c) (some t2) < patternDistance (some c) (some t1)
    | _, _ => False := by
  have n1 := C66_nearest e he o1 h1 c
  have n2 := C66_nearest e he o2 h2 c
  generalize findBestTemplate e.matchThreshold ((o1 e.templates).map Prod.snd) c = r1 at n1 ⊢
  generalize findBestTemplate e.matchThreshold ((o2 e.templates).map Prod.snd) c = r2 at n2 ⊢
  cases r1 with
  | none => cases r2 with
    | none => trivial
    | some t2 => exact n1 t2 n2.1 n2.2.1
  | some t1 => cases r2 with
    | none => exact n2 t1 n1.1 n1.2.1
    | some t2 => exact ⟨n2.2.2 t1 n1.1, n1.2.2 t2 n2.1⟩

end Engine

/-! ### Phases -/

/-- Over the reals every completed phase is in `[0, 2π)`, for any engine, order, pattern and gaps. -/
theorem C66_phase_range (e : Engine ℝ) (order : List (String × TargetPattern ℝ) → List (String × TargetPattern ℝ))
    (c : TargetPattern ℝ) (gaps : List (PatternGap ℝ)) (cp : CompletedPattern ℝ)
    (h : e.completePattern order c gaps = .ok cp) (p : ℝ) (hp : cp.filled.phase = some p) :
    0 ≤ p ∧ p < 2 * Real.pi := by
  have key : ∀ x : ℝ, 0 ≤ wrapPhase x ∧ wrapPhase x < 2 * Real.pi := fun x => ⟨wrapPhase_nonneg x, wrapPhase_lt x⟩
  unfold Engine.completePattern at h
  cases hb : findBestTemplate e.matchThreshold ((order e.templates).map Prod.snd) c with
  | none =>
    rw [hb] at h; injection h with h; subst h
    exact interpolate_phase (fun p => 0 ≤ p ∧ p < 2 * Real.pi) gaps Filled.empty (fun p h => by cases h)
      (fun g _ _ => key _) p hp
  | some t =>
    rw [hb] at h
    simp only at h
    cases hf : templateFills c t gaps Filled.empty with
    | panic => rw [hf] at h; cases h
    | ok f =>
      rw [hf] at h; injection h with h; subst h
      exact templateFills_phase (fun p => 0 ≤ p ∧ p < 2 * Real.pi) c t gaps Filled.empty f hf (fun p h => by cases h)
        (fun g _ _ => key _) p hp

/-- Adding a rotation of at most half a turn moves by exactly that distance. -/
theorem isCircDist_of_le {a b m : ℝ} (h : SameAngle a (b + m)) (hm : |m| ≤ Real.pi) : IsCircDist a b |m| := by
  obtain ⟨j, hj⟩ := h
  have hp := Real.pi_pos
  refine ⟨⟨-j, by congr 1; push_cast; rw [hj]; ring⟩, fun k => ?_⟩
  have e : a - b + k * (2 * Real.pi) = m + (j + k : ℤ) * (2 * Real.pi) := by push_cast; rw [hj]; ring
  rw [e]
  generalize j + k = i
  rw [abs_le] at hm
  rcases lt_trichotomy i 0 with hi | hi | hi
  · have : (i : ℝ) ≤ -1 := by exact_mod_cast (by omega : i ≤ -1)
    rw [abs_of_nonpos (by nlinarith : m + i * (2 * Real.pi) ≤ 0)]
    rw [abs_le]; constructor <;> nlinarith
  · subst hi; simp
  · have : (1 : ℝ) ≤ i := by exact_mod_cast (by omega : 1 ≤ i)
    rw [abs_of_nonneg (by nlinarith : 0 ≤ m + i * (2 * Real.pi))]
    rw [abs_le]; constructor <;> nlinarith

theorem phase_gap_of_mem {c t : TargetPattern ℝ} {g : PatternGap ℝ} (hg : g ∈ identifyGaps' c t) (h : g.type = .phase) :
    g = ⟨.phase, c.phase, t.phase, |phaseDifference t.phase c.phase| / Real.pi⟩ := by
  unfold identifyGaps' at hg
  simp only [GoMath.abs_real, GoMath.ofInt_real, GoMath.piMul_real, Rat.cast_one, one_mul, List.mem_append] at hg
  rcases hg with (hg | hg) | hg <;> split_ifs at hg <;> simp only [List.mem_singleton, List.not_mem_nil] at hg
  · exact hg
  · subst hg; cases h
  · subst hg; cases h

/-- The full claim on steps: a completed phase is at most half the gap away from where it was. -/
def C66_claim : Prop := ∀ (e : Engine ℝ), e.Reachable →
  ∀ order : List (String × TargetPattern ℝ) → List (String × TargetPattern ℝ), (∀ m, (order m).Perm m) →
  ∀ (c t : TargetPattern ℝ) (cp : CompletedPattern ℝ), e.completePattern order c (identifyGaps' c t) = .ok cp →
  ∀ p d g : ℝ, cp.filled.phase = some p → IsCircDist p c.phase d → IsCircDist t.phase c.phase g → d ≤ g / 2

/-- The claim holds when no template is acceptable and the phases are not one of the special pairs of C02; the step then
goes straight towards the target. With a template it is false (`C66_refuted`). -/
theorem C66_half_gap_partial (e : Engine ℝ)
    (order : List (String × TargetPattern ℝ) → List (String × TargetPattern ℝ)) (c t : TargetPattern ℝ)
    (hn : findBestTemplate e.matchThreshold ((order e.templates).map Prod.snd) c = none)
    (hs : ¬ SpecialPair t.phase c.phase) (cp : CompletedPattern ℝ)
    (h : e.completePattern order c (identifyGaps' c t) = .ok cp) (p d d' g : ℝ) (hp : cp.filled.phase = some p)
    (hd : IsCircDist p c.phase d) (hd' : IsCircDist p t.phase d') (hg : IsCircDist t.phase c.phase g) :
    d ≤ g / 2 ∧ d' = g - d ∧ 0 < d := by
  have hpi := Real.pi_pos
  unfold Engine.completePattern at h
  rw [hn] at h; injection h with h; subst h
  have hex : phaseDifference t.phase c.phase ≠ 0 ∧ p = wrapPhase (c.phase + phaseDifference t.phase c.phase *
      min (|phaseDifference t.phase c.phase| / Real.pi) 0.5) := by
    refine interpolate_phase (fun p => phaseDifference t.phase c.phase ≠ 0 ∧
      p = wrapPhase (c.phase + phaseDifference t.phase c.phase *
      min (|phaseDifference t.phase c.phase| / Real.pi) 0.5)) (identifyGaps' c t) Filled.empty (fun p h => by cases h)
      (fun g hg hty => ?_) p hp
    have hpos := (C07_gap_fields c t g hg).1
    rw [phase_gap_of_mem hg hty] at hpos ⊢
    refine ⟨fun h0 => ?_, rfl⟩
    rw [h0] at hpos
    simp at hpos
  obtain ⟨h0, hex⟩ := hex
  have hgd := circDist_unique hg (isCircDist_phaseDifference hs)
  have hrot := phaseDifference_eq_principal hs
  obtain ⟨k, hk⟩ := principal_sameAngle (t.phase - c.phase)
  rw [← hrot] at hk
  have hle := abs_phaseDifference_le t.phase c.phase
  generalize phaseDifference t.phase c.phase = δ at *
  have h0' : 0 < |δ| := abs_pos.2 h0
  have hw0 : 0 < min (|δ| / Real.pi) (0.5 : ℝ) := lt_min (by positivity) (by norm_num)
  have hw1 : min (|δ| / Real.pi) (0.5 : ℝ) ≤ 1 / 2 := (min_le_right _ _).trans (by norm_num)
  generalize min (|δ| / Real.pi) (0.5 : ℝ) = w at *
  have hsa : SameAngle p (c.phase + δ * w) := by rw [hex]; exact wrapPhase_sameAngle _
  have habs : |δ * w| = |δ| * w := by rw [abs_mul, abs_of_pos hw0]
  have e1 := circDist_unique hd (isCircDist_of_le hsa (by rw [habs]; nlinarith))
  have hsa' : SameAngle p (t.phase + δ * (w - 1)) := by
    obtain ⟨i, hi⟩ := hsa
    exact ⟨i + k, by push_cast; rw [hi]; linear_combination hk⟩
  have habs' : |δ * (w - 1)| = |δ| * (1 - w) := by rw [abs_mul, abs_of_neg (by linarith : w - 1 < 0)]; ring
  have e2 := circDist_unique hd' (isCircDist_of_le hsa' (by rw [habs']; nlinarith))
  rw [e1, e2, hgd, habs, habs']
  refine ⟨by nlinarith, by ring, by positivity⟩

/-- With a template the phase moves towards the template, not the target, by the fraction "gap / half turn" of the
distance to the template. -/
theorem C66_template_step (e : Engine ℝ)
    (order : List (String × TargetPattern ℝ) → List (String × TargetPattern ℝ)) (c t tm : TargetPattern ℝ)
    (hn : findBestTemplate e.matchThreshold ((order e.templates).map Prod.snd) c = some tm)
    (hs : ¬ SpecialPair t.phase c.phase) (hs' : ¬ SpecialPair tm.phase c.phase) (cp : CompletedPattern ℝ)
    (h : e.completePattern order c (identifyGaps' c t) = .ok cp) (p d d' g gm : ℝ) (hp : cp.filled.phase = some p)
    (hd : IsCircDist p c.phase d) (hd' : IsCircDist p tm.phase d') (hg : IsCircDist t.phase c.phase g)
    (hgm : IsCircDist tm.phase c.phase gm) :
    d = gm * (g / Real.pi) ∧ d' = gm - d := by
  have hpi := Real.pi_pos
  unfold Engine.completePattern at h
  rw [hn] at h
  simp only at h
  cases hf : templateFills c tm (identifyGaps' c t) Filled.empty with
  | panic => rw [hf] at h; cases h
  | ok f =>
    rw [hf] at h; injection h with h; subst h
    have hex : p = wrapPhase (c.phase + phaseDifference tm.phase c.phase *
        (|phaseDifference t.phase c.phase| / Real.pi)) := by
      refine templateFills_phase (fun p => p = wrapPhase (c.phase + phaseDifference tm.phase c.phase *
        (|phaseDifference t.phase c.phase| / Real.pi))) c tm (identifyGaps' c t) Filled.empty f hf
        (fun p h => by cases h) (fun g hg hty => ?_) p hp
      rw [phase_gap_of_mem hg hty]
      rfl
    have hgd := circDist_unique hg (isCircDist_phaseDifference hs)
    have hgm' := circDist_unique hgm (isCircDist_phaseDifference hs')
    have hrot := phaseDifference_eq_principal hs'
    obtain ⟨k, hk⟩ := principal_sameAngle (tm.phase - c.phase)
    rw [← hrot] at hk
    have hle := abs_phaseDifference_le t.phase c.phase
    have hle' := abs_phaseDifference_le tm.phase c.phase
    generalize phaseDifference tm.phase c.phase = δ at *
    have hw0 : 0 ≤ |phaseDifference t.phase c.phase| / Real.pi := by positivity
    have hw1 : |phaseDifference t.phase c.phase| / Real.pi ≤ 1 := div_le_one_of_le₀ hle hpi.le
    rw [← hgd] at hw0 hw1 hex
    generalize g / Real.pi = w at *
    have hsa : SameAngle p (c.phase + δ * w) := by rw [hex]; exact wrapPhase_sameAngle _
    have hδ := abs_nonneg δ
    have habs : |δ * w| = |δ| * w := by rw [abs_mul, abs_of_nonneg hw0]
    have e1 := circDist_unique hd (isCircDist_of_le hsa (by rw [habs]; nlinarith))
    have hsa' : SameAngle p (tm.phase + δ * (w - 1)) := by
      obtain ⟨i, hi⟩ := hsa
      exact ⟨i + k, by push_cast; rw [hi]; linear_combination hk⟩
    have habs' : |δ * (w - 1)| = |δ| * (1 - w) := by
      rw [abs_mul, abs_of_nonpos (by linarith : w - 1 ≤ 0)]; ring
    have e2 := circDist_unique hd' (isCircDist_of_le hsa' (by rw [habs']; nlinarith))
    rw [e1, e2, hgm', habs, habs']
    exact ⟨rfl, by ring⟩

/-- The engine every swarm uses (emerge/swarm/goal_directed.go:50,71). -/
noncomputable abbrev defaultEngine : Engine ℝ := Engine.new.loadDefaultTemplates

theorem default_templates (t : TargetPattern ℝ) (h : t ∈ (defaultEngine.templates).map Prod.snd) :
    t.phase = 0 ∧ (t.frequency = 250000000 ∨ t.frequency = 200000000) := by
  have e : (defaultEngine.templates).map Prod.fst = ["perfect_sync", "partial_sync", "recovery"] := rfl
  simp only [defaultEngine, Engine.loadDefaultTemplates, Engine.addTemplate, Engine.new] at h
  simp at h
  rcases h with rfl | rfl | rfl <;> simp

theorem default_perfect : ∃ t ∈ (defaultEngine.templates).map Prod.snd,
    t.phase = 0 ∧ t.frequency = 250000000 ∧ t.coherence = 1 := by
  refine ⟨_, List.mem_map_of_mem (List.mem_of_getElem? (l := defaultEngine.templates) (i := 0) rfl), rfl, rfl, rfl⟩

/-- The default engine accepts a pattern that is within 0.7 of perfect synchrony at 250 ms. -/
theorem default_accepts (order : List (String × TargetPattern ℝ) → List (String × TargetPattern ℝ))
    (ho : ∀ m, (order m).Perm m) (c : TargetPattern ℝ)
    (h : 0.4 * (|phaseDifference 0 c.phase| / Real.pi) +
      0.3 * min (|(c.frequency : ℝ) - 250000000| / 250000000) 1 + 0.3 * |1 - c.coherence| < 0.7) :
    ∃ tm, findBestTemplate defaultEngine.matchThreshold ((order defaultEngine.templates).map Prod.snd) c = some tm ∧
      tm.phase = 0 ∧ (tm.frequency = 250000000 ∨ tm.frequency = 200000000) := by
  have hn := C66_nearest defaultEngine Engine.reachable_default order ho c
  cases hr : findBestTemplate defaultEngine.matchThreshold ((order defaultEngine.templates).map Prod.snd) c with
  | some tm => rw [hr] at hn; exact ⟨tm, rfl, default_templates tm hn.1⟩
  | none =>
    rw [hr] at hn
    obtain ⟨t, ht, h1, h2, h3⟩ := default_perfect
    refine absurd ?_ (hn t ht)
    change patternDistance (some c) (some t) < 0.7
    rw [patternDistance_some]
    unfold freqDeviation
    rw [h1, h2, h3, if_pos (by norm_num)]
    push_cast
    exact h

/-- A pattern at phase 2 (rad), with target phase 3. -/
noncomputable def patternAt (phase : ℝ) (frequency : ℤ) : TargetPattern ℝ :=
  { phase := phase, frequency := frequency, amplitude := 1, coherence := 1, waveform := [], stability := 1 }

theorem principal_small {d : ℝ} (h1 : -Real.pi < d) (h2 : d ≤ Real.pi) : principal d = d := by
  rw [principal_eq]
  refine (toIocMod_eq_self _).2 ⟨h1, by linarith⟩

theorem step_away (order : List (String × TargetPattern ℝ) → List (String × TargetPattern ℝ))
    (ho : ∀ m, (order m).Perm m) :
    ∃ cp p, defaultEngine.completePattern order (patternAt 2 250000000)
        (identifyGaps' (patternAt 2 250000000) (patternAt 3 250000000)) = .ok cp ∧ cp.filled.phase = some p ∧
      IsCircDist p 2 (2 / Real.pi) ∧ IsCircDist p 3 (1 + 2 / Real.pi) := by
  have hp := Real.pi_gt_three
  have hp4 := Real.pi_lt_d2
  have n02 : ¬ SpecialPair 0 2 := by
    rintro (⟨-, h⟩ | ⟨-, h⟩)
    · rw [abs_lt] at h; norm_num at h; linarith
    · norm_num at h
  have n32 : ¬ SpecialPair 3 2 := by
    rintro (⟨h, -⟩ | ⟨-, h⟩) <;> norm_num at h
  have e02 : phaseDifference (0 : ℝ) 2 = -2 := by
    rw [phaseDifference_eq_principal n02, principal_small (by linarith) (by linarith)]; norm_num
  have e32 : phaseDifference (3 : ℝ) 2 = 1 := by
    rw [phaseDifference_eq_principal n32, principal_small (by linarith) (by linarith)]; norm_num
  obtain ⟨tm, hb, htm, -⟩ := default_accepts order ho (patternAt 2 250000000) (by
    simp only [patternAt]
    rw [e02]
    have h2 : (2 : ℝ) / Real.pi < 1 := by rw [div_lt_one (by linarith)]; linarith
    norm_num
    linarith)
  have hg : identifyGaps' (patternAt 2 250000000) (patternAt 3 250000000) =
      [⟨.phase, 2, 3, 1 / Real.pi⟩] := by
    unfold identifyGaps'
    simp only [patternAt, GoMath.abs_real, e32, GoMath.ofInt_real, GoMath.piMul_real]
    norm_num
  have h2 : 0 < 2 / Real.pi := by positivity
  have h2' : 2 / Real.pi < 1 := by rw [div_lt_one (by linarith)]; linarith
  have hw : wrapPhase (2 + -2 * (1 / Real.pi)) = 2 - 2 / Real.pi := by
    have e : (2 + -2 * (1 / Real.pi) : ℝ) = 2 - 2 / Real.pi := by ring
    rw [e]
    exact wrapPhase_of_mem (by linarith) (by linarith)
  refine ⟨⟨patternAt 2 250000000, { Filled.empty with phase := some (2 - 2 / Real.pi) }⟩, _, ?_, rfl, ?_, ?_⟩
  · unfold Engine.completePattern
    rw [hb, hg]
    simp only [templateFills, templateFill, blendPhase, htm]
    rw [show (patternAt 2 250000000).phase = 2 from rfl, e02, hw]
  · have := isCircDist_of_le (a := 2 - 2 / Real.pi) (b := 2) (m := -(2 / Real.pi)) ⟨0, by simp; ring⟩
      (by rw [abs_neg, abs_of_pos h2]; linarith)
    rwa [abs_neg, abs_of_pos h2] at this
  · have := isCircDist_of_le (a := 2 - 2 / Real.pi) (b := 3) (m := -(1 + 2 / Real.pi)) ⟨0, by simp; ring⟩
      (by rw [abs_neg, abs_of_pos (by linarith)]; linarith)
    rwa [abs_neg, abs_of_pos (by linarith)] at this

theorem circ_three_two : IsCircDist 3 2 1 := by
  have := isCircDist_of_le (a := 3) (b := 2) (m := 1) ⟨0, by norm_num⟩ (by rw [abs_one]; linarith [Real.pi_gt_three])
  rwa [abs_one] at this

/-- With the default templates, at phase 2 with target 3, the completed phase is `2 - 2/π`: more than half the gap, and in
the wrong direction. -/
theorem C66_refuted : ¬ C66_claim := fun h => by
  obtain ⟨cp, p, hc, hp, hd, -⟩ := step_away id fun _ => List.Perm.refl _
  have := h defaultEngine Engine.reachable_default id (fun _ => List.Perm.refl _) _ _ cp hc p _ _ hp hd circ_three_two
  rw [div_le_iff₀ Real.pi_pos] at this
  linarith [Real.pi_lt_d2]

/-- The wrong direction: after completion the phase is farther from the target than before. -/
theorem C66_moves_away (order : List (String × TargetPattern ℝ) → List (String × TargetPattern ℝ))
    (ho : ∀ m, (order m).Perm m) :
    ∃ (c t : TargetPattern ℝ) (cp : CompletedPattern ℝ) (p d g : ℝ),
      defaultEngine.completePattern order c (identifyGaps' c t) = .ok cp ∧ cp.filled.phase = some p ∧
      IsCircDist t.phase c.phase g ∧ IsCircDist p t.phase d ∧ g < d := by
  obtain ⟨cp, p, hc, hp, -, hd⟩ := step_away order ho
  exact ⟨_, _, cp, p, _, _, hc, hp, circ_three_two, hd, by linarith [div_pos two_pos Real.pi_pos]⟩

/-- The frequency severity is not capped on the template path, so the completed frequency overshoots: from 2.5 s towards a
target of 250 ms it becomes negative. -/
theorem C66_frequency_overshoot (order : List (String × TargetPattern ℝ) → List (String × TargetPattern ℝ))
    (ho : ∀ m, (order m).Perm m) :
    ∃ (c t : TargetPattern ℝ) (cp : CompletedPattern ℝ) (f : ℤ),
      defaultEngine.completePattern order c (identifyGaps' c t) = .ok cp ∧ cp.filled.frequency = some f ∧
      0 < c.frequency ∧ 0 < t.frequency ∧ f < 0 := by
  have e0 : ∀ x : ℝ, phaseDifference x x = 0 := fun x => (phaseDifference_eq_zero_iff x x).2 (SameAngle.refl x)
  obtain ⟨tm, hb, -, htm⟩ := default_accepts order ho (patternAt 0 2500000000) (by
    simp only [patternAt, e0]; norm_num)
  have hg : identifyGaps' (patternAt 0 2500000000) (patternAt 0 250000000) =
      [⟨.frequency, 2500000000, 250000000, 9⟩] := by
    unfold identifyGaps'
    simp only [patternAt, GoMath.abs_real, e0, GoMath.ofInt_real, GoMath.piMul_real]
    norm_num
  refine ⟨patternAt 0 2500000000, patternAt 0 250000000, ⟨patternAt 0 2500000000, { Filled.empty with
    frequency := some (blendFrequency 2500000000 tm.frequency (9 : ℝ)) }⟩, _, ?_, rfl, by simp [patternAt],
    by simp [patternAt], ?_⟩
  · unfold Engine.completePattern
    rw [hb, hg]
    rfl
  · unfold blendFrequency
    simp only [GoMath.ofInt_real, GoMath.toInt_real]
    rcases htm with h | h <;> rw [h]
    · have : rtrunc (((250000000 - 2500000000 : ℤ) : ℝ) * 9) = -20250000000 := by
        unfold rtrunc; rw [if_neg (by norm_num)]
        rw [Int.ceil_eq_iff]; norm_num
      rw [this]; norm_num
    · have : rtrunc (((200000000 - 2500000000 : ℤ) : ℝ) * 9) = -20700000000 := by
        unfold rtrunc; rw [if_neg (by norm_num)]
        rw [Int.ceil_eq_iff]; norm_num
      rw [this]; norm_num

/-- Non-vacuity of `C66_half_gap_partial`: an engine without templates. -/
example : findBestTemplate (Engine.new : Engine ℝ).matchThreshold
      (((id (Engine.new : Engine ℝ).templates)).map Prod.snd) (patternAt 2 250000000) = none ∧
    ¬ SpecialPair 3 2 ∧ identifyGaps' (patternAt 2 250000000) (patternAt 3 250000000) ≠ [] := by
  refine ⟨rfl, ?_, fun h => ?_⟩
  · rintro (⟨h, -⟩ | ⟨-, h⟩) <;> norm_num at h
  · obtain ⟨cp, p, hc, hp, -, -⟩ := step_away id fun _ => List.Perm.refl _
    rw [h] at hc
    obtain ⟨cp', hc', -, hn, -⟩ := C66_matching_unchanged defaultEngine id (patternAt 2 250000000) (patternAt 2 250000000)
      (C07_no_gap_self _)
    rw [C07_no_gap_self, hc] at hc'
    injection hc' with hc'; subst hc'
    rw [hn] at hp; cases hp

/-! ### Doubles -/

section Doubles
variable [Rounding] [LibM]

theorem F64.phaseDifference_small (a b : Dbl) (h : ∃ d, F64.fin a - F64.fin b = .fin d) :
    ∃ d : Dbl, phaseDifference (F64.fin a) (F64.fin b) = .fin d ∧ |d.1| ≤ 4 := by
  have hp := Real.pi_lt_d2
  have hp0 := Real.pi_pos
  obtain ⟨x, hx⟩ := h
  unfold phaseDifference
  simp only [hx]
  split_ifs
  · refine F64.ofReal_abs_le 4 (by norm_num) ?_
    rw [abs_le]; push_cast; constructor <;> linarith
  · refine F64.ofReal_abs_le 4 (by norm_num) ?_
    rw [abs_le]; push_cast; constructor <;> linarith
  · obtain ⟨d, hd, hle⟩ := LibM.atan2_le (LibM.sin x) (LibM.cos x)
    exact ⟨d, hd, by linarith⟩

theorem F64.abs_fin (e : Dbl) : ∃ v : Dbl, GoMath.abs (F64.fin e) = F64.fin v ∧ v.1 = |e.1| := by
  change ∃ v : Dbl, (if e.1 < 0 then F64.neg (F64.fin e) else F64.fin e) = F64.fin v ∧ _
  split_ifs with h
  · exact ⟨_, rfl, (abs_of_neg h).symm⟩
  · exact ⟨e, rfl, (abs_of_nonneg (not_lt.1 h)).symm⟩

theorem F64.mul_bounded (a b : Dbl) (m n : ℕ) (h : m * n < 2 ^ 53) (ha : |a.1| ≤ m) (hb : |b.1| ≤ n) :
    ∃ d : Dbl, F64.fin a * F64.fin b = .fin d ∧ |d.1| ≤ (m * n : ℕ) := by
  rw [F64.mul_fin]
  refine F64.ofReal_abs_le (m * n) h ?_
  rw [abs_mul]
  push_cast
  exact mul_le_mul ha hb (abs_nonneg _) (by positivity)

/-- A finite number of moderate size, such as a measured mean phase in `[-π, π]` or a wrapped phase. -/
def F64.Small (x : F64) : Prop := ∃ d : Dbl, x = .fin d ∧ |d.1| ≤ 100

theorem InTurn.toSmall {x : F64} (h : InTurn x) : F64.Small x := by
  obtain ⟨d, e, hd⟩ := h.small
  exact ⟨d, e, by linarith⟩

theorem sub_finite {a b : F64} (ha : F64.IsFinite a) (hb : F64.Small b) :
    ∃ x y d : Dbl, a = .fin x ∧ b = .fin y ∧ |y.1| ≤ 100 ∧ a - b = .fin d := by
  cases a with
  | fin x =>
    obtain ⟨y, rfl, hy⟩ := hb
    obtain ⟨d, hd⟩ := F64.sub_small x y hy
    exact ⟨x, y, d, rfl, rfl, hy, hd⟩
  | _ => exact absurd ha (by simp [F64.IsFinite])

/-- A phase plus a weighted phase difference, wrapped: in range for any finite weight up to 10. -/
theorem inTurn_blend {a b : F64} (ha : F64.Small a) (hb : F64.IsFinite b) (w : Dbl) (hw : |w.1| ≤ 10) :
    InTurn (wrapPhase (a + phaseDifference b a * .fin w)) := by
  obtain ⟨y, x, d, rfl, rfl, hx, hd⟩ := sub_finite hb ha
  obtain ⟨e, he, hle⟩ := F64.phaseDifference_small y x ⟨d, hd⟩
  obtain ⟨m, hm, hml⟩ := F64.mul_bounded e w 4 10 (by norm_num) (by exact_mod_cast hle) (by exact_mod_cast hw)
  rw [he, hm]
  obtain ⟨s, hs⟩ := F64.add_small x m hx
  rw [hs]
  exact inTurn_wrap s

theorem severity_f64 {a b : F64} (ha : F64.Small a) (hb : F64.IsFinite b) :
    ∃ w : Dbl, GoMath.abs (phaseDifference b a) / piMul 1 = F64.fin w ∧ |w.1| ≤ 2 := by
  obtain ⟨y, x, d, rfl, rfl, -, hd⟩ := sub_finite hb ha
  obtain ⟨e, he, hle⟩ := F64.phaseDifference_small y x ⟨d, hd⟩
  have hpi : (3 : ℝ) ≤ piDouble := by unfold piDouble; norm_num
  rw [he, F64.piMul_one]
  obtain ⟨v, hv, ev⟩ := F64.abs_fin e
  rw [hv]
  rw [F64.div_fin (by change piDouble ≠ 0; linarith)]
  refine F64.ofReal_abs_le 2 (by norm_num) ?_
  change |(v.1 / piDouble)| ≤ _
  rw [ev]
  rw [abs_div, abs_abs, abs_of_pos (by linarith : 0 < piDouble), div_le_iff₀ (by linarith)]
  push_cast; linarith

theorem fmin_half (w : Dbl) (hw : |w.1| ≤ 2) : ∃ v : Dbl, fmin (F64.fin w) 0.5 = .fin v ∧ |v.1| ≤ 10 := by
  obtain ⟨y, hy, e, h0, h1⟩ := F64.in01_ofReal (x := 0.5) (by norm_num) (by norm_num)
  change ∃ v : Dbl, fmin (F64.fin w) (F64.ofReal 0.5) = .fin v ∧ _
  rw [e]
  change ∃ v : Dbl, (if w.1 < y then F64.fin w else F64.fin ⟨y, hy⟩) = .fin v ∧ _
  split_ifs
  · exact ⟨w, rfl, by linarith⟩
  · exact ⟨_, rfl, by rw [abs_of_nonneg h0]; linarith⟩

/-- In doubles too, every completed phase is in `[0, 2π)`, provided that the current phase is moderate and the phases of the
target and of the templates are finite. -/
theorem C66_phase_range_double (e : Engine F64)
    (order : List (String × TargetPattern F64) → List (String × TargetPattern F64)) (ho : ∀ m, (order m).Perm m)
    (c t : TargetPattern F64) (hc : F64.Small c.phase) (ht : F64.IsFinite t.phase)
    (htm : ∀ q ∈ e.templates, F64.IsFinite q.2.phase) (cp : CompletedPattern F64)
    (h : e.completePattern order c (identifyGaps' c t) = .ok cp) (p : F64) (hp : cp.filled.phase = some p) :
    InTurn p := by
  have hgap : ∀ g ∈ identifyGaps' c t, g.type = .phase →
      g = ⟨.phase, c.phase, t.phase, GoMath.abs (phaseDifference t.phase c.phase) / piMul 1⟩ := by
    intro g hg hty
    unfold identifyGaps' at hg
    simp only [List.mem_append] at hg
    rcases hg with (hg | hg) | hg <;> split_ifs at hg <;> simp only [List.mem_singleton, List.not_mem_nil] at hg
    · exact hg
    · subst hg; cases hty
    · subst hg; cases hty
  obtain ⟨w, ew, hw⟩ := severity_f64 hc ht
  unfold Engine.completePattern at h
  cases hb : findBestTemplate e.matchThreshold ((order e.templates).map Prod.snd) c with
  | none =>
    rw [hb] at h; injection h with h; subst h
    refine interpolate_phase InTurn _ Filled.empty (fun p h => by cases h) (fun g hg hty => ?_) p hp
    rw [hgap g hg hty]
    simp only [ew]
    obtain ⟨v, ev, hv⟩ := fmin_half w hw
    rw [ev]
    exact inTurn_blend hc ht v hv
  | some tm =>
    rw [hb] at h
    simp only at h
    cases hf : templateFills c tm (identifyGaps' c t) Filled.empty with
    | panic => rw [hf] at h; cases h
    | ok f =>
      rw [hf] at h; injection h with h; subst h
      refine templateFills_phase InTurn c tm _ Filled.empty f hf (fun p h => by cases h) (fun g hg hty => ?_) p hp
      rw [hgap g hg hty]
      simp only [ew]
      have hmem : tm ∈ (order e.templates).map Prod.snd := by
        suffices ∀ (l : List (TargetPattern F64)) (b : Option (TargetPattern F64) × F64),
            (l.foldl (templateStep c e.matchThreshold) b).1 = some tm → tm ∈ l ∨ b.1 = some tm by
          rcases this _ _ hb with h | h
          · exact h
          · cases h
        intro l
        induction l with
        | nil => exact fun b h => Or.inr h
        | cons x l ih =>
          intro b h
          rcases ih _ h with h | h
          · exact Or.inl (List.mem_cons_of_mem _ h)
          · unfold templateStep at h
            simp only at h
            split_ifs at h
            · simp only [Option.some.injEq] at h
              left; rw [h]; exact List.mem_cons_self
            · exact Or.inr h
      obtain ⟨q, hq, rfl⟩ := List.mem_map.1 (((ho e.templates).map Prod.snd).mem_iff.1 hmem)
      exact inTurn_blend hc (htm q hq) w (by linarith)

/-- The hypotheses are met by the default engine. -/
theorem default_templates_f64 : ∀ q ∈ (Engine.new.loadDefaultTemplates : Engine F64).templates, F64.IsFinite q.2.phase := by
  intro q hq
  have : q.2.phase = 0 := by
    simp [Engine.loadDefaultTemplates, Engine.addTemplate, Engine.new] at hq
    rcases hq with rfl | rfl | rfl <;> rfl
  rw [this]
  trivial

example : (∀ q ∈ (Engine.new.loadDefaultTemplates : Engine F64).templates, F64.IsFinite q.2.phase) ∧
    F64.Small (-1 : F64) ∧ F64.IsFinite (1 : F64) :=
  ⟨default_templates_f64, ⟨_, rfl, by show |(-(1:ℝ))| ≤ 100; norm_num⟩, trivial⟩

end Doubles

section
variable {α : Type} [Zero α] [One α] [Add α] [Sub α] [Mul α] [Div α] [Neg α] [LT α] [LE α]
  [DecidableLT α] [DecidableLE α] [BEq α] [OfScientific α] [GoMath α]

theorem templateFills_waveform (c t : TargetPattern α) (gaps : List (PatternGap α)) (f f' : Filled α)
    (h : templateFills c t gaps f = .ok f') :
    (f'.waveform = none ↔ f.waveform = none ∧ (t.waveform = [] ∨ ∀ g ∈ gaps, g.type ≠ .waveform)) ∧
    ∀ w, f'.waveform = some w → f.waveform = some w ∨
      ∃ g ∈ gaps, g.type = .waveform ∧ morphWaveform c.waveform t.waveform g.severity = .ok w := by
  induction gaps generalizing f with
  | nil => injection h with h; subst h; exact ⟨by simp, fun w hw => Or.inl hw⟩
  | cons g gs ih =>
    unfold templateFills at h
    cases e : templateFill c t f g with
    | panic => rw [e] at h; cases h
    | ok f1 =>
      rw [e] at h
      obtain ⟨i1, i2⟩ := ih f1 h
      have key : (g.type ≠ .waveform → f1.waveform = f.waveform) ∧
          (g.type = .waveform → t.waveform = [] → f1.waveform = f.waveform) ∧
          (g.type = .waveform → t.waveform ≠ [] → ∃ w, f1.waveform = some w ∧
            morphWaveform c.waveform t.waveform g.severity = .ok w) := by
        unfold templateFill at e
        cases ht : g.type with
        | phase => rw [ht] at e; injection e with e; subst e; simp
        | frequency => rw [ht] at e; injection e with e; subst e; simp
        | coherence => rw [ht] at e; injection e with e; subst e; simp
        | waveform =>
          rw [ht] at e
          simp only at e
          split_ifs at e with hl
          · split at e
            · rename_i w hw
              injection e with e; subst e
              exact ⟨fun h => absurd rfl h, fun _ h => by rw [h] at hl; simp at hl, fun _ _ => ⟨w, rfl, hw⟩⟩
            · cases e
          · injection e with e; subst e
            exact ⟨fun _ => rfl, fun _ _ => rfl, fun _ h => absurd (List.length_pos_of_ne_nil h) hl⟩
      obtain ⟨k1, k2, k3⟩ := key
      by_cases hg : g.type = .waveform
      · by_cases ht : t.waveform = []
        · rw [k2 hg ht] at i1 i2
          refine ⟨by rw [i1]; simp [ht], fun w hw => ?_⟩
          rcases i2 w hw with h | ⟨g', hg', h⟩
          · exact Or.inl h
          · exact Or.inr ⟨g', List.mem_cons_of_mem _ hg', h⟩
        · obtain ⟨w1, e1, m1⟩ := k3 hg ht
          rw [e1] at i1 i2
          refine ⟨by rw [i1]; simp [ht, hg], fun w hw => ?_⟩
          rcases i2 w hw with h | ⟨g', hg', h⟩
          · injection h with h; subst h
            exact Or.inr ⟨g, List.mem_cons_self, hg, m1⟩
          · exact Or.inr ⟨g', List.mem_cons_of_mem _ hg', h⟩
      · rw [k1 hg] at i1 i2
        refine ⟨by rw [i1]; simp [hg], fun w hw => ?_⟩
        rcases i2 w hw with h | ⟨g', hg', h⟩
        · exact Or.inl h
        · exact Or.inr ⟨g', List.mem_cons_of_mem _ hg', h⟩

/-- **C65** Where morphing is used: completing with a template fills in a waveform exactly when the template has one and a
waveform gap was reported, and what is filled in is the morphed waveform of such a gap. Without a template no waveform is
filled in. -/
theorem C65_filled (e : Engine α) (order : List (String × TargetPattern α) → List (String × TargetPattern α))
    (c : TargetPattern α) (gaps : List (PatternGap α)) (cp : CompletedPattern α) (h : e.completePattern order c gaps = .ok cp) :
    match findBestTemplate e.matchThreshold ((order e.templates).map Prod.snd) c with
    | none => cp.filled.waveform = none
    | some t =>
      (cp.filled.waveform = none ↔ t.waveform = [] ∨ ∀ g ∈ gaps, g.type ≠ .waveform) ∧
      ∀ w, cp.filled.waveform = some w →
        ∃ g ∈ gaps, g.type = .waveform ∧ morphWaveform c.waveform t.waveform g.severity = .ok w := by
  unfold Engine.completePattern at h
  split at h
  · rename_i hn
    rw [hn]
    injection h with h; subst h
    simp only [interpolatePattern]
    have : ∀ (l : List (PatternGap α)) (f : Filled α), f.waveform = none → (l.foldl interpolateStep f).waveform = none := by
      intro l
      induction l with
      | nil => exact fun _ h => h
      | cons g l ih =>
        intro f hf
        refine ih _ ?_
        unfold interpolateStep
        dsimp only
        split <;> exact hf
    exact this gaps _ rfl
  · rename_i t ht
    rw [ht]
    split at h
    · rename_i f hf
      injection h with h; subst h
      obtain ⟨h1, h2⟩ := templateFills_waveform c t gaps Filled.empty f hf
      refine ⟨by rw [h1]; simp [Filled.empty], fun w hw => ?_⟩
      rcases h2 w hw with h | h
      · simp [Filled.empty] at h
      · exact h
    · cases h

end

end Verif
