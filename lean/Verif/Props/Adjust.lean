import Verif.Props.Pull
import Verif.Props.SyncSafe

/-!
# C108, C109: what one iteration of the synchronisation does to each agent
-/

set_option autoImplicit false
set_option linter.unusedSectionVars false

namespace Verif
open GoMath Spec

local notation "π" => Real.pi

section
variable {α : Type} [Zero α] [One α] [Add α] [Sub α] [Mul α] [Div α] [Neg α] [LT α] [LE α]
  [DecidableLT α] [DecidableLE α] [BEq α] [OfScientific α] [GoMath α]

/-! ### C108: every agent once -/

namespace Spec

/-- The scale before the agent at place `i` is visited: a settled swarm divides it by five at the places 0, 3, 6, … -/
def scaleBefore (settled : Bool) (s : α) : ℕ → α
  | 0 => s
  | i + 1 => if settled = true ∧ i % 3 = 0 then scaleBefore settled s i * 0.2 else scaleBefore settled s i

end Spec

theorem scale_after (c : AdjustCtx α) (s : α) (i : ℕ) (w : ℕ → ℕ) (a : Agent α) :
    (adjustAgent c s i w a).2 = if (!c.spread && c.settled) = true ∧ i % 3 = 0 then s * 0.2 else s := by
  unfold adjustAgent
  cases c.spread <;> cases c.settled <;> by_cases h : i % 3 = 0 <;> simp [h]

theorem adjustLoop_other (c : AdjustCtx α) (word : ℕ → ℕ → ℕ) (l : List ℕ) (i : ℕ) (s : α) (h : ℕ → Agent α) (x : ℕ) (hx : x ∉ l) :
    adjustLoop c word l i s h x = h x := by
  induction l generalizing i s h with
  | nil => rfl
  | cons a l ih =>
    rw [adjustLoop, ih _ _ _ (fun hm => hx (by simp [hm]))]
    exact if_neg (fun e => hx (by simp [e]))

/-- **C108** Every agent of the list is adjusted exactly once, starting from its own state, with the random words and the scale of its place; no other agent
is touched. -/
theorem C108_once (c : AdjustCtx α) (word : ℕ → ℕ → ℕ) (agents : List ℕ) (hn : agents.Nodup) (h : ℕ → Agent α) :
    (∀ x, x ∉ agents → adjustLoop c word agents 0 c.scale h x = h x) ∧
    ∀ i (hi : i < agents.length), adjustLoop c word agents 0 c.scale h agents[i] =
      (adjustAgent c (scaleBefore (!c.spread && c.settled) c.scale i) i (word i) (h agents[i])).1 := by
  refine ⟨fun x hx => adjustLoop_other c word agents 0 _ h x hx, ?_⟩
  have key : ∀ (l : List ℕ) (j : ℕ) (s : α) (h : ℕ → Agent α), l.Nodup → s = scaleBefore (!c.spread && c.settled) c.scale j →
      ∀ i (hi : i < l.length), adjustLoop c word l j s h l[i] =
        (adjustAgent c (scaleBefore (!c.spread && c.settled) c.scale (j + i)) (j + i) (word (j + i)) (h l[i])).1 := by
    intro l
    induction l with
    | nil => intro j s h _ _ i hi; simp at hi
    | cons a l ih =>
      intro j s h hnd hs i hi
      rw [List.nodup_cons] at hnd
      cases i with
      | zero =>
        show adjustLoop c word (a :: l) j s h a = _
        rw [adjustLoop, adjustLoop_other c word l _ _ _ a hnd.1, add_zero, ← hs]
        exact if_pos rfl
      | succ i =>
        have hi' : i < l.length := by simpa using hi
        show adjustLoop c word (a :: l) j s h l[i] = _
        rw [adjustLoop, ih (j + 1) _ _ hnd.2 (by rw [scale_after, scaleBefore, hs]) i hi', show j + 1 + i = j + (i + 1) by omega]
        have hne : l[i] ≠ a := fun e => hnd.1 (e ▸ List.getElem_mem hi')
        have e : setAt h a (adjustAgent c s j (word j) (h a)).1 l[i] = h l[i] := if_neg hne
        rw [e]; rfl
  intro i hi
  have := key agents 0 c.scale h hn rfl i hi
  simpa using this

end

/-- **C108** In a settled swarm the scale of the k-th adjusted agent is the scale divided by five k+1 times; the other agents, at places not divisible by
three, only walk at random. -/
theorem C108_scale (s : ℝ) (k : ℕ) : scaleBefore true s (3 * k) * 0.2 = s * 0.2 ^ (k + 1) ∧ scaleBefore false s k = s := by
  constructor
  · have : ∀ k, scaleBefore true s (3 * k) = s * 0.2 ^ k := by
      intro k
      induction k with
      | zero => simp [scaleBefore]
      | succ k ih =>
        have : scaleBefore true s (3 * (k + 1)) = scaleBefore true s (3 * k) * 0.2 := by
          rw [show 3 * (k + 1) = 3 * k + 2 + 1 by ring, scaleBefore, if_neg (by omega), scaleBefore, if_neg (by omega), scaleBefore,
            if_pos ⟨rfl, by omega⟩]
        rw [this, ih]; ring
    rw [this]; ring
  · induction k with
    | zero => rfl
    | succ k ih => rw [scaleBefore, if_neg (by simp), ih]

/-- **C108** What happens in a settled swarm: at the places 3k the k-th nudge has a scale of `0.2^(k+1)` times the initial one; at the others the phase walks by at
most half of `randomWalkMagnitude` and the frequency is left alone. -/
theorem C108_settled (c : AdjustCtx ℝ) (hset : c.settled = true) (hsp : c.spread = false) (word : ℕ → ℕ → ℕ) (agents : List ℕ) (hn : agents.Nodup)
    (h : ℕ → Agent ℝ) :
    (∀ k (hk : 3 * k < agents.length), adjustLoop c word agents 0 c.scale h agents[3 * k] =
      adjustFrequency c.freqAdj (nudgeAgent c (c.scale * 0.2 ^ (k + 1)) (word (3 * k)) (h agents[3 * k]))) ∧
    ∀ i (hi : i < agents.length), i % 3 ≠ 0 → ∃ m, |m| ≤ |c.cfg.randomWalkMagnitude| / 2 ∧
      (adjustLoop c word agents 0 c.scale h agents[i]).state =
        { (h agents[i]).state with phase := wrapPhase (wrapPhase ((h agents[i]).state.phase + m)) } := by
  have hb : (!c.spread && c.settled) = true := by rw [hset, hsp]; rfl
  constructor
  · intro k hk
    rw [(C108_once c word agents hn h).2 _ hk, hb]
    unfold adjustAgent
    rw [hsp, hset, if_neg (by simp), if_pos rfl, if_neg (by omega), ((C108_scale c.scale k).1)]
  · intro i hi hne
    rw [(C108_once c word agents hn h).2 _ hi, hb]
    unfold adjustAgent
    rw [hsp, hset, if_neg (by simp), if_pos rfl, if_pos hne]
    refine ⟨(randFloat64 (word i 1) - 0.5) * c.cfg.randomWalkMagnitude, ?_, rfl⟩
    obtain ⟨r0, r1⟩ := randFloat64_real_mem (word i 1)
    have : |(randFloat64 (word i 1) : ℝ) - 0.5| ≤ 1 / 2 := by rw [abs_le]; constructor <;> norm_num <;> linarith
    rw [abs_mul]
    nlinarith [abs_nonneg c.cfg.randomWalkMagnitude]

/-- In a settled swarm the agents that are nudged at all are treated alike: same state and same random numbers, same result. -/
def C108_claim : Prop := ∀ (c : AdjustCtx ℝ) (word : ℕ → ℕ → ℕ) (agents : List ℕ) (h : ℕ → Agent ℝ), agents.Nodup → c.settled = true → c.spread = false →
  ∀ (i j : ℕ) (hi : 3 * i < agents.length) (hj : 3 * j < agents.length), word (3 * i) = word (3 * j) →
    (h agents[3 * i]).state.phase = (h agents[3 * j]).state.phase →
    (adjustLoop c word agents 0 c.scale h agents[3 * i]).state.phase = (adjustLoop c word agents 0 c.scale h agents[3 * j]).state.phase

theorem adjustFrequency_phase (f : ℤ) (a : Agent ℝ) : (adjustFrequency f a).state.phase = a.state.phase := by
  unfold adjustFrequency
  split_ifs <;> rfl

/-! ### C109: nudges -/

/-- What a nudge does beyond the threshold: it moves the agent forward by the way to the target and the adjustment of the pattern, times random factors around 1. -/
theorem nudge_moves (c : AdjustCtx ℝ) (scale : ℝ) (w : ℕ → ℕ) (a : Agent ℝ) (d : ℝ) (hd : IsForward a.state.phase c.targetPhase d)
    (hs1 : c.sizeNormalized ≤ 1) (ht : c.threshold < d) :
    ∃ r : ℝ, 0.85 - 0.1 * (1 - c.sizeNormalized) ≤ r ∧ r ≤ 1.15 + 0.1 * (1 - c.sizeNormalized) ∧
      (nudgeAgent c scale w a).state.phase =
        wrapPhase (wrapPhase (a.state.phase + (c.phaseAdj * 0.3 + d * scale) * r * (1 + c.variation (w 0)))) := by
  obtain ⟨r0, r1⟩ := randFloat64_real_mem (w 1)
  have e1 : wrapPhase (c.targetPhase - a.state.phase) = d := hd.eq_wrap
  refine ⟨1 - (0.3 + (1 - c.sizeNormalized) * 0.2) / 2.0 + randFloat64 (w 1) * (0.3 + (1 - c.sizeNormalized) * 0.2), ?_, ?_, ?_⟩
  · norm_num
    nlinarith
  · norm_num
    nlinarith
  · unfold nudgeAgent
    dsimp only
    rw [e1, GoMath.abs_real, abs_of_nonneg hd.nonneg, if_pos ht, setPhase_phase]

/-- The variation is at most half its scale either way. -/
theorem variation_le (c : AdjustCtx ℝ) (w : ℕ) (v : ℝ) (hv : c.cfg.variationMin + (1 - c.sizeNormalized) * (c.cfg.variationMax - c.cfg.variationMin) +
    c.coherence * c.cfg.coherenceFactor = v) (h0 : 0 ≤ v) : |c.variation w| ≤ v / 2 := by
  obtain ⟨r0, r1⟩ := randFloat64_real_mem w
  have e : c.variation w = (randFloat64 w - 0.5) * v := by rw [← hv]; rfl
  rw [e, abs_mul, abs_of_nonneg h0]
  have : |(randFloat64 w : ℝ) - 0.5| ≤ 1 / 2 := by rw [abs_le]; constructor <;> norm_num <;> linarith
  nlinarith

namespace Spec

/-- A context as it occurs with the default configuration: a swarm of at least seven agents and any coherence, which is neither spread nor settled, and
without an adjustment from the pattern. -/
structure Usual (c : AdjustCtx ℝ) : Prop where
  cfg : c.cfg = minAPIConfig
  adj : c.phaseAdj = 0
  size0 : 0.07 ≤ c.sizeNormalized
  size1 : c.sizeNormalized ≤ 1
  coh0 : 0 ≤ c.coherence
  coh1 : c.coherence ≤ 1
  spread : c.spread = false

end Spec

theorem usual_scale (c : AdjustCtx ℝ) (hc : Usual c) : 0.1 ≤ c.scale ∧ (c.scale ≤ 0.4 ∨ c.scale = 0.75 * (1 - c.coherence * 0.15)) := by
  unfold AdjustCtx.scale
  simp only [hc.spread, Bool.false_eq_true, if_false]
  rw [hc.cfg]
  split_ifs
  · norm_num
  · norm_num
  · norm_num
  · norm_num
  · rw [GoMath.fmax_real]
    simp only [minAPIConfig]
    refine ⟨le_max_of_le_right (by norm_num), ?_⟩
    rcases le_total (0.75 * (1 - c.coherence * 0.15)) 0.4 with h | h
    · left; rw [max_eq_right h]
    · right; rw [max_eq_left h]

theorem usual_variation (c : AdjustCtx ℝ) (hc : Usual c) (w : ℕ) :
    |c.variation w| ≤ (0.05 + (1 - c.sizeNormalized) * 0.1 + c.coherence * 0.15) / 2 := by
  have h1 := hc.size1
  have k0 := hc.coh0
  have := variation_le c w _ rfl (by rw [hc.cfg]; simp only [minAPIConfig]; norm_num; nlinarith)
  rw [hc.cfg] at this
  simp only [minAPIConfig] at this
  norm_num at this ⊢
  linarith

/-- **C109** With the default configuration a nudge from beyond the threshold makes the forward distance shrink, by at least six percent, and never overshoots
the target, whatever the random numbers. -/
theorem C109_forward (c : AdjustCtx ℝ) (hc : Usual c) (w : ℕ → ℕ) (a : Agent ℝ) (d : ℝ) (hd : IsForward a.state.phase c.targetPhase d)
    (ht : c.threshold < d) : ∃ d', IsForward (nudgeAgent c c.scale w a).state.phase c.targetPhase d' ∧ d' ≤ 0.94 * d := by
  obtain ⟨r, r0, r1, e⟩ := nudge_moves c c.scale w a d hd hc.size1 ht
  have hv := usual_variation c hc (w 0)
  obtain ⟨s0, s1⟩ := usual_scale c hc
  have z0 := hc.size0
  have z1 := hc.size1
  have k0 := hc.coh0
  have k1 := hc.coh1
  rw [hc.adj, zero_mul, zero_add] at e
  have hd0 := hd.nonneg
  generalize c.scale = s at *
  generalize c.variation (w 0) = v at *
  generalize c.coherence = q at *
  generalize c.sizeNormalized = z at *
  rw [abs_le] at hv
  obtain ⟨hv0, hv1⟩ := hv
  norm_num at *
  have rlo : 0.757 ≤ r := by norm_num; linarith
  have rhi : r ≤ 1.243 := by norm_num; linarith
  have vlo : -(0.1465 : ℝ) ≤ v := by norm_num; linarith
  have vhi : v ≤ 0.0715 + 0.075 * q := by norm_num; linarith
  norm_num at rlo rhi vlo vhi
  have p0 : 0.6 ≤ r * (1 + v) := by norm_num; nlinarith
  have p1 : r * (1 + v) ≤ 1.243 * (1.0715 + 0.075 * q) := by
    have : (0:ℝ) ≤ 1 + v := by linarith
    norm_num
    calc r * (1 + v) ≤ 1243 / 1000 * (1 + v) := mul_le_mul_of_nonneg_right rhi this
      _ ≤ _ := by linarith
  norm_num at p0 p1
  have q0 : 0.06 ≤ s * (r * (1 + v)) := by norm_num; nlinarith
  have q1 : s * (r * (1 + v)) ≤ 1 := by
    rcases s1 with h | h
    · nlinarith
    · rw [h]
      have : (0:ℝ) ≤ 3 / 4 * (1 - q * (3 / 20)) := by linarith
      calc 3 / 4 * (1 - q * (3 / 20)) * (r * (1 + v)) ≤ 3 / 4 * (1 - q * (3 / 20)) * (1243 / 1000 * (2143 / 2000 + 3 / 40 * q)) :=
            mul_le_mul_of_nonneg_left p1 this
        _ ≤ 1 := by nlinarith
  norm_num at q0
  have a0 : d * (3 / 50) ≤ d * (s * (r * (1 + v))) := mul_le_mul_of_nonneg_left q0 hd0
  have a1 : d * (s * (r * (1 + v))) ≤ d * 1 := mul_le_mul_of_nonneg_left q1 hd0
  refine ⟨d - d * (s * (r * (1 + v))), ⟨by linarith, by linarith [hd.lt], ?_⟩, by linarith⟩
  rw [e]
  obtain ⟨i, hi⟩ := wrapPhase_sameAngle (wrapPhase (a.state.phase + d * s * r * (1 + v)))
  obtain ⟨j, hj⟩ := wrapPhase_sameAngle (a.state.phase + d * s * r * (1 + v))
  obtain ⟨l, hl⟩ := hd.lands
  exact ⟨l - i - j, by rw [hi, hj, hl]; push_cast; ring⟩

/-- **C109** Within the threshold an agent rests, but for an occasional kick of at most 0.02 radians either way, which there is only above a coherence of 0.8. -/
theorem C109_rest (c : AdjustCtx ℝ) (hc : Usual c) (w : ℕ → ℕ) (a : Agent ℝ) (d : ℝ) (hd : IsForward a.state.phase c.targetPhase d) (ht : d ≤ c.threshold) :
    (c.coherence ≤ 0.8 → nudgeAgent c c.scale w a = a) ∧
    (nudgeAgent c c.scale w a = a ∨ ∃ k, |k| ≤ 0.02 ∧ (nudgeAgent c c.scale w a).state.phase = wrapPhase (wrapPhase (a.state.phase + k))) := by
  unfold nudgeAgent
  dsimp only
  rw [hd.eq_wrap, GoMath.abs_real, abs_of_nonneg hd.nonneg, if_neg (not_lt.2 ht), hc.cfg]
  have hm : (minAPIConfig : GoalConfig ℝ).moderateCoherence = 0.8 := by simp only [minAPIConfig]; norm_num
  refine ⟨fun h => if_neg fun hcon => absurd hcon.1 (not_lt.2 (h.trans_eq hm.symm)), ?_⟩
  split_ifs
  · refine .inr ⟨(randFloat64 (w 2) - 0.5) * 0.04, ?_, rfl⟩
    obtain ⟨r0, r1⟩ := randFloat64_real_mem (w 2)
    rw [abs_le]
    constructor <;> norm_num <;> linarith
  · exact .inl rfl

/-- A nudge brings an agent beyond the threshold closer to the target, on the circle. -/
def C109_claim : Prop := ∀ (c : AdjustCtx ℝ) (w : ℕ → ℕ) (a : Agent ℝ) (x x' : ℝ), Usual c → c.settled = false → c.threshold < x →
  IsCircDist a.state.phase c.targetPhase x → IsCircDist (nudgeAgent c c.scale w a).state.phase c.targetPhase x' → x' < x

/-- **C109** (partial) The claim holds for agents whose way forward to the target is the shorter one. -/
theorem C109_closer_partial (c : AdjustCtx ℝ) (hc : Usual c) (w : ℕ → ℕ) (a : Agent ℝ) (d x x' : ℝ) (hd : IsForward a.state.phase c.targetPhase d)
    (ht : c.threshold < d) (hpi : d ≤ π) (hx : IsCircDist a.state.phase c.targetPhase x)
    (hx' : IsCircDist (nudgeAgent c c.scale w a).state.phase c.targetPhase x') : x' < x := by
  have hpos : 0 < c.threshold := by
    unfold AdjustCtx.threshold
    have := hc.coh0
    have := hc.size1
    norm_num; nlinarith
  obtain ⟨d', hd', hlt⟩ := C109_forward c hc w a d hd ht
  rw [circDist_unique hx hd.circ, circDist_unique hx' hd'.circ, min_eq_left (by linarith : d ≤ 2 * π - d)]
  refine (min_le_left _ _).trans_lt ?_
  norm_num at hlt
  linarith

namespace Spec

/-- A large swarm of coherence 0.5 on its way to 0.9. -/
noncomputable def halfway : AdjustCtx ℝ :=
  { cfg := minAPIConfig, phaseAdj := 0, freqAdj := 0, coherence := 0.5, variance := 1, targetPhase := 0, targetCoherence := 0.9, sizeNormalized := 1 }

end Spec

theorem halfway_usual : Usual halfway ∧ halfway.settled = false ∧ halfway.threshold = 0.025 ∧ halfway.scale = 0.69375 := by
  have hs : halfway.spread = false := by simp only [AdjustCtx.spread, halfway, minAPIConfig]; norm_num
  refine ⟨⟨rfl, rfl, by norm_num [halfway], by norm_num [halfway], by norm_num [halfway], by norm_num [halfway], hs⟩, ?_, ?_, ?_⟩
  · simp only [AdjustCtx.settled, halfway, minAPIConfig]; norm_num
  · simp only [AdjustCtx.threshold, halfway]; norm_num
  · unfold AdjustCtx.scale
    simp only [hs, Bool.false_eq_true, if_false]
    rw [GoMath.fmax_real]
    simp only [halfway, minAPIConfig]
    norm_num

/-- **C109** An agent half a radian ahead of the target is sent on round the circle, to more than 0.8 radians from the target, whatever the random numbers. -/
theorem C109_sent_round (w : ℕ → ℕ) (a : Agent ℝ) (ha : a.state.phase = 0.5) (x' : ℝ)
    (hx' : IsCircDist (nudgeAgent halfway halfway.scale w a).state.phase halfway.targetPhase x') : 0.8 < x' := by
  have hp := Real.pi_gt_d2
  have hp2 := Real.pi_lt_d2
  norm_num at hp hp2
  obtain ⟨hu, -, hth, hsc⟩ := halfway_usual
  have hd : IsForward a.state.phase halfway.targetPhase (2 * π - 0.5) := by
    refine ⟨by norm_num; linarith, by norm_num, ⟨-1, ?_⟩⟩
    rw [ha]; simp only [halfway]; push_cast; ring
  obtain ⟨r, r0, r1, e⟩ := nudge_moves halfway halfway.scale w a _ hd hu.size1 (by rw [hth]; norm_num; linarith)
  have hv := usual_variation halfway hu (w 0)
  rw [abs_le] at hv
  obtain ⟨hv0, hv1⟩ := hv
  rw [hu.adj, zero_mul, zero_add, hsc] at e
  have z1 : halfway.sizeNormalized = 1 := rfl
  have q1 : halfway.coherence = 0.5 := rfl
  rw [z1] at r0 r1 hv0 hv1
  rw [q1] at hv0 hv1
  generalize halfway.variation (w 0) = v at *
  norm_num at r0 r1 hv0 hv1
  have p0 : 0.79 ≤ r * (1 + v) := by norm_num; nlinarith
  have p1 : r * (1 + v) ≤ 1.222 := by norm_num; nlinarith
  norm_num at p0 p1
  have hfw : IsForward (nudgeAgent halfway halfway.scale w a).state.phase halfway.targetPhase
      ((2 * π - 0.5) - (2 * π - 0.5) * (0.69375 * (r * (1 + v)))) := by
    have b0 : 0 ≤ (2 * π - 0.5) * (0.69375 * (r * (1 + v))) := by
      refine mul_nonneg (by norm_num; linarith) (by norm_num; linarith)
    have b1 : (2 * π - 0.5) * (0.69375 * (r * (1 + v))) ≤ (2 * π - 0.5) * 1 :=
      mul_le_mul_of_nonneg_left (by norm_num; linarith) (by norm_num; linarith)
    refine ⟨by linarith, by norm_num at b0 ⊢; linarith, ?_⟩
    rw [hsc, e]
    obtain ⟨i, hi⟩ := wrapPhase_sameAngle (wrapPhase (a.state.phase + (2 * π - 0.5) * 0.69375 * r * (1 + v)))
    obtain ⟨j, hj⟩ := wrapPhase_sameAngle (a.state.phase + (2 * π - 0.5) * 0.69375 * r * (1 + v))
    obtain ⟨l, hl⟩ := hd.lands
    exact ⟨l - i - j, by rw [hi, hj, hl]; push_cast; ring⟩
  rw [circDist_unique hx' hfw.circ]
  have hD : (2 * π - 0.5 : ℝ) ≤ 5.8 := by norm_num; linarith
  have hD0 : (5.78 : ℝ) ≤ 2 * π - 0.5 := by norm_num; linarith
  generalize (2 * π - 0.5 : ℝ) = D at *
  norm_num at hD hD0 ⊢
  have lo : D * (111 / 160 * (r * (1 + v))) ≤ D * (0.848 : ℝ) := mul_le_mul_of_nonneg_left (by norm_num; linarith) (by linarith)
  have hi : D * (0.54 : ℝ) ≤ D * (111 / 160 * (r * (1 + v))) := mul_le_mul_of_nonneg_left (by norm_num; linarith) (by linarith)
  norm_num at lo hi
  constructor <;> linarith

/-- An agent half a radian ahead of the target is farther away after a nudge. -/
theorem C109_refuted : ¬ C109_claim := by
  intro h
  have hp := Real.pi_gt_three
  obtain ⟨hu, hset, hth, -⟩ := halfway_usual
  let a : Agent ℝ := { (Agent.zero : Agent ℝ) with state := { (Agent.zero : Agent ℝ).state with phase := 0.5 } }
  have ha : a.state.phase = 0.5 := rfl
  have hx : IsCircDist a.state.phase halfway.targetPhase 0.5 := by
    have := isCircDist_of_le (a := a.state.phase) (b := halfway.targetPhase) (m := 0.5) ⟨0, by rw [ha]; simp [halfway]⟩
      (by rw [abs_of_pos (by norm_num)]; norm_num; linarith)
    rwa [abs_of_pos (by norm_num)] at this
  have hx' := (isForward_wrap (nudgeAgent halfway halfway.scale (fun _ => 0) a).state.phase halfway.targetPhase).circ
  have h1 := h halfway (fun _ => 0) a 0.5 _ hu hset (by rw [hth]; norm_num) hx hx'
  have h2 := C109_sent_round (fun _ => 0) a ha _ hx'
  exact absurd (h2.trans h1) (by norm_num)

/-! ### C108: the counterexample -/

namespace Spec

/-- A large swarm that has settled. -/
noncomputable def calm : AdjustCtx ℝ :=
  { cfg := minAPIConfig, phaseAdj := 0, freqAdj := 0, coherence := 0.95, variance := 0.1, targetPhase := 0, targetCoherence := 0.9, sizeNormalized := 1 }

end Spec

theorem calm_settled : calm.settled = true ∧ Usual calm ∧ calm.threshold < π ∧ calm.scale = 0.1 := by
  have hp := Real.pi_gt_three
  have hs : calm.spread = false := by simp only [AdjustCtx.spread, calm, minAPIConfig]; norm_num
  refine ⟨?_, ⟨rfl, rfl, by norm_num [calm], by norm_num [calm], by norm_num [calm], by norm_num [calm], hs⟩, ?_, ?_⟩
  · simp only [AdjustCtx.settled, calm, minAPIConfig]; norm_num
  · simp only [AdjustCtx.threshold, calm]; norm_num; linarith
  · unfold AdjustCtx.scale
    simp only [hs, Bool.false_eq_true, if_false]
    simp only [calm]
    norm_num

/-- **C108** False: of two agents opposite the target the first moves five times as far as the fourth. -/
theorem C108_refuted : ¬ C108_claim := by
  intro hcl
  have hp := Real.pi_pos
  obtain ⟨hset, hu, hth, hsc⟩ := calm_settled
  let a : Agent ℝ := { (Agent.zero : Agent ℝ) with state := { (Agent.zero : Agent ℝ).state with phase := π } }
  have ha : a.state.phase = π := rfl
  have hd : IsForward a.state.phase calm.targetPhase π := ⟨hp.le, by linarith, ⟨-1, by rw [ha]; simp only [calm]; push_cast; ring⟩⟩
  have hloop := (C108_settled calm hset hu.spread (fun _ _ => 0) [0, 1, 2, 3] (by decide) (fun _ => a)).1
  have := hcl calm (fun _ _ => 0) [0, 1, 2, 3] (fun _ => a) (by decide) hset hu.spread 0 1 (by decide) (by decide) rfl rfl
  rw [hloop 0 (by decide), hloop 1 (by decide), adjustFrequency_phase, adjustFrequency_phase, hsc] at this
  have hv := usual_variation calm hu 0
  rw [abs_le] at hv
  obtain ⟨hv0, hv1⟩ := hv
  have z1 : calm.sizeNormalized = 1 := rfl
  have q1 : calm.coherence = 0.95 := rfl
  rw [z1, q1] at hv0 hv1
  norm_num at hv0 hv1
  have key : ∀ s : ℝ, 0 ≤ s → s ≤ 0.02 → (nudgeAgent calm s (fun _ => 0) a).state.phase = π + π * s * (0.85 * (1 + calm.variation 0)) := by
    intro s s0 s1
    norm_num at s1
    have e0 : wrapPhase (calm.targetPhase - a.state.phase) = π := hd.eq_wrap
    have hr : (randFloat64 0 : ℝ) = 0 := by simp [randFloat64]
    unfold nudgeAgent
    dsimp only
    rw [e0, GoMath.abs_real, abs_of_pos hp, if_pos hth, setPhase_phase, hr, z1, hu.adj, ha]
    have e1 : π + (0 * 0.3 + π * s) * (1 - (0.3 + (1 - 1) * 0.2) / 2.0 + 0 * (0.3 + (1 - 1) * 0.2)) * (1 + calm.variation 0) =
        π + π * s * (0.85 * (1 + calm.variation 0)) := by norm_num; ring
    rw [e1]
    generalize calm.variation 0 = v at *
    have b0 : 0 ≤ 0.85 * (1 + v) := by norm_num; linarith
    have b1 : 0.85 * (1 + v) ≤ 1 := by norm_num; linarith
    generalize (0.85 * (1 + v) : ℝ) = f at *
    have m0 : 0 ≤ π * s * f := by positivity
    have m1 : π * s * f ≤ π * s * 1 := mul_le_mul_of_nonneg_left b1 (by positivity)
    have m2 : π * s ≤ π * (1 / 50) := mul_le_mul_of_nonneg_left s1 hp.le
    have hm : wrapPhase (π + π * s * f) = π + π * s * f := wrapPhase_of_mem (by linarith) (by linarith)
    rw [hm, hm]
  rw [key _ (by norm_num) (by norm_num), key _ (by norm_num) (by norm_num)] at this
  have b0 : 0 < 0.85 * (1 + calm.variation 0) := by norm_num; linarith
  generalize (0.85 * (1 + calm.variation 0) : ℝ) = f at *
  have : π * f * (0.02 - 0.004) = 0 := by norm_num at this ⊢; linarith
  have h2 : 0 < π * f * (0.02 - 0.004) := by norm_num; positivity
  linarith

/-- An agent 2 radians behind the target, in the same swarm, does come closer. -/
example (w : ℕ → ℕ) (a : Agent ℝ) (ha : a.state.phase = 2 * π - 2) (x' : ℝ)
    (hx' : IsCircDist (nudgeAgent halfway halfway.scale w a).state.phase halfway.targetPhase x') : x' < 2 := by
  have hp := Real.pi_gt_three
  obtain ⟨hu, -, hth, -⟩ := halfway_usual
  have hd : IsForward a.state.phase halfway.targetPhase 2 := ⟨by norm_num, by linarith, ⟨-1, by rw [ha]; simp [halfway]⟩⟩
  have hx := hd.circ
  rw [min_eq_left (by linarith)] at hx
  exact C109_closer_partial halfway hu w a 2 2 x' hd (by rw [hth]; norm_num) (by linarith) hx hx'

end Verif
