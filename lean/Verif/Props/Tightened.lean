import Verif.Props.TaskGen
import Verif.Props.MonitorRate
import Verif.Model.GoalDirected
import Verif.Props.Remaining
import Verif.Props.SyncSafe
import Verif.Props.LoadPanel
import Verif.Props.Pull

/-!
# Theorems added because wrong programs passed the others

C16 (agents with the adaptive strategy), C53 (the number of perturbations), C61, C115 (the stability reported), C93 (flags of workloads) and C95 (the window of the synchroniser's monitor).
-/

set_option autoImplicit false
set_option linter.unusedSectionVars false

namespace Verif
open GoMath Spec

variable {α : Type} [Zero α] [One α] [Add α] [Sub α] [Mul α] [Div α] [Neg α] [LT α] [LE α] [DecidableLT α] [DecidableLE α] [BEq α]
  [OfScientific α] [GoMath α]

/-- **C93** The flag of a workload says "in a burst" exactly for a bursty workload whose burst is on. -/
theorem C93_flag (g : GenState) (now : ℤ) (pending : ℕ) : (g.activity now pending).2 = true ↔ g.pattern = 2 ∧ g.burstActive = true := by
  unfold GenState.activity
  split <;> (try split_ifs) <;> simp_all

/-- **C93** If the time of the last request were recorded, a mixed workload would be shown as active for 200 ms after it, as quiet from one second after it, and
as steady in between. -/
theorem C93_mixed_age (g : GenState) (hg : g.pattern = 4) (t : ℤ) (ht : g.lastRequestTime = some t) (now : ℤ) (pending : ℕ) :
    ((g.activity now pending).1 = .active ↔ now < t + 200000000) ∧ ((g.activity now pending).1 = .quiet ↔ t + 1000000000 < now) ∧
    ((g.activity now pending).1 = .steady ↔ t + 200000000 ≤ now ∧ now ≤ t + 1000000000) := by
  unfold GenState.activity
  simp only [hg, ht, sinceTime, millisecond]
  split_ifs <;> simp only [true_iff, false_iff] <;> omega

/-- A mixed workload whose last request was half a second ago. -/
example : ({ GenState.new 4 with lastRequestTime := some 0 }.activity 500000000 3).1 = .steady :=
  (C93_mixed_age { GenState.new 4 with lastRequestTime := some 0 } rfl 0 rfl 500000000 3).2.2.2 (by norm_num)

/-- **C95** The monitor of a synchroniser looks at the last ten samples: whatever it has recorded since it was made, its rate is the mean of the non-zero
velocities among them, it calls for another strategy if more than 70 percent of them have stalled, and it never keeps more than twenty. -/
theorem C95_ten (s : Swarm ℝ) (cfg : GoalConfig ℝ) (target : TargetPattern ℝ) (ops : List (MonOp ℝ)) :
    let t := ops.foldl (Traced.step 10) ⟨(Gds.new s cfg target).monitor, [], []⟩
    (2 ≤ t.monitor.history.length →
      t.monitor.convergenceRate = mean (((Spec.lastN 10 t.all).map (·.velocity)).filter fun v => decide (v ≠ 0))) ∧
    (t.monitor.shouldSwitch = true ↔ 3 ≤ (Spec.lastN 10 t.all).length ∧
      7 * (Spec.lastN 10 t.all).length < 10 * (Spec.lastN 10 t.all).countP fun x => decide (-0.001 ≤ x.velocity)) ∧
    t.monitor.history.length ≤ 20 :=
  ⟨C95_rate 10 ops, C95_switch 10 ops, (inv_run' 10 ops).bounded⟩

/-- Two records, one second apart. -/
example (s : Swarm ℝ) (cfg : GoalConfig ℝ) (target : TargetPattern ℝ) :
    (([.record 0 none 0.5, .record 1000000000 none 0.6] : List (MonOp ℝ)).foldl (Traced.step 10) ⟨(Gds.new s cfg target).monitor, [], []⟩).monitor.history.length = 2 := by
  simp [Traced.step, Gds.new, ConvMonitor.new, ConvMonitor.record, ConvMonitor.updateStatus, boundHistory]

/-- `σ` is the standard deviation of the values `ys`. -/
def Spec.HasDeviation (ys : List ℝ) (σ : ℝ) : Prop :=
  0 ≤ σ ∧ ∃ μ, μ * ys.length = ys.sum ∧ σ ^ 2 * ys.length = (ys.map fun y => (y - μ) ^ 2).sum

/-- **C61** The stability reported is `e` to the power of minus ten standard deviations of the last at most twenty samples; it is 1 with fewer than two samples. -/
theorem C61_stability_exact (m : Tracker ℝ) (ys : List ℝ) (hy : Spec.IsLast 20 m.history ys) :
    (m.history.length < 2 → m.stability = 1) ∧
    (2 ≤ m.history.length → ∀ σ, Spec.HasDeviation ys σ → m.stability = Real.exp (-(10 * σ))) := by
  have e := isLast_unique hy (lastN_suffix 20 m.history)
  unfold Tracker.stability
  refine ⟨fun h => ?_, fun h σ hσ => ?_⟩
  · rw [if_pos h]; norm_num
  · rw [if_neg (by omega), ← e, sliceVariance_eq]
    have hl : 2 ≤ ys.length := by rw [hy.2]; omega
    have hn : (0 : ℝ) < ys.length := by exact_mod_cast (by omega : 0 < ys.length)
    obtain ⟨h0, μ, hm, hs⟩ := hσ
    have hμ : μ = ys.sum / ys.length := by rw [eq_div_iff hn.ne']; exact hm
    rw [← hμ, ← hs]
    simp only [exp_real, sqrt_real]
    rw [mul_div_assoc, div_self hn.ne', mul_one, Real.sqrt_sq h0]
    congr 1
    norm_num
    ring

/-- **C61, C115** There is exactly one standard deviation of a non-empty list of samples. -/
theorem C61_deviation (ys : List ℝ) (h : ys ≠ []) : ∃! σ, Spec.HasDeviation ys σ := by
  have hn : (0 : ℝ) < ys.length := by exact_mod_cast List.length_pos_iff.2 h
  have hp : (0 : ℝ) ≤ (ys.map fun y => (y - ys.sum / (ys.length : ℝ)) ^ 2).sum / (ys.length : ℝ) := by
    apply div_nonneg _ hn.le
    apply List.sum_nonneg
    intro x hx
    obtain ⟨p, -, rfl⟩ := List.mem_map.1 hx
    positivity
  refine ⟨√((ys.map fun y => (y - ys.sum / (ys.length : ℝ)) ^ 2).sum / (ys.length : ℝ)), ⟨Real.sqrt_nonneg _, ys.sum / ys.length, div_mul_cancel₀ _ hn.ne', ?_⟩, ?_⟩
  · rw [Real.sq_sqrt hp, div_mul_cancel₀ _ hn.ne']
  · rintro σ ⟨h0, μ, hm, hs⟩
    have hμ : μ = ys.sum / ys.length := by rw [eq_div_iff hn.ne']; exact hm
    rw [← hμ, ← hs, mul_div_assoc, div_self hn.ne', mul_one, Real.sqrt_sq h0]

/-- **C115** The rate and the stability in the statistics are those of the samples since the last reset: the slope of the line that fits the last ten best, and `e` to
the power of minus ten standard deviations of the last twenty; a prediction is made exactly if it is positive. -/
theorem C115_derived (threshold : ℝ) (created : ℤ) (ops : List (TrackerOp ℝ)) (ten twenty : List ℝ)
    (h10 : Spec.IsLast 10 ((Spec.since ops).map Prod.fst) ten) (h20 : Spec.IsLast 20 ((Spec.since ops).map Prod.fst) twenty) :
    let s := (ops.foldl Tracker.apply (Tracker.new threshold created)).statistics
    ((Spec.since ops).length < 2 → s.convergenceRate = 0 ∧ s.stability = 1 ∧ s.predicted = none) ∧
    (2 ≤ (Spec.since ops).length →
      (∀ b, Spec.IsFitSlope ten b ↔ b = s.convergenceRate) ∧
      (∀ σ, Spec.HasDeviation twenty σ → s.stability = Real.exp (-(10 * σ))) ∧
      (∀ b, Spec.IsFitSlope ten b → ∀ t, s.predicted = some t ↔
        s.converged = false ∧ 0 < b ∧ s.currentCoherence < threshold ∧ 0 < t ∧ t = toInt ((threshold - s.currentCoherence) / b * 100000000))) := by
  have ht := C60_tracks threshold created ops
  dsimp only
  generalize ops.foldl Tracker.apply (Tracker.new threshold created) = m at *
  have hh := ht.history_eq
  rw [← hh] at h10 h20
  have hl : m.history.length = (Spec.since ops).length := by rw [hh, List.length_map]
  have h1 := C61_rate m ten h10
  have h2 := C61_stability_exact m twenty h20
  rw [hl] at h1 h2
  refine ⟨fun h => ⟨h1.2 h, h2.1 h, ?_⟩, fun h => ⟨h1.1 h, h2.2 h, fun b hb t => ?_⟩⟩
  · have h0 := h1.2 h
    unfold Tracker.statistics Tracker.predictConvergenceTime
    simp only [h0]
    simp
  · have hb' := (h1.1 h b).1 hb
    subst hb'
    have hthr := ht.threshold_eq
    unfold Tracker.statistics Tracker.predictConvergenceTime
    dsimp only
    simp only [hthr, GoMath.ofInt_real]
    rcases hc : m.convergedTime with _ | c
    · simp only [Option.isSome_none, Bool.false_eq_true, if_false]
      by_cases hr : m.convergenceRate ≤ 0
      · simp [hr]
      · by_cases hq : threshold - m.currentCoherence ≤ 0
        · have hq' : ¬ m.currentCoherence < threshold := by linarith
          simp [hr, hq, hq']
        · have hq' : m.currentCoherence < threshold := by linarith [not_le.1 hq]
          simp only [hr, hq, if_false, hq', not_le.1 hr, true_and]
          push_cast
          split_ifs with hg
          · constructor
            · intro e; simp only [Option.some.injEq] at e; subst e; exact ⟨hg, rfl⟩
            · rintro ⟨-, rfl⟩; rfl
          · constructor
            · intro e; cases e
            · rintro ⟨h3, rfl⟩; exact absurd h3 hg
    · simp

example : Spec.HasDeviation [0.2, 0.4] 0.1 := by
  refine ⟨by norm_num, 0.3, ?_, ?_⟩ <;> norm_num

example : let ops : List (TrackerOp ℝ) := [.record 0.9 0, .reset 5, .record 0.2 10, .record 0.4 20]
    Spec.IsLast 10 ((Spec.since ops).map Prod.fst) [0.2, 0.4] ∧ Spec.IsLast 20 ((Spec.since ops).map Prod.fst) [0.2, 0.4] ∧
    2 ≤ (Spec.since ops).length := by
  simp [Spec.since, Spec.IsLast]

/-- The members perturbed one after the other. -/
theorem resonance_fold (cfg : GoalConfig α) (n : ℕ) (agents : ℕ → List ℕ) (pick noise : ℕ → ℕ) (who : ℕ → ℕ) (K : ℕ) (h : ℕ → Agent α)
    (hw : ∀ k < K, (agents k)[pick k % n]? = some (who k)) (hd : ∀ j < K, ∀ k < K, who j = who k → j = k) :
    let h' := (List.range K).foldl (fun h k => match (agents k)[pick k % n]? with
      | some a => setAt h a (noisyAgent cfg (noise k) (h a))
      | none => h) h
    (∀ k < K, h' (who k) = noisyAgent cfg (noise k) (h (who k))) ∧ ∀ x, (∀ k < K, who k ≠ x) → h' x = h x := by
  induction K with
  | zero => exact ⟨fun k hk => absurd hk (Nat.not_lt_zero k), fun x _ => rfl⟩
  | succ K ih =>
    obtain ⟨i1, i2⟩ := ih (fun k hk => hw k (by omega)) (fun j hj k hk => hd j (by omega) k (by omega))
    dsimp only at i1 i2 ⊢
    rw [List.range_succ]
    simp only [List.foldl_append, List.foldl_cons, List.foldl_nil, hw K (by omega)]
    have hK : ∀ k < K, who k ≠ who K := fun k hk e => by have := hd k (by omega) K (by omega) e; omega
    revert i1 i2
    generalize (List.range K).foldl _ h = g
    intro i1 i2
    refine ⟨fun k hk => ?_, fun x hx => ?_⟩
    · rcases Nat.lt_succ_iff_lt_or_eq.1 hk with h1 | rfl
      · exact (if_neg (hK k h1)).trans (i1 k h1)
      · exact (if_pos rfl).trans (by rw [i2 _ hK])
    · exact (if_neg (fun e => hx K (by omega) e.symm)).trans (i2 x fun k hk => hx k (by omega))

/-- **C53** Escaping from a local minimum perturbs the configured share of the members, rounded down, and at least one: if the members drawn are different, exactly
those move, each by its own noise, whose size is at most half the configured one, and the others keep their state. -/
theorem C53_amount (cfg : GoalConfig ℝ) (n : ℕ) (hn : 0 < n) (h0 : 0 ≤ cfg.affectedAgents) (agents : ℕ → List ℕ) (pick noise who : ℕ → ℕ) (K : ℕ)
    (hK : K = max 1 ⌊n * cfg.affectedAgents⌋₊) (h : ℕ → Agent ℝ)
    (hw : ∀ k < K, (agents k)[pick k % n]? = some (who k)) (hd : ∀ j < K, ∀ k < K, who j = who k → j = k) :
    ∃ h', resonance cfg n agents pick noise h = .ok h' ∧
      (∀ k < K, ∃ δ : ℝ, |δ| ≤ |cfg.noiseMagnitude| / 2 ∧ δ = (randFloat64 (noise k) - 1 / 2) * cfg.noiseMagnitude ∧
        h' (who k) = (h (who k)).setPhase (wrapPhase ((h (who k)).state.phase + δ))) ∧
      ∀ x, (∀ k < K, who k ≠ x) → h' x = h x := by
  have hcount : (perturbCount cfg n).toNat = K := by
    unfold perturbCount maxInt
    have hp : 0 ≤ (n : ℝ) * cfg.affectedAgents := by positivity
    have e : toInt ((ofInt (n : ℤ) : ℝ) * cfg.affectedAgents) = ((⌊(n : ℝ) * cfg.affectedAgents⌋₊ : ℕ) : ℤ) := by
      rw [toInt_real, GoMath.ofInt_real, Int.cast_natCast]
      exact rtrunc_of_mem _ _ (by positivity) (by exact_mod_cast Nat.floor_le hp) (by exact_mod_cast Nat.lt_floor_add_one _)
    rw [e, hK]
    split_ifs <;> omega
  have hf := resonance_fold cfg n agents pick noise who K h hw hd
  dsimp only at hf
  unfold resonance
  rw [if_neg (by omega), hcount]
  refine ⟨_, rfl, fun k hk => ⟨(randFloat64 (noise k) - 1 / 2) * cfg.noiseMagnitude, ?_, rfl, ?_⟩, hf.2⟩
  · rw [abs_mul]
    have hr := randFloat64_real_mem (noise k)
    have : |(randFloat64 (noise k) : ℝ) - 1 / 2| ≤ 1 / 2 := abs_le.2 ⟨by linarith [hr.1], by linarith [hr.2]⟩
    nlinarith [abs_nonneg cfg.noiseMagnitude]
  · refine (hf.1 k hk).trans ?_
    unfold noisyAgent
    norm_num

/-- Twenty members, one in ten perturbed: two of them. -/
example : max 1 ⌊((20 : ℕ) : ℝ) * (0.1 : ℝ)⌋₊ = 2 := by
  rw [show ((20 : ℕ) : ℝ) * (0.1 : ℝ) = ((2 : ℕ) : ℝ) by norm_num, Nat.floor_natCast]; rfl

example : ∃ (agents : ℕ → List ℕ) (pick who : ℕ → ℕ), (∀ k < 2, (agents k)[pick k % 20]? = some (who k)) ∧
    ∀ j < 2, ∀ k < 2, who j = who k → j = k :=
  ⟨fun _ => List.range 20, fun k => k, fun k => k, by intro k hk; interval_cases k <;> simp, by intros; omega⟩

/-- The part the adaptive strategy of an agent turns to: the first when the surroundings are stable, the second when they are coherent, else the
third; the last there is if there are too few. -/
def Spec.TurnsTo (parts : ℕ) (ctx : Context α) (i : ℕ) : Prop :=
  (ctx.stability > 0.7 ∧ i = 0) ∨ (¬ ctx.stability > 0.7 ∧ ctx.localCoherence > 0.5 ∧ i = min 1 (parts - 1)) ∨
    (¬ ctx.stability > 0.7 ∧ ¬ ctx.localCoherence > 0.5 ∧ i = min 2 (parts - 1))

/-- **C16 for agents.** An agent with the adaptive strategy proposes what the part it turns to proposes, with that part's confidence, and that part
alone has moved on. Without parts it proposes to maintain, free and useless, with confidence one half, and nothing changes. -/
theorem C16_agent (l : List (Strat α)) (now : ℤ) (cur tgt : State α) (ctx : Context α) :
    (l = [] → (AgentStrategy.adaptive l).propose now cur tgt ctx = .ok ((⟨"maintain", 0, 0, 0⟩, 0.5), .adaptive [])) ∧
    (∀ (i : ℕ) (h : i < l.length), Spec.TurnsTo l.length ctx i → ∃ s',
      (AgentStrategy.adaptive l).propose now cur tgt ctx = .ok ((l[i].propose now cur tgt ctx).1, .adaptive s') ∧ s'.length = l.length ∧
      s'[i]? = some (l[i].propose now cur tgt ctx).2 ∧ ∀ j, j ≠ i → s'[j]? = l[j]?) ∧
    (l ≠ [] → ∃! i, i < l.length ∧ Spec.TurnsTo l.length ctx i) := by
  refine ⟨?_, ?_, ?_⟩
  · rintro rfl; rfl
  · intro i hi ht
    have hsel : defaultSelector l.length ctx = i := by
      unfold defaultSelector
      rcases ht with ⟨a, b⟩ | ⟨a, b, c⟩ | ⟨a, b, c⟩
      · rw [if_pos a, b]; rfl
      · rw [if_neg a, if_pos b, c]; omega
      · rw [if_neg a, if_neg b, c]; omega
    have := (C16_adaptive_total l.zipIdx (defaultSelector l.length)
      (fun si => let r := si.1.propose now cur tgt ctx; (r.1, AgentStrategy.adaptive (l.set si.2 r.2)))
      ((Action.maintain0, 0.5), AgentStrategy.adaptive l) ctx).2.1 i (by simpa using hi) hsel
    refine ⟨l.set i (l[i].propose now cur tgt ctx).2, ?_, by simp, by simp [hi], fun j hj => by simp [Ne.symm hj]⟩
    unfold AgentStrategy.propose
    simp only at this ⊢
    rw [this]
    simp
  · intro hl
    have hpos : 0 < l.length := List.length_pos_iff.2 hl
    unfold Spec.TurnsTo
    by_cases h1 : ctx.stability > 0.7
    · exact ⟨0, ⟨hpos, .inl ⟨h1, rfl⟩⟩, fun j hj => by rcases hj.2 with h | h | h <;> tauto⟩
    · by_cases h2 : ctx.localCoherence > 0.5
      · exact ⟨min 1 (l.length - 1), ⟨by omega, .inr (.inl ⟨h1, h2, rfl⟩)⟩, fun j hj => by rcases hj.2 with h | h | h <;> tauto⟩
      · exact ⟨min 2 (l.length - 1), ⟨by omega, .inr (.inr ⟨h1, h2, rfl⟩)⟩, fun j hj => by rcases hj.2 with h | h | h <;> tauto⟩

/-- Of two parts the second is used when the surroundings are neither stable nor coherent. -/
example (ctx : Context α) (h1 : ¬ ctx.stability > 0.7) (h2 : ¬ ctx.localCoherence > 0.5) : Spec.TurnsTo 2 ctx 1 := .inr (.inr ⟨h1, h2, rfl⟩)

end Verif
