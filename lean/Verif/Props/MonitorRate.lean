import Verif.Props.ConvMonitor

/-!
# C95: velocities, convergence rate and strategy switching of `convergence.Monitor`
-/

set_option autoImplicit false
set_option linter.unusedSectionVars false

namespace Verif
open GoMath Spec

theorem durationSeconds_real (d : ℤ) : (durationSeconds d : ℝ) = d / 1000000000 := by
  unfold durationSeconds
  simp only [GoMath.ofInt_real]
  have h : (1000000000 : ℤ) * d.tdiv 1000000000 + d.tmod 1000000000 = d := Int.mul_tdiv_add_tmod d 1000000000
  have h' : (1000000000 : ℝ) * (d.tdiv 1000000000 : ℤ) + (d.tmod 1000000000 : ℤ) = d := by exact_mod_cast h
  rw [← h']
  have e : (1e9 : ℝ) = 1000000000 := by norm_num
  rw [e]
  field_simp

namespace Spec

/-- Seconds between two samples. -/
noncomputable def seconds (a b : ConvSample ℝ) : ℝ := ((b.timestamp - a.timestamp : ℤ) : ℝ) / 1000000000

/-- `b`, recorded right after `a`, carries the speed with which the distance changed; 0 if the clock did not advance. -/
def Linked (a b : ConvSample ℝ) : Prop :=
  (a.timestamp < b.timestamp → b.velocity * seconds a b = b.distance - a.distance) ∧ (b.timestamp ≤ a.timestamp → b.velocity = 0)

/-- Arithmetic mean; 0 for no values. -/
noncomputable def mean (l : List ℝ) : ℝ := l.sum / l.length

end Spec

theorem seconds_pos {a b : ConvSample ℝ} (h : a.timestamp < b.timestamp) : 0 < seconds a b := by
  unfold seconds
  have : (0 : ℝ) < ((b.timestamp - a.timestamp : ℤ) : ℝ) := by exact_mod_cast sub_pos.2 h
  positivity

theorem sample_linked (m : ConvMonitor ℝ) (now : ℤ) (c : Option (TargetPattern ℝ)) (coh : ℝ) :
    (m.history = [] → (m.sample now c coh).velocity = 0) ∧
    ∀ last, m.history.getLast? = some last → Linked last (m.sample now c coh) := by
  constructor
  · intro h
    unfold ConvMonitor.sample
    rw [h]; rfl
  · intro last h
    unfold ConvMonitor.sample Linked
    rw [h]
    simp only [durationSeconds_real]
    by_cases hp : last.timestamp < now
    · have hs : (0 : ℝ) < ((now - last.timestamp : ℤ) : ℝ) / 1000000000 := by
        have : (0 : ℝ) < ((now - last.timestamp : ℤ) : ℝ) := by exact_mod_cast sub_pos.2 hp
        positivity
      rw [if_pos hs]
      refine ⟨fun _ => ?_, fun h' => absurd hp (not_lt.2 h')⟩
      simp only [seconds]
      exact div_mul_cancel₀ _ hs.ne'
    · have hs : ¬ (0 : ℝ) < ((now - last.timestamp : ℤ) : ℝ) / 1000000000 := by
        have : ((now - last.timestamp : ℤ) : ℝ) ≤ 0 := by exact_mod_cast sub_nonpos.2 (not_lt.1 hp)
        rw [not_lt]
        exact div_nonpos_of_nonpos_of_nonneg this (by norm_num)
      rw [if_neg hs]
      exact ⟨fun h' => absurd h' hp, fun _ => rfl⟩

theorem suffix_getLast {β : Type} {h l : List β} (hs : h <:+ l) (hn : min l.length 1 ≤ h.length) : h.getLast? = l.getLast? := by
  obtain ⟨pre, rfl⟩ := hs
  cases h with
  | nil =>
    simp only [List.append_nil, List.length_nil, Nat.le_zero, Nat.min_eq_zero_iff] at hn
    rcases hn with hn | hn
    · rw [List.length_eq_zero_iff] at hn; subst hn; rfl
    · omega
  | cons a t => rw [List.getLast?_append_of_ne_nil _ (by simp)]

theorem isChain_snoc {β : Type} (R : β → β → Prop) (l : List β) (x : β) (h : l.IsChain R) (hx : ∀ a, l.getLast? = some a → R a x) :
    (l ++ [x]).IsChain R := by
  rw [List.isChain_append]
  refine ⟨h, by simp, ?_⟩
  intro a ha b hb
  simp only [List.head?_cons, Option.mem_def, Option.some.injEq] at hb
  subst hb
  exact hx a ha

/-- **C95** Whatever is recorded, every sample carries the speed of the distance since the sample before it, and the first one none. -/
theorem C95_velocity (windowSize : ℤ) (ops : List (MonOp ℝ)) :
    (Traced.run windowSize ops).all.IsChain Linked ∧
    ∀ first, (Traced.run windowSize ops).all.head? = some first → first.velocity = 0 := by
  have key : ∀ (ops : List (MonOp ℝ)) (t : Traced ℝ), t.Inv (window windowSize) →
      (t.all.IsChain Linked ∧ ∀ first, t.all.head? = some first → first.velocity = 0) →
      ((ops.foldl (Traced.step (window windowSize)) t).all.IsChain Linked ∧
        ∀ first, (ops.foldl (Traced.step (window windowSize)) t).all.head? = some first → first.velocity = 0) := by
    intro ops
    induction ops with
    | nil => exact fun _ _ h => h
    | cons op ops ih =>
      intro t hi h
      refine ih _ (inv_step _ (window_pos _) t hi op) ?_
      cases op with
      | setTarget p => exact h
      | reset => exact ⟨by simp [Traced.step], by simp [Traced.step]⟩
      | record now c coh =>
        simp only [Traced.step]
        have hw := window_pos windowSize
        have hlast : t.monitor.history.getLast? = t.all.getLast? :=
          suffix_getLast hi.suffix (le_trans (by omega) hi.enough)
        obtain ⟨s1, s2⟩ := sample_linked t.monitor now c coh
        refine ⟨isChain_snoc _ _ _ h.1 (fun a ha => s2 a (hlast.trans ha)), ?_⟩
        intro first hf
        cases ha : t.all with
        | nil =>
          rw [ha] at hf hlast
          simp only [List.nil_append, List.head?_cons, Option.some.injEq] at hf
          subst hf
          exact s1 (by simpa using hlast)
        | cons a l =>
          rw [ha] at hf
          simp only [List.cons_append, List.head?_cons, Option.some.injEq] at hf
          exact h.2 first (by rw [ha, ← hf]; rfl)
  refine key ops _ ?_ ⟨by simp, by simp⟩
  exact inv_run' windowSize []

theorem rate_fold (l : List (ConvSample ℝ)) : ∀ s : ℝ × ℕ,
    l.foldl (fun (s : ℝ × ℕ) x => if !(x.velocity == 0) then (s.1 + x.velocity, s.2 + 1) else s) s =
      (s.1 + ((l.map (·.velocity)).filter fun v => decide (v ≠ 0)).sum, s.2 + ((l.map (·.velocity)).filter fun v => decide (v ≠ 0)).length) := by
  induction l with
  | nil => intro s; simp
  | cons a l ih =>
    intro s
    rw [List.foldl_cons, ih]
    by_cases h : a.velocity = 0
    · simp [h]
    · simp [h, add_assoc, add_comm]

/-- **C95** With fewer than two samples the convergence rate is zero, in reals and in doubles. -/
theorem C95_rate_few {α : Type} [Zero α] [One α] [Add α] [Sub α] [Mul α] [Div α] [Neg α] [LT α] [LE α] [DecidableLT α]
    [DecidableLE α] [BEq α] [OfScientific α] [GoMath α] (m : ConvMonitor α) (h : m.history.length < 2) :
    m.convergenceRate = 0 := by
  unfold ConvMonitor.convergenceRate
  rw [if_pos h]

/-- **C95** The convergence rate is the mean of the non-zero velocities among the last window of samples. -/
theorem C95_rate (windowSize : ℤ) (ops : List (MonOp ℝ)) (h2 : 2 ≤ (Traced.run windowSize ops).monitor.history.length) :
    (Traced.run windowSize ops).monitor.convergenceRate =
      mean (((lastN (window windowSize) (Traced.run windowSize ops).all).map (·.velocity)).filter fun v => decide (v ≠ 0)) := by
  have hi := inv_run' windowSize ops
  have hr := recent_eq hi.window hi.suffix hi.enough
  unfold ConvMonitor.convergenceRate
  rw [if_neg (by omega), hr]
  have hl := lastN_length (window windowSize) (Traced.run windowSize ops).all
  have hsl := hi.suffix.length_le
  have hw := window_pos windowSize
  rw [if_neg (by omega), rate_fold]
  simp only [zero_add, GoMath.ofInt_real, mean]
  split_ifs with hc
  · rw [hc]; simp
  · norm_cast

/-- **C95** A switch of strategy is asked for exactly when the last window holds at least three samples and more than seven tenths of them do not
approach the target by at least a thousandth per second. -/
theorem C95_switch (windowSize : ℤ) (ops : List (MonOp ℝ)) :
    (Traced.run windowSize ops).monitor.shouldSwitch = true ↔
      3 ≤ (lastN (window windowSize) (Traced.run windowSize ops).all).length ∧
      7 * (lastN (window windowSize) (Traced.run windowSize ops).all).length <
        10 * (lastN (window windowSize) (Traced.run windowSize ops).all).countP fun x => decide (-0.001 ≤ x.velocity) := by
  have hi := inv_run' windowSize ops
  have hr := recent_eq hi.window hi.suffix hi.enough
  have hl := lastN_length (window windowSize) (Traced.run windowSize ops).all
  have hle : (lastN (window windowSize) (Traced.run windowSize ops).all).length ≤ (Traced.run windowSize ops).monitor.history.length := by
    rw [hl]; exact hi.enough
  unfold ConvMonitor.shouldSwitch
  rw [hr]
  generalize lastN (window windowSize) (Traced.run windowSize ops).all = r at *
  simp only [GoMath.ofInt_real]
  split_ifs with h1 h2
  · simp; omega
  · simp; omega
  · simp only [decide_eq_true_eq]
    constructor
    · intro h
      refine ⟨by omega, ?_⟩
      have : (7 * r.length : ℝ) < 10 * (r.countP fun x => decide (-0.001 ≤ x.velocity) : ℕ) := by
        push_cast at h ⊢; linarith
      exact_mod_cast this
    · rintro ⟨-, h⟩
      have : (7 * r.length : ℝ) < 10 * (r.countP fun x => decide (-0.001 ≤ x.velocity) : ℕ) := by exact_mod_cast h
      push_cast at this ⊢
      linarith

/-- Consecutive samples of an approach by more than a thousandth per second, at advancing times. -/
def Spec.Approaching (a b : ConvSample ℝ) : Prop :=
  a.timestamp < b.timestamp ∧ b.distance - a.distance < -0.001 * seconds a b

/-- Consecutive samples that do not approach. -/
def Spec.Stalling (a b : ConvSample ℝ) : Prop := a.distance ≤ b.distance

theorem chain_tail {β : Type} (R Q : β → β → Prop) (P : β → Prop) (hR : ∀ a b, R a b → Q a b → P b) :
    ∀ l : List β, l.IsChain R → l.IsChain Q → ∀ x ∈ l.tail, P x := by
  intro l
  induction l with
  | nil => intro _ _ x hx; simp at hx
  | cons a l ih =>
    intro h1 h2 x hx
    cases l with
    | nil => simp at hx
    | cons b l =>
      rw [List.isChain_cons_cons] at h1 h2
      simp only [List.tail_cons] at hx ih
      rcases List.mem_cons.1 hx with rfl | hx'
      · exact hR _ _ h1.1 h2.1
      · exact ih h1.2 h2.2 x (by simpa using hx')

theorem lastN_tail_mem {β : Type} (n : ℕ) (l : List β) : ∀ x ∈ (lastN n l).tail, x ∈ l.tail := by
  intro x hx
  unfold lastN at hx
  rw [List.tail_drop] at hx
  cases l with
  | nil => simp at hx
  | cons a l => simpa using List.mem_of_mem_drop (by simpa [List.drop_succ_cons] using hx)

theorem lastN_last {β : Type} (n : ℕ) (l : List β) (hn : 1 ≤ n) (hl : 2 ≤ l.length) : ∃ x ∈ lastN n l, x ∈ l.tail := by
  induction l using List.reverseRecOn with
  | nil => simp at hl
  | append_singleton i x _ =>
    rw [List.length_append, List.length_singleton] at hl
    refine ⟨x, ?_, ?_⟩
    · unfold lastN
      rw [List.length_append, List.length_singleton, List.drop_append_of_le_length (by omega)]
      simp
    · cases i with
      | nil => simp at hl
      | cons a i => simp

/-- **C95** While the swarm approaches its target by more than a thousandth per second at every sample, no switch is asked for and the rate is
negative. -/
theorem C95_approaching (windowSize : ℤ) (ops : List (MonOp ℝ)) (h : (Traced.run windowSize ops).all.IsChain Approaching) :
    (Traced.run windowSize ops).monitor.shouldSwitch = false ∧
    (2 ≤ (Traced.run windowSize ops).monitor.history.length → (Traced.run windowSize ops).monitor.convergenceRate < -0.001) := by
  obtain ⟨hv, hfirst⟩ := C95_velocity windowSize ops
  have htail : ∀ x ∈ (Traced.run windowSize ops).all.tail, x.velocity < -0.001 := by
    refine chain_tail _ _ (fun x => x.velocity < -0.001) ?_ _ hv h
    intro a b hab hq
    have hs := seconds_pos hq.1
    have := hab.1 hq.1
    by_contra hc
    rw [not_lt] at hc
    nlinarith [hq.2]
  constructor
  · rw [Bool.eq_false_iff]
    intro hc
    rw [C95_switch] at hc
    obtain ⟨h3, h7⟩ := hc
    have hc1 : (lastN (window windowSize) (Traced.run windowSize ops).all).countP (fun x => decide (-0.001 ≤ x.velocity)) ≤ 1 := by
      have ht := lastN_tail_mem (window windowSize) (Traced.run windowSize ops).all
      cases hl : lastN (window windowSize) (Traced.run windowSize ops).all with
      | nil => simp
      | cons a l =>
        rw [hl] at ht
        rw [List.countP_cons]
        have : l.countP (fun x => decide (-0.001 ≤ x.velocity)) = 0 := by
          rw [List.countP_eq_zero]
          intro x hx
          have := htail x (ht x (by simpa using hx))
          simp only [decide_eq_true_eq, not_le]
          exact this
        rw [this]
        split_ifs <;> omega
    omega
  · intro h2
    rw [C95_rate _ _ h2]
    have hi := inv_run' windowSize ops
    have hlen := hi.suffix.length_le
    have hl := lastN_length (window windowSize) (Traced.run windowSize ops).all
    have hw := window_pos windowSize
    -- every velocity in the window is either the initial 0 or below the bound, and the last one is below
    have hmem : ∀ v ∈ ((lastN (window windowSize) (Traced.run windowSize ops).all).map (·.velocity)).filter (fun v => decide (v ≠ 0)),
        v < -0.001 := by
      intro v hv'
      simp only [List.mem_filter, List.mem_map, decide_eq_true_eq] at hv'
      obtain ⟨⟨x, hx, rfl⟩, hne⟩ := hv'
      have hxa : x ∈ (Traced.run windowSize ops).all := List.mem_of_mem_drop hx
      cases ha : (Traced.run windowSize ops).all with
      | nil => rw [ha] at hxa; simp at hxa
      | cons a l =>
        rw [ha] at hxa
        rcases List.mem_cons.1 hxa with rfl | hxl
        · exact absurd (hfirst x (by rw [ha]; rfl)) hne
        · exact htail x (by rw [ha]; exact hxl)
    have hne : ((lastN (window windowSize) (Traced.run windowSize ops).all).map (·.velocity)).filter (fun v => decide (v ≠ 0)) ≠ [] := by
      have hall : 2 ≤ (Traced.run windowSize ops).all.length := by omega
      obtain ⟨x, hxl, hxt⟩ := lastN_last (window windowSize) (Traced.run windowSize ops).all hw hall
      have := htail x hxt
      intro hc
      rw [List.filter_eq_nil_iff] at hc
      have h0 := hc _ (List.mem_map.2 ⟨x, hxl, rfl⟩)
      simp only [ne_eq, decide_not, Bool.not_eq_true', decide_eq_false_iff_not, not_not] at h0
      rw [h0] at this
      norm_num at this
    generalize ((lastN (window windowSize) (Traced.run windowSize ops).all).map (·.velocity)).filter (fun v => decide (v ≠ 0)) = vs at *
    unfold mean
    have hpos : (0 : ℝ) < vs.length := by exact_mod_cast List.length_pos_iff.2 hne
    rw [div_lt_iff₀ hpos]
    clear * - hmem hne
    induction vs with
    | nil => exact absurd rfl hne
    | cons v vs ih =>
      have hv := hmem v (by simp)
      cases vs with
      | nil => simp; linarith
      | cons v' vs' =>
        have := ih (fun x hx => hmem x (by simp [hx])) (by simp)
        simp only [List.sum_cons, List.length_cons] at this ⊢
        push_cast at this ⊢
        linarith

/-- **C95** While the distance never shrinks, a switch is asked for as soon as the window holds three samples. -/
theorem C95_stalling (windowSize : ℤ) (ops : List (MonOp ℝ)) (h : (Traced.run windowSize ops).all.IsChain Stalling) :
    (Traced.run windowSize ops).monitor.shouldSwitch = true ↔ 3 ≤ min (Traced.run windowSize ops).all.length (window windowSize) := by
  obtain ⟨hv, hfirst⟩ := C95_velocity windowSize ops
  have htail : ∀ x ∈ (Traced.run windowSize ops).all.tail, 0 ≤ x.velocity := by
    refine chain_tail _ _ (fun x => 0 ≤ x.velocity) ?_ _ hv h
    intro a b hab hq
    by_cases ht : a.timestamp < b.timestamp
    · have hs := seconds_pos ht
      have := hab.1 ht
      unfold Stalling at hq
      by_contra hc
      rw [not_le] at hc
      nlinarith
    · exact (hab.2 (not_lt.1 ht)).ge
  rw [C95_switch, lastN_length]
  have hc : (lastN (window windowSize) (Traced.run windowSize ops).all).countP (fun x => decide (-0.001 ≤ x.velocity)) =
      (lastN (window windowSize) (Traced.run windowSize ops).all).length := by
    rw [List.countP_eq_length]
    intro x hx
    have hxa : x ∈ (Traced.run windowSize ops).all := List.mem_of_mem_drop hx
    have : 0 ≤ x.velocity := by
      cases ha : (Traced.run windowSize ops).all with
      | nil => rw [ha] at hxa; simp at hxa
      | cons a l =>
        rw [ha] at hxa
        rcases List.mem_cons.1 hxa with rfl | hxl
        · exact (hfirst x (by rw [ha]; rfl)).ge
        · exact htail x (by rw [ha]; exact hxl)
    simp only [decide_eq_true_eq]
    linarith
  rw [hc, lastN_length]
  omega

/-- Three samples a second apart, whose coherence is `x`, `y`, `z`. -/
noncomputable def convergeOps (x y z : ℝ) : List (MonOp ℝ) :=
  [.setTarget (some ⟨0, 1, 1, 1, [], 1⟩), .record 0 (some ⟨0, 1, 1, x, [], 1⟩) x, .record 1000000000 (some ⟨0, 1, 1, y, [], 1⟩) y,
    .record 2000000000 (some ⟨0, 1, 1, z, [], 1⟩) z]

theorem distance_coh (x : ℝ) : patternDistance (some ⟨0, 1, 1, x, [], 1⟩) (some (⟨0, 1, 1, 1, [], 1⟩ : TargetPattern ℝ)) = 0.3 * |1 - x| := by
  have e0 : phaseDifference (0 : ℝ) 0 = 0 := (phaseDifference_eq_zero_iff 0 0).2 (SameAngle.refl 0)
  unfold patternDistance
  simp [e0]

theorem sample_timestamp (m : ConvMonitor ℝ) (now : ℤ) (c : Option (TargetPattern ℝ)) (coh : ℝ) : (m.sample now c coh).timestamp = now := by
  unfold ConvMonitor.sample
  dsimp only
  split
  · rfl
  · split <;> rfl

theorem converge_all (x y z : ℝ) : ∃ a b c : ConvSample ℝ, (Traced.run 10 (convergeOps x y z)).all = [a, b, c] ∧
    a.timestamp = 0 ∧ b.timestamp = 1000000000 ∧ c.timestamp = 2000000000 ∧
    a.distance = 0.3 * |1 - x| ∧ b.distance = 0.3 * |1 - y| ∧ c.distance = 0.3 * |1 - z| := by
  refine ⟨_, _, _, rfl, ?_, ?_, ?_, ?_, ?_, ?_⟩
  · exact sample_timestamp _ _ _ _
  · exact sample_timestamp _ _ _ _
  · exact sample_timestamp _ _ _ _
  · rw [sample_distance]; exact distance_coh x
  · rw [sample_distance]; exact distance_coh y
  · rw [sample_distance]; exact distance_coh z

example : (Traced.run 10 (convergeOps 0.1 0.5 0.9)).all.IsChain Approaching ∧ (Traced.run 10 (convergeOps 0.1 0.5 0.9)).all.length = 3 := by
  obtain ⟨a, b, c, h, t1, t2, t3, d1, d2, d3⟩ := converge_all 0.1 0.5 0.9
  rw [h]
  simp only [List.isChain_cons_cons, List.isChain_singleton, Approaching, seconds, t1, t2, t3, d1, d2, d3]
  norm_num [abs_of_pos]

example : (Traced.run 10 (convergeOps 0.5 0.5 0.4)).all.IsChain Stalling ∧
    (Traced.run 10 (convergeOps 0.5 0.5 0.4)).monitor.shouldSwitch = true := by
  obtain ⟨a, b, c, h, t1, t2, t3, d1, d2, d3⟩ := converge_all 0.5 0.5 0.4
  have hc : (Traced.run 10 (convergeOps 0.5 0.5 0.4)).all.IsChain Stalling := by
    rw [h]
    simp only [List.isChain_cons_cons, List.isChain_singleton, Stalling, d1, d2, d3]
    norm_num [abs_of_pos]
  refine ⟨hc, (C95_stalling 10 _ hc).2 ?_⟩
  rw [h]
  exact (by decide : 3 ≤ min 3 (window 10))

end Verif
