import Verif.Props.Agent
import Verif.Props.AutoScale

/-!
# C35: agent fields stay in their documented ranges (IEEE doubles)

The setting is a whole population: a function from addresses to agents, on which public operations are called in any
order. `UpdateContext` reads the phases of the other agents of the same population.
-/

set_option autoImplicit false
set_option linter.unusedSectionVars false

namespace Verif
open GoMath
variable [Rounding] [LibM]

/-! ## Double facts -/

namespace F64

theorem maxDouble_add_small : maxDouble + 100 < overflow := by
  unfold maxDouble overflow
  have h : (2 : ℝ) ^ 1024 = 2 ^ 54 * 2 ^ 970 := by rw [← pow_add]
  have h' : (2 : ℝ) ^ 971 = 2 * 2 ^ 970 := by rw [← pow_succ']
  have h0 : (100 : ℝ) < 2 ^ 970 := by
    calc (100 : ℝ) < 2 ^ 7 := by norm_num
      _ ≤ 2 ^ 970 := pow_le_pow_right₀ (by norm_num) (by norm_num)
  rw [h, h']
  clear h h'
  generalize (2 : ℝ) ^ 970 = t at *
  norm_num
  linarith

/-- A finite number plus or minus a small one is finite. -/
theorem ofReal_finite {x : ℝ} (h : |x| < overflow) : ∃ d : Dbl, ofReal x = fin d := by
  unfold ofReal; rw [if_pos h]; exact ⟨_, rfl⟩

theorem add_small (a b : Dbl) (h : |a.1| ≤ 100) : ∃ d, fin a + fin b = fin d := by
  rw [add_fin]
  refine ofReal_finite ((abs_add_le _ _).trans_lt ?_)
  have := b.2.abs_le_max
  linarith [maxDouble_add_small]

theorem sub_small (a b : Dbl) (h : |b.1| ≤ 100) : ∃ d, fin a - fin b = fin d := by
  rw [sub_fin]
  refine ofReal_finite ((abs_sub _ _).trans_lt ?_)
  have := a.2.abs_le_max
  linarith [maxDouble_add_small]

/-- Results bounded by a natural number below 2^53. -/
theorem ofReal_abs_le {x : ℝ} (n : ℕ) (hn : n < 2 ^ 53) (h : |x| ≤ n) : ∃ d : Dbl, ofReal x = fin d ∧ |d.1| ≤ n := by
  have hd : IsDouble (n : ℝ) := by
    have := isDouble_int (n := (n : ℤ)) (by rw [abs_of_nonneg (by positivity)]; exact_mod_cast hn)
    simpa using this
  obtain ⟨y, hy, e, h1, h2⟩ := ofReal_between hd.neg hd (abs_le.1 h).1 (abs_le.1 h).2
  exact ⟨⟨y, hy⟩, e, abs_le.2 ⟨h1, h2⟩⟩

end F64

/-- A phase as documented: a finite number in `[0, 2π)` (with Go's double for 2π, which is below 2π). -/
def InTurn (x : F64) : Prop := ∃ d : Dbl, x = .fin d ∧ 0 ≤ d.1 ∧ d.1 < F64.tau.1

/-- A non-negative number (not NaN; `+Inf` is allowed). -/
def NonNeg (x : F64) : Prop := x = .pinf ∨ ∃ d : Dbl, x = .fin d ∧ 0 ≤ d.1

/-- The documented ranges of an agent's fields. -/
structure AgentOK (a : Agent F64) : Prop where
  phase : InTurn a.state.phase
  localGoal : InTurn a.state.localGoal
  energy : NonNeg a.state.energy
  influence : F64.In01 a.behavior.influence
  stubbornness : F64.In01 a.behavior.stubbornness

theorem InTurn.small {x : F64} (h : InTurn x) : ∃ d : Dbl, x = .fin d ∧ |d.1| ≤ 7 := by
  obtain ⟨d, rfl, h0, h1⟩ := h
  exact ⟨d, rfl, by rw [abs_of_nonneg h0]; linarith [F64.tau_bounds.2]⟩

theorem inTurn_wrap (d : Dbl) : InTurn (wrapPhase (.fin d)) := C01_wrapPhase_double (.fin d)

theorem inTurn_rand (w : ℕ) : InTurn (randPhase w) := by
  obtain ⟨x, e, h0, h1, -⟩ := C32_phase w
  exact ⟨x, e, h0, h1⟩

theorem nonNeg_fmax {x : F64} (h : x ≠ .nan) : NonNeg (fmax 0 x) := by
  cases x with
  | nan => exact absurd rfl h
  | pinf => exact Or.inl rfl
  | ninf => exact Or.inr ⟨_, rfl, le_refl _⟩
  | fin d =>
    right
    change ∃ e : Dbl, (if d.1 < (0 : ℝ) then F64.fin ⟨0, isDouble_zero⟩ else F64.fin d) = F64.fin e ∧ 0 ≤ e.1
    split_ifs with h1
    · exact ⟨_, rfl, le_refl _⟩
    · exact ⟨_, rfl, not_lt.1 h1⟩

theorem in01_clampUnit {x : F64} (h : x ≠ .nan) : F64.In01 (clampUnit x) := by
  unfold clampUnit
  split_ifs with h1 h2
  · exact ⟨0, isDouble_zero, rfl, le_refl _, by norm_num⟩
  · exact ⟨1, isDouble_one, rfl, by norm_num, le_refl _⟩
  · cases x with
    | nan => exact absurd rfl h
    | pinf => exact absurd (F64.fin_lt_pinf _) h2
    | ninf => exact absurd (F64.ninf_lt_fin _) h1
    | fin d =>
      simp only [F64.zero_def, F64.one_def, F64.lt_fin, not_lt, gt_iff_lt] at h1 h2
      exact ⟨d.1, d.2, rfl, h1, h2⟩

theorem nonNeg_sub {x : F64} (h : NonNeg x) (d : Dbl) : x - .fin d ≠ .nan := by
  rcases h with rfl | ⟨e, rfl, -⟩
  · exact fun h => by cases h
  · rw [F64.sub_fin]; unfold F64.ofReal; split_ifs <;> simp

theorem randomMillis_nonneg (w : ℕ) : 0 ≤ randomMillis (α := F64) w := by
  obtain ⟨x, e, h0, h1⟩ := C32_float_range.1 w
  unfold randomMillis
  have d50 : IsDouble (50 : ℝ) := isDouble_ofNat 50 (by norm_num)
  have e50 : (50.0 : F64) = .fin ⟨50, d50⟩ := by
    change F64.ofReal (50.0 : ℝ) = _
    rw [show (50.0 : ℝ) = 50 by norm_num, F64.ofReal_of_isDouble d50]
  rw [e, e50, F64.mul_fin]
  obtain ⟨y, h, e', h2, h3⟩ := F64.ofReal_between (x := x.1 * 50) isDouble_zero d50 (by positivity) (by linarith)
  rw [e']
  have ht : rtrunc y = ⌊y⌋ := by unfold rtrunc; rw [if_pos h2]
  have hf0 : 0 ≤ ⌊y⌋ := Int.floor_nonneg.2 h2
  have hf1 : ⌊y⌋ ≤ 50 := by
    have := Int.floor_le y
    have h4 : (⌊y⌋ : ℝ) ≤ (50 : ℤ) := by push_cast; linarith
    exact_mod_cast h4
  have : (toInt (F64.fin ⟨y, h⟩) : ℤ) = ⌊y⌋ := by
    change (if -(2 ^ 63) ≤ rtrunc y ∧ rtrunc y < 2 ^ 63 then rtrunc y else _) = _
    rw [ht, if_pos ⟨by omega, by omega⟩]
  rw [this]
  unfold millisecond
  positivity

/-! ## Operations on a population -/

/-- The public operations on an agent. -/
inductive AgentOp where
  | setPhase (x : F64)
  | setFrequency (f : ℤ)
  | setEnergy (x : F64)
  | setLocalGoal (x : F64)
  | setInfluence (x : F64)
  | setStubbornness (x : F64)
  | connect (id : String) (other : Option ℕ)
  | disconnect (id : String)
  | updateContext
  | propose (now : ℤ) (goal : State F64) (draw1 draw2 : F64)
  | apply (action : Action F64)

/-- A population of agents, by address. -/
abbrev Population := ℕ → Agent F64

/-- One operation on one agent, which may look at the phases of the others. A panic leaves the agent as it was. -/
noncomputable def agentStep (w : Population) (a : Agent F64) : AgentOp → Agent F64
  | .setPhase x => a.setPhase x
  | .setFrequency f => a.setFrequency f
  | .setEnergy x => a.setEnergy x
  | .setLocalGoal x => a.setLocalGoal x
  | .setInfluence x => a.setInfluence x
  | .setStubbornness x => a.setStubbornness x
  | .connect id o => a.connectTo id o
  | .disconnect id => a.disconnectFrom id
  | .updateContext => a.updateContext fun n => (w n).state.phase
  | .propose now goal d1 d2 =>
    match a.proposeAdjustment (fun n => (w n).state.phase) now goal d1 d2 with
    | .ok r => r.2
    | .panic => a
  | .apply act => (a.applyAction act).2

/-- One operation on the agent at an address. -/
noncomputable def Population.step (w : Population) (op : ℕ × AgentOp) : Population :=
  fun n => if n = op.1 then agentStep w (w n) op.2 else w n

/-- Arguments that are numbers: finite where the code computes with them, not NaN where it clamps them. -/
def AgentOp.Fine : AgentOp → Prop
  | .setPhase x => F64.IsFinite x
  | .setLocalGoal x => F64.IsFinite x
  | .setEnergy x => x ≠ .nan
  | .setInfluence x => x ≠ .nan
  | .setStubbornness x => x ≠ .nan
  | .apply act => F64.IsFinite act.value ∧ F64.IsFinite act.cost
  | _ => True

/-- Arguments that are merely not NaN. -/
def AgentOp.NotNaN : AgentOp → Prop
  | .setPhase x => x ≠ .nan
  | .setLocalGoal x => x ≠ .nan
  | .setEnergy x => x ≠ .nan
  | .setInfluence x => x ≠ .nan
  | .setStubbornness x => x ≠ .nan
  | .apply act => act.value ≠ .nan ∧ act.cost ≠ .nan
  | _ => True

/-- Options with numbers as arguments. -/
def OptionFine : AgentOption F64 → Prop
  | .phase x => F64.IsFinite x
  | .localGoal x => F64.IsFinite x
  | .energy x => x ≠ .nan
  | .influence x => x ≠ .nan
  | .stubbornness x => x ≠ .nan
  | .resourceManager t => TokenOK t
  | _ => True

theorem agentOK_option (a : Agent F64) (h : AgentOK a) (o : AgentOption F64) (ho : OptionFine o) :
    AgentOK (a.applyOption o) := by
  obtain ⟨h1, h2, h3, h4, h5⟩ := h
  cases o with
  | phase x =>
    cases x with
    | fin d => exact ⟨inTurn_wrap d, h2, h3, h4, h5⟩
    | _ => exact absurd ho (by simp [OptionFine, F64.IsFinite])
  | randomPhase w => exact ⟨inTurn_rand w, h2, h3, h4, h5⟩
  | frequency f => exact ⟨h1, h2, h3, h4, h5⟩
  | randomFrequency w => exact ⟨h1, h2, h3, h4, h5⟩
  | localGoal x =>
    cases x with
    | fin d => exact ⟨h1, inTurn_wrap d, h3, h4, h5⟩
    | _ => exact absurd ho (by simp [OptionFine, F64.IsFinite])
  | randomLocalGoal w => exact ⟨h1, inTurn_rand w, h3, h4, h5⟩
  | energy e => exact ⟨h1, h2, nonNeg_fmax ho, h4, h5⟩
  | influence x => exact ⟨h1, h2, h3, in01_clampUnit ho, h5⟩
  | stubbornness x => exact ⟨h1, h2, h3, h4, in01_clampUnit ho⟩
  | resourceManager t =>
    refine ⟨h1, h2, ?_, h4, h5⟩
    obtain ⟨m, k, e1, e2, hk, -⟩ := ho
    exact Or.inr ⟨_, e1, hk⟩
  | strategy s => exact ⟨h1, h2, h3, h4, h5⟩
  | swarmInfo n m => exact ⟨h1, h2, h3, h4, h5⟩

/-- A new agent is in range. -/
theorem agentOK_new (id : String) (w1 w2 w3 : ℕ) (opts : List (AgentOption F64)) (ho : ∀ o ∈ opts, OptionFine o) :
    AgentOK (Agent.new id w1 w2 w3 opts) := by
  have h0 : AgentOK (Agent.initial id w1 w2 w3) := by
    refine ⟨inTurn_rand w1, inTurn_rand w2, ?_, ?_, ?_⟩
    · have d : IsDouble (100 : ℝ) := isDouble_ofNat 100 (by norm_num)
      refine Or.inr ⟨⟨100, d⟩, ?_, by norm_num⟩
      change F64.ofReal (100.0 : ℝ) = _
      rw [show (100.0 : ℝ) = 100 by norm_num, F64.ofReal_of_isDouble d]
    · exact F64.in01_ofReal (by norm_num) (by norm_num)
    · exact F64.in01_ofReal (by norm_num) (by norm_num)
  unfold Agent.new
  generalize (Agent.initial id w1 w2 w3 : Agent F64) = a at h0 ⊢
  induction opts generalizing a with
  | nil => exact h0
  | cons o os ih =>
    exact ih (fun o ho' => ho o (List.mem_cons_of_mem _ ho')) _ (agentOK_option a h0 o (ho o List.mem_cons_self))

/-! ## Updating the context in doubles -/

theorem phaseSums_bound (my : Dbl) (hmy : |my.1| ≤ 7) (l : List F64) (hl : ∀ x ∈ l, F64.IsFinite x) (k : ℕ) (a b : Dbl)
    (ha : |a.1| ≤ k) (hb : |b.1| ≤ k) (hk : k + l.length < 2 ^ 53) :
    ∃ c d : Dbl, l.foldl (fun (s : F64 × F64) p => (s.1 + cos (p - .fin my), s.2 + sin (p - .fin my)))
      (.fin a, .fin b) = (.fin c, .fin d) ∧ |c.1| ≤ (k + l.length : ℕ) ∧ |d.1| ≤ (k + l.length : ℕ) := by
  induction l generalizing k a b with
  | nil => exact ⟨a, b, rfl, by simpa using ha, by simpa using hb⟩
  | cons x xs ih =>
    cases x with
    | fin p =>
      obtain ⟨q, hq⟩ := F64.sub_small p my (by linarith)
      simp only [List.length_cons] at hk
      have step : ∀ (u v : Dbl), |u.1| ≤ k → |v.1| ≤ 1 → ∃ d : Dbl, (F64.fin u + F64.fin v : F64) = .fin d ∧
          |d.1| ≤ (k + 1 : ℕ) := by
        intro u v hu hv
        rw [F64.add_fin]
        refine F64.ofReal_abs_le (k + 1) (by omega) ((abs_add_le _ _).trans ?_)
        push_cast; linarith
      obtain ⟨a', ea, ha'⟩ := step a (LibM.cos q) ha (LibM.cos_le q)
      obtain ⟨b', eb, hb'⟩ := step b (LibM.sin q) hb (LibM.sin_le q)
      obtain ⟨c, d, e, hc, hd⟩ := ih (fun x hx => hl x (List.mem_cons_of_mem _ hx)) (k + 1) a' b' ha' hb' (by omega)
      refine ⟨c, d, ?_, ?_, ?_⟩
      · rw [List.foldl_cons, hq, ← e, ← ea, ← eb]; rfl
      · rw [List.length_cons, show k + (xs.length + 1) = k + 1 + xs.length by omega]; exact hc
      · rw [List.length_cons, show k + (xs.length + 1) = k + 1 + xs.length by omega]; exact hd
    | _ => exact absurd (hl _ List.mem_cons_self) (by simp [F64.IsFinite])

/-- In doubles, with at most twenty neighbours, the new local goal is a proper phase. -/
theorem updateContext_goal (a : Agent F64) (h : AgentOK a) (phaseOf : ℕ → F64) (hp : ∀ n, F64.IsFinite (phaseOf n))
    (hn : a.neighborList.length ≤ 20) : InTurn (a.updateContext phaseOf).state.localGoal := by
  unfold Agent.updateContext
  dsimp only
  by_cases h0 : a.neighborList.length = 0
  · rw [if_pos h0]; exact h.localGoal
  rw [if_neg h0]
  dsimp only
  obtain ⟨my, em, hm0, hm1⟩ := h.phase
  have hmy : |my.1| ≤ 7 := by rw [abs_of_nonneg hm0]; linarith [F64.tau_bounds.2]
  rw [em]
  obtain ⟨c, d, e, hc, hd⟩ := phaseSums_bound my hmy (a.neighborList.map phaseOf)
    (by intro x hx; obtain ⟨n, -, rfl⟩ := List.mem_map.1 hx; exact hp n) 0 ⟨0, isDouble_zero⟩ ⟨0, isDouble_zero⟩
    (by simp) (by simp) (by rw [List.length_map]; omega)
  have hs : phaseSums (F64.fin my) (a.neighborList.map phaseOf) = (.fin c, .fin d) := e
  rw [hs]
  dsimp only
  rw [List.length_map, zero_add] at hc hd
  generalize a.neighborList.length = n at *
  have hn' : (n : ℝ) ≤ 20 := by exact_mod_cast hn
  have hn1 : (1 : ℝ) ≤ n := by exact_mod_cast Nat.one_le_iff_ne_zero.2 h0
  have dn : IsDouble ((n : ℤ) : ℝ) := isDouble_int (by rw [abs_of_nonneg (by positivity)]; omega)
  have en : (ofInt (n : ℤ) : F64) = .fin ⟨_, dn⟩ := F64.ofReal_of_isDouble dn
  have n0 : ((n : ℤ) : ℝ) ≠ 0 := by push_cast; linarith
  rw [en]
  -- coherence
  have hc20 : |c.1| ≤ 20 := hc.trans hn'
  have hd20 : |d.1| ≤ 20 := hd.trans hn'
  have sq : ∀ x : Dbl, |x.1| ≤ 20 → ∃ y : Dbl, (F64.fin x * F64.fin x : F64) = .fin y ∧ 0 ≤ y.1 ∧ y.1 ≤ 400 := by
    intro x hx
    rw [F64.mul_fin]
    obtain ⟨y, hy, ey, h1, h2⟩ := F64.ofReal_between (x := x.1 * x.1) isDouble_zero (isDouble_ofNat 400 (by norm_num))
      (mul_self_nonneg _) (by rw [← abs_mul_abs_self]; nlinarith [abs_nonneg x.1])
    exact ⟨⟨y, hy⟩, ey, h1, h2⟩
  obtain ⟨c2, ec, hc0, hc1⟩ := sq c hc20
  obtain ⟨d2, ed, hd0, hd1⟩ := sq d hd20
  rw [ec, ed, F64.add_fin]
  obtain ⟨s, hsd, es, hs0, hs1⟩ := F64.ofReal_between (x := c2.1 + d2.1) isDouble_zero
    (isDouble_ofNat 800 (by norm_num)) (by linarith) (by linarith)
  rw [es]
  have esq : (sqrt (F64.fin ⟨s, hsd⟩) : F64) = F64.ofReal (Real.sqrt s) := by
    change (if s < 0 then _ else _) = _
    rw [if_neg (not_lt.2 hs0)]
  rw [esq]
  obtain ⟨q, hqd, eq, hq0, hq1⟩ := F64.ofReal_between (x := Real.sqrt s) isDouble_zero
    (isDouble_ofNat 29 (by norm_num)) (Real.sqrt_nonneg _)
    (by rw [Real.sqrt_le_left (by norm_num)]; norm_num; linarith)
  rw [eq, F64.div_fin n0, F64.div_fin n0, F64.div_fin n0]
  have hq : 0 ≤ q / ((n : ℤ) : ℝ) ∧ q / ((n : ℤ) : ℝ) ≤ 29 := by
    push_cast
    exact ⟨by positivity, (div_le_self hq0 hn1).trans hq1⟩
  obtain ⟨r, hrd, er, hr0, hr1⟩ := F64.ofReal_between (x := q / ((n : ℤ) : ℝ)) isDouble_zero
    (isDouble_ofNat 29 (by norm_num)) hq.1 hq.2
  have hdiv : ∀ x : Dbl, |x.1| ≤ 20 → |x.1 / ((n : ℤ) : ℝ)| ≤ (20 : ℕ) := by
    intro x hx
    push_cast
    rw [abs_div, abs_of_nonneg (by positivity : (0 : ℝ) ≤ n)]
    exact (div_le_self (abs_nonneg _) hn1).trans hx
  obtain ⟨u, eu, -⟩ := F64.ofReal_abs_le 20 (by norm_num) (hdiv d hd20)
  obtain ⟨v, ev, -⟩ := F64.ofReal_abs_le 20 (by norm_num) (hdiv c hc20)
  rw [er]
  dsimp only at eu ev ⊢
  rw [eu, ev]
  obtain ⟨t, et, ht⟩ := LibM.atan2_le u v
  have et' : (atan2 (F64.fin u) (F64.fin v) : F64) = .fin t := et
  rw [et']
  obtain ⟨f, hfd, ef, hf0, hf1⟩ := F64.ofReal_between (x := (0.5 : ℝ)) isDouble_zero isDouble_one (by norm_num) (by norm_num)
  have ef' : (0.5 : F64) = .fin ⟨f, hfd⟩ := ef
  rw [ef', F64.mul_fin]
  obtain ⟨g, hgd, eg, hg0, hg1⟩ := F64.ofReal_between (x := f * r) isDouble_zero (isDouble_ofNat 29 (by norm_num))
    (by positivity) (by nlinarith)
  rw [eg, F64.add_fin]
  obtain ⟨k, hkd, ek, hk0, hk1⟩ := F64.ofReal_between (x := f + g) isDouble_zero (isDouble_ofNat 30 (by norm_num))
    (by positivity) (by linarith)
  rw [ek, F64.mul_fin]
  obtain ⟨z, ez, hz⟩ := F64.ofReal_abs_le (x := t.1 * k) 120 (by norm_num) (by
    rw [abs_mul, abs_of_nonneg hk0]
    have h4 : |t.1| ≤ 4 := ht.trans Real.pi_le_four
    push_cast
    nlinarith [abs_nonneg t.1])
  rw [ez]
  obtain ⟨y, ey⟩ := F64.add_small my z (by linarith)
  rw [ey]
  exact inTurn_wrap y

/-! ## The invariant -/

/-- Everything that is kept: ranges, and a connection set of at most twenty peers. -/
structure AgentInv (a : Agent F64) : Prop where
  ok : AgentOK a
  connected : ∃ s, ConnectedTo a s

theorem InTurn.finite {x : F64} (h : InTurn x) : F64.IsFinite x := by obtain ⟨d, rfl, -⟩ := h; trivial

theorem agentInv_step (w : Population) (hw : ∀ n, AgentOK (w n)) (a : Agent F64) (h : AgentInv a) (op : AgentOp)
    (ho : op.Fine) : AgentInv (agentStep w a op) := by
  have hfix : ∀ b : Agent F64, b.optNeighbors = a.optNeighbors → b.neighbors = a.neighbors →
      b.useOptimized = a.useOptimized → ∃ s, ConnectedTo b s := by
    intro b h1 h2 h3
    obtain ⟨s, hs⟩ := h.connected
    exact ⟨s, ⟨h3.trans hs.opt, h2.trans hs.map, by rw [h1]; exact hs.rep⟩⟩
  obtain ⟨⟨h1, h2, h3, h4, h5⟩, hc⟩ := h
  cases op with
  | setPhase x =>
    cases x with
    | fin d => exact ⟨⟨inTurn_wrap d, h2, h3, h4, h5⟩, hfix _ rfl rfl rfl⟩
    | _ => exact absurd ho (by simp [AgentOp.Fine, F64.IsFinite])
  | setFrequency f => exact ⟨⟨h1, h2, h3, h4, h5⟩, hfix _ rfl rfl rfl⟩
  | setEnergy x => exact ⟨⟨h1, h2, nonNeg_fmax ho, h4, h5⟩, hfix _ rfl rfl rfl⟩
  | setLocalGoal x =>
    cases x with
    | fin d => exact ⟨⟨h1, inTurn_wrap d, h3, h4, h5⟩, hfix _ rfl rfl rfl⟩
    | _ => exact absurd ho (by simp [AgentOp.Fine, F64.IsFinite])
  | setInfluence x => exact ⟨⟨h1, h2, h3, in01_clampUnit ho, h5⟩, hfix _ rfl rfl rfl⟩
  | setStubbornness x => exact ⟨⟨h1, h2, h3, h4, in01_clampUnit ho⟩, hfix _ rfl rfl rfl⟩
  | connect id o =>
    obtain ⟨s, hs⟩ := hc
    refine ⟨?_, _, connStep_connected a s hs (.connect id o)⟩
    simp only [agentStep, Agent.connectTo]
    cases o with
    | none => exact ⟨h1, h2, h3, h4, h5⟩
    | some o => dsimp only; split_ifs <;> exact ⟨h1, h2, h3, h4, h5⟩
  | disconnect id =>
    obtain ⟨s, hs⟩ := hc
    refine ⟨?_, _, connStep_connected a s hs (.disconnect id)⟩
    simp only [agentStep, Agent.disconnectFrom]
    split_ifs <;> exact ⟨h1, h2, h3, h4, h5⟩
  | updateContext =>
    obtain ⟨s, hs⟩ := hc
    have hg := updateContext_goal a ⟨h1, h2, h3, h4, h5⟩ (fun n => (w n).state.phase) (fun n => (hw n).phase.finite)
      (by rw [hs.list_length]; exact hs.card_le)
    have hfr : agentStep w a .updateContext = { a with
        state := { a.state with localGoal := (agentStep w a .updateContext).state.localGoal }
        context := (agentStep w a .updateContext).context } := by
      simp only [agentStep, Agent.updateContext]
      split_ifs <;> rfl
    rw [hfr]
    exact ⟨⟨h1, hg, h3, h4, h5⟩, hfix _ rfl rfl rfl⟩
  | propose now goal d1 d2 =>
    have hfr : ∃ s, agentStep w a (.propose now goal d1 d2) = { a with strategy := s } := by
      simp only [agentStep, Agent.proposeAdjustment]
      split_ifs with h
      · exact ⟨a.strategy, rfl⟩
      · cases a.strategy.propose now _ _ a.context with
        | panic => exact ⟨a.strategy, rfl⟩
        | ok r => exact ⟨r.2, rfl⟩
    obtain ⟨s, e⟩ := hfr
    rw [e]
    exact ⟨⟨h1, h2, h3, h4, h5⟩, hfix _ rfl rfl rfl⟩
  | apply act =>
    obtain ⟨ho1, ho2⟩ := ho
    cases hv : act.value with
    | fin v =>
      cases hcst : act.cost with
      | fin c =>
        simp only [agentStep, Agent.applyAction]
        split_ifs
        · exact ⟨⟨h1, h2, h3, h4, h5⟩, hfix _ rfl rfl rfl⟩
        · unfold applyUpdate
          obtain ⟨p, ep, hp⟩ := h1.small
          obtain ⟨q, eq⟩ := F64.add_small p v (by linarith)
          have he := nonNeg_fmax (nonNeg_sub h3 c)
          split_ifs
          · refine ⟨⟨?_, h2, ?_, h4, h5⟩, hfix _ rfl rfl rfl⟩
            · dsimp only; rw [ep, hv, eq]; exact inTurn_wrap q
            · dsimp only; rw [hcst]; exact he
          · refine ⟨⟨h1, h2, ?_, h4, h5⟩, hfix _ rfl rfl rfl⟩
            dsimp only; rw [hcst]; exact he
          · exact ⟨⟨h1, h2, h3, h4, h5⟩, hfix _ rfl rfl rfl⟩
      | _ => rw [hcst] at ho2; exact absurd ho2 (by simp [F64.IsFinite])
    | _ => rw [hv] at ho1; exact absurd ho1 (by simp [F64.IsFinite])

/-- A population of agents made by `agent.New` with well-formed options. -/
def FreshPopulation (w : Population) : Prop :=
  ∀ n, ∃ id w1 w2 w3 opts, (∀ o ∈ opts, OptionFine o) ∧ w n = Agent.new id w1 w2 w3 opts

theorem inv_run (w : Population) (h : ∀ n, AgentInv (w n)) (ops : List (ℕ × AgentOp)) (ho : ∀ o ∈ ops, o.2.Fine) :
    ∀ n, AgentInv (ops.foldl Population.step w n) := by
  induction ops generalizing w with
  | nil => exact h
  | cons o os ih =>
    refine ih _ ?_ (fun x hx => ho x (List.mem_cons_of_mem _ hx))
    intro n
    unfold Population.step
    split_ifs
    · exact agentInv_step w (fun n => (h n).ok) (w n) (h n) o.2 (ho o List.mem_cons_self)
    · exact h n

theorem inv_fresh (w : Population) (h : FreshPopulation w) (n : ℕ) : AgentInv (w n) := by
  obtain ⟨id, w1, w2, w3, opts, ho, e⟩ := h n
  rw [e]
  exact ⟨agentOK_new id w1 w2 w3 opts ho, _, connected_new id w1 w2 w3 opts⟩

/-- The full claim, kept in view: for arguments that are not NaN, every agent stays in range and keeps a positive
frequency. -/
def C35_claim : Prop := ∀ (w : Population), FreshPopulation w → ∀ ops : List (ℕ × AgentOp), (∀ o ∈ ops, o.2.NotNaN) →
  ∀ n, AgentOK (ops.foldl Population.step w n) ∧
    (0 < (w n).state.frequency → 0 < (ops.foldl Population.step w n).state.frequency)

/-- A fresh population of default agents. -/
noncomputable def defaultPopulation : Population := fun _ => Agent.new "a" 0 0 0 []

theorem defaultPopulation_fresh : FreshPopulation defaultPopulation :=
  fun _ => ⟨"a", 0, 0, 0, [], by simp, rfl⟩

/-- The claim is false: `SetPhase(+Inf)` stores NaN. -/
theorem C35_refuted : ¬ C35_claim := fun h => by
  have h1 := (h defaultPopulation defaultPopulation_fresh [(0, .setPhase .pinf)] (by simp [AgentOp.NotNaN]) 0).1.phase
  obtain ⟨d, e, -⟩ := h1
  have e' : (F64.nan : F64) = .fin d := e
  cases e'

/-- It also fails for finite arguments because `SetFrequency` accepts zero. -/
theorem C35_frequency_refuted : ¬ ∀ (w : Population), FreshPopulation w → ∀ ops : List (ℕ × AgentOp),
    (∀ o ∈ ops, o.2.Fine) → ∀ n, 0 < (w n).state.frequency → 0 < (ops.foldl Population.step w n).state.frequency :=
  fun h => by
    have h0 : 0 < (defaultPopulation 0).state.frequency := by
      change 0 < 100 * millisecond + randomMillis (α := F64) 0
      have := randomMillis_nonneg 0
      unfold millisecond at *; omega
    have := h defaultPopulation defaultPopulation_fresh [(0, .setFrequency 0)] (by simp [AgentOp.Fine]) 0 h0
    exact absurd (show (0 : ℤ) < 0 from this) (by decide)

/-- **C35 (partial).** In IEEE doubles, from any population of agents built by `agent.New` with ordinary options, any
sequence of operations with ordinary arguments (finite phases, goals and actions; energies, influences and
stubbornnesses that are not NaN) keeps every agent's phase and goal in `[0, 2π)`, its energy non-negative, and influence
and stubbornness in `[0, 1]`. Missing: infinite arguments, which the claim wrongly covers. -/
theorem C35_ranges_partial (w : Population) (hw : FreshPopulation w) (ops : List (ℕ × AgentOp))
    (ho : ∀ o ∈ ops, o.2.Fine) (n : ℕ) : AgentOK (ops.foldl Population.step w n) :=
  (inv_run w (inv_fresh w hw) ops ho n).ok

/-- Frequencies written by an operation. -/
def AgentOp.FreqPos : AgentOp → Prop
  | .setFrequency f => 0 < f
  | _ => True

theorem agentStep_frequency (w : Population) (a : Agent F64) (op : AgentOp) :
    (agentStep w a op).state.frequency = match op with
      | .setFrequency f => f
      | _ => a.state.frequency := by
  cases op with
  | connect id o => cases o <;> simp only [agentStep, Agent.connectTo]; split_ifs <;> rfl
  | disconnect id => simp only [agentStep, Agent.disconnectFrom]; split_ifs <;> rfl
  | updateContext => simp only [agentStep, Agent.updateContext]; split_ifs <;> rfl
  | propose now goal d1 d2 =>
    simp only [agentStep, Agent.proposeAdjustment]
    split_ifs with h
    · rfl
    · cases a.strategy.propose now _ _ a.context <;> rfl
  | apply act =>
    simp only [agentStep, Agent.applyAction, applyUpdate]
    split_ifs <;> rfl
  | _ => rfl

/-- **C35 (partial).** Frequencies stay positive if every `SetFrequency` is given a positive one. Missing: other
arguments, which are stored unchecked (`C35_frequency_refuted`). -/
theorem C35_frequency_partial (w : Population) (ops : List (ℕ × AgentOp)) (ho : ∀ o ∈ ops, o.2.FreqPos) (n : ℕ)
    (h : 0 < (w n).state.frequency) : 0 < (ops.foldl Population.step w n).state.frequency := by
  induction ops generalizing w with
  | nil => exact h
  | cons o os ih =>
    refine ih _ (fun x hx => ho x (List.mem_cons_of_mem _ hx)) ?_
    unfold Population.step
    split_ifs
    · rw [agentStep_frequency]
      have h1 := ho o List.mem_cons_self
      revert h1
      cases o.2 <;> first | exact fun h1 => h1 | exact fun _ => h
    · exact h

/-- New agents have positive frequencies if the options give positive ones. -/
theorem C35_new_frequency (id : String) (w1 w2 w3 : ℕ) (opts : List (AgentOption F64))
    (ho : ∀ f, AgentOption.frequency f ∈ opts → 0 < f) : 0 < (Agent.new id w1 w2 w3 opts).state.frequency := by
  have key : ∀ w, 0 < 100 * millisecond + randomMillis (α := F64) w := fun w => by
    have := randomMillis_nonneg w
    unfold millisecond at *; omega
  have h0 : 0 < (Agent.initial (α := F64) id w1 w2 w3).state.frequency := key w3
  unfold Agent.new
  generalize (Agent.initial id w1 w2 w3 : Agent F64) = a at h0 ⊢
  induction opts generalizing a with
  | nil => exact h0
  | cons o os ih =>
    refine ih (fun f hf => ho f (List.mem_cons_of_mem _ hf)) _ ?_
    cases o with
    | frequency f => exact ho f List.mem_cons_self
    | randomFrequency w => exact key w
    | _ => exact h0

/-- the hypotheses are met by a run touching every field of two agents -/
example : FreshPopulation defaultPopulation ∧
    ∀ o ∈ ([(0, .setPhase 0), (1, .setEnergy .pinf), (0, .connect "b" (some 1)), (0, .updateContext),
      (0, .setFrequency 5), (0, .apply { type := "pulse", value := 1, cost := 1, benefit := 0 })] :
        List (ℕ × AgentOp)), o.2.Fine ∧ o.2.FreqPos :=
  ⟨defaultPopulation_fresh, by simp [AgentOp.Fine, AgentOp.FreqPos, F64.IsFinite]⟩

end Verif
