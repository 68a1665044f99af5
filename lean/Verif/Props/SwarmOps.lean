import Verif.Props.SwarmConn
import Verif.Props.AgentRange

/-!
# Operations on swarms: C49 (disruption) and C50 (the two storages)
-/

set_option autoImplicit false
set_option linter.unusedSectionVars false

namespace Verif
open GoMath

section generic
variable {α : Type} [Zero α] [One α] [Add α] [Sub α] [Mul α] [Div α] [Neg α] [LT α] [LE α]
  [DecidableLT α] [DecidableLE α] [BEq α] [OfScientific α] [GoMath α]

/-- From `h` to `h'` exactly `k` different members were perturbed, the i-th of them being given the phase `phase i`;
nothing else changed, neither in other agents nor in other fields. -/
def Spec.Perturbed (members : List ℕ) (k : ℕ) (phase : ℕ → α) (h h' : ℕ → Agent α) : Prop :=
  ∃ D : List ℕ, D.Nodup ∧ D.length = k ∧ (∀ a ∈ D, a ∈ members) ∧ (∀ a ∉ D, h' a = h a) ∧
    ∀ i (hi : i < D.length), h' D[i] = { h D[i] with state := { (h D[i]).state with phase := phase i } }

theorem disruptLoop_spec (target : ℤ) (w : ℕ → ℕ) (l : List ℕ) (hl : l.Nodup) (d : ℕ) (h : ℕ → Agent α) :
    (∀ a ∉ l.take (target - d).toNat, disruptLoop target w l d h a = h a) ∧
    ∀ i (hi : i < (l.take (target - d).toNat).length), disruptLoop target w l d h (l.take (target - d).toNat)[i] =
      { h (l.take (target - d).toNat)[i] with
        state := { (h (l.take (target - d).toNat)[i]).state with phase := wrapPhase (randPhase (w (d + i))) } } := by
  induction l generalizing d h with
  | nil => exact ⟨fun a _ => rfl, fun i hi => by simp at hi⟩
  | cons b l ih =>
    rw [List.nodup_cons] at hl
    unfold disruptLoop
    split_ifs with hd
    · have h0 : (target - d).toNat = 0 := by omega
      rw [h0]
      exact ⟨fun a _ => rfl, fun i hi => by simp at hi⟩
    · obtain ⟨m, hm⟩ : ∃ m, (target - d).toNat = m + 1 := ⟨(target - d).toNat - 1, by omega⟩
      have hm' : (target - ((d + 1 : ℕ) : ℤ)).toNat = m := by omega
      obtain ⟨i1, i2⟩ := ih hl.2 (d + 1) (setAt h b ((h b).setPhase (randPhase (w d))))
      rw [hm'] at i1 i2
      have hb : b ∉ l.take m := fun hh => hl.1 (List.mem_of_mem_take hh)
      rw [hm, List.take_succ_cons]
      refine ⟨fun a ha => ?_, fun i hi => ?_⟩
      · rw [List.mem_cons, not_or] at ha
        rw [i1 a ha.2, setAt, if_neg ha.1]
      · cases i with
        | zero =>
          simp only [List.getElem_cons_zero]
          rw [i1 b hb, setAt, if_pos rfl]
          rfl
        | succ i =>
          simp only [List.getElem_cons_succ]
          have hi' : i < (l.take m).length := by simpa using hi
          have hne : (l.take m)[i] ≠ b := fun e => hb (e ▸ List.getElem_mem hi')
          rw [i2 i hi', setAt, if_neg hne, show d + 1 + i = d + (i + 1) by omega]

/-- Disrupting a swarm in map storage. -/
theorem disrupt_map (s : Swarm α) (order : SyncMap ℕ → SyncMap ℕ) (hp : ∀ m, (order m).Perm m) (w : ℕ → ℕ) (p : α)
    (n : ℕ) (addr : ℕ → ℕ) (hopt : s.optimized = false) (h : MapPop s n addr) :
    Spec.Perturbed (s.collectAgents order) (min (s.disruptTarget p).toNat n) (fun i => wrapPhase (randPhase (w i)))
      s.heap (s.disruptAgents order w p).heap := by
  have hperm : ((order s.agents).map Prod.snd).Perm ((List.range n).map addr) := by
    refine ((hp s.agents).map Prod.snd).trans ?_
    rw [h.agents, List.map_map]
    exact List.Perm.refl _
  have hnd : ((order s.agents).map Prod.snd).Nodup := by
    refine hperm.nodup_iff.2 ((List.nodup_map_iff_inj_on List.nodup_range).2 ?_)
    intro i hi j hj e
    exact h.inj i (List.mem_range.1 hi) j (List.mem_range.1 hj) e
  have hlen : ((order s.agents).map Prod.snd).length = n := by rw [hperm.length_eq]; simp
  obtain ⟨h1, h2⟩ := disruptLoop_spec (s.disruptTarget p) w _ hnd 0 s.heap
  unfold Swarm.collectAgents
  rw [hopt, if_neg (by simp)]
  rw [show s.disruptTarget p - ((0 : ℕ) : ℤ) = s.disruptTarget p by simp] at h1 h2
  refine ⟨_, hnd.sublist (List.take_sublist _ _), by rw [List.length_take, hlen], fun a ha => List.mem_of_mem_take ha, h1,
    fun i hi => ?_⟩
  have := h2 i hi
  rw [Nat.zero_add] at this
  exact this

theorem complete_opt (env : SwarmEnv α) (s s' : Swarm α) (n : ℕ) (h : OptInv s n) (e : s.complete env = .ok s') :
    s'.optimized = s.optimized := by
  unfold Swarm.complete at e
  cases hc : checkConfig s.config s.size with
  | error x => rw [hc] at e; cases e
  | ok c =>
    rw [hc] at e
    simp only [Except.bind] at e
    split_ifs at e
    unfold Swarm.createAgents at e
    dsimp only at e
    split_ifs at e with ho hl hl
    · obtain ⟨hp, rfl, -⟩ := finish_eq _ _ _ e
      exact (createOptimized_ok { s with config := c } env.draws h.index).2.2.1
    · obtain ⟨hp, rfl, -⟩ := finish_eq _ _ _ e
      rfl
    · obtain ⟨t, ht⟩ := createDefault_total { s with config := c } env.draws
      rw [ht] at e
      obtain ⟨hp, rfl, -⟩ := finish_eq _ _ _ e
      exact (createDefault_ok { s with config := c } t env.draws (List.length_eq_zero_iff.1 hl) ht).1.opt
    · obtain ⟨hp, rfl, -⟩ := finish_eq _ _ _ e
      rfl

/-- The swarm that `New` makes with at most 100 agents uses the map. -/
theorem newSwarm_map (env : SwarmEnv α) (size : ℤ) (goal : State α) (opts : List (SwarmOption α)) (ho : ∀ o ∈ opts, o.Proper)
    (s : Swarm α) (e : newSwarm env size goal opts = .ok s) (hs : size ≤ 100) :
    s.size = size ∧ s.optimized = false ∧ ∃ addr, MapPop s size.toNat addr := by
  obtain ⟨h1, -, c, t, -, h3, h4⟩ := newSwarm_ok env size goal opts s e
  have hi := applyOptions_inv _ t size.toNat (initial_inv size h1 goal c) opts ho h3
  have ho := complete_opt env t s _ hi h4
  obtain ⟨h5, ⟨k1, addr, k2⟩ | ⟨k1, addr, k2⟩⟩ := complete_pop env t s size.toNat hi h4
  · rw [ho, hi.opt, decide_eq_true_eq] at k1
    omega
  · exact ⟨by omega, k1, addr, k2⟩

/-- The swarm that `New` makes with more than 100 agents, without agent builder or topology, has an empty map. -/
theorem newSwarm_slice (env : SwarmEnv α) (size : ℤ) (goal : State α) (opts : List (SwarmOption α)) (ho : ∀ o ∈ opts, o.Simple)
    (s : Swarm α) (e : newSwarm env size goal opts = .ok s) (hs : 100 < size) : s.agents = [] := by
  obtain ⟨h1, -, c, t, -, h3, h4⟩ := newSwarm_ok env size goal opts s e
  have hi := applyOptions_inv _ t size.toNat (initial_inv size h1 goal c) opts (fun o h => simple_proper o (ho o h)) h3
  obtain ⟨ha, -, -⟩ := applyOptions_simple _ t opts ho h3
  have hopt : t.optimized = true := by rw [hi.opt, decide_eq_true_eq]; omega
  unfold Swarm.complete at h4
  cases hcc : checkConfig t.config t.size with
  | error x => rw [hcc] at h4; cases h4
  | ok c' =>
    rw [hcc] at h4
    simp only [Except.bind] at h4
    split_ifs at h4
    unfold Swarm.createAgents at h4
    dsimp only at h4
    have hl : t.agentSlice.length = 0 := by rw [hi.slice]; rfl
    simp only [if_pos hopt, if_pos hl] at h4
    obtain ⟨h', rfl, -⟩ := finish_eq _ s env h4
    exact (createOptimized_ok { t with config := c' } env.draws hi.index).1.trans ha

/-- **C49 fails for large swarms.** Above 100 agents (without agent builder) disruption changes nothing at all, whatever
fraction is asked for. -/
theorem C49_none (env : SwarmEnv α) (size : ℤ) (goal : State α) (opts : List (SwarmOption α)) (ho : ∀ o ∈ opts, o.Simple)
    (s : Swarm α) (e : newSwarm env size goal opts = .ok s) (hs : 100 < size)
    (order : SyncMap ℕ → SyncMap ℕ) (hp : ∀ m, (order m).Perm m) (w : ℕ → ℕ) (p : α) :
    s.disruptAgents order w p = s := by
  have h := newSwarm_slice env size goal opts ho s e hs
  unfold Swarm.disruptAgents
  have : order s.agents = [] := by
    have := hp s.agents
    rw [h] at this ⊢
    exact this.eq_nil
  rw [this]
  rfl

/-- What the user expects, with the number of perturbed agents left between the two integers next to p·n. -/
def Spec.DisruptsFraction (s : Swarm α) (size : ℤ) (toReal : α → ℝ) : Prop :=
  ∀ (order : SyncMap ℕ → SyncMap ℕ), (∀ m, (order m).Perm m) → ∀ (w : ℕ → ℕ) (p : α),
    0 ≤ toReal p → toReal p ≤ 1 → ∃ k : ℕ, ⌊size * toReal p⌋ ≤ k ∧ (k : ℤ) ≤ ⌈size * toReal p⌉ ∧
      Spec.Perturbed (s.collectAgents order) k (fun i => wrapPhase (randPhase (w i))) s.heap
        (s.disruptAgents order w p).heap

end generic

/-! ## Over the reals: exactly ⌊p·n⌋ -/

theorem disruptTarget_real (s : Swarm ℝ) (hs : 0 < s.size) (p : ℝ) :
    s.disruptTarget p = ⌊s.size * max 0 (min 1 p)⌋ := by
  have hs' : (0 : ℝ) < s.size := by exact_mod_cast hs
  have hc : clampPercentage p = max 0 (min 1 p) := by
    unfold clampPercentage
    split_ifs with h1 h2
    · rw [max_eq_left ((min_le_right _ _).trans h1.le)]
    · rw [min_eq_left (le_of_lt h2)]; norm_num
    · rw [min_eq_right (not_lt.1 h2), max_eq_right (not_lt.1 h1)]
  unfold Swarm.disruptTarget
  rw [hc, toInt_real, ofInt_real, rtrunc, if_pos (mul_nonneg hs'.le (le_max_left _ _))]

/-- **C49, up to 100 agents, over the reals.** Disrupting perturbs exactly ⌊p·n⌋ agents, with p clamped to [0, 1], and
leaves every phase that it touches in [0, 2π). -/
theorem C49_real_partial (env : SwarmEnv ℝ) (size : ℤ) (goal : State ℝ) (opts : List (SwarmOption ℝ))
    (ho : ∀ o ∈ opts, o.Proper) (s : Swarm ℝ) (e : newSwarm env size goal opts = .ok s) (hs : size ≤ 100)
    (order : SyncMap ℕ → SyncMap ℕ) (hp : ∀ m, (order m).Perm m) (w : ℕ → ℕ) (p : ℝ) :
    Spec.Perturbed (s.collectAgents order) ⌊size * max 0 (min 1 p)⌋.toNat (fun i => randPhase (w i)) s.heap
      (s.disruptAgents order w p).heap ∧ ∀ i, 0 ≤ randPhase (α := ℝ) (w i) ∧ randPhase (α := ℝ) (w i) < 2 * Real.pi := by
  have h0 := (newSwarm_ok env size goal opts s e).1
  have hr : ∀ i, 0 ≤ randPhase (α := ℝ) (w i) ∧ randPhase (α := ℝ) (w i) < 2 * Real.pi := by
    intro i
    have hlt : ((w i % 2 ^ 53 : ℕ) : ℝ) < 2 ^ 53 := by exact_mod_cast Nat.mod_lt (w i) (show 0 < 2 ^ 53 by norm_num)
    have h1 : randPhase (α := ℝ) (w i) = ((w i % 2 ^ 53 : ℕ) : ℝ) / 2 ^ 53 * (2 * Real.pi) := by
      unfold randPhase randFloat64
      simp only [ofInt_real, piMul_real]
      generalize w i % 2 ^ 53 = m
      rw [show (2.0 : ℝ) = 2 by norm_num]
      push_cast
      ring
    rw [h1]
    have hpi := Real.pi_pos
    refine ⟨by positivity, ?_⟩
    have : ((w i % 2 ^ 53 : ℕ) : ℝ) / 2 ^ 53 < 1 := by rw [div_lt_one (by norm_num)]; exact hlt
    nlinarith
  obtain ⟨hsz, hopt, addr, hpop⟩ := newSwarm_map env size goal opts ho s e hs
  have h := disrupt_map s order hp w p _ addr hopt hpop
  rw [disruptTarget_real s (by omega), hsz, min_eq_left] at h
  · refine ⟨?_, hr⟩
    have hw : ∀ i, wrapPhase (randPhase (α := ℝ) (w i)) = randPhase (w i) := fun i => wrapPhase_of_mem (hr i).1 (hr i).2
    simp only [hw] at h
    exact h
  · apply Int.toNat_le_toNat
    rw [Int.floor_le_iff]
    have hs' : (0 : ℝ) < size := by exact_mod_cast h0
    have : max 0 (min 1 p) ≤ 1 := max_le (by norm_num) (min_le_left _ _)
    nlinarith

section f64
variable [Rounding] [LibM]
open F64 Rounding

/-- The number of agents to disrupt, in doubles: one of the two integers next to p·n (the product is rounded). -/
theorem disruptTarget_f64 (s : Swarm F64) (hs : 0 < s.size) (hs2 : s.size ≤ 100) (d : Dbl) (h0 : 0 ≤ d.1) (h1 : d.1 ≤ 1) :
    ⌊s.size * d.1⌋ ≤ s.disruptTarget (.fin d) ∧ s.disruptTarget (.fin d) ≤ ⌈s.size * d.1⌉ ∧
    s.disruptTarget (.fin d) ≤ s.size := by
  have hs' : (0 : ℝ) < s.size := by exact_mod_cast hs
  have hs2' : (s.size : ℝ) ≤ 100 := by exact_mod_cast hs2
  have hd : IsDouble (s.size : ℝ) := isDouble_int (by rw [abs_lt]; constructor <;> omega)
  have hc : clampPercentage (F64.fin d) = .fin d := by
    unfold clampPercentage
    rw [if_neg, if_neg]
    · rw [gt_iff_lt, F64.one_def, F64.lt_fin]; exact not_lt.2 h1
    · rw [F64.zero_def, F64.lt_fin]; exact not_lt.2 h0
  have hz : 0 ≤ (s.size : ℝ) * d.1 := by positivity
  have hzle : (s.size : ℝ) * d.1 ≤ s.size := by nlinarith
  have hfl0 : 0 ≤ ⌊(s.size : ℝ) * d.1⌋ := Int.floor_nonneg.2 hz
  have hcl : ⌈(s.size : ℝ) * d.1⌉ ≤ s.size := Int.ceil_le.2 hzle
  have hfc := Int.floor_le_ceil ((s.size : ℝ) * d.1)
  have df : IsDouble ((⌊(s.size : ℝ) * d.1⌋ : ℤ) : ℝ) := isDouble_int (by rw [abs_lt]; constructor <;> omega)
  have dc : IsDouble ((⌈(s.size : ℝ) * d.1⌉ : ℤ) : ℝ) := isDouble_int (by rw [abs_lt]; constructor <;> omega)
  obtain ⟨y, hy, e, y1, y2⟩ := F64.ofReal_between df dc (Int.floor_le _) (Int.le_ceil _)
  have he : s.disruptTarget (.fin d) = ⌊y⌋ := by
    unfold Swarm.disruptTarget
    rw [hc]
    change F64.toInt (F64.ofReal (s.size : ℝ) * F64.fin d) = _
    rw [F64.ofReal_of_isDouble hd, F64.mul_fin, e]
    have hy0 : 0 ≤ y := le_trans (by exact_mod_cast hfl0) y1
    have hy1 : ⌊y⌋ ≤ 100 := by
      rw [Int.floor_le_iff]
      have : ((⌈(s.size : ℝ) * d.1⌉ : ℤ) : ℝ) ≤ 100 := by exact_mod_cast hcl.trans hs2
      push_cast; linarith
    have hy2 : 0 ≤ ⌊y⌋ := Int.floor_nonneg.2 hy0
    simp only [F64.toInt, rtrunc, if_pos hy0]
    rw [if_pos ⟨by omega, by omega⟩]
  rw [he]
  have k1 : ⌊(s.size : ℝ) * d.1⌋ ≤ ⌊y⌋ := Int.le_floor.2 y1
  have k2 : ⌊y⌋ ≤ ⌈(s.size : ℝ) * d.1⌉ := by
    have := Int.floor_le_floor y2
    rwa [Int.floor_intCast] at this
  exact ⟨k1, k2, k2.trans hcl⟩

/-- The real value of a finite double. -/
noncomputable def F64.val : F64 → ℝ
  | .fin d => d.1
  | _ => 2

/-- **C49, up to 100 agents.** The fraction is met up to the rounding of one product; a perturbed phase is in [0, 2π). -/
theorem C49_disrupt_partial (env : SwarmEnv F64) (size : ℤ) (goal : State F64) (opts : List (SwarmOption F64))
    (ho : ∀ o ∈ opts, o.Proper) (s : Swarm F64) (e : newSwarm env size goal opts = .ok s) (hs : size ≤ 100) :
    Spec.DisruptsFraction s size F64.val ∧ ∀ w, InTurn (wrapPhase (randPhase w)) := by
  have h0 := (newSwarm_ok env size goal opts s e).1
  obtain ⟨hsz, hopt, addr, hpop⟩ := newSwarm_map env size goal opts ho s e hs
  refine ⟨fun order hp w p p0 p1 => ?_, fun w => ?_⟩
  · cases p with
    | fin d =>
      have h := disrupt_map s order hp w (.fin d) _ addr hopt hpop
      obtain ⟨k1, k2, k3⟩ := disruptTarget_f64 s (by omega) (by omega) d p0 p1
      rw [hsz] at k1 k2 k3
      have hs' : (0 : ℝ) < size := by exact_mod_cast h0
      have hf : 0 ≤ ⌊(size : ℝ) * d.1⌋ := Int.floor_nonneg.2 (mul_nonneg hs'.le p0)
      refine ⟨_, ?_, ?_, h⟩
      · show ⌊(size : ℝ) * d.1⌋ ≤ _
        rw [min_eq_left (by omega)]; omega
      · show _ ≤ ⌈(size : ℝ) * d.1⌉
        rw [min_eq_left (by omega)]; omega
    | _ => exfalso; simp only [F64.val] at p1; norm_num at p1
  · obtain ⟨d, e, -⟩ := inTurn_rand w
    rw [e]
    exact inTurn_wrap d

/-- What the user expects. -/
def C49_claim : Prop :=
  ∀ (env : SwarmEnv F64) (size : ℤ) (goal : State F64) (s : Swarm F64), newSwarm env size goal [] = .ok s →
    Spec.DisruptsFraction s size F64.val

theorem wrap_zero : wrapPhase (.fin ⟨0, isDouble_zero⟩ : F64) = 0 := by
  have ht0 : F64.tau.1 ≠ 0 := by have := F64.tau_bounds.1; intro h; rw [h] at this; norm_num at this
  unfold wrapPhase
  rw [F64.piMul_two, F64.mod_fin _ _ ht0, F64.add_fin]
  have e1 : (0 : ℝ) - F64.tau.1 * rtrunc (0 / F64.tau.1) + F64.tau.1 = F64.tau.1 := by simp [rtrunc]
  dsimp only
  rw [e1, F64.ofReal_of_isDouble F64.tau.2, F64.mod_fin _ _ ht0, F64.zero_def]
  congr 2
  dsimp only
  rw [div_self ht0]
  simp [rtrunc]

theorem wrap_pi (h : IsDouble piDouble) : wrapPhase (.fin ⟨piDouble, h⟩ : F64) ≠ 0 := by
  have hpd : 3.14 < piDouble ∧ piDouble < 3.15 := by unfold piDouble; constructor <;> norm_num
  have ht0 : F64.tau.1 ≠ 0 := by have := F64.tau_bounds.1; intro h; rw [h] at this; norm_num at this
  have tr0 : rtrunc (piDouble / F64.tau.1) = 0 := by
    rw [F64.tau_eq, rtrunc, if_pos (by apply div_nonneg <;> linarith), Int.floor_eq_zero_iff]
    constructor
    · apply div_nonneg <;> linarith
    · rw [div_lt_one (by linarith)]; linarith
  unfold wrapPhase
  rw [F64.piMul_two, F64.mod_fin _ _ ht0, F64.add_fin]
  dsimp only
  rw [tr0]
  obtain ⟨y, hy, e, y1, y2⟩ := F64.ofReal_between (x := piDouble - F64.tau.1 * ((0 : ℤ) : ℝ) + F64.tau.1)
    (isDouble_ofNat 9 (by norm_num)) (isDouble_ofNat 10 (by norm_num))
    (by rw [F64.tau_eq, show (OfNat.ofNat 9 : ℝ) = 9 from rfl]; push_cast; linarith)
    (by rw [F64.tau_eq, show (OfNat.ofNat 10 : ℝ) = 10 from rfl]; push_cast; linarith)
  rw [show (OfNat.ofNat 9 : ℝ) = 9 from rfl] at y1
  rw [show (OfNat.ofNat 10 : ℝ) = 10 from rfl] at y2
  rw [e, F64.mod_fin _ _ ht0, F64.zero_def]
  intro hh
  rw [F64.fin.injEq, Subtype.mk.injEq] at hh
  have tr1 : rtrunc (y / F64.tau.1) = 1 := by
    rw [F64.tau_eq, rtrunc, if_pos (by apply div_nonneg <;> linarith), Int.floor_eq_iff]
    push_cast
    constructor
    · rw [le_div_iff₀ (by linarith)]; linarith
    · rw [div_lt_iff₀ (by linarith)]; linarith
  rw [tr1, F64.tau_eq] at hh
  push_cast at hh
  linarith

/-- The two random words 0 and 2^52 give different phases. -/
theorem rand_zero : (randPhase 0 : F64) = .fin ⟨0, isDouble_zero⟩ := by
  obtain ⟨h, e⟩ := C32_float_exact 0
  have d2 : IsDouble (2 : ℝ) := isDouble_ofNat 2 (by norm_num)
  have e2 : (2.0 : F64) = .fin ⟨2, d2⟩ := by
    change F64.ofReal (2.0 : ℝ) = _
    rw [show (2.0 : ℝ) = 2 by norm_num, F64.ofReal_of_isDouble d2]
  unfold randPhase
  rw [e, F64.piMul_one, e2, F64.mul_fin]
  have z1 : ((0 % 2 ^ 53 : ℕ) : ℝ) / 2 ^ 53 * 2 = 0 := by simp
  dsimp only
  rw [z1, F64.ofReal_of_isDouble isDouble_zero, F64.mul_fin]
  dsimp only
  rw [zero_mul, F64.ofReal_of_isDouble isDouble_zero]

theorem rand_half : ∃ h, (randPhase (2 ^ 52) : F64) = .fin ⟨piDouble, h⟩ := by
  obtain ⟨h, e⟩ := C32_float_exact (2 ^ 52)
  have d2 : IsDouble (2 : ℝ) := isDouble_ofNat 2 (by norm_num)
  have e2 : (2.0 : F64) = .fin ⟨2, d2⟩ := by
    change F64.ofReal (2.0 : ℝ) = _
    rw [show (2.0 : ℝ) = 2 by norm_num, F64.ofReal_of_isDouble d2]
  unfold randPhase
  rw [e, F64.piMul_one, e2, F64.mul_fin]
  have z1 : ((2 ^ 52 % 2 ^ 53 : ℕ) : ℝ) / 2 ^ 53 * 2 = 1 := by norm_num
  dsimp only
  rw [z1, F64.ofReal_of_isDouble isDouble_one, F64.mul_fin]
  dsimp only
  rw [one_mul]
  exact ⟨piDouble_isDouble, F64.ofReal_of_isDouble piDouble_isDouble⟩

/-- **C49 is false as stated**: a swarm of 101 agents cannot be disrupted. -/
theorem C49_refuted : ¬ C49_claim := fun h => by
  obtain ⟨n, s, e, -⟩ := exists_swarm (fun _ _ => (0 : F64)) 101 (by norm_num) (by norm_num) goalF goalF_valid
  have h1 := h _ 101 goalF s e id (fun m => List.Perm.refl _)
  obtain ⟨addr, hx⟩ := C43_new _ 101 goalF [] (by simp) s e id (fun m => List.Perm.refl _)
  have hlen : (s.collectAgents id).length = 101 := by rw [hx.listed.length_eq]; simp
  have h2 : ∀ v, ∀ a ∈ s.collectAgents id, (s.heap a).state.phase = wrapPhase (randPhase v) := by
    intro v a ha
    obtain ⟨k, k1, -, D, hnd, hk, hsub, -, hD⟩ := h1 (fun _ => v) (.fin ⟨1, isDouble_one⟩) (by simp [F64.val]) (by simp [F64.val])
    rw [C49_none _ 101 goalF [] (by simp) s e (by norm_num) id (fun m => List.Perm.refl _)] at hD
    have k2 : (101 : ℤ) ≤ k := by simpa [F64.val] using k1
    have hperm : D.Perm (s.collectAgents id) := (hnd.subperm hsub).perm_of_length_le (by omega)
    obtain ⟨i, hi, rfl⟩ := List.getElem_of_mem (hperm.mem_iff.2 ha)
    exact congrArg (fun x => x.state.phase) (hD i hi)
  have hmem : ∃ a, a ∈ s.collectAgents id := by
    cases hc : s.collectAgents id with
    | nil => rw [hc] at hlen; simp at hlen
    | cons a l => exact ⟨a, by simp⟩
  obtain ⟨a, ha⟩ := hmem
  have ea := h2 0 a ha
  have eb := h2 (2 ^ 52) a ha
  obtain ⟨hd, er⟩ := rand_half
  rw [ea, rand_zero, wrap_zero, er] at eb
  exact wrap_pi hd eb.symm

/-- Non-vacuity: such swarms exist at every size up to 100, and disrupting a fifth of ten agents perturbs two. -/
example : ∃ (env : SwarmEnv ℝ) (s : Swarm ℝ), newSwarm env 10 goalR [] = .ok s ∧
    ∀ w, Spec.Perturbed (s.collectAgents id) 2 (fun i => randPhase (w i)) s.heap (s.disruptAgents id w 0.2).heap := by
  obtain ⟨n, s, e, -⟩ := exists_swarm (fun _ _ => (0 : ℝ)) 10 (by norm_num) (by norm_num) goalR goalR_valid
  refine ⟨_, s, e, fun w => ?_⟩
  have := (C49_real_partial _ 10 goalR [] (by simp) s e (by norm_num) id (fun m => List.Perm.refl _) w 0.2).1
  have h2 : ⌊((10 : ℤ) : ℝ) * max 0 (min 1 (0.2 : ℝ))⌋.toNat = 2 := by
    rw [min_eq_right (by norm_num), max_eq_right (by norm_num)]
    norm_num
    rfl
  rwa [h2] at this

end f64

/-! ## C50 -/

section storage
variable {α : Type} [Zero α] [One α] [Add α] [Sub α] [Mul α] [Div α] [Neg α] [LT α] [LE α]
  [DecidableLT α] [DecidableLE α] [BEq α] [OfScientific α] [GoMath α]

/-- The agents `l` in map storage. -/
structure Spec.InMap (s : Swarm α) (l : List ℕ) : Prop where
  opt : s.optimized = false
  map : s.agents.Perm (l.map fun a => ((s.heap a).id, a))

/-- The agents `l` in slice storage. -/
structure Spec.InSlice (s : Swarm α) (l : List ℕ) : Prop where
  opt : s.optimized = true
  map : s.agents = []
  slice : s.agentSlice = l
  index : s.agentIndex.Perm (l.zipIdx.map fun a => ((s.heap a.1).id, a.2))

theorem inMap_ok (s : Swarm α) (l : List ℕ) (h : Spec.InMap s l) (hd : (l.map fun a => (s.heap a).id).Nodup) :
    SyncMap.Ok s.agents := by
  unfold SyncMap.Ok
  rw [(h.map.map Prod.fst).nodup_iff, List.map_map]
  exact hd

theorem inMap_lookup (s : Swarm α) (l : List ℕ) (h : Spec.InMap s l) (hd : (l.map fun a => (s.heap a).id).Nodup)
    (id : String) (r : Option ℕ) :
    s.agent id = .ok r ↔ (∃ a ∈ l, (s.heap a).id = id ∧ r = some a) ∨ (r = none ∧ ∀ a ∈ l, (s.heap a).id ≠ id) := by
  have hok := inMap_ok s l h hd
  unfold Swarm.agent
  rw [h.opt, if_neg (by simp)]
  rw [Outcome.ok.injEq]
  cases hl : SyncMap.load s.agents id with
  | some a =>
    rw [SyncMap.load_eq_some hok, h.map.mem_iff, List.mem_map] at hl
    obtain ⟨b, hb, e⟩ := hl
    rw [Prod.mk.injEq] at e
    obtain ⟨e1, rfl⟩ := e
    constructor
    · rintro rfl; exact Or.inl ⟨b, hb, e1, rfl⟩
    · rintro (⟨a, ha, e2, rfl⟩ | ⟨-, h2⟩)
      · rw [List.inj_on_of_nodup_map hd hb ha (e1.trans e2.symm)]
      · exact absurd e1 (h2 b hb)
  | none =>
    rw [SyncMap.load_eq_none] at hl
    have hno : ∀ a ∈ l, (s.heap a).id ≠ id := by
      intro a ha e
      apply hl
      rw [(h.map.map Prod.fst).mem_iff, List.map_map, List.mem_map]
      exact ⟨a, ha, e⟩
    constructor
    · rintro rfl; exact Or.inr ⟨rfl, hno⟩
    · rintro (⟨a, ha, e2, rfl⟩ | ⟨rfl, -⟩)
      · exact absurd e2 (hno a ha)
      · rfl

theorem inSlice_lookup (s : Swarm α) (l : List ℕ) (h : Spec.InSlice s l) (hd : (l.map fun a => (s.heap a).id).Nodup)
    (id : String) (r : Option ℕ) :
    s.agent id = .ok r ↔ (∃ a ∈ l, (s.heap a).id = id ∧ r = some a) ∨ (r = none ∧ ∀ a ∈ l, (s.heap a).id ≠ id) := by
  have hkeys : (l.zipIdx.map fun a => ((s.heap a.1).id, a.2)).map Prod.fst = l.map fun a => (s.heap a).id := by
    rw [List.map_map]
    have : (Prod.fst ∘ fun a : ℕ × ℕ => ((s.heap a.1).id, a.2)) = (fun a => (s.heap a).id) ∘ Prod.fst := rfl
    rw [this, ← List.map_map, List.zipIdx_map_fst]
  have hok : SyncMap.Ok s.agentIndex := by
    unfold SyncMap.Ok
    rw [(h.index.map Prod.fst).nodup_iff, hkeys]
    exact hd
  unfold Swarm.agent
  rw [h.opt, if_pos rfl]
  cases hl : SyncMap.load s.agentIndex id with
  | some i =>
    rw [SyncMap.load_eq_some hok, h.index.mem_iff, List.mem_map] at hl
    obtain ⟨⟨b, j⟩, hb, e⟩ := hl
    rw [Prod.mk.injEq] at e
    obtain ⟨e1, rfl⟩ := e
    rw [List.mem_zipIdx_iff_getElem?] at hb
    dsimp only at hb e1 ⊢
    have hbl : b ∈ l := List.mem_of_getElem? hb
    rw [h.slice, hb]
    dsimp only
    rw [Outcome.ok.injEq]
    constructor
    · rintro rfl; exact Or.inl ⟨b, hbl, e1, rfl⟩
    · rintro (⟨a, ha, e2, rfl⟩ | ⟨-, h2⟩)
      · rw [List.inj_on_of_nodup_map hd hbl ha (e1.trans e2.symm)]
      · exact absurd e1 (h2 b hbl)
  | none =>
    rw [SyncMap.load_eq_none, (h.index.map Prod.fst).mem_iff, hkeys] at hl
    have hno : ∀ a ∈ l, (s.heap a).id ≠ id := fun a ha e => hl (List.mem_map.2 ⟨a, ha, e⟩)
    dsimp only
    rw [Outcome.ok.injEq]
    constructor
    · rintro rfl; exact Or.inr ⟨rfl, hno⟩
    · rintro (⟨a, ha, e2, rfl⟩ | ⟨rfl, -⟩)
      · exact absurd e2 (hno a ha)
      · rfl

/-- Every look-up in one of the two storages gives an answer. -/
theorem lookup_ok (l : List ℕ) (f : ℕ → String) (id : String) :
    ∃ r : Option ℕ, (∃ a ∈ l, f a = id ∧ r = some a) ∨ (r = none ∧ ∀ a ∈ l, f a ≠ id) := by
  by_cases h : ∃ a ∈ l, f a = id
  · obtain ⟨a, ha, e⟩ := h; exact ⟨some a, Or.inl ⟨a, ha, e, rfl⟩⟩
  · exact ⟨none, Or.inr ⟨rfl, fun a ha e => h ⟨a, ha, e⟩⟩⟩

/-- Two ways of reading the agents of a swarm are equivalent: the same look-ups, the same map of all agents (as a map:
distinct keys, the same entries) and the same agents in some order. -/
structure Spec.SameReads (s s' : Swarm α) (order : SyncMap ℕ → SyncMap ℕ) : Prop where
  lookup : ∀ id, s.agent id = s'.agent id
  keys : ((s.allAgents order).map Prod.fst).Nodup ∧ ((s'.allAgents order).map Prod.fst).Nodup
  entries : ∀ e, e ∈ s.allAgents order ↔ e ∈ s'.allAgents order
  collect : (s.collectAgents order).Perm (s'.collectAgents order)

/-- **C50.** Look-up, enumeration by `Agents` and the collection used everywhere in the swarm agree in both storages. -/
theorem C50_reads_partial (s s' : Swarm α) (l : List ℕ) (hh : s'.heap = s.heap) (h : Spec.InMap s l)
    (h' : Spec.InSlice s' l) (hd : (l.map fun a => (s.heap a).id).Nodup) (order : SyncMap ℕ → SyncMap ℕ)
    (hp : ∀ m, (order m).Perm m) : Spec.SameReads s s' order := by
  have hd' : (l.map fun a => (s'.heap a).id).Nodup := by rw [hh]; exact hd
  have hok := inMap_ok s l h hd
  have e1 : s.allAgents order = order s.agents := by
    unfold Swarm.allAgents
    rw [h.opt, if_neg (by simp)]
    have := SyncMap.foldl_store (β := ℕ) (fun p : String × ℕ => p.1) (fun p => p.2) (order s.agents) [] (by
      simp only [List.map_nil, List.nil_append]
      exact ((hp s.agents).map Prod.fst).nodup_iff.2 hok)
    rw [this]
    simp
  have e2 : s'.allAgents order = l.map fun a => ((s'.heap a).id, a) := by
    unfold Swarm.allAgents
    rw [h'.opt, if_pos rfl, h'.slice]
    have := SyncMap.foldl_store (β := ℕ) (fun a => (s'.heap a).id) (fun a => a) l [] (by
      simp only [List.map_nil, List.nil_append]
      exact hd')
    rw [this]
    simp
  refine ⟨fun id => ?_, ⟨?_, ?_⟩, fun e => ?_, ?_⟩
  · obtain ⟨r, hr⟩ := lookup_ok l (fun a => (s.heap a).id) id
    rw [(inMap_lookup s l h hd id r).2 hr]
    refine ((inSlice_lookup s' l h' hd' id r).2 ?_).symm
    rw [hh]; exact hr
  · rw [e1]; exact ((hp s.agents).map Prod.fst).nodup_iff.2 hok
  · rw [e2, List.map_map]; exact hd'
  · rw [e1, e2, hh]
    exact ((hp s.agents).trans h.map).mem_iff
  · unfold Swarm.collectAgents
    rw [h.opt, h'.opt, if_neg (by simp), if_pos rfl, h'.slice]
    have := ((hp s.agents).trans h.map).map Prod.snd
    rw [List.map_map] at this
    exact this.trans (by rw [show (Prod.snd ∘ fun a => ((s.heap a).id, a)) = id from rfl, List.map_id])

/-- **C50, coherence**: the same phases are summed, so that the results agree exactly whenever the map is visited in the
order of the slice (for every number type), … -/
theorem C50_coherence_order_partial (s s' : Swarm α) (l : List ℕ) (hh : s'.heap = s.heap) (h : Spec.InMap s l)
    (h' : Spec.InSlice s' l) (order : SyncMap ℕ → SyncMap ℕ) (ho : (order s.agents).map Prod.snd = l) :
    s.measureCoherence order = s'.measureCoherence order := by
  unfold Swarm.measureCoherence Swarm.collectAgents
  rw [h.opt, h'.opt, if_neg (by simp), if_pos rfl, h'.slice, ho, hh]

/-- What the user expects of enumeration also includes `ForEachAgent`. -/
def C50_claim (α : Type) [Zero α] [One α] [Add α] [Sub α] [Mul α] [Div α] [Neg α] [LT α] [LE α]
    [DecidableLT α] [DecidableLE α] [BEq α] [OfScientific α] [GoMath α] : Prop :=
  ∀ (s s' : Swarm α) (l : List ℕ), s'.heap = s.heap → Spec.InMap s l → Spec.InSlice s' l →
    (l.map fun a => (s.heap a).id).Nodup → ∀ (order : SyncMap ℕ → SyncMap ℕ), (∀ m, (order m).Perm m) →
    Spec.SameReads s s' order ∧ (s.forEachAgent order).Perm (s'.forEachAgent order)

/-- `ForEachAgent` visits every agent in map storage and none in slice storage. -/
theorem C50_forEach (s s' : Swarm α) (l : List ℕ) (h : Spec.InMap s l) (h' : Spec.InSlice s' l)
    (order : SyncMap ℕ → SyncMap ℕ) (hp : ∀ m, (order m).Perm m) :
    (s.forEachAgent order).Perm l ∧ s'.forEachAgent order = [] := by
  unfold Swarm.forEachAgent
  constructor
  · have := ((hp s.agents).trans h.map).map Prod.snd
    rw [List.map_map] at this
    exact this.trans (by rw [show (Prod.snd ∘ fun a => ((s.heap a).id, a)) = id from rfl, List.map_id])
  · have := hp s'.agents
    rw [h'.map] at this ⊢
    rw [this.eq_nil]
    rfl

/-- The same agents in both storages. -/
def mapSwarm (goal : State α) (c : SwarmConfig α) : Swarm α :=
  { Swarm.initial 3 goal c with
    heap := fun i => Agent.new (agentID i) 0 0 0 []
    agents := (List.range 3).map fun i => (agentID i, i) }

/-- The slice version. -/
def sliceSwarm (goal : State α) (c : SwarmConfig α) : Swarm α :=
  { Swarm.initial 3 goal c with
    heap := fun i => Agent.new (agentID i) 0 0 0 []
    optimized := true
    agentSlice := List.range 3
    agentIndex := (List.range 3).map fun i => (agentID i, i) }

theorem both_storages (goal : State α) (c : SwarmConfig α) :
    Spec.InMap (mapSwarm goal c) (List.range 3) ∧ Spec.InSlice (sliceSwarm goal c) (List.range 3) ∧
    ((List.range 3).map fun a => ((mapSwarm goal c).heap a).id).Nodup := by
  have hid : ∀ i, (Agent.new (agentID i) 0 0 0 [] : Agent α).id = agentID i := fun i => (new_struct (agentID i) 0 0 0 []).1
  refine ⟨⟨?_, ?_⟩, ⟨rfl, rfl, rfl, ?_⟩, ?_⟩
  · simp [mapSwarm, Swarm.initial]
  · simp only [mapSwarm, hid]; exact List.Perm.refl _
  · simp only [sliceSwarm, hid]; exact List.Perm.refl _
  · simp only [mapSwarm, hid]; exact agentIDs_nodup 3

/-- **C50 is false if `ForEachAgent` counts as an enumeration.** -/
theorem C50_refuted (goal : State α) (c : SwarmConfig α) : ¬ C50_claim α := fun h => by
  obtain ⟨h1, h2, h3⟩ := both_storages goal c
  have h4 := (h (mapSwarm goal c) (sliceSwarm goal c) _ rfl h1 h2 h3 id fun m => List.Perm.refl _).2
  obtain ⟨h5, h6⟩ := C50_forEach _ _ _ h1 h2 id fun m => List.Perm.refl _
  rw [h6] at h4
  have := (h5.symm.trans h4).length_eq
  simp at this

end storage

/-- … and always over the reals, where the order of summation does not matter. -/
theorem C50_coherence_real_partial (s s' : Swarm ℝ) (l : List ℕ) (hh : s'.heap = s.heap) (h : Spec.InMap s l)
    (h' : Spec.InSlice s' l) (hd : (l.map fun a => (s.heap a).id).Nodup) (order : SyncMap ℕ → SyncMap ℕ)
    (hp : ∀ m, (order m).Perm m) : s.measureCoherence order = s'.measureCoherence order := by
  have := (C50_reads_partial s s' l hh h h' hd order hp).collect
  unfold Swarm.measureCoherence
  rw [hh]
  exact C04_coherence_perm (this.map _)

/-- Non-vacuity: the same three agents in both storages. -/
example (goal : State ℝ) (c : SwarmConfig ℝ) : Spec.SameReads (mapSwarm goal c) (sliceSwarm goal c) id :=
  C50_reads_partial (mapSwarm goal c) (sliceSwarm goal c) _ rfl (both_storages goal c).1 (both_storages goal c).2.1 (both_storages goal c).2.2 id
    fun _ => List.Perm.refl _

end Verif
