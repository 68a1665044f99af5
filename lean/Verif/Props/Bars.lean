import Verif.Model.Bars
import Verif.Props.ConsensusPanel
import Verif.Props.Gauges
import Verif.Props.Accuracy

/-!
# C140: the bars of the panels are in proportion to what they show
-/

set_option autoImplicit false
set_option linter.unusedSectionVars false

namespace Verif
open GoMath Spec

namespace Spec

/-- `len` is the length of a bar for `count` of `total` in a scale of `width`: the largest whole number in proportion. -/
def Proportional (width : ℕ) (len : ℤ) (count total : ℕ) : Prop :=
  len * total ≤ width * count ∧ width * count < (len + 1) * total

end Spec

theorem proportional_real (width : ℕ) (x : ℝ) (count total : ℕ) (ht : 0 < total) (hx : x = width * count / total) :
    Proportional width (rtrunc x) count total := by
  have ht' : (0 : ℝ) < total := by exact_mod_cast ht
  have h0 : 0 ≤ x := by rw [hx]; positivity
  have h1 := (le_rtrunc x h0 _).1 le_rfl
  have h2 := (rtrunc_le_iff x h0 _).1 le_rfl
  rw [hx, le_div_iff₀ ht'] at h1
  rw [hx, div_lt_iff₀ ht'] at h2
  rw [← hx] at h1 h2
  exact ⟨by exact_mod_cast h1, by exact_mod_cast h2⟩

theorem healthBar_prop (count total : ℕ) (ht : 0 < total) : Proportional 20 (healthBar (α := ℝ) count total) count total := by
  unfold healthBar
  simp only [GoMath.ofInt_real, GoMath.toInt_real, Int.cast_natCast]
  refine proportional_real 20 _ _ _ ht ?_
  norm_num; ring

theorem Spec.Proportional.range {width : ℕ} {len : ℤ} {count total : ℕ} (h : Proportional width len count total) (ht : 0 < total)
    (hc : count ≤ total) : 0 ≤ len ∧ len ≤ width := by
  obtain ⟨h1, h2⟩ := h
  have ht' : (0 : ℤ) < total := by exact_mod_cast ht
  have hc' : (count : ℤ) ≤ total := by exact_mod_cast hc
  constructor
  · by_contra hneg
    have : (len + 1) * total ≤ 0 := mul_nonpos_of_nonpos_of_nonneg (by omega) ht'.le
    have : (0 : ℤ) ≤ width * count := by positivity
    omega
  · by_contra hbig
    have : ((width : ℤ) + 1) * total ≤ len * total := mul_le_mul_of_nonneg_right (by omega) ht'.le
    have : (width : ℤ) * count ≤ width * total := mul_le_mul_of_nonneg_left hc' (by positivity)
    have : ((width : ℤ) + 1) * total = width * total + total := by ring
    omega

theorem Spec.Proportional.full {width : ℕ} {len : ℤ} {total : ℕ} (h : Proportional width len total total) (ht : 0 < total) : len = width := by
  obtain ⟨h1, h2⟩ := h
  have ht' : (0 : ℤ) < total := by exact_mod_cast ht
  have a : len ≤ width := le_of_mul_le_mul_right h1 ht'
  have b : (width : ℤ) < len + 1 := lt_of_mul_lt_mul_right h2 ht'.le
  omega

/-- **C140, health.** With agents in the swarm the three bars are in proportion to the numbers of healthy, degraded and failed agents in a scale
of twenty, and together they are 18 to 20 cells long. -/
theorem C140_health (s : Shown ℝ) (h : s.agents ≠ []) :
    let n (k : Health) := (s.agents.filter fun a => health s.disrupted a.phase = k).length
    n .healthy + n .degraded + n .failed = s.agents.length
    ∧ Proportional 20 (healthBars s).1 (n .healthy) s.agents.length
    ∧ Proportional 20 (healthBars s).2.1 (n .degraded) s.agents.length
    ∧ Proportional 20 (healthBars s).2.2 (n .failed) s.agents.length
    ∧ 18 ≤ (healthBars s).1 + (healthBars s).2.1 + (healthBars s).2.2 ∧ (healthBars s).1 + (healthBars s).2.1 + (healthBars s).2.2 ≤ 20 := by
  intro n
  have ht : 0 < s.agents.length := List.length_pos_of_ne_nil h
  have en : ∀ k, s.agents.countP (fun a => health s.disrupted a.phase = k) = n k := fun k => List.countP_eq_length_filter
  have hsum : n .healthy + n .degraded + n .failed = s.agents.length := by
    simp only [← en]
    clear en n h ht
    induction s.agents with
    | nil => rfl
    | cons a l ih =>
      simp only [List.countP_cons, List.length_cons]
      cases health s.disrupted a.phase <;> simp <;> omega
  have p1 : Proportional 20 (healthBars s).1 (n .healthy) s.agents.length := by
    unfold healthBars; simp only [en]; exact healthBar_prop _ _ ht
  have hz : ∀ k : Health, Proportional 20 (if n k > 0 then healthBar (α := ℝ) (n k) s.agents.length else 0) (n k) s.agents.length := by
    intro k
    split_ifs with hk
    · exact healthBar_prop _ _ ht
    · have : n k = 0 := by omega
      rw [this]; constructor <;> simp; exact ht
  have p2 : Proportional 20 (healthBars s).2.1 (n .degraded) s.agents.length := by
    unfold healthBars; simp only [en]; exact hz _
  have p3 : Proportional 20 (healthBars s).2.2 (n .failed) s.agents.length := by
    unfold healthBars; simp only [en]; exact hz _
  refine ⟨hsum, p1, p2, p3, ?_⟩
  obtain ⟨a1, b1⟩ := p1
  obtain ⟨a2, b2⟩ := p2
  obtain ⟨a3, b3⟩ := p3
  generalize (healthBars s).1 = x at *
  generalize (healthBars s).2.1 = y at *
  generalize (healthBars s).2.2 = z at *
  have hs : (n .healthy : ℤ) + n .degraded + n .failed = s.agents.length := by exact_mod_cast hsum
  have ht' : (0 : ℤ) < s.agents.length := by exact_mod_cast ht
  generalize (s.agents.length : ℤ) = t at *
  push_cast at a1 b1 a2 b2 a3 b3
  constructor
  · have : (20 : ℤ) * t < (x + y + z + 3) * t := by
      have : (x + y + z + 3) * t = (x + 1) * t + (y + 1) * t + (z + 1) * t := by ring
      linarith
    have := lt_of_mul_lt_mul_right this ht'.le
    omega
  · have : (x + y + z) * t ≤ 20 * t := by
      have : (x + y + z) * t = x * t + y * t + z * t := by ring
      linarith
    exact le_of_mul_le_mul_right this ht'

/-- Non-vacuity: two healthy agents and one degraded one get bars of 13 and 6 cells: 19 together. -/
example : ∃ s : Shown ℝ, s.agents ≠ [] ∧ healthBars s = (13, 6, 0) := by
  refine ⟨⟨0.5, 0.9, false, [⟨0, .steady⟩, ⟨0.5, .steady⟩, ⟨1.5, .quiet⟩]⟩, by simp, ?_⟩
  have h1 : health false (0 : ℝ) = .healthy := by simp [health]
  have h2 : health false (0.5 : ℝ) = .healthy := by
    simp [health]; rw [abs_of_pos (by norm_num)]; norm_num
  have h3 : health false (1.5 : ℝ) = .degraded := by
    simp [health]; rw [abs_of_pos (by norm_num)]; norm_num
  have b1 := healthBar_prop 2 3 (by norm_num)
  have b2 := healthBar_prop 1 3 (by norm_num)
  unfold Proportional at b1 b2
  push_cast at b1 b2
  have c1 : healthBar (α := ℝ) 2 3 = 13 := by omega
  have c2 : healthBar (α := ℝ) 1 3 = 6 := by omega
  simp [healthBars, h1, h2, h3, c1, c2]

/-- **C140, latency.** The bars of the histogram are in proportion in a scale of thirty. -/
theorem C140_latency (count total : ℕ) (ht : 0 < total) : Proportional 30 (latencyBar (α := ℝ) count total) count total := by
  unfold latencyBar
  simp only [GoMath.ofInt_real, GoMath.toInt_real, Int.cast_natCast]
  refine proportional_real 30 _ _ _ ht ?_
  norm_num; ring

/-- Non-vacuity. -/
example : latencyBar (α := ℝ) 2 7 = 8 := by
  have := (C140_latency 2 7 (by norm_num))
  unfold Proportional at this
  push_cast at this; omega

/-- **C140, bars of twenty cells.** The first cells are filled: the cell `i`, counted from 0, if and only if the percentage is at least `5 (i + 1)`. -/
theorem C140_cells (percent : ℝ) (h : 0 ≤ percent) (i : ℕ) :
    (percentCells percent)[i]? = if i < 20 then some (decide (5 * ((i : ℝ) + 1) ≤ percent)) else none := by
  unfold percentCells
  simp only [GoMath.toInt_real, List.getElem?_map]
  split_ifs with hi
  · rw [List.getElem?_range hi]
    simp only [Option.map_some, Option.some.injEq, decide_eq_decide]
    rw [Int.lt_iff_add_one_le, le_rtrunc _ (by positivity)]
    push_cast
    rw [le_div_iff₀ (by norm_num)]
    norm_num
    constructor <;> intro _ <;> linarith
  · rw [List.getElem?_eq_none (by simpa using hi)]; rfl

/-- The number of filled cells is in proportion to the percentage of agents shown. -/
theorem C140_filled (count total : ℕ) (ht : 0 < total) (hc : count ≤ total) :
    Proportional 20 ((percentCells (sharePercent count total : ℝ)).count true : ℕ) count total := by
  have hp : Proportional 20 (rtrunc ((sharePercent count total : ℝ) / 5.0)) count total := by
    refine proportional_real 20 _ _ _ ht ?_
    rw [sharePercent_real]; norm_num; ring
  obtain ⟨h0, h20⟩ := hp.range ht hc
  have : (((percentCells (sharePercent count total : ℝ)).count true : ℕ) : ℤ) = rtrunc ((sharePercent count total : ℝ) / 5.0) := by
    have key : ∀ b : ℤ, 0 ≤ b → b ≤ 20 → ((((List.range 20).map fun (i : ℕ) => decide ((i : ℤ) < b)).count true : ℕ) : ℤ) = b := by
      intro b hb0 hb1
      interval_cases b <;> rfl
    unfold percentCells
    exact key _ h0 h20
  rw [this]; exact hp

/-- Non-vacuity: 7 of 10 idle agents fill 14 cells. -/
example : (percentCells (sharePercent 7 10 : ℝ)).count true = 14 := by
  have := C140_filled 7 10 (by norm_num) (by norm_num)
  unfold Proportional at this
  push_cast at this; omega

/-- **C140, capacity.** Where the capacity bar has a red cell the advice is to scale up. -/
theorem C140_capacity (s : Shown ℝ) (i : ℕ)
    (hi : (percentCells (sharePercent (s.agents.countP fun a => a.activity ≠ .quiet) s.agents.length : ℝ))[i]? = some true)
    (hr : capacityShade i = .red) : scalingShown s = .up := by
  have hu : 0 ≤ (sharePercent (s.agents.countP fun a => a.activity ≠ .quiet) s.agents.length : ℝ) := by
    rw [sharePercent_real]; positivity
  rw [C140_cells _ hu] at hi
  have h16 : 16 ≤ i := by
    unfold capacityShade at hr
    split_ifs at hr with h1 h2
    · exact h1
  split_ifs at hi with hlt
  have h5 : 5 * ((i : ℝ) + 1) ≤ (sharePercent (s.agents.countP fun a => a.activity ≠ .quiet) s.agents.length : ℝ) := by
    simpa using hi
  have : (16 : ℝ) ≤ i := by exact_mod_cast h16
  unfold scalingShown
  refine if_pos ?_
  refine lt_of_lt_of_le ?_ h5
  norm_num
  linarith

/-- What one would expect: the bar has a red cell whenever the advice is to scale up. -/
def C140_capacity_claim : Prop := ∀ s : Shown ℝ, scalingShown s = .up →
  ∃ i, (percentCells (sharePercent (s.agents.countP fun a => a.activity ≠ .quiet) s.agents.length : ℝ))[i]? = some true ∧ capacityShade i = .red

/-- It does not: with five of six agents at work (83 %) the advice is to scale up and the bar ends yellow. -/
theorem C140_capacity_refuted : ¬ C140_capacity_claim := by
  intro h
  let s : Shown ℝ := ⟨0.5, 0.9, false, ⟨0, .quiet⟩ :: List.replicate 5 ⟨0, .steady⟩⟩
  have hc : s.agents.countP (fun a => a.activity ≠ .quiet) = 5 := rfl
  have hn : s.agents.length = 6 := rfl
  have hup : scalingShown s = .up := by
    unfold scalingShown
    rw [if_pos]
    rw [hc, hn, sharePercent_real]; norm_num
  obtain ⟨i, hi, hr⟩ := h s hup
  rw [hc, hn, C140_cells _ (by rw [sharePercent_real]; positivity)] at hi
  split_ifs at hi with hlt
  have h16 : 16 ≤ i := by
    unfold capacityShade at hr
    split_ifs at hr with h1 h2
    · exact h1
  have h5 : 5 * ((i : ℝ) + 1) ≤ (sharePercent 5 6 : ℝ) := by simpa using hi
  rw [sharePercent_real] at h5
  have : (16 : ℝ) ≤ i := by exact_mod_cast h16
  norm_num at h5
  linarith

/-! ### Load -/

theorem loadBar_prop (load total : ℕ) : Proportional 20 (loadBar (α := ℝ) load total) load (total / 4 + 1) := by
  unfold loadBar maxAgentsPerRegion
  simp only [GoMath.ofInt_real, GoMath.toInt_real, Int.cast_natCast]
  refine proportional_real 20 _ _ _ (by omega) ?_
  norm_num; ring

/-- What one would expect: the bars of the load panel fit into the twenty cells of their scale. -/
def C140_load_claim : Prop := ∀ load total : ℕ, load ≤ total → loadBar (α := ℝ) load total ≤ 20

/-- They do not: if 1000 agents share one region its bar has 79 cells. -/
theorem C140_load_refuted : ¬ C140_load_claim := by
  intro h
  have h1 := h 1000 1000 le_rfl
  have h2 := loadBar_prop 1000 1000
  unfold Proportional at h2
  push_cast at h2
  omega

/-- What holds: a bar is in proportion to the load, with twenty cells for a quarter of the agents and one more; it never reaches 80 cells; it is
red exactly when the load is more than that, and then it has 20 cells or more; a bar of more than 20 cells is red. -/
theorem C140_load_partial (load total : ℕ) (h : load ≤ total) :
    Proportional 20 (loadBar (α := ℝ) load total) load (total / 4 + 1)
    ∧ 0 ≤ loadBar (α := ℝ) load total ∧ loadBar (α := ℝ) load total < 80
    ∧ (loadShade load total = .red ↔ total / 4 + 1 < load)
    ∧ (loadShade load total = .red → 20 ≤ loadBar (α := ℝ) load total)
    ∧ (20 < loadBar (α := ℝ) load total → loadShade load total = .red) := by
  have hp := loadBar_prop load total
  have hs : loadShade load total = .red ↔ total / 4 + 1 < load := by
    unfold loadShade maxAgentsPerRegion
    split_ifs with h1 <;> simp <;> omega
  obtain ⟨h1, h2⟩ := hp
  generalize loadBar (α := ℝ) load total = b at *
  have hq : total < 4 * (total / 4 + 1) := by omega
  generalize hm : total / 4 + 1 = m at *
  have hm0 : (0 : ℤ) < m := by omega
  push_cast at h1 h2
  refine ⟨⟨h1, h2⟩, ?_, ?_, hs, ?_, ?_⟩
  · by_contra hneg
    have : (b + 1) * m ≤ 0 := mul_nonpos_of_nonpos_of_nonneg (by omega) hm0.le
    omega
  · by_contra hbig
    have : 80 * (m : ℤ) ≤ b * m := mul_le_mul_of_nonneg_right (by omega) hm0.le
    omega
  · intro hr
    have hl := hs.1 hr
    by_contra hsm
    have : (b + 1) * m ≤ 20 * (m : ℤ) := mul_le_mul_of_nonneg_right (by omega) hm0.le
    omega
  · intro hb
    rw [hs]
    have : 21 * (m : ℤ) ≤ b * m := mul_le_mul_of_nonneg_right (by omega) hm0.le
    omega

/-- Non-vacuity: nine of twenty agents in one region give a red bar of thirty cells. -/
example : loadBar (α := ℝ) 9 20 = 30 ∧ loadShade 9 20 = .red := by
  have h := loadBar_prop 9 20
  unfold Proportional at h
  push_cast at h
  exact ⟨by omega, by decide⟩

/-! ### Schedule -/

/-- **C140, schedule.** If there are agents the bars of early, punctual and late agents are in proportion to the largest of the three numbers,
whose bar has fifteen cells. -/
theorem C140_schedule (early onTime late m : ℕ) (hm : m = max early (max onTime late)) (h : 0 < m) :
    let b := scheduleBars (α := ℝ) early onTime late
    Proportional 15 b.1 early m ∧ Proportional 15 b.2.1 onTime m ∧ Proportional 15 b.2.2 late m ∧ max b.1 (max b.2.1 b.2.2) = 15 := by
  have em : (if (if early > onTime then early else onTime) > late then (if early > onTime then early else onTime) else late) = m := by
    rw [hm]; split_ifs <;> omega
  intro b
  have hb : b = scheduleBars (α := ℝ) early onTime late := rfl
  unfold scheduleBars at hb
  rw [em] at hb
  simp only [GoMath.ofInt_real, GoMath.toInt_real, Int.cast_natCast] at hb
  have hp : ∀ c : ℕ, Proportional 15 (rtrunc ((c : ℝ) * (15.0 / m))) c m := fun c =>
    proportional_real 15 _ _ _ h (by norm_num; ring)
  rw [hb]
  refine ⟨hp _, hp _, hp _, ?_⟩
  have le15 : ∀ c : ℕ, c ≤ m → rtrunc ((c : ℝ) * (15.0 / m)) ≤ 15 := fun c hc => by exact_mod_cast ((hp c).range h hc).2
  have e15 : ∀ c : ℕ, c = m → rtrunc ((c : ℝ) * (15.0 / m)) = 15 := fun c hc => by
    have := hp c
    rw [hc] at this ⊢
    exact_mod_cast this.full h
  have l1 := le15 early (by omega)
  have l2 := le15 onTime (by omega)
  have l3 := le15 late (by omega)
  have : early = m ∨ onTime = m ∨ late = m := by omega
  rcases this with e | e | e
  · rw [e15 _ e] at l1 ⊢; simp [l2, l3]
  · rw [e15 _ e] at l2 ⊢; simp [l1, l3]
  · rw [e15 _ e] at l3 ⊢; simp [l1, l2]

/-- Non-vacuity: 2 early, 7 punctual and 3 late agents. -/
example : scheduleBars (α := ℝ) 2 7 3 = (4, 15, 6) := by
  obtain ⟨h1, h2, h3, -⟩ := C140_schedule 2 7 3 7 (by decide) (by norm_num)
  unfold Proportional at h1 h2 h3
  push_cast at h1 h2 h3
  ext
  · simp only; omega
  · simp only; omega
  · simp only; omega

/-! ### In doubles -/

section Doubles
variable [Rounding] [LibM]

/-- What one would expect in doubles as well: the longest of the three bars has fifteen cells. -/
def C140_schedule_double_claim : Prop := ∀ early onTime late : ℕ, 0 < max early (max onTime late) → max early (max onTime late) < 2 ^ 53 →
  max (scheduleBars (α := F64) early onTime late).1
    (max (scheduleBars (α := F64) early onTime late).2.1 (scheduleBars (α := F64) early onTime late).2.2) = 15

theorem fin_nat (c : ℕ) (h : c < 2 ^ 53) : ∃ d : Dbl, (GoMath.ofInt (c : ℤ) : F64) = .fin d ∧ d.1 = c := by
  have hd : IsDouble (c : ℝ) := by
    have := isDouble_int (n := (c : ℤ)) (by rw [abs_of_nonneg (by positivity)]; exact_mod_cast h)
    simpa using this
  refine ⟨⟨c, hd⟩, ?_, rfl⟩
  change F64.ofReal ((c : ℤ) : ℝ) = _
  rw [Int.cast_natCast]
  exact F64.ofReal_of_isDouble hd

theorem F64.toInt_between (d : Dbl) (a b : ℤ) (h0 : 0 ≤ a) (hb : b < 2 ^ 63) (h1 : (a : ℝ) ≤ d.1) (h2 : d.1 < b + 1) :
    a ≤ GoMath.toInt (F64.fin d) ∧ GoMath.toInt (F64.fin d) ≤ b := by
  have hd : 0 ≤ d.1 := le_trans (by exact_mod_cast h0) h1
  have r1 : a ≤ rtrunc d.1 := (le_rtrunc _ hd _).2 h1
  have r2 : rtrunc d.1 ≤ b := (rtrunc_le_iff _ hd _).2 h2
  have e : GoMath.toInt (F64.fin d) = rtrunc d.1 := by
    change (if -(2 ^ 63) ≤ rtrunc d.1 ∧ rtrunc d.1 < 2 ^ 63 then rtrunc d.1 else LibM.badInt (F64.fin d)) = _
    rw [if_pos ⟨by omega, by omega⟩]
  rw [e]; exact ⟨r1, r2⟩

/-- **C140 in doubles, health.** The bar of `count` of `total` agents has 0 to 20 cells, and 20 if the agents are all in that state. -/
theorem C140_health_double (count total : ℕ) (ht : 0 < total) (hc : count ≤ total) (hb : total < 2 ^ 53) :
    0 ≤ healthBar (α := F64) count total ∧ healthBar (α := F64) count total ≤ 20
    ∧ (count = total → healthBar (α := F64) count total = 20) := by
  obtain ⟨c, ec, hcv⟩ := fin_nat count (by omega)
  obtain ⟨t, et, htv⟩ := fin_nat total hb
  have ht' : (0 : ℝ) < total := by exact_mod_cast ht
  have hc' : (count : ℝ) ≤ total := by exact_mod_cast hc
  have e20 : (20.0 : F64) = .fin ⟨20, isDouble_ofNat 20 (by norm_num)⟩ := by
    change F64.ofReal 20.0 = _
    rw [show (20.0 : ℝ) = 20 by norm_num, F64.ofReal_of_isDouble (isDouble_ofNat 20 (by norm_num))]
  unfold healthBar
  rw [ec, et, F64.div_fin (by rw [htv]; exact ht'.ne'), hcv, htv, e20]
  obtain ⟨y, hy, e, y0, y1⟩ := F64.ofReal_between (x := (count : ℝ) / total) isDouble_zero isDouble_one (by positivity)
    (div_le_one_of_le₀ hc' ht'.le)
  rw [e, F64.mul_fin]
  obtain ⟨z, hz, e', z0, z1⟩ := F64.ofReal_between (x := y * 20) isDouble_zero (isDouble_ofNat 20 (by norm_num)) (by positivity)
    (by linarith)
  rw [e']
  obtain ⟨r0, r1⟩ := F64.toInt_between ⟨z, hz⟩ 0 20 le_rfl (by norm_num) (by simpa using z0) (by push_cast; linarith)
  refine ⟨r0, r1, fun hct => ?_⟩
  have hy1 : y = 1 := by
    rw [hct, div_self ht'.ne', F64.ofReal_of_isDouble isDouble_one] at e
    simp only [F64.fin.injEq, Subtype.mk.injEq] at e
    exact e.symm
  rw [hy1, one_mul, F64.ofReal_of_isDouble (isDouble_ofNat 20 (by norm_num))] at e'
  have hz20 : z = 20 := by
    simp only [F64.fin.injEq, Subtype.mk.injEq] at e'
    exact e'.symm
  exact le_antisymm r1 (F64.toInt_between ⟨z, hz⟩ 20 20 (by norm_num) (by norm_num) (by change (_ : ℝ) ≤ z; rw [hz20]; norm_num)
    (by change z < _; rw [hz20]; norm_num)).1

/-- Non-vacuity: a bar of a swarm of three. -/
example : 0 ≤ healthBar (α := F64) 2 3 ∧ healthBar (α := F64) 3 3 = 20 :=
  ⟨(C140_health_double 2 3 (by norm_num) (by norm_num) (by norm_num)).1,
    (C140_health_double 3 3 (by norm_num) le_rfl (by norm_num)).2.2 rfl⟩

theorem e15_double : (15.0 : F64) = .fin ⟨15, isDouble_ofNat 15 (by norm_num)⟩ := by
  change F64.ofReal 15.0 = _
  rw [show (15.0 : ℝ) = 15 by norm_num, F64.ofReal_of_isDouble (isDouble_ofNat 15 (by norm_num))]

/-- The bar of `c` agents if the largest number is `m`. -/
theorem schedule_one (c m : ℕ) (hm : 0 < m) (hb : m < 2 ^ 53) (hc : c ≤ m) :
    0 ≤ (GoMath.toInt (GoMath.ofInt (c : ℤ) * (15.0 / GoMath.ofInt (m : ℤ)) : F64) : ℤ)
    ∧ (GoMath.toInt (GoMath.ofInt (c : ℤ) * (15.0 / GoMath.ofInt (m : ℤ)) : F64) : ℤ) ≤ 15
    ∧ (c = m → 14 ≤ (GoMath.toInt (GoMath.ofInt (c : ℤ) * (15.0 / GoMath.ofInt (m : ℤ)) : F64) : ℤ)) := by
  obtain ⟨dc, ec, hcv⟩ := fin_nat c (by omega)
  obtain ⟨dm, em, hmv⟩ := fin_nat m hb
  have hm' : (0 : ℝ) < m := by exact_mod_cast hm
  have hm1 : (1 : ℝ) ≤ m := by exact_mod_cast hm
  have hmb : (m : ℝ) ≤ 2 ^ 53 := by exact_mod_cast hb.le
  have hc' : (c : ℝ) ≤ m := by exact_mod_cast hc
  have q0 : 0 ≤ 15 / (m : ℝ) := by positivity
  have q15 : 15 / (m : ℝ) ≤ 15 := by rw [div_le_iff₀ hm']; linarith
  rw [ec, em, e15_double, F64.div_fin (by rw [hmv]; exact hm'.ne'), hmv]
  obtain ⟨q, eq, herr⟩ := F64.ofReal_err (x := 15 / (m : ℝ)) (small_lt_1023 (by rw [abs_of_nonneg q0]; linarith [show (15 : ℝ) ≤ 2 ^ 200 by norm_num]))
  change F64.ofReal (15 / (m : ℝ)) = _ at eq
  rw [eq, F64.mul_fin, hcv]
  rw [abs_of_nonneg q0] at herr
  obtain ⟨g1, g2⟩ := abs_le.1 herr
  have hq0 : 0 ≤ q.1 := by
    obtain ⟨y, hy, e, y0, -⟩ := F64.ofReal_between isDouble_zero (isDouble_ofNat 15 (by norm_num)) q0 q15
    rw [eq] at e
    have : q.1 = y := by simpa using congrArg (fun x : F64 => match x with | .fin d => d.1 | _ => 0) e
    rw [this]; exact y0
  have hmq : (m : ℝ) * (15 / m) = 15 := by field_simp
  have hu : ulp ≤ 1 / 100 := by unfold ulp; norm_num
  have he : (m : ℝ) * eta ≤ 1 / 100 := by
    have : eta ≤ 1 / 2 ^ 60 := by
      unfold eta
      rw [show (-1075 : ℤ) = -((1075 : ℕ) : ℤ) by norm_num, zpow_neg, zpow_natCast, ← one_div]
      exact one_div_le_one_div_of_le (by positivity) (pow_le_pow_right₀ (by norm_num) (by norm_num))
    calc (m : ℝ) * eta ≤ 2 ^ 53 * (1 / 2 ^ 60) := mul_le_mul hmb this eta_pos.le (by positivity)
      _ ≤ 1 / 100 := by norm_num
  have up : (m : ℝ) * q.1 ≤ 15.5 := by
    have h1 : (m : ℝ) * q.1 ≤ m * (15 / m + (ulp * (15 / m) + eta)) := mul_le_mul_of_nonneg_left (by linarith) hm'.le
    have h2 : (m : ℝ) * (15 / m + (ulp * (15 / m) + eta)) = m * (15 / m) + ulp * (m * (15 / m)) + m * eta := by ring
    rw [h2, hmq] at h1
    norm_num at h1 ⊢; linarith
  have lo : 14.5 ≤ (m : ℝ) * q.1 := by
    have h1 : m * (15 / m - (ulp * (15 / m) + eta)) ≤ (m : ℝ) * q.1 := mul_le_mul_of_nonneg_left (by linarith) hm'.le
    have h2 : (m : ℝ) * (15 / m - (ulp * (15 / m) + eta)) = m * (15 / m) - ulp * (m * (15 / m)) - m * eta := by ring
    rw [h2, hmq] at h1
    norm_num at h1 ⊢; linarith
  have d155 : IsDouble 15.5 := ⟨31, -1, by norm_num, by norm_num, by norm_num, by norm_num⟩
  have d145 : IsDouble 14.5 := ⟨29, -1, by norm_num, by norm_num, by norm_num, by norm_num⟩
  have cq : (c : ℝ) * q.1 ≤ 15.5 := (mul_le_mul_of_nonneg_right hc' hq0).trans up
  obtain ⟨z, hz, e, z0, z1⟩ := F64.ofReal_between isDouble_zero d155 (by positivity : 0 ≤ (c : ℝ) * q.1) cq
  rw [e]
  obtain ⟨r0, r1⟩ := F64.toInt_between ⟨z, hz⟩ 0 15 le_rfl (by norm_num) (by simpa using z0) (by push_cast; norm_num at z1 ⊢; linarith)
  refine ⟨r0, r1, fun hcm => ?_⟩
  obtain ⟨z', hz', e', z0', -⟩ := F64.ofReal_between d145 d155 (by rw [hcm]; exact lo : 14.5 ≤ (c : ℝ) * q.1) cq
  rw [e] at e'
  have hzz : z = z' := by simpa using e'
  exact (F64.toInt_between ⟨z, hz⟩ 14 15 (by norm_num) (by norm_num) (by change (_ : ℝ) ≤ z; rw [hzz]; push_cast; norm_num at z0' ⊢; linarith)
    (by push_cast; norm_num at z1 ⊢; linarith)).1

/-- What holds in doubles: every bar has 0 to 15 cells, and the longest 14 or 15. -/
theorem C140_schedule_double_partial (early onTime late : ℕ) (h : 0 < max early (max onTime late)) (hb : max early (max onTime late) < 2 ^ 53) :
    let b := scheduleBars (α := F64) early onTime late
    0 ≤ b.1 ∧ 0 ≤ b.2.1 ∧ 0 ≤ b.2.2 ∧ 14 ≤ max b.1 (max b.2.1 b.2.2) ∧ max b.1 (max b.2.1 b.2.2) ≤ 15 := by
  have em : (if (if early > onTime then early else onTime) > late then (if early > onTime then early else onTime) else late)
      = max early (max onTime late) := by
    split_ifs <;> omega
  intro b
  have hbd : b = scheduleBars (α := F64) early onTime late := rfl
  unfold scheduleBars at hbd
  rw [em] at hbd
  generalize hm : max early (max onTime late) = m at *
  obtain ⟨a1, b1, c1⟩ := schedule_one early m h hb (by omega)
  obtain ⟨a2, b2, c2⟩ := schedule_one onTime m h hb (by omega)
  obtain ⟨a3, b3, c3⟩ := schedule_one late m h hb (by omega)
  rw [hbd]
  refine ⟨a1, a2, a3, ?_, max_le b1 (max_le b2 b3)⟩
  have : early = m ∨ onTime = m ∨ late = m := by omega
  rcases this with e | e | e
  · exact le_max_of_le_left (c1 e)
  · exact le_max_of_le_right (le_max_of_le_left (c2 e))
  · exact le_max_of_le_right (le_max_of_le_right (c3 e))

/-- Non-vacuity: the bars of a swarm with 2 early, 49 punctual and 3 late agents. -/
example : 14 ≤ max (scheduleBars (α := F64) 2 49 3).1 (max (scheduleBars (α := F64) 2 49 3).2.1 (scheduleBars (α := F64) 2 49 3).2.2) :=
  (C140_schedule_double_partial 2 49 3 (by norm_num) (by norm_num)).2.2.2.1

/-- `15 / 11` rounded to a double. -/
theorem rnd_15_11 : Rounding.rnd (15 / 11 : ℝ) = 6141272219141585 / 2 ^ 52 := by
  have hd : IsDouble (6141272219141585 / 2 ^ 52 : ℝ) :=
    ⟨6141272219141585, -52, by norm_num, by norm_num, by norm_num, by rw [zpow_neg]; norm_num⟩
  have hn := Rounding.nearest (15 / 11) _ hd
  have hp : |(6141272219141585 / 2 ^ 52 : ℝ) - 15 / 11| ≤ 5 / 11 / 2 ^ 52 := by
    rw [abs_le]; constructor <;> norm_num
  have hr := abs_le.1 (hn.trans hp)
  have hge : (2 : ℝ) ^ (0 : ℤ) ≤ |Rounding.rnd (15 / 11 : ℝ)| := by
    have h1 : (1 : ℝ) ≤ Rounding.rnd (15 / 11 : ℝ) := le_rnd isDouble_one (by norm_num)
    rw [zpow_zero, abs_of_pos (by linarith)]; exact h1
  obtain ⟨j, hj⟩ := isDouble_multiple (Rounding.isDouble (15 / 11)) 0 hge
  have e : (2 : ℝ) ^ ((0 : ℤ) - 52) = 1 / 2 ^ 52 := by
    rw [show (0 : ℤ) - 52 = -52 by norm_num, zpow_neg]; norm_num
  rw [e] at hj
  rw [hj] at hr ⊢
  have hj1 : (6141272219141584 : ℝ) < j := by
    have := hr.1; norm_num at this ⊢; linarith
  have hj2 : (j : ℝ) < 6141272219141586 := by
    have := hr.2; norm_num at this ⊢; linarith
  have hj1' : (6141272219141584 : ℤ) < j := by exact_mod_cast hj1
  have hj2' : j < (6141272219141586 : ℤ) := by exact_mod_cast hj2
  obtain rfl : j = 6141272219141585 := by omega
  norm_num

/-- Rounding can shorten the longest bar: eleven punctual agents get 14 cells. -/
theorem C140_schedule_double_refuted : ¬ C140_schedule_double_claim := by
  intro h
  have h1 := h 0 11 0 (by norm_num) (by norm_num)
  have em : (if (if (0 : ℕ) > 11 then 0 else 11) > 0 then (if (0 : ℕ) > 11 then 0 else 11) else (0 : ℕ)) = 11 := rfl
  unfold scheduleBars at h1
  rw [em] at h1
  have e11 : (GoMath.ofInt ((11 : ℕ) : ℤ) : F64) = .fin ⟨11, isDouble_ofNat 11 (by norm_num)⟩ := by
    obtain ⟨d, e, hd⟩ := fin_nat 11 (by norm_num)
    rw [e]; congr 1; exact Subtype.ext (by rw [hd]; norm_num)
  have e0 : (GoMath.ofInt ((0 : ℕ) : ℤ) : F64) = .fin ⟨0, isDouble_zero⟩ := by
    obtain ⟨d, e, hd⟩ := fin_nat 0 (by norm_num)
    rw [e]; congr 1; exact Subtype.ext (by rw [hd]; norm_num)
  have hd : IsDouble (6141272219141585 / 2 ^ 52 : ℝ) :=
    ⟨6141272219141585, -52, by norm_num, by norm_num, by norm_num, by rw [zpow_neg]; norm_num⟩
  have er : (15.0 / GoMath.ofInt ((11 : ℕ) : ℤ) : F64) = .fin ⟨6141272219141585 / 2 ^ 52, hd⟩ := by
    rw [e11, e15_double, F64.div_fin (by norm_num)]
    have hov : |(15 / 11 : ℝ)| < overflow := by
      have := (isDouble_ofNat 15 (by norm_num)).abs_lt_overflow
      rw [abs_of_pos (by norm_num)] at this ⊢
      exact lt_trans (by norm_num) this
    change F64.ofReal (15 / 11) = _
    unfold F64.ofReal
    rw [if_pos hov]
    congr 1
    exact Subtype.ext rnd_15_11
  have d8 : IsDouble (15 - 8 / 2 ^ 52 : ℝ) :=
    ⟨15 * 2 ^ 49 - 1, -49, by norm_num, by norm_num, by norm_num, by rw [zpow_neg]; norm_num⟩
  have hx : |Rounding.rnd (11 * (6141272219141585 / 2 ^ 52) : ℝ) - 11 * (6141272219141585 / 2 ^ 52)| ≤ 3 / 2 ^ 52 := by
    refine (Rounding.nearest _ _ d8).trans ?_
    rw [abs_le]; constructor <;> norm_num
  have hx2 := (abs_le.1 hx).2
  obtain ⟨z, hz, e, z0, z1⟩ := F64.ofReal_between (x := 11 * (6141272219141585 / 2 ^ 52)) (isDouble_ofNat 14 (by norm_num))
    (isDouble_ofNat 15 (by norm_num)) (by norm_num) (by norm_num)
  have hzr : z = Rounding.rnd (11 * (6141272219141585 / 2 ^ 52) : ℝ) := by
    have hov : |(11 * (6141272219141585 / 2 ^ 52) : ℝ)| < overflow := by
      have := (isDouble_ofNat 15 (by norm_num)).abs_lt_overflow
      rw [abs_of_pos (by norm_num)] at this ⊢
      exact lt_trans (by norm_num) this
    unfold F64.ofReal at e
    rw [if_pos hov] at e
    simpa using e.symm
  have hz15 : z < 15 := by rw [hzr]; norm_num at hx2 ⊢; linarith
  have b1 := F64.toInt_between ⟨z, hz⟩ 14 14 (by norm_num) (by norm_num) (by push_cast; exact z0) (by push_cast; norm_num; exact hz15)
  have b0 := F64.toInt_between ⟨0, isDouble_zero⟩ 0 0 (by norm_num) (by norm_num) (by norm_num) (by norm_num)
  simp only [er] at h1
  simp only [e11, e0, F64.mul_fin, zero_mul, F64.ofReal_of_isDouble isDouble_zero, e] at h1
  omega

end Doubles

end Verif
