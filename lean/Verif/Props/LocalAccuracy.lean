import Verif.Props.PhaseAccuracy
import Verif.Props.AgentArc
import Verif.Props.Bars

/-!
# C145: the accuracy of the coherence and of the goal an agent perceives
-/

set_option autoImplicit false
set_option linter.unusedSectionVars false

namespace Verif
variable [Rounding] [LibM]
open Rounding GoMath Spec

omit [Rounding] [LibM] in
/-- The order parameter moves by at most as much as the phases do. -/
theorem orderParameter_lipschitz {ι : Type} (l : List ι) (f g : ι → ℝ) (δ : ℝ) (h0 : 0 ≤ δ) (h : ∀ i ∈ l, |f i - g i| ≤ δ) :
    |orderParameter (l.map f) - orderParameter (l.map g)| ≤ δ := by
  unfold orderParameter
  rw [List.length_map, List.length_map, ← sub_div, abs_div, Nat.abs_cast]
  rcases Nat.eq_zero_or_pos l.length with hl | hl
  · rw [hl]; simpa using h0
  have hn : (0 : ℝ) < l.length := by exact_mod_cast hl
  rw [div_le_iff₀ hn]
  refine (abs_norm_sub_norm_le _ _).trans ?_
  clear hl hn
  induction l with
  | nil => simp
  | cons i l ih =>
    have h1 := ih fun j hj => h j (List.mem_cons_of_mem _ hj)
    have h2 : ‖Complex.exp ((f i : ℝ) * Complex.I) - Complex.exp ((g i : ℝ) * Complex.I)‖ ≤ |f i - g i| := by
      have e : Complex.exp ((f i : ℝ) * Complex.I) - Complex.exp ((g i : ℝ) * Complex.I) =
          Complex.exp ((g i : ℝ) * Complex.I) * (Complex.exp (((f i - g i : ℝ) : ℂ) * Complex.I) - 1) := by
        rw [mul_sub, ← Complex.exp_add, mul_one]; congr 2; push_cast; ring
      rw [e, norm_mul, Complex.norm_exp_ofReal_mul_I, one_mul]
      rw [mul_comm, ← Real.norm_eq_abs]
      exact Real.norm_exp_I_mul_ofReal_sub_one_le
    simp only [List.map_cons, List.sum_cons, List.length_cons] at h1 ⊢
    rw [add_sub_add_comm]
    refine (norm_add_le _ _).trans ?_
    push_cast
    have h3 := h i List.mem_cons_self
    linarith

/-- The sums of an agent in doubles are those of the rounded differences of the phases. -/
theorem local_sums (a : Agent F64) (m : Dbl) (hm7 : |m.1| ≤ 7)
    (q : ℕ → Dbl) (hq : ∀ n ∈ a.neighborList, |(q n).1| ≤ 7) :
    ∃ D : ℕ → Dbl, (∀ n ∈ a.neighborList, |(D n).1 - ((q n).1 - m.1)| ≤ 15 * ulp) ∧
      phaseSums (F64.fin m) (a.neighborList.map fun n => F64.fin (q n)) =
        ((a.neighborList.map D).map F64.fin).foldl (fun (s : F64 × F64) p => (s.1 + cos p, s.2 + sin p)) (0, 0) := by
  have hu := ulp_pos
  have hd : ∀ n ∈ a.neighborList, ∃ d : Dbl, F64.fin (q n) - F64.fin m = .fin d ∧ |d.1 - ((q n).1 - m.1)| ≤ 15 * ulp := by
    intro n h
    have hb : |(q n).1 - m.1| ≤ 14 := by
      have := abs_sub (q n).1 m.1
      linarith [hq n h]
    rw [F64.sub_fin]
    obtain ⟨d, e, he⟩ := F64.ofReal_err (x := (q n).1 - m.1) (small_lt_1023 (hb.trans (by norm_num)))
    refine ⟨d, e, he.trans ?_⟩
    have := eta_le_ulp
    nlinarith
  let D : ℕ → Dbl := fun n => if h : n ∈ a.neighborList then (hd n h).choose else ⟨0, isDouble_zero⟩
  have hD : ∀ n ∈ a.neighborList, F64.fin (q n) - F64.fin m = .fin (D n) ∧ |(D n).1 - ((q n).1 - m.1)| ≤ 15 * ulp := by
    intro n h
    have := (hd n h).choose_spec
    simp only [D, dif_pos h]
    exact this
  refine ⟨D, fun n h => (hD n h).2, ?_⟩
  unfold phaseSums
  rw [List.map_map, List.foldl_map, List.foldl_map]
  refine List.foldl_ext _ _ _ fun s n hn => ?_
  rw [(hD n hn).1]
  rfl

/-- **C145.** The coherence an agent perceives, computed in doubles from rounded differences of phases, is the order parameter of its
neighbours' phases up to the error of the computation. -/
theorem C145_local (ε : ℝ) (hε : ∀ d : Dbl, TrigWithin ε d) (a : Agent F64) (m : Dbl) (hm : a.state.phase = .fin m) (hm7 : |m.1| ≤ 7)
    (q : ℕ → Dbl) (hq : ∀ n ∈ a.neighborList, |(q n).1| ≤ 7) (hn : a.neighborList.length < 2 ^ 53) (h0 : a.neighborList ≠ []) :
    ∃ z : Dbl, a.localCoherence (fun n => .fin (q n)) = .fin z ∧ (a.updateContext fun n => .fin (q n)).context.localCoherence = .fin z ∧
      0 ≤ z.1 ∧ |z.1 - orderParameter (a.neighborList.map fun n => (q n).1)| ≤ coherenceError ε a.neighborList.length + 15 * 2 ^ (-53 : ℤ) := by
  have hl : a.neighborList.length ≠ 0 := fun h => h0 (List.length_eq_zero_iff.1 h)
  have hu := ulp_pos
  obtain ⟨D, hD, hsum⟩ := local_sums a m hm7 q hq
  obtain ⟨z, ez, z0, hz⟩ := C133_accurate ε (a.neighborList.map D) (fun d _ => hε d) (by simpa using hn) (by simpa using h0)
  have hloc : a.localCoherence (fun n => .fin (q n)) = .fin z := by
    unfold measureCoherence at ez
    rw [List.length_map, List.length_map, if_neg hl] at ez
    unfold Agent.localCoherence
    dsimp only at ez ⊢
    rw [if_neg hl, hm, hsum]
    exact ez
  refine ⟨z, hloc, ?_, z0, ?_⟩
  · rw [← hloc]
    unfold Agent.updateContext Agent.localCoherence
    dsimp only
    rw [if_neg hl, if_neg hl]
  · have h1 := orderParameter_lipschitz a.neighborList (fun n => (D n).1) (fun n => (q n).1 - m.1) (15 * ulp) (by positivity) hD
    have h2 : orderParameter (a.neighborList.map fun n => (q n).1 - m.1) = orderParameter (a.neighborList.map fun n => (q n).1) := by
      rw [← C03_coherence_eq_orderParameter, ← C03_coherence_eq_orderParameter, ← C04_coherence_rotate (a.neighborList.map fun n => (q n).1) (-m.1),
        List.map_map]
      rfl
    rw [h2] at h1
    rw [List.map_map, List.length_map] at hz
    have h3 := abs_sub_le z.1 (orderParameter (a.neighborList.map fun n => (D n).1)) (orderParameter (a.neighborList.map fun n => (q n).1))
    change _ ≤ _ + 15 * ulp
    have h4 : |z.1 - orderParameter (a.neighborList.map fun n => (D n).1)| ≤ coherenceError ε a.neighborList.length := hz
    linarith

omit [Rounding] [LibM] in
/-- The mean of points of the unit circle at angles within `δ ≤ 1` of `θ`, in polar form. -/
theorem mean_polar (l : List ℝ) (h0 : l ≠ []) (θ δ : ℝ) (d1 : δ ≤ 1) (h : ∀ x ∈ l, Near θ x δ) :
    ∃ R α : ℝ, 1 - δ ^ 2 / 2 ≤ R ∧ |α - θ| ≤ δ ∧
      (l.map Real.cos).sum / l.length = R * Real.cos α ∧ (l.map Real.sin).sum / l.length = R * Real.sin α := by
  have hn : (0 : ℝ) < l.length := by
    have : l.length ≠ 0 := fun h => h0 (List.length_eq_zero_iff.1 h)
    exact_mod_cast Nat.pos_of_ne_zero this
  have hδ : 0 ≤ δ := by
    obtain ⟨x, hx⟩ := List.exists_mem_of_ne_nil l h0
    obtain ⟨k, hk⟩ := h x hx
    exact (abs_nonneg _).trans hk
  have hpi := Real.pi_gt_three
  set l' := l.map fun x => x - θ with hl'
  obtain ⟨c1, c2⟩ := arg_in_cone (-δ) δ (by linarith) hδ (by linarith) l' (by simpa [hl'] using h0) (by
    intro y hy
    obtain ⟨x, hx, rfl⟩ := List.mem_map.1 hy
    obtain ⟨k, hk⟩ := h x hx
    have := abs_le.1 hk
    exact ⟨-(θ - x + k * (2 * Real.pi)), by linarith, by linarith, k, by ring⟩) l.length hn
  set z : ℂ := ⟨(l'.map Real.cos).sum / l.length, (l'.map Real.sin).sum / l.length⟩ with hz
  have hc : (l.map Real.cos).sum = (l'.map Real.cos).sum * Real.cos θ - (l'.map Real.sin).sum * Real.sin θ := by
    rw [hl']
    clear * -
    induction l with
    | nil => simp
    | cons x l ih =>
      have : Real.cos x = Real.cos (x - θ) * Real.cos θ - Real.sin (x - θ) * Real.sin θ := by
        rw [← Real.cos_add, sub_add_cancel]
      simp only [List.map_cons, List.sum_cons] at ih ⊢
      rw [ih, this]; ring
  have hs : (l.map Real.sin).sum = (l'.map Real.sin).sum * Real.cos θ + (l'.map Real.cos).sum * Real.sin θ := by
    rw [hl']
    clear * -
    induction l with
    | nil => simp
    | cons x l ih =>
      have : Real.sin x = Real.sin (x - θ) * Real.cos θ + Real.cos (x - θ) * Real.sin θ := by
        rw [← Real.sin_add, sub_add_cancel]
      simp only [List.map_cons, List.sum_cons] at ih ⊢
      rw [ih, this]; ring
  have z1 : z.re = ‖z‖ * Real.cos (Complex.arg z) := (Complex.norm_mul_cos_arg z).symm
  have z2 : z.im = ‖z‖ * Real.sin (Complex.arg z) := (Complex.norm_mul_sin_arg z).symm
  have z1' : z.re = (l'.map Real.cos).sum / l.length := rfl
  have z2' : z.im = (l'.map Real.sin).sum / l.length := rfl
  refine ⟨‖z‖, Complex.arg z + θ, ?_, by rw [add_sub_cancel_right]; exact abs_le.2 ⟨c1, c2⟩, ?_, ?_⟩
  · refine le_trans ?_ (Complex.re_le_norm z)
    rw [z1', le_div_iff₀ hn, hl', List.map_map]
    clear * - h
    induction l with
    | nil => simp
    | cons x l ih =>
      have h1 := ih fun y hy => h y (List.mem_cons_of_mem _ hy)
      obtain ⟨k, hk⟩ := h x List.mem_cons_self
      have e : Real.cos (x - θ) = Real.cos (θ - x + k * (2 * Real.pi)) := by
        rw [Real.cos_add_int_mul_two_pi, ← Real.cos_neg]; congr 1; ring
      have h3 := Real.one_sub_sq_div_two_le_cos (x := θ - x + k * (2 * Real.pi))
      have h4 : (θ - x + k * (2 * Real.pi)) ^ 2 ≤ δ ^ 2 := sq_le_sq' (by linarith [(abs_le.1 hk).1]) (abs_le.1 hk).2
      simp only [List.map_cons, List.sum_cons, List.length_cons, Function.comp] at h1 ⊢
      rw [e]
      push_cast
      linarith
  · rw [hc, Real.cos_add, mul_sub, ← mul_assoc, ← mul_assoc, ← z1, ← z2, z1', z2']; ring
  · rw [hs, Real.sin_add, mul_add, ← mul_assoc, ← mul_assoc, ← z1, ← z2, z1', z2']; ring

omit [Rounding] [LibM] in
theorem arg_near_scaled {x y t e R : ℝ} (hR : 3 / 4 ≤ R) (hx : |x - R * Real.cos t| ≤ e) (hy : |y - R * Real.sin t| ≤ e) :
    Near (Complex.arg ⟨x, y⟩) t (7 * e) := by
  have hR0 : 0 < R := by linarith
  have e0 : 0 ≤ e := (abs_nonneg _).trans hx
  have key : ∀ u v : ℝ, |u - R * v| ≤ e → |u / R - v| ≤ e / R := by
    intro u v h
    rw [show u / R - v = (u - R * v) / R by field_simp, abs_div, abs_of_pos hR0]
    gcongr
  have h := arg_near (key _ _ hx) (key _ _ hy)
  have ea : Complex.arg ⟨x / R, y / R⟩ = Complex.arg ⟨x, y⟩ := by
    have : (⟨x, y⟩ : ℂ) = (R : ℂ) * ⟨x / R, y / R⟩ := by
      apply Complex.ext <;> simp <;> field_simp
    rw [this, Complex.arg_real_mul _ hR0]
  rw [ea] at h
  refine h.mono ?_
  rw [mul_div_assoc', div_le_iff₀ hR0]
  nlinarith

/-- The direction towards the neighbours, as an agent computes it. -/
theorem local_direction (ε : ℝ) (hε : ∀ d : Dbl, TrigWithin ε d) (hat : ∀ y x : Dbl, AtanWithin ε y x)
    (a : Agent F64) (m : Dbl) (hm7 : |m.1| ≤ 7)
    (q : ℕ → Dbl) (hq : ∀ n ∈ a.neighborList, |(q n).1| ≤ 7) (hn53 : a.neighborList.length < 2 ^ 53) (h0 : a.neighborList ≠ [])
    (p δ : ℝ) (hδ : δ ≤ 1 / 4) (h : ∀ n ∈ a.neighborList, Near p (q n).1 δ) :
    ∃ T : Dbl, atan2 ((phaseSums (F64.fin m) (a.neighborList.map fun n => F64.fin (q n))).2 / ofInt (a.neighborList.length : ℤ))
        ((phaseSums (F64.fin m) (a.neighborList.map fun n => F64.fin (q n))).1 / ofInt (a.neighborList.length : ℤ)) = .fin T ∧ |T.1| ≤ Real.pi ∧
      Near T.1 (p - m.1) (ε + 7 * (ε + ((a.neighborList.length : ℝ) / 2 + 2) * ulp) + (δ + 15 * ulp)) := by
  have hl : a.neighborList.length ≠ 0 := fun h => h0 (List.length_eq_zero_iff.1 h)
  have nR : (1 : ℝ) ≤ a.neighborList.length := by exact_mod_cast Nat.one_le_iff_ne_zero.2 hl
  have hu := ulp_pos
  have hηu := eta_le_ulp
  have u1 : ulp ≤ 1 / 8000 := by unfold ulp; rw [zpow_neg]; norm_num
  have hδ0 : 0 ≤ δ := by
    obtain ⟨x, hx⟩ := List.exists_mem_of_ne_nil _ h0
    obtain ⟨k, hk⟩ := h x hx
    exact (abs_nonneg _).trans hk
  set N : ℝ := (a.neighborList.length : ℝ) with hN
  obtain ⟨D, hD, hsum⟩ := local_sums a m hm7 q hq
  obtain ⟨c, d, esum, hc, hd, hcE, hdE⟩ := sums_accurate ε (a.neighborList.map D) (fun d _ => hε d) 0 (by simpa using hn53)
    ⟨0, isDouble_zero⟩ ⟨0, isDouble_zero⟩ 0 0 0 (by simp) (by simp) (by simp) (by simp)
  rw [List.length_map] at hc hd hcE hdE
  simp only [zero_add, Nat.cast_zero, mul_zero] at hc hd hcE hdE
  have mean : ∀ (v : Dbl) (V : ℝ), |v.1| ≤ N → |v.1 - V| ≤ N * (ε + eta) + ulp * (N * (N + 1) / 2) →
      ∃ w : Dbl, F64.fin v / ofInt (a.neighborList.length : ℤ) = .fin w ∧ |w.1 - V / N| ≤ ε + (N / 2 + 2) * ulp := by
    intro v V hv hV
    obtain ⟨k, ek, hk⟩ := fin_nat a.neighborList.length hn53
    have kN : k.1 = N := hk
    have hq1 : |v.1 / N| ≤ 1 := by
      rw [abs_div, abs_of_nonneg (by linarith : 0 ≤ N), div_le_one (by linarith)]; exact hv
    rw [ek, F64.div_fin (by rw [kN]; linarith), kN]
    obtain ⟨w, ew, hw⟩ := F64.ofReal_err (x := v.1 / N) (small_lt_1023 (hq1.trans (by norm_num)))
    refine ⟨w, ew, ?_⟩
    have h1 : |v.1 / N - V / N| ≤ ε + eta + ulp * (N + 1) / 2 := by
      rw [← sub_div, abs_div, abs_of_nonneg (by linarith : 0 ≤ N), div_le_iff₀ (by linarith)]
      calc _ ≤ _ := hV
        _ = _ := by ring
    have h2 := abs_sub_le w.1 (v.1 / N) (V / N)
    have h3 := mul_le_mul_of_nonneg_left hq1 hu.le
    linarith
  obtain ⟨C, eC, hC⟩ := mean c _ hc hcE
  obtain ⟨S, eS, hS⟩ := mean d _ hd hdE
  obtain ⟨R, α, hR, hα, hRc, hRs⟩ := mean_polar ((a.neighborList.map D).map Subtype.val) (by simpa using h0) (p - m.1) (δ + 15 * ulp)
    (by linarith) (by
      intro x hx
      obtain ⟨y, hy, rfl⟩ := List.mem_map.1 hx
      obtain ⟨n, hn', rfl⟩ := List.mem_map.1 hy
      obtain ⟨k, hk⟩ := h n hn'
      refine ⟨k, ?_⟩
      have := abs_add_le (p - (q n).1 + k * (2 * Real.pi)) ((q n).1 - m.1 - (D n).1)
      rw [show p - m.1 - (D n).1 + k * (2 * Real.pi) = (p - (q n).1 + k * (2 * Real.pi)) + ((q n).1 - m.1 - (D n).1) by ring]
      have h2 := hD n hn'
      rw [abs_sub_comm] at h2
      linarith)
  rw [List.length_map, List.length_map] at hRc hRs
  rw [← hN] at hRc hRs
  rw [hRc] at hC
  rw [hRs] at hS
  have hdir := arg_near_scaled (by nlinarith) hC hS
  obtain ⟨T, eT, hT⟩ := hat S C
  obtain ⟨T', eT', hT'⟩ := LibM.atan2_le S C
  have : T = T' := by rw [eT] at eT'; exact F64.fin.inj eT'
  subst this
  refine ⟨T, ?_, hT', (hT.trans hdir).trans (Near.of_abs hα)⟩
  rw [hsum, F64.zero_def, esum, eC, eS]
  exact eT

/-- The coupling strength for a coherence `z` near 1. -/
theorem coupling_near (z : Dbl) (z0 : 0 ≤ z.1) (z2 : z.1 ≤ 2) (k : ℝ) (hz : |z.1 - 1| ≤ k) :
    ∃ K : Dbl, (0.5 : F64) + (0.5 : F64) * F64.fin z = .fin K ∧ |K.1 - 1| ≤ k / 2 + 4 * ulp := by
  have hu := ulp_pos
  have hη := eta_pos
  have hηu := eta_le_ulp
  have u1 : ulp ≤ 1 / 8000 := by unfold ulp; rw [zpow_neg]; norm_num
  have hhalf : (0.5 : F64) = .fin ⟨1 / 2, ⟨1, -1, by norm_num, by norm_num, by norm_num, by norm_num⟩⟩ := by
    have h1 : (0.5 : F64) = F64.ofReal 0.5 := rfl
    rw [h1, show (0.5 : ℝ) = 1 / 2 by norm_num]
    exact F64.ofReal_of_isDouble _
  have hz' := abs_le.1 hz
  have b1 : |1 / 2 * z.1| ≤ 1 := by rw [abs_le]; constructor <;> linarith
  obtain ⟨hh, ehh, hhh⟩ := F64.ofReal_err (x := 1 / 2 * z.1) (small_lt_1023 (b1.trans (by norm_num)))
  have h1 := mul_le_mul_of_nonneg_left b1 hu.le
  have hh' := abs_le.1 hhh
  have b2 : |1 / 2 + hh.1| ≤ 2 := by
    have := abs_le.1 b1
    rw [abs_le]; constructor <;> linarith
  obtain ⟨K, eK, hK⟩ := F64.ofReal_err (x := 1 / 2 + hh.1) (small_lt_1023 (b2.trans (by norm_num)))
  have h2 := mul_le_mul_of_nonneg_left b2 hu.le
  have hK' := abs_le.1 hK
  refine ⟨K, ?_, ?_⟩
  · rw [hhalf, F64.mul_fin, ehh, F64.add_fin, eK]
  · rw [abs_le]
    constructor <;> linarith

/-- Turning by nearly the whole of a shift. -/
theorem shift_near (m T K : Dbl) (hm : |m.1| ≤ 7) (hT : |T.1| ≤ Real.pi) (k : ℝ) (k1 : k ≤ 1 / 10) (hK : |K.1 - 1| ≤ k) (p e : ℝ)
    (h : Near T.1 (p - m.1) e) :
    ∃ g : Dbl, wrapPhase (F64.fin m + F64.fin T * F64.fin K) = .fin g ∧ 0 ≤ g.1 ∧ g.1 < 2 * Real.pi ∧
      Near g.1 p (e + Real.pi * k + 62 * ulp) := by
  have hu := ulp_pos
  have hη := eta_pos
  have hηu := eta_le_ulp
  have u1 : ulp ≤ 1 / 8000 := by unfold ulp; rw [zpow_neg]; norm_num
  have hpi := Real.pi_lt_d2
  norm_num at hpi
  have hK' := abs_le.1 hK
  have kb : |K.1| ≤ 11 / 10 := by rw [abs_le]; constructor <;> linarith
  have b1 : |T.1 * K.1| ≤ 7 / 2 := by
    rw [abs_mul]
    calc _ ≤ 63 / 20 * (11 / 10) := mul_le_mul (by linarith) kb (abs_nonneg _) (by norm_num)
      _ ≤ 7 / 2 := by norm_num
  obtain ⟨E, eE, hE⟩ := F64.ofReal_err (x := T.1 * K.1) (small_lt_1023 (b1.trans (by norm_num)))
  have h1 := mul_le_mul_of_nonneg_left b1 hu.le
  have b2 : |m.1 + E.1| ≤ 11 := by
    have h2 := abs_add_le m.1 E.1
    have h3 := abs_sub_le E.1 (T.1 * K.1) 0
    rw [sub_zero, sub_zero] at h3
    linarith
  obtain ⟨X, eX, hX⟩ := F64.ofReal_err (x := m.1 + E.1) (small_lt_1023 (b2.trans (by norm_num)))
  have h2 := mul_le_mul_of_nonneg_left b2 hu.le
  have b3 : |X.1| ≤ 12 := by
    have h3 := abs_sub_le X.1 (m.1 + E.1) 0
    rw [sub_zero, sub_zero] at h3
    linarith
  obtain ⟨g, eg, g0, g1, hg⟩ := C134_wrap X
  refine ⟨g, ?_, g0, g1, ?_⟩
  · rw [F64.mul_fin, eE, F64.add_fin, eX, eg]
  · have n1 : Near g.1 X.1 (46 * ulp) := hg.mono (by change _ * ulp ≤ _; nlinarith)
    have n2 : Near X.1 (m.1 + E.1) (12 * ulp) := Near.of_abs (by linarith)
    have n3 : Near (m.1 + E.1) (m.1 + T.1) (Real.pi * k + 4 * ulp) := Near.of_abs (by
      have h3 : |T.1 * K.1 - T.1| ≤ Real.pi * k := by
        rw [show T.1 * K.1 - T.1 = T.1 * (K.1 - 1) by ring, abs_mul]
        exact mul_le_mul hT hK (abs_nonneg _) Real.pi_pos.le
      have h4 := abs_sub_le E.1 (T.1 * K.1) T.1
      rw [show m.1 + E.1 - (m.1 + T.1) = E.1 - T.1 by ring]
      linarith)
    have n4 : Near (m.1 + T.1) p e := by
      obtain ⟨j, hj⟩ := h
      exact ⟨j, by rwa [show m.1 + T.1 - p + j * (2 * Real.pi) = T.1 - (p - m.1) + j * (2 * Real.pi) by ring]⟩
    exact (((n1.trans n2).trans n3).trans n4).mono (by linarith)

/-- **C145, the goal.** If all neighbours are within `δ ≤ 1/4` of the angle `p`, then the local goal an agent computes in doubles is within
`δ + δ²` of `p`, up to the accuracy of the library and of the sums. -/
theorem C145_goal (ε : ℝ) (e1 : ε ≤ 1 / 1000) (hε : ∀ d : Dbl, TrigWithin ε d) (hat : ∀ y x : Dbl, AtanWithin ε y x)
    (a : Agent F64) (m : Dbl) (hm : a.state.phase = .fin m) (hm7 : |m.1| ≤ 7)
    (q : ℕ → Dbl) (hq : ∀ n ∈ a.neighborList, |(q n).1| ≤ 7) (hn : a.neighborList.length ≤ 2 ^ 40) (h0 : a.neighborList ≠ [])
    (p δ : ℝ) (hδ : δ ≤ 1 / 4) (h : ∀ n ∈ a.neighborList, Near p (q n).1 δ) :
    ∃ g : Dbl, (a.updateContext fun n => .fin (q n)).state.localGoal = .fin g ∧ 0 ≤ g.1 ∧ g.1 < 2 * Real.pi ∧
      Near g.1 p (δ + δ ^ 2 + 11 * ε + (5 * a.neighborList.length + 200) * 2 ^ (-53 : ℤ)) := by
  have hl : a.neighborList.length ≠ 0 := fun h => h0 (List.length_eq_zero_iff.1 h)
  have nR : (1 : ℝ) ≤ a.neighborList.length := by exact_mod_cast Nat.one_le_iff_ne_zero.2 hl
  have nR2 : (a.neighborList.length : ℝ) ≤ 2 ^ 40 := by exact_mod_cast hn
  have hn53 : a.neighborList.length < 2 ^ 53 := lt_of_le_of_lt hn (by norm_num)
  have hu := ulp_pos
  have u40 : 2 ^ 40 * ulp ≤ 1 / 8000 := by unfold ulp; rw [zpow_neg]; norm_num
  have u1 : ulp ≤ 1 / 1000000 := ulp_small
  have hpi := Real.pi_lt_d2
  norm_num at hpi
  have hε0 : 0 ≤ ε := (abs_nonneg _).trans (hε m).1
  have hδ0 : 0 ≤ δ := by
    obtain ⟨x, hx⟩ := List.exists_mem_of_ne_nil _ h0
    obtain ⟨k, hk⟩ := h x hx
    exact (abs_nonneg _).trans hk
  obtain ⟨z, -, ez, z0, hz⟩ := C145_local ε hε a m hm hm7 q hq hn53 h0
  change |z.1 - _| ≤ (3 / 2 * ε + (3 / 4 * (a.neighborList.length : ℝ) + 8) * ulp) + 15 * ulp at hz
  have hop1 := orderParameter_le_one (a.neighborList.map fun n => (q n).1)
  have hop2 := orderParameter_of_near (a.neighborList.map fun n => (q n).1) (by simpa using h0) p δ (by
    intro x hx
    obtain ⟨n, hn, rfl⟩ := List.mem_map.1 hx
    exact h n hn)
  obtain ⟨T, eT, hT, hTp⟩ := local_direction ε hε hat a m hm7 q hq hn53 h0 p δ hδ h
  have eloc : sqrt ((phaseSums (F64.fin m) (a.neighborList.map fun n => F64.fin (q n))).1 * (phaseSums (F64.fin m) (a.neighborList.map fun n => F64.fin (q n))).1 +
      (phaseSums (F64.fin m) (a.neighborList.map fun n => F64.fin (q n))).2 * (phaseSums (F64.fin m) (a.neighborList.map fun n => F64.fin (q n))).2) /
      ofInt (a.neighborList.length : ℤ) = F64.fin z := by
    rw [← ez]
    unfold Agent.updateContext
    dsimp only
    rw [if_neg hl, hm]
  have eg : (a.updateContext fun n => .fin (q n)).state.localGoal =
      wrapPhase (F64.fin m + F64.fin T * ((0.5 : F64) + (0.5 : F64) * F64.fin z)) := by
    unfold Agent.updateContext
    dsimp only
    rw [if_neg hl, hm]
    dsimp only
    rw [eloc, eT]
  generalize (a.neighborList.length : ℝ) = N at *
  generalize orderParameter (a.neighborList.map fun n => (q n).1) = op at *
  have nu : N * ulp ≤ 1 / 8000 := (mul_le_mul_of_nonneg_right nR2 hu.le).trans u40
  have nu0 : 0 ≤ N * ulp := by positivity
  have hz' := abs_le.1 hz
  have sq1 : δ ^ 2 ≤ 1 / 16 := by nlinarith
  have sq0 : 0 ≤ δ ^ 2 := sq_nonneg _
  have hz1 : |z.1 - 1| ≤ δ ^ 2 / 2 + (3 / 2 * ε + (3 / 4 * N + 8) * ulp) + 15 * ulp := by
    rw [abs_le]; constructor <;> linarith
  obtain ⟨K, eK, hK⟩ := coupling_near z z0 (by linarith) _ hz1
  obtain ⟨g, egg, g0, g1, hg⟩ := shift_near m T K hm7 hT _ (by linarith) hK p _ hTp
  refine ⟨g, by rw [eg, eK, egg], g0, g1, hg.mono ?_⟩
  change _ ≤ _ + (5 * N + 200) * ulp
  have hk0 : 0 ≤ (δ ^ 2 / 2 + (3 / 2 * ε + (3 / 4 * N + 8) * ulp) + 15 * ulp) / 2 + 4 * ulp := by positivity
  have := mul_le_mul_of_nonneg_right hpi.le hk0
  linarith

omit [LibM] in
/-- The correctly rounded library meets the requirements. -/
theorem atanWithin_rounded (y x : Dbl) : @AtanWithin LibM.rounded ((2 : ℝ) ^ (-51 : ℤ)) y x := by
  let := LibM.rounded
  have h3 : (2 : ℝ) ^ (-51 : ℤ) = 4 * ulp := by
    unfold ulp; rw [show (-51 : ℤ) = 2 + -53 by norm_num, zpow_add₀ (by norm_num)]; norm_num
  have u0 := ulp_pos
  refine ⟨_, rfl, Near.of_abs ?_⟩
  set a := Complex.arg ⟨x.1, y.1⟩ with ha
  have h1 : |a| ≤ Real.pi := Complex.abs_arg_le_pi _
  have hp := Real.pi_lt_d2
  have h2 := signedRnd_err (x := a) (small_lt_1023 (by
    have : (4 : ℝ) ≤ 2 ^ (200 : ℤ) := by norm_num
    linarith))
  have h5 := mul_le_mul_of_nonneg_left h1 u0.le
  have := eta_le_ulp
  rw [h3]
  refine h2.trans ?_
  nlinarith

/-- An agent at phase 0 with two neighbours, at phases 1 and 9/8: both are within 1/8 of 1, and the hypotheses of both theorems are met. -/
example : letI := LibM.rounded
    (2 : ℝ) ^ (-51 : ℤ) ≤ 1 / 1000 ∧ (∀ d : Dbl, TrigWithin ((2 : ℝ) ^ (-51 : ℤ)) d) ∧ (∀ y x : Dbl, AtanWithin ((2 : ℝ) ^ (-51 : ℤ)) y x) ∧
    ∃ (a : Agent F64) (m : Dbl) (q : ℕ → Dbl), a.state.phase = .fin m ∧ |m.1| ≤ 7 ∧ a.neighborList = [1, 2] ∧ (∀ n, |(q n).1| ≤ 7) ∧
      ∀ n, Near 1 (q n).1 (1 / 8) := by
  let := LibM.rounded
  refine ⟨by norm_num, accurate_rounded.trig, atanWithin_rounded,
    { ((Agent.initial "me" 0 0 0).connectTo "b" (some 1)).connectTo "c" (some 2) with
      state := { phase := .fin ⟨0, isDouble_zero⟩, energy := 0, localGoal := 0, frequency := 1 } }, ⟨0, isDouble_zero⟩,
    fun n => if n = 1 then ⟨1, isDouble_one⟩ else ⟨9 / 8, ⟨9, -3, by norm_num, by norm_num, by norm_num, by norm_num⟩⟩, ?_⟩
  refine ⟨rfl, by norm_num, ?_, fun n => ?_, fun n => ⟨0, ?_⟩⟩
  · simp [Agent.connectTo, Agent.initial, Agent.neighborList, NeighborStorage.new, NeighborStorage.store,
      NeighborStorage.find, NeighborStorage.all]
  · dsimp only; split_ifs <;> norm_num [abs_le]
  · dsimp only; split_ifs <;> norm_num [abs_le]

end Verif
