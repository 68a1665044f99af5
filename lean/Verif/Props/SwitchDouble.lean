import Verif.Props.MonitorRate
import Verif.Props.PhasePanelsDouble
import Verif.Props.ThresholdsDouble
import Verif.Props.DemoDoubles
import Verif.Lemmas.HalfEven

/-!
# C95 in doubles: when the monitor asks for another strategy
-/

set_option autoImplicit false
set_option linter.unusedSectionVars false

namespace Verif
open GoMath Spec

variable [Rounding] [LibM]

/-- Half way between two doubles of normal size the even one is taken. -/
theorem rnd_half_even (hr : HalfEven) {x : ℝ} {m : ℤ} {k : ℕ} (h1 : 2 ^ 52 < m) (h2 : m < 2 ^ 53) (hev : Even m) (hk : k ≤ 1000)
    (h : |(m : ℝ) / 2 ^ k - x| = 1 / 2 / 2 ^ k) : Rounding.rnd x = (m : ℝ) / 2 ^ k := by
  have hp : (0 : ℝ) < 2 ^ k := by positivity
  have hz : ∀ n : ℤ, (n : ℝ) / 2 ^ k = n * (2 : ℝ) ^ (-(k : ℤ)) := fun n => by rw [zpow_neg, zpow_natCast]; rfl
  have hd : IsDouble ((m : ℝ) / 2 ^ k) := ⟨m, -(k : ℤ), by rw [abs_of_pos (by omega)]; exact h2, by omega, by omega, hz m⟩
  have near := Rounding.nearest x _ hd
  rw [h] at near
  have hm2 : m + 1 < 2 ^ 53 := by
    obtain ⟨r, hr⟩ := hev
    omega
  have hlo : (2 : ℝ) ^ 52 ≤ (m : ℝ) - 1 := by
    have : (2 : ℤ) ^ 52 ≤ m - 1 := by omega
    exact_mod_cast this
  have hhi : (m : ℝ) + 1 < 2 ^ 53 := by exact_mod_cast hm2
  have hfar : |Rounding.rnd x - (m : ℝ) / 2 ^ k| ≤ 1 / 2 ^ k := by
    have := abs_sub_le (Rounding.rnd x) x ((m : ℝ) / 2 ^ k)
    rw [abs_sub_comm x] at this
    rw [h] at this
    have e : (1 : ℝ) / 2 / 2 ^ k + 1 / 2 / 2 ^ k = 1 / 2 ^ k := by ring
    linarith
  obtain ⟨f1, f2⟩ := abs_le.1 hfar
  have ylo : ((m : ℝ) - 1) / 2 ^ k ≤ Rounding.rnd x := by rw [sub_div]; linarith
  have yhi : Rounding.rnd x ≤ ((m : ℝ) + 1) / 2 ^ k := by rw [add_div]; linarith
  have y52 : (2 : ℝ) ^ (52 - (k : ℤ)) ≤ Rounding.rnd x := by
    rw [zpow_sub₀ (by norm_num), zpow_natCast]
    refine le_trans ?_ ylo
    gcongr
    norm_cast at hlo ⊢
  have y53 : Rounding.rnd x < (2 : ℝ) ^ (53 - (k : ℤ)) := by
    rw [zpow_sub₀ (by norm_num), zpow_natCast]
    refine lt_of_le_of_lt yhi ?_
    gcongr
    norm_cast at hhi ⊢
  obtain ⟨m', e, m1, m2, e1, e2, hy⟩ := normalised (Rounding.isDouble x) (le_trans (zpow_le_zpow_right₀ (by norm_num) (by omega)) y52)
  have m1' : (2 : ℝ) ^ 52 ≤ m' := by exact_mod_cast m1
  have m2' : (m' : ℝ) < 2 ^ 53 := by exact_mod_cast m2
  have he : (0 : ℝ) < 2 ^ e := by positivity
  have a1 : (2 : ℝ) ^ (52 - (k : ℤ)) < 2 ^ (e + 53) := by
    rw [zpow_add₀ (by norm_num), show (2 : ℝ) ^ (53 : ℤ) = 2 ^ 53 by norm_cast]
    refine lt_of_le_of_lt y52 ?_
    rw [hy, mul_comm]
    gcongr
  have a2 : (2 : ℝ) ^ (e + 52) < 2 ^ (53 - (k : ℤ)) := by
    rw [zpow_add₀ (by norm_num), show (2 : ℝ) ^ (52 : ℤ) = 2 ^ 52 by norm_cast]
    refine lt_of_le_of_lt ?_ y53
    rw [hy, mul_comm]
    gcongr
  obtain rfl : e = -(k : ℤ) := by have := zpow_two_lt a1; have := zpow_two_lt a2; omega
  rw [← hz] at hy
  rw [hy] at ylo yhi
  have b1 : m - 1 ≤ m' := by
    have := (div_le_div_iff_of_pos_right hp).1 ylo
    exact_mod_cast this
  have b2 : m' ≤ m + 1 := by
    have := (div_le_div_iff_of_pos_right hp).1 yhi
    exact_mod_cast this
  have h3 : m' = m ∨ m' = m - 1 ∨ m' = m + 1 := by omega
  rcases h3 with h3 | h3
  · rw [hy, h3]
  · exfalso
    have hne : 1 / 2 ^ k = |Rounding.rnd x - (m : ℝ) / 2 ^ k| := by
      rw [hy, ← sub_div, abs_div, abs_of_pos hp]
      rcases h3 with h3 | h3 <;> rw [h3] <;> push_cast <;> norm_num
    have htri := abs_sub_le (Rounding.rnd x) x ((m : ℝ) / 2 ^ k)
    rw [abs_sub_comm x, h, ← hne] at htri
    have e : (1 : ℝ) / 2 ^ k = 1 / 2 / 2 ^ k + 1 / 2 / 2 ^ k := by ring
    have heven := hr x _ hd (by rw [h]; linarith) (by rw [hz]; exact (evenDouble_iff h1.le h2 (by omega) (by omega)).2 hev)
    rw [hy, hz, evenDouble_iff m1 m2 (by omega) (by omega)] at heven
    obtain ⟨u, hu⟩ := hev
    obtain ⟨v, hv⟩ := heven
    omega

theorem seven_tenths : (0.7 : F64) = .fin ⟨((6305039478318694 : ℤ) : ℝ) / 2 ^ 53, ⟨6305039478318694, -53, by norm_num, by norm_num, by norm_num, by rw [zpow_neg]; norm_num⟩⟩ := by
  have e : Rounding.rnd (0.7 : ℝ) = ((6305039478318694 : ℤ) : ℝ) / 2 ^ 53 :=
    rnd_unique (by norm_num) (by norm_num) (by norm_num) (by rw [abs_lt]; constructor <;> norm_num)
  rw [show (0.7 : F64) = F64.ofReal 0.7 from rfl, lit_rnd _ (by norm_num) (by norm_num)]
  congr 1
  exact Subtype.ext e

theorem seven_tenths_of (n : ℕ) (hn : n < 2 ^ 40) : ∃ d : Dbl, (ofInt (n : ℤ) : F64) * 0.7 = .fin d ∧ d.1 = Rounding.rnd (n * (((6305039478318694 : ℤ) : ℝ) / 2 ^ 53)) ∧
    |d.1 - 7 / 10 * n| ≤ 1 / 1000 := by
  obtain ⟨N, eN, hN⟩ := fin_nat n (lt_of_lt_of_le hn (by norm_num))
  have hnR : (n : ℝ) < 2 ^ 40 := by exact_mod_cast hn
  have n0 : (0 : ℝ) ≤ n := by positivity
  rw [eN, seven_tenths, F64.mul_fin, hN]
  have hb : |(n : ℝ) * (((6305039478318694 : ℤ) : ℝ) / 2 ^ 53)| ≤ (n : ℝ) := by
    rw [abs_of_nonneg (by positivity)]; norm_num; linarith
  have hu := ulp_pos
  have hus : ulp ≤ 1 / 9000000000000000 := by unfold ulp; rw [zpow_neg]; norm_num
  have heu := eta_le_ulp
  have hlt : |(n : ℝ) * (((6305039478318694 : ℤ) : ℝ) / 2 ^ 53)| < 2 ^ (1023 : ℤ) := small_lt_1023 (by
    have : (2 : ℝ) ^ 40 ≤ 2 ^ (200 : ℤ) := by norm_num
    linarith)
  obtain ⟨d, ed, hd⟩ := F64.ofReal_err hlt
  have fromR : ∀ {t : ℝ} {d : Dbl}, F64.ofReal t = .fin d → d.1 = Rounding.rnd t := by
    intro t d h
    unfold F64.ofReal at h
    split_ifs at h
    injection h with h
    rw [← h]
  refine ⟨d, ed, fromR ed, ?_⟩
  have h1 : ulp * |(n : ℝ) * (((6305039478318694 : ℤ) : ℝ) / 2 ^ 53)| ≤ 1 / 9000000000000000 * n := mul_le_mul hus hb (abs_nonneg _) (by norm_num)
  have h2 : |(n : ℝ) * (((6305039478318694 : ℤ) : ℝ) / 2 ^ 53) - 7 / 10 * n| ≤ 1 / 9000000000000000 * (n : ℝ) := by
    rw [abs_le]; constructor <;> (norm_num; linarith)
  have := abs_sub_le d.1 (n * (((6305039478318694 : ℤ) : ℝ) / 2 ^ 53)) (7 / 10 * n)
  have hn12 : (n : ℝ) < 1099511627776 := by rw [show (1099511627776 : ℝ) = 2 ^ 40 by norm_num]; exact hnR
  clear hnR
  have hn0 := n0
  norm_num at h1 h2 this hd ⊢
  linarith

/-- **C95, in doubles.** A switch is asked for exactly if more than seven tenths of the samples in the window have stalled, unless it is seven tenths exactly. -/
theorem C95_switch_double (windowSize : ℤ) (ops : List (MonOp F64)) (r : List (ConvSample F64))
    (hr : r = Spec.lastN (window windowSize) (Traced.run windowSize ops).all) (hn : r.length < 2 ^ 40)
    (hne : 7 * r.length ≠ 10 * r.countP fun x => decide (-0.001 ≤ x.velocity)) :
    (Traced.run windowSize ops).monitor.shouldSwitch = true ↔ 3 ≤ r.length ∧ 7 * r.length < 10 * r.countP fun x => decide (-0.001 ≤ x.velocity) := by
  have hi := inv_run' windowSize ops
  have hrec := recent_eq hi.window hi.suffix hi.enough
  have hl := lastN_length (window windowSize) (Traced.run windowSize ops).all
  have hle : (Spec.lastN (window windowSize) (Traced.run windowSize ops).all).length ≤ (Traced.run windowSize ops).monitor.history.length := by
    rw [hl]; exact hi.enough
  unfold ConvMonitor.shouldSwitch
  rw [hrec]
  rw [← hr] at *
  clear hr
  split_ifs with h1 h2
  · simp; omega
  · simp; omega
  · rw [decide_eq_true_eq]
    obtain ⟨d, ed, -, hd⟩ := seven_tenths_of r.length hn
    have hk := List.countP_le_length (p := fun x : ConvSample F64 => decide (-0.001 ≤ x.velocity)) (l := r)
    generalize r.countP (fun x => decide (-0.001 ≤ x.velocity)) = k at *
    obtain ⟨K, eK, hK⟩ := fin_nat k (by omega)
    rw [ed, eK, F64.lt_fin, hK]
    obtain ⟨d1, d2⟩ := abs_le.1 hd
    constructor
    · intro h
      refine ⟨by omega, ?_⟩
      by_contra hc
      have : 10 * k + 1 ≤ 7 * r.length := by omega
      have : (10 * (k : ℝ) + 1) ≤ 7 * r.length := by exact_mod_cast this
      norm_num at d1; linarith
    · rintro ⟨-, h⟩
      have : 7 * r.length + 1 ≤ 10 * k := by omega
      have : (7 * (r.length : ℝ) + 1) ≤ 10 * k := by exact_mod_cast this
      norm_num at d2; linarith

/-- **C95, in doubles, the synchroniser's window.** With ties to even, `10 * 0.7` is 7, so that with the default window of ten samples the rule is the exact one. -/
theorem C95_ten_double (he : HalfEven) (ops : List (MonOp F64)) :
    (Traced.run 10 ops).monitor.shouldSwitch = true ↔ 3 ≤ (Spec.lastN 10 (Traced.run 10 ops).all).length ∧
      7 * (Spec.lastN 10 (Traced.run 10 ops).all).length < 10 * (Spec.lastN 10 (Traced.run 10 ops).all).countP fun x => decide (-0.001 ≤ x.velocity) := by
  have hl := lastN_length 10 (Traced.run 10 ops).all
  by_cases hne : 7 * (Spec.lastN 10 (Traced.run 10 ops).all).length ≠ 10 * (Spec.lastN 10 (Traced.run 10 ops).all).countP fun x => decide (-0.001 ≤ x.velocity)
  · exact C95_switch_double 10 ops _ rfl (by rw [hl]; exact lt_of_le_of_lt (min_le_right _ _) (by norm_num)) hne
  · rw [ne_eq, not_not] at hne
    have hi := inv_run' 10 ops
    have hrec := recent_eq hi.window hi.suffix hi.enough
    change _ = Spec.lastN 10 _ at hrec
    unfold ConvMonitor.shouldSwitch
    rw [hrec]
    generalize Spec.lastN 10 (Traced.run 10 ops).all = r at *
    have hcases : r.length = 0 ∨ r.length = 10 := by omega
    rcases hcases with h0 | h10
    · constructor
      · intro h
        split_ifs at h with a b
        omega
      · rintro ⟨h, -⟩; omega
    · have h7 : (r.countP fun x => decide (-0.001 ≤ x.velocity)) = 7 := by omega
      rw [h7, h10]
      constructor
      · intro h
        exfalso
        split_ifs at h with a b
        rw [decide_eq_true_eq] at h
        obtain ⟨d, ed, hd, -⟩ := seven_tenths_of 10 (by norm_num)
        have e7 := rnd_half_even he (x := (10 : ℕ) * (((6305039478318694 : ℤ) : ℝ) / 2 ^ 53)) (m := 7 * 2 ^ 50) (k := 50) (by norm_num) (by norm_num) (by decide) (by norm_num)
          (by rw [abs_of_pos] <;> norm_num)
        rw [e7] at hd
        obtain ⟨K, eK, hK⟩ := fin_nat 7 (by norm_num)
        rw [ed, eK, F64.lt_fin, hd, hK] at h
        norm_num at h
      · rintro ⟨-, h⟩; omega

/-- **C95, in doubles.** Not for every window: of ninety samples 63 are seven tenths, but `90 * 0.7` is rounded to a number below 63, so that they suffice. -/
theorem C95_ninety (m : ConvMonitor F64) (h90 : m.recent.length = 90) (hm : 90 ≤ m.history.length)
    (h63 : (m.recent.countP fun x => decide (-0.001 ≤ x.velocity)) = 63) : m.shouldSwitch = true := by
  unfold ConvMonitor.shouldSwitch
  rw [if_neg (by omega), if_neg (by omega), h63, h90, decide_eq_true_eq]
  obtain ⟨d, ed, hd, -⟩ := seven_tenths_of 90 (by norm_num)
  have e := rnd_unique (x := (90 : ℕ) * (((6305039478318694 : ℤ) : ℝ) / 2 ^ 53)) (m := 63 * 2 ^ 47 - 1) (k := 47) (by norm_num) (by norm_num) (by norm_num)
    (by rw [abs_lt]; constructor <;> norm_num)
  rw [e] at hd
  obtain ⟨K, eK, hK⟩ := fin_nat 63 (by norm_num)
  change ofInt ((90 : ℕ) : ℤ) * (0.7 : F64) < ofInt ((63 : ℕ) : ℤ)
  rw [ed, eK, F64.lt_fin, hd, hK]
  norm_num

/-- Ninety samples, 63 of which have stalled. -/
example : ∃ m : ConvMonitor F64, m.recent.length = 90 ∧ 90 ≤ m.history.length ∧ (m.recent.countP fun x => decide (-0.001 ≤ x.velocity)) = 63 ∧
    ¬ 7 * m.recent.length < 10 * m.recent.countP fun x => decide (-0.001 ≤ x.velocity) := by
  obtain ⟨d, ed, hd⟩ := lit_near (0.001 : ℝ) (by rw [abs_of_pos] <;> norm_num)
  obtain ⟨d1, d2⟩ := abs_le.1 hd
  have lit : (-0.001 : F64) = .fin ⟨-d.1, d.2.neg⟩ := by
    show -(F64.ofReal 0.001) = _
    rw [ed]; rfl
  let still : ConvSample F64 := ⟨0, 0, 0, .fin ⟨0, isDouble_zero⟩, 0⟩
  let moving : ConvSample F64 := ⟨0, 0, 0, .ninf, 0⟩
  have h1 : decide ((-0.001 : F64) ≤ still.velocity) = true := by
    rw [decide_eq_true_iff, lit]
    show -d.1 ≤ 0
    norm_num at d1 d2 ⊢; linarith
  have h2 : decide ((-0.001 : F64) ≤ moving.velocity) = false := by
    rw [decide_eq_false_iff_not, lit]
    exact fun h => h
  let m : ConvMonitor F64 := ⟨List.replicate 63 still ++ List.replicate 27 moving, 90, none, false, 0⟩
  have hm : m.recent = List.replicate 63 still ++ List.replicate 27 moving := by
    unfold ConvMonitor.recent
    rfl
  have hc : (m.recent.countP fun x => decide (-0.001 ≤ x.velocity)) = 63 := by
    rw [hm, List.countP_append, List.countP_replicate, List.countP_replicate, h1, h2]; rfl
  refine ⟨m, by rw [hm]; rfl, by rfl, hc, ?_⟩
  rw [hc, hm]; decide

/-! ### Velocities -/

/-- What holds between a sample and the next one, whatever the monitor is, holds along the history. -/
theorem run_chain (R : ConvSample F64 → ConvSample F64 → Prop) (h0 : ∀ (m : ConvMonitor F64) now c coh last, m.history.getLast? = some last → R last (m.sample now c coh))
    (windowSize : ℤ) (ops : List (MonOp F64)) :
    (Traced.run windowSize ops).all.IsChain R ∧ ∀ first, (Traced.run windowSize ops).all.head? = some first → first.velocity = 0 := by
  have key : ∀ (ops : List (MonOp F64)) (t : Traced F64), t.Inv (window windowSize) →
      (t.all.IsChain R ∧ ∀ first, t.all.head? = some first → first.velocity = 0) →
      ((ops.foldl (Traced.step (window windowSize)) t).all.IsChain R ∧
        ∀ first, (ops.foldl (Traced.step (window windowSize)) t).all.head? = some first → first.velocity = 0) := by
    intro ops
    induction ops with
    | nil => exact fun _ _ h => h
    | cons op ops ih =>
      intro t hi h
      refine ih _ (inv_step _ (window_pos _) t hi op) ?_
      cases op with
      | setTarget p => exact h
      | reset => exact ⟨by simp [Traced.step], by simp [Traced.step]⟩
      | record now c coh =>
        simp only [Traced.step]
        have hw := window_pos windowSize
        have hlast : t.monitor.history.getLast? = t.all.getLast? :=
          suffix_getLast hi.suffix (le_trans (by omega) hi.enough)
        refine ⟨isChain_snoc _ _ _ h.1 (fun a ha => h0 t.monitor now c coh a (hlast.trans ha)), ?_⟩
        intro first hf
        cases ha : t.all with
        | nil =>
          rw [ha] at hf hlast
          simp only [List.nil_append, List.head?_cons, Option.some.injEq] at hf
          subst hf
          have hnil : t.monitor.history = [] := by simpa using hlast
          unfold ConvMonitor.sample
          rw [hnil]; rfl
        | cons a l =>
          rw [ha] at hf
          simp only [List.cons_append, List.head?_cons, Option.some.injEq] at hf
          exact h.2 first (by rw [ha, ← hf]; rfl)
  exact key ops _ (inv_run' windowSize []) ⟨by simp, by simp⟩

/-- Consecutive samples in doubles: no velocity, or the change of the distance over a positive time. -/
def Spec.LinkedD (a b : ConvSample F64) : Prop := b.velocity = 0 ∨ ∃ dt : F64, 0 < dt ∧ b.velocity = (b.distance - a.distance) / dt

theorem sample_linkedD (m : ConvMonitor F64) (now : ℤ) (c : Option (TargetPattern F64)) (coh : F64) (last : ConvSample F64) (h : m.history.getLast? = some last) :
    LinkedD last (m.sample now c coh) := by
  unfold ConvMonitor.sample LinkedD
  rw [h]
  dsimp only
  by_cases hd : (0 : F64) < durationSeconds (now - last.timestamp)
  · rw [if_pos hd]; exact .inr ⟨_, hd, rfl⟩
  · rw [if_neg hd]; exact .inl rfl

/-- **C95, in doubles.** While finite distances never shrink, a switch is asked for as soon as the window holds three samples. -/
theorem C95_stalling_double (windowSize : ℤ) (hw : window windowSize < 2 ^ 40) (ops : List (MonOp F64))
    (hf : ∀ x ∈ (Traced.run windowSize ops).all, ∃ d : Dbl, x.distance = .fin d ∧ 0 ≤ d.1)
    (h : (Traced.run windowSize ops).all.IsChain fun a b => a.distance ≤ b.distance) :
    (Traced.run windowSize ops).monitor.shouldSwitch = true ↔ 3 ≤ min (Traced.run windowSize ops).all.length (window windowSize) := by
  obtain ⟨hv, hfirst⟩ := run_chain LinkedD sample_linkedD windowSize ops
  obtain ⟨d, ed, hd⟩ := lit_near (0.001 : ℝ) (by rw [abs_of_pos] <;> norm_num)
  obtain ⟨d1, d2⟩ := abs_le.1 hd
  norm_num at d1 d2
  have lit : (-0.001 : F64) = .fin ⟨-d.1, d.2.neg⟩ := by
    show -(F64.ofReal 0.001) = _
    rw [ed]; rfl
  have hzero : (-0.001 : F64) ≤ 0 := by
    rw [lit]; show -d.1 ≤ 0; linarith
  have htail : ∀ x ∈ (Traced.run windowSize ops).all.tail, (-0.001 : F64) ≤ x.velocity := by
    have hboth : (Traced.run windowSize ops).all.IsChain fun a b => a.distance ≤ b.distance ∧ a ∈ (Traced.run windowSize ops).all := by
      generalize (Traced.run windowSize ops).all = l at h
      clear * - h
      induction l with
      | nil => simp
      | cons a l ih =>
        cases l with
        | nil => simp
        | cons b l =>
          rw [List.isChain_cons_cons] at h ⊢
          exact ⟨⟨h.1, by simp⟩, (ih h.2).imp fun x y hxy => ⟨hxy.1, by simp [hxy.2]⟩⟩
    intro x hx
    have hxl : x ∈ (Traced.run windowSize ops).all := List.mem_of_mem_tail hx
    refine chain_tail _ _ (fun x => x ∈ (Traced.run windowSize ops).all → (-0.001 : F64) ≤ x.velocity) ?_ _ hv hboth x hx hxl
    intro a b hab hq hb
    obtain ⟨da, ea, ba⟩ := hf a hq.2
    obtain ⟨db, eb, bb⟩ := hf b hb
    rcases hab with h0 | ⟨dt, hdt, e⟩
    · rw [h0]; exact hzero
    · have hle : da.1 ≤ db.1 := by have := hq.1; rw [ea, eb] at this; exact this
      obtain ⟨s', hs', es, s0, -⟩ := F64.ofReal_between isDouble_zero db.2 (x := db.1 - da.1) (by linarith) (by linarith)
      rw [e, ea, eb, F64.sub_fin, es]
      generalize hs : (⟨s', hs'⟩ : Dbl) = s
      replace s0 : 0 ≤ s.1 := by rw [← hs]; exact s0
      match dt, hdt with
      | .pinf, _ => rw [show F64.fin s / F64.pinf = (0 : F64) from rfl]; exact hzero
      | .fin y, hy =>
        have hy0 : (0 : ℝ) < y.1 := hy
        rw [F64.div_fin hy0.ne', lit]
        have hq0 : 0 ≤ s.1 / y.1 := div_nonneg s0 hy0.le
        have hmono := F64.ofReal_mono hq0
        have e0 : F64.ofReal 0 = .fin ⟨0, isDouble_zero⟩ := F64.ofReal_of_isDouble isDouble_zero
        rw [e0] at hmono
        match F64.ofReal (s.1 / y.1), hmono with
        | .pinf, _ => trivial
        | .fin z, hz =>
          have hz0 : (0 : ℝ) ≤ z.1 := hz
          show -d.1 ≤ z.1
          linarith
  have hall : ∀ x ∈ (Traced.run windowSize ops).all, (-0.001 : F64) ≤ x.velocity := by
    intro x hx
    cases ha : (Traced.run windowSize ops).all with
    | nil => rw [ha] at hx; simp at hx
    | cons a l =>
      rw [ha] at hx
      rcases List.mem_cons.1 hx with rfl | hxl
      · rw [hfirst x (by rw [ha]; rfl)]; exact hzero
      · exact htail x (by rw [ha]; exact hxl)
  have hcount : ((Spec.lastN (window windowSize) (Traced.run windowSize ops).all).countP fun x => decide (-0.001 ≤ x.velocity)) =
      (Spec.lastN (window windowSize) (Traced.run windowSize ops).all).length := by
    rw [List.countP_eq_length]
    intro x hx
    rw [decide_eq_true_iff]
    exact hall x (List.mem_of_mem_drop hx)
  have hl := lastN_length (window windowSize) (Traced.run windowSize ops).all
  by_cases hz : (Spec.lastN (window windowSize) (Traced.run windowSize ops).all).length = 0
  · rw [← hl, hz]
    have hi := inv_run' windowSize ops
    have hrec := recent_eq hi.window hi.suffix hi.enough
    unfold ConvMonitor.shouldSwitch
    rw [hrec, hz]
    simp
  · rw [C95_switch_double windowSize ops _ rfl (by rw [hl]; exact lt_of_le_of_lt (min_le_right _ _) hw) (by rw [hcount]; omega), hcount, ← hl]
    omega

/-- Three records without a target, at the same time: all distances are the greatest double. -/
example : ∃ ops : List (MonOp F64), (Traced.run 10 ops).all.length = 3 ∧ (∀ x ∈ (Traced.run 10 ops).all, ∃ d : Dbl, x.distance = .fin d ∧ 0 ≤ d.1) ∧
    (Traced.run 10 ops).all.IsChain fun a b => a.distance ≤ b.distance := by
  obtain ⟨M, eM, hM⟩ : ∃ M : Dbl, (maxFloat : F64) = .fin M ∧ 0 ≤ M.1 := ⟨_, rfl, by show 0 ≤ maxDouble; unfold maxDouble; norm_num⟩
  have e : ∀ x ∈ (Traced.run 10 [.record 0 none 1, .record 0 none 1, .record 0 none 1] : Traced F64).all, x.distance = .fin M := by
    have hs : ∀ m : ConvMonitor F64, (m.sample 0 none 1).distance = .fin M := by
      intro m
      unfold ConvMonitor.sample
      dsimp only
      have hd : patternDistance (none : Option (TargetPattern F64)) m.target = .fin M := eM
      split
      · exact hd
      · split_ifs <;> exact hd
    intro x hx
    simp only [Traced.run, Traced.step, List.foldl_cons, List.foldl_nil, List.nil_append, List.cons_append, List.mem_cons, List.not_mem_nil, or_false] at hx
    rcases hx with rfl | rfl | rfl <;> exact hs _
  refine ⟨[.record 0 none 1, .record 0 none 1, .record 0 none 1], ?_, fun x hx => ⟨_, e x hx, hM⟩, ?_⟩
  · simp [Traced.run, Traced.step]
  · rw [List.isChain_iff_getElem]
    intro i hi
    rw [e _ (List.getElem_mem _), e _ (List.getElem_mem _)]
    exact le_refl M.1

end Verif
