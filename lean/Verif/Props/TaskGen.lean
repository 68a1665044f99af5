import Verif.Model.TaskGen
import Mathlib.Tactic.Linarith
import Mathlib.Tactic.NormNum
import Mathlib.Tactic.Ring
import Mathlib.Tactic.Positivity
import Mathlib.Data.Int.CardIntervalMod
import Mathlib.Data.Nat.Cast.Order.Field
import Mathlib.Data.Rat.Cast.Order

/-!
# C89, C90, C93: request patterns, random draws and activity levels of the demo
-/

set_option autoImplicit false
set_option linter.unusedSectionVars false

namespace Verif

/-! ## C90 Random draws -/

namespace Spec

/-- A whole number that is a `float32` (which can be that large): at most 24 significant bits. -/
def IsFloat32 (m : ℕ) : Prop := ∃ q e : ℕ, q < 2 ^ 24 ∧ m = q * 2 ^ e

end Spec

theorem float32_dvd {m e : ℕ} (h : Spec.IsFloat32 m) (hm : 2 ^ (23 + e) ≤ m) : 2 ^ e ∣ m := by
  obtain ⟨q, e', hq, rfl⟩ := h
  have h1 : 2 ^ (23 + e) < 2 ^ (24 + e') := by
    calc 2 ^ (23 + e) ≤ q * 2 ^ e' := hm
      _ < 2 ^ 24 * 2 ^ e' := Nat.mul_lt_mul_of_pos_right hq (by positivity)
      _ = 2 ^ (24 + e') := (pow_add _ _ _).symm
  have h2 : 23 + e < 24 + e' := (Nat.pow_lt_pow_iff_right (by norm_num)).1 h1
  exact Dvd.dvd.mul_left (pow_dvd_pow 2 (by omega)) q

theorem float32_pow (k : ℕ) : Spec.IsFloat32 (2 ^ k) := ⟨1, k, by norm_num, by ring⟩

/-- The frame of a large word. -/
theorem frame (u : ℕ) (h : 2 ^ 24 ≤ u) : ∃ e, 1 ≤ e ∧ Nat.log2 u - 23 = e ∧ 2 ^ (23 + e) ≤ u ∧ u < 2 ^ (24 + e) := by
  have hu : u ≠ 0 := by have : 0 < 2 ^ 24 := by norm_num
                        omega
  have h1 : 24 ≤ Nat.log2 u := (Nat.le_log2 hu).2 h
  refine ⟨Nat.log2 u - 23, by omega, rfl, ?_, ?_⟩
  · have : 23 + (Nat.log2 u - 23) = Nat.log2 u := by omega
    rw [this]; exact Nat.log2_self_le hu
  · have : 24 + (Nat.log2 u - 23) = Nat.log2 u + 1 := by omega
    rw [this]; exact Nat.lt_log2_self

theorem round_large (u e : ℕ) (h : 2 ^ 24 ≤ u) (he : Nat.log2 u - 23 = e) :
    roundFloat32 u = if 2 ^ (e - 1) < u % 2 ^ e ∨ (u % 2 ^ e = 2 ^ (e - 1) ∧ u / 2 ^ e % 2 = 1) then (u / 2 ^ e + 1) * 2 ^ e
      else u / 2 ^ e * 2 ^ e := by
  unfold roundFloat32
  rw [if_neg (by omega), he]

/-- The conversion gives a `float32`, none is nearer, and a tie goes to the even one. -/
theorem C90_float32 (u : ℕ) :
    Spec.IsFloat32 (roundFloat32 u) ∧
    (∀ m, Spec.IsFloat32 m → |(roundFloat32 u : ℤ) - u| ≤ |(m : ℤ) - u|) ∧
    (∀ e q, u = q * 2 ^ (e + 1) + 2 ^ e → 2 ^ 23 ≤ q → q < 2 ^ 24 → ∃ k, roundFloat32 u = k * 2 ^ (e + 2)) := by
  by_cases hu : u < 2 ^ 24
  · have hr : roundFloat32 u = u := by unfold roundFloat32; rw [if_pos hu]
    rw [hr]
    refine ⟨⟨u, 0, hu, by simp⟩, fun m _ => by simp, ?_⟩
    intro e q h h1 h2
    exfalso
    have h3 : 2 ^ 23 * 2 ≤ q * 2 ^ (e + 1) := Nat.mul_le_mul h1 (by rw [pow_succ]; have : 0 < 2 ^ e := by positivity
                                                                    omega)
    have h4 : 0 < 2 ^ e := by positivity
    omega
  · have hu' : 2 ^ 24 ≤ u := by omega
    obtain ⟨e, he1, he, hlo, hhi⟩ := frame u hu'
    rw [round_large u e hu' he]
    obtain ⟨d, rfl⟩ : ∃ d, e = d + 1 := ⟨e - 1, by omega⟩
    have hd : d + 1 - 1 = d := by omega
    rw [hd]
    have hH : 0 < 2 ^ d := by positivity
    have hD : 2 ^ (d + 1) = 2 * 2 ^ d := by ring
    have hdm := Nat.div_add_mod u (2 ^ (d + 1))
    have hrlt := Nat.mod_lt u (show 0 < 2 ^ (d + 1) by positivity)
    have hq1 : 2 ^ 23 ≤ u / 2 ^ (d + 1) := by
      rw [Nat.le_div_iff_mul_le (by positivity), ← pow_add]; exact hlo
    have hq2 : u / 2 ^ (d + 1) < 2 ^ 24 := by
      rw [Nat.div_lt_iff_lt_mul (by positivity), ← pow_add]; exact hhi
    have hbase : 2 ^ (23 + (d + 1)) ≤ 2 ^ (d + 1) * (u / 2 ^ (d + 1)) := by
      rw [pow_add, mul_comm]; exact Nat.mul_le_mul_left _ hq1
    refine ⟨?_, ?_, ?_⟩
    · split_ifs
      · rcases Nat.lt_or_ge (u / 2 ^ (d + 1) + 1) (2 ^ 24) with h | h
        · exact ⟨_, _, h, rfl⟩
        · have : u / 2 ^ (d + 1) + 1 = 2 ^ 24 := by omega
          rw [this, ← pow_add]; exact float32_pow _
      · exact ⟨_, _, hq2, rfl⟩
    · intro m hm
      have cases3 : (m ≤ 2 ^ (d + 1) * (u / 2 ^ (d + 1))) ∨ 2 ^ (d + 1) * (u / 2 ^ (d + 1)) + 2 ^ (d + 1) ≤ m := by
        rcases Nat.lt_or_ge m (2 ^ (23 + (d + 1))) with h | h
        · left; omega
        · obtain ⟨k, rfl⟩ := float32_dvd hm h
          rcases Nat.lt_or_ge (u / 2 ^ (d + 1)) k with hk | hk
          · right
            have := Nat.mul_le_mul_left (2 ^ (d + 1)) hk
            rw [Nat.mul_succ] at this; exact this
          · left; exact Nat.mul_le_mul_left _ hk
      have e1 : (u / 2 ^ (d + 1) + 1) * 2 ^ (d + 1) = 2 ^ (d + 1) * (u / 2 ^ (d + 1)) + 2 ^ (d + 1) := by ring
      have e2 : u / 2 ^ (d + 1) * 2 ^ (d + 1) = 2 ^ (d + 1) * (u / 2 ^ (d + 1)) := by ring
      rw [e1, e2]
      generalize 2 ^ (d + 1) * (u / 2 ^ (d + 1)) = P at *
      generalize u % 2 ^ (d + 1) = r at *
      generalize u / 2 ^ (d + 1) = q at *
      generalize 2 ^ (d + 1) = D at *
      generalize 2 ^ d = H at *
      split_ifs with hc
      · rw [abs_of_nonneg (by push_cast; omega)]
        rcases cases3 with h | h
        · rw [abs_of_nonpos (by omega)]; push_cast; omega
        · rw [abs_of_nonneg (by omega)]; push_cast; omega
      · rw [abs_of_nonpos (by omega)]
        rcases cases3 with h | h
        · rw [abs_of_nonpos (by omega)]; omega
        · rw [abs_of_nonneg (by omega)]; omega
    · intro e q hu2 h1 h2
      have hlog : Nat.log2 u = 24 + e := by
        rw [Nat.log2_eq_iff (by omega)]
        have a1 : 0 < 2 ^ e := by positivity
        have a2 : 2 ^ (e + 1) = 2 * 2 ^ e := by ring
        have a3 : 2 ^ (24 + e) = 2 ^ 23 * 2 ^ (e + 1) := by rw [← pow_add]; congr 1; omega
        have a4 : 2 ^ (24 + e + 1) = 2 ^ 24 * 2 ^ (e + 1) := by rw [← pow_add]; congr 1
        have b1 := Nat.mul_le_mul_right (2 ^ (e + 1)) h1
        have b2 := Nat.mul_le_mul_right (2 ^ (e + 1)) (Nat.succ_le_of_lt h2)
        rw [Nat.succ_mul] at b2
        constructor <;> omega
      have hde : d = e := by omega
      subst hde
      have hmod : u % 2 ^ (d + 1) = 2 ^ d := by
        rw [hu2, Nat.add_comm, Nat.add_mul_mod_self_right, Nat.mod_eq_of_lt (by rw [hD]; omega)]
      have hdiv : u / 2 ^ (d + 1) = q := by
        rw [hu2, Nat.add_comm, Nat.add_mul_div_right _ _ (by positivity), Nat.div_eq_of_lt (by rw [hD]; omega), zero_add]
      rw [hmod, hdiv]
      have hpow : 2 ^ (d + 2) = 2 * 2 ^ (d + 1) := by ring
      split_ifs with hc
      · refine ⟨(q + 1) / 2, ?_⟩
        have : 2 * ((q + 1) / 2) = q + 1 := by omega
        calc (q + 1) * 2 ^ (d + 1) = 2 * ((q + 1) / 2) * 2 ^ (d + 1) := by rw [this]
          _ = _ := by rw [hpow]; ring
      · refine ⟨q / 2, ?_⟩
        have : 2 * (q / 2) = q := by omega
        calc q * 2 ^ (d + 1) = 2 * (q / 2) * 2 ^ (d + 1) := by rw [this]
          _ = _ := by rw [hpow]; ring

theorem round_le {u m : ℕ} (hm : Spec.IsFloat32 m) (h : u ≤ m) : roundFloat32 u ≤ m := by
  have := (C90_float32 u).2.1 m hm
  rw [abs_of_nonneg (show (0 : ℤ) ≤ (m : ℤ) - u by omega)] at this
  have := le_of_abs_le this
  omega

theorem le_round {u m : ℕ} (hm : Spec.IsFloat32 m) (h : m ≤ u) : m ≤ roundFloat32 u := by
  have := (C90_float32 u).2.1 m hm
  rw [abs_of_nonpos (show (m : ℤ) - u ≤ 0 by omega)] at this
  have := neg_le_of_abs_le this
  omega

/-- Where the conversion crosses a `float32` with an odd or even significand. -/
theorem round_lt_iff (u q e : ℕ) (h1 : 2 ^ 23 < q) (h2 : q ≤ 2 ^ 24) :
    roundFloat32 u < q * 2 ^ (e + 1) ↔ (if q % 2 = 1 then u ≤ q * 2 ^ (e + 1) - 2 ^ e else u < q * 2 ^ (e + 1) - 2 ^ e) := by
  have a1 : 0 < 2 ^ e := by positivity
  have a2 : 2 ^ (e + 1) = 2 * 2 ^ e := by ring
  have a3 : 2 ^ (24 + e) = 2 ^ 23 * 2 ^ (e + 1) := by rw [← pow_add]; congr 1; omega
  have a4 : 2 ^ (24 + e + 1) = 2 ^ 24 * 2 ^ (e + 1) := by rw [← pow_add]; congr 1
  have b1 := Nat.mul_le_mul_right (2 ^ (e + 1)) (Nat.succ_le_of_lt h1)
  have b2 := Nat.mul_le_mul_right (2 ^ (e + 1)) h2
  rw [Nat.succ_mul] at b1
  rcases Nat.lt_or_ge u (2 ^ (24 + e)) with hlo | hlo
  · have h3 := round_le (float32_pow (24 + e)) hlo.le
    have : roundFloat32 u < q * 2 ^ (e + 1) := by omega
    refine iff_of_true this ?_
    split_ifs <;> omega
  rcases Nat.lt_or_ge u (2 ^ (24 + e + 1)) with hhi | hhi
  · have hu24 : 2 ^ 24 ≤ u := le_trans (Nat.pow_le_pow_right (by norm_num) (by omega)) hlo
    have hlog : Nat.log2 u - 23 = e + 1 := by
      have : Nat.log2 u = 24 + e := by
        rw [Nat.log2_eq_iff (by have := Nat.pos_of_ne_zero (show (2:ℕ) ^ 24 ≠ 0 by norm_num); omega)]
        exact ⟨hlo, hhi⟩
      omega
    rw [round_large u (e + 1) hu24 hlog]
    have hd : e + 1 - 1 = e := by omega
    rw [hd]
    have hdm := Nat.div_add_mod u (2 ^ (e + 1))
    have hrlt := Nat.mod_lt u (show 0 < 2 ^ (e + 1) by positivity)
    rw [mul_comm] at hdm
    generalize u % 2 ^ (e + 1) = r at *
    generalize u / 2 ^ (e + 1) = k at *
    rcases Nat.lt_trichotomy (k + 1) q with hk | hk | hk
    · have := Nat.mul_le_mul_right (2 ^ (e + 1)) (Nat.succ_le_of_lt hk)
      rw [Nat.succ_mul, Nat.succ_mul] at this
      rw [Nat.succ_mul]
      generalize k * 2 ^ (e + 1) = K at *
      generalize q * 2 ^ (e + 1) = Q at *
      split_ifs <;> omega
    · subst hk
      rw [Nat.succ_mul]
      generalize k * 2 ^ (e + 1) = K at *
      split_ifs <;> omega
    · have := Nat.mul_le_mul_right (2 ^ (e + 1)) (Nat.le_of_lt_succ hk)
      rw [Nat.succ_mul]
      generalize k * 2 ^ (e + 1) = K at *
      generalize q * 2 ^ (e + 1) = Q at *
      split_ifs <;> omega
  · have h3 := le_round (float32_pow (24 + e + 1)) hhi
    refine iff_of_false (by omega) ?_
    split_ifs <;> omega

/-- What a user of a random `float32` expects: a number in [0, 1). -/
def C90_claim : Prop := ∀ u : ℕ, u < 2 ^ 32 → 0 ≤ secureRandFloat32 (some u) ∧ secureRandFloat32 (some u) < 1

/-- **C90** The draw lies in [0, 1], and it is 1 for exactly the 128 largest words; without randomness it is one half. -/
theorem C90_range_partial :
    (∀ u : ℕ, u < 2 ^ 32 → 0 ≤ secureRandFloat32 (some u) ∧ secureRandFloat32 (some u) ≤ 1 ∧
      (secureRandFloat32 (some u) = 1 ↔ 2 ^ 32 - 128 ≤ u)) ∧ secureRandFloat32 none = 1 / 2 := by
  refine ⟨fun u hu => ?_, rfl⟩
  have h1 : roundFloat32 u ≤ 2 ^ 32 := round_le (float32_pow 32) hu.le
  have h2 := round_lt_iff u (2 ^ 24) 7 (by norm_num) le_rfl
  have hq : (roundFloat32 u : ℚ) ≤ 2 ^ 32 := by exact_mod_cast h1
  refine ⟨by simp only [secureRandFloat32]; positivity, ?_, ?_⟩
  · simp only [secureRandFloat32]
    rw [div_le_one (by positivity)]
    exact hq
  · simp only [secureRandFloat32]
    rw [div_eq_one_iff_eq (by positivity)]
    norm_num at h2
    constructor
    · intro h
      have h' : roundFloat32 u = 2 ^ 32 := by exact_mod_cast h
      by_contra hc
      have := h2.2 (by omega)
      omega
    · intro h
      have : ¬ roundFloat32 u < 4294967296 := fun hc => by have := h2.1 hc; omega
      have h' : roundFloat32 u = 2 ^ 32 := by omega
      rw [h']; norm_num

/-- The largest word gives exactly 1. -/
theorem C90_refuted : ¬ C90_claim := by
  intro h
  have h1 := (C90_range_partial.1 (2 ^ 32 - 1) (by norm_num)).2.2.2 (by norm_num)
  exact absurd h1 (h _ (by norm_num)).2.ne

theorem draw_lt_iff (u q e : ℕ) (c : ℚ) (h1 : 2 ^ 23 < q) (h2 : q ≤ 2 ^ 24) (hc : c = q * 2 ^ (e + 1) / 2 ^ 32) :
    secureRandFloat32 (some u) < c ↔
      (if q % 2 = 1 then u ≤ q * 2 ^ (e + 1) - 2 ^ e else u < q * 2 ^ (e + 1) - 2 ^ e) := by
  rw [← round_lt_iff u q e h1 h2, hc]
  simp only [secureRandFloat32]
  rw [div_lt_div_iff_of_pos_right (by positivity)]
  exact_mod_cast Iff.rfl

theorem card_below (n : ℕ) (P : ℕ → Prop) [DecidablePred P] (k : ℕ) (hk : k ≤ n) (h : ∀ u, P u ↔ u < k) :
    ((Finset.range n).filter P).card = k := by
  have : (Finset.range n).filter P = Finset.range k := by
    ext u; simp only [Finset.mem_filter, Finset.mem_range, h]; omega
  rw [this, Finset.card_range]

/-- **C90** The three chances used (a fifth, three tenths, seven tenths) come true for that share of the 2^32 words, to seven decimals: the
words below the bound are exactly those up to a limit, and they are counted. -/
theorem C90_chances :
    (∀ u, secureRandFloat32 (some u) < float32_02 ↔ u < 858993441) ∧
    (∀ u, secureRandFloat32 (some u) < float32_03 ↔ u < 1288490176) ∧
    (∀ u, secureRandFloat32 (some u) < float32_07 ↔ u < 3006476929) ∧
    |(((Finset.range (2 ^ 32)).filter fun u => secureRandFloat32 (some u) < float32_02).card / 2 ^ 32 : ℚ) - 2 / 10| < 5 / 10 ^ 8 ∧
    |(((Finset.range (2 ^ 32)).filter fun u => secureRandFloat32 (some u) < float32_03).card / 2 ^ 32 : ℚ) - 3 / 10| < 5 / 10 ^ 8 ∧
    |(((Finset.range (2 ^ 32)).filter fun u => secureRandFloat32 (some u) < float32_07).card / 2 ^ 32 : ℚ) - 7 / 10| < 5 / 10 ^ 8 := by
  have a2 : ∀ u, secureRandFloat32 (some u) < float32_02 ↔ u < 858993441 := by
    intro u
    rw [draw_lt_iff u 13421773 5 float32_02 (by norm_num) (by norm_num) (by unfold float32_02; norm_num), if_pos (by norm_num)]
    norm_num; omega
  have a3 : ∀ u, secureRandFloat32 (some u) < float32_03 ↔ u < 1288490176 := by
    intro u
    rw [draw_lt_iff u 10066330 6 float32_03 (by norm_num) (by norm_num) (by unfold float32_03; norm_num), if_neg (by norm_num)]
    norm_num
  have a7 : ∀ u, secureRandFloat32 (some u) < float32_07 ↔ u < 3006476929 := by
    intro u
    rw [draw_lt_iff u 11744051 7 float32_07 (by norm_num) (by norm_num) (by unfold float32_07; norm_num), if_pos (by norm_num)]
    norm_num; omega
  refine ⟨a2, a3, a7, ?_, ?_, ?_⟩
  · rw [card_below _ _ _ (by norm_num) a2]; norm_num [abs_lt]
  · rw [card_below _ _ _ (by norm_num) a3]; norm_num [abs_lt]
  · rw [card_below _ _ _ (by norm_num) a7]; norm_num [abs_lt]

/-- The number of words a drawn number stands for. -/
theorem secureRandIntn_some (n : ℕ) (h0 : 0 < n) (h1 : n ≤ 2 ^ 31 - 1) (w : ℕ) : secureRandIntn n (some w) = ((w % n : ℕ) : ℤ) := by
  have hlt := Nat.mod_lt w h0
  simp only [secureRandIntn, Int.toNat_natCast]
  rw [if_neg (show ¬ (n : ℤ) ≤ 0 by omega)]
  have h : (if n > 2 ^ 31 - 1 then 2 ^ 31 - 1 else n) = n := if_neg (by omega)
  rw [h, if_neg (by omega)]

theorem count_draws (N n r : ℕ) (h1 : n ≤ 2 ^ 31 - 1) (hr : r < n) :
    N / n ≤ ((Finset.range N).filter fun w => secureRandIntn n (some w) = r).card ∧
    ((Finset.range N).filter fun w => secureRandIntn n (some w) = r).card ≤ N / n + 1 := by
  have h0 : 0 < n := by omega
  have e : ((Finset.range N).filter fun w => secureRandIntn n (some w) = r).card = N.count (fun w => w ≡ r [MOD n]) := by
    rw [Nat.count_eq_card_filter_range]
    congr 1
    ext w
    simp only [Finset.mem_filter, Finset.mem_range]
    rw [secureRandIntn_some n h0 h1]
    unfold Nat.ModEq
    rw [Nat.mod_eq_of_lt hr]
    norm_cast
  rw [e, Nat.count_modEq_card _ h0]
  split_ifs <;> omega

/-- **C90** A whole number drawn below a positive bound is in range, with or without randomness, and for bounds below 2^31 every value is drawn
for the same number of the 2^64 words, up to one word. -/
theorem C90_intn :
    (∀ (n : ℤ) (w : Option ℕ), 0 < n → 0 ≤ secureRandIntn n w ∧ secureRandIntn n w < n) ∧
    (∀ (n : ℤ) (w : Option ℕ), n ≤ 0 → secureRandIntn n w = 0) ∧
    (∀ n r : ℕ, n ≤ 2 ^ 31 - 1 → r < n →
      2 ^ 64 / n ≤ ((Finset.range (2 ^ 64)).filter fun w => secureRandIntn n (some w) = r).card ∧
      ((Finset.range (2 ^ 64)).filter fun w => secureRandIntn n (some w) = r).card ≤ 2 ^ 64 / n + 1) := by
  refine ⟨?_, ?_, ?_⟩
  · intro n w hn
    simp only [secureRandIntn]
    rw [if_neg (by omega)]
    cases w with
    | none => dsimp only; rw [Int.tdiv_eq_ediv_of_nonneg hn.le]; omega
    | some w =>
      dsimp only
      split_ifs with h1 h2 h2
      · have := Nat.mod_lt w (show 0 < 2 ^ 31 - 1 by norm_num); omega
      · have := Nat.mod_lt w (show 0 < 2 ^ 31 - 1 by norm_num); omega
      · have := Nat.mod_lt w (show 0 < n.toNat by omega); omega
      · have := Nat.mod_lt w (show 0 < n.toNat by omega); omega
  · intro n w hn
    simp only [secureRandIntn]
    rw [if_pos hn]
  · exact fun n r hn hr => count_draws _ n r hn hr

example : secureRandFloat32 (some (2 ^ 31)) = 1 / 2 ∧ secureRandIntn 50 (some 12345) = 45 := by
  constructor
  · have h : roundFloat32 (2 ^ 31) = 2 ^ 31 :=
      le_antisymm (round_le (float32_pow 31) le_rfl) (le_round (float32_pow 31) le_rfl)
    simp only [secureRandFloat32, h]; norm_num
  · decide

/-! ## C89 Request patterns -/

namespace Spec

/-- One second, in nanoseconds. -/
def second : ℤ := 1000000000

end Spec

theorem intn_mem (n : ℤ) (w : Option ℕ) (h : 0 < n) : 0 ≤ secureRandIntn n w ∧ secureRandIntn n w < n := C90_intn.1 n w h

theorem shouldGenerate_pattern (g : GenState) (now : ℤ) (f k : Option ℕ) : (g.shouldGenerate now f k).2.pattern = g.pattern := by
  unfold GenState.shouldGenerate
  split <;> (try split_ifs) <;> simp_all

theorem tick_pattern (g : GenState) (t : GenTick) : (g.tick t).2.1.pattern = g.pattern := by
  unfold GenState.tick
  dsimp only
  split_ifs <;> simp [shouldGenerate_pattern]

/-- A bound on every tick is a bound on the sum. -/
theorem run_sum (p : PatternType) (lo hi : ℤ) (ok : GenTick → Prop)
    (h : ∀ (g : GenState) (t : GenTick), g.pattern = p → ok t → lo ≤ (g.tick t).1 ∧ (g.tick t).1 ≤ hi) :
    ∀ (l : List GenTick) (g : GenState), g.pattern = p → (∀ t ∈ l, ok t) →
      lo * l.length ≤ (g.run l).1.sum ∧ (g.run l).1.sum ≤ hi * l.length := by
  intro l
  induction l with
  | nil => intro g _ _; simp [GenState.run]
  | cons t l ih =>
    intro g hg hl
    have h1 := h g t hg (hl t (by simp))
    have h2 := ih (g.tick t).2.1 (by rw [tick_pattern]; exact hg) (fun t' ht' => hl t' (by simp [ht']))
    simp only [GenState.run, List.sum_cons, List.length_cons]
    push_cast
    constructor <;> nlinarith [h1.1, h1.2, h2.1, h2.2]

/-- **C89** A high-frequency workload makes at least 20 and at most 80 tasks per second of running time (the pattern promises more than 10). -/
theorem C89_high (g : GenState) (hg : g.pattern = 1) (l : List GenTick) (hl : ∀ t ∈ l, t.paused = false) (w : Option ℕ) :
    20 * (l.length * firstInterval 1 w) ≤ (g.run l).1.sum * Spec.second ∧
    (g.run l).1.sum * Spec.second ≤ 80 * (l.length * firstInterval 1 w) := by
  have h1 := run_sum 1 2 4 (fun t => t.paused = false) (by
    intro g t hg ht
    have := intn_mem 3 t.k2 (by norm_num)
    simp only [GenState.tick, GenState.shouldGenerate, GenState.batchSize, hg, ht]
    norm_num; omega) l g hg hl
  have h2 := intn_mem 50 w (by norm_num)
  have h3 : 50 * millisecond ≤ firstInterval 1 w ∧ firstInterval 1 w ≤ 99 * millisecond := by
    simp only [firstInterval, millisecond]; omega
  have h4 : (0 : ℤ) ≤ l.length := by positivity
  simp only [millisecond, Spec.second] at *
  constructor
  · nlinarith [h1.1, h3.2, mul_le_mul_of_nonneg_left h3.2 h4]
  · nlinarith [h1.2, h3.1, mul_le_mul_of_nonneg_left h3.1 h4]

/-- **C89** A sparse workload makes at most one task in two seconds, whatever it draws (the pattern promises less than one per second). -/
theorem C89_sparse (g : GenState) (hg : g.pattern = 5) (l : List GenTick) (w : Option ℕ) :
    0 ≤ (g.run l).1.sum ∧ 2 * ((g.run l).1.sum * Spec.second) ≤ l.length * firstInterval 5 w := by
  have h1 := run_sum 5 0 1 (fun _ => True) (by
    intro g t hg _
    simp only [GenState.tick, GenState.shouldGenerate, GenState.batchSize, hg]
    split_ifs <;> norm_num) l g hg (fun _ _ => trivial)
  have h2 := intn_mem 2000 w (by norm_num)
  have h3 : 2000 * millisecond ≤ firstInterval 5 w := by
    simp only [firstInterval, millisecond]; omega
  have h4 : (0 : ℤ) ≤ l.length := by positivity
  simp only [millisecond, Spec.second] at *
  constructor
  · linarith [h1.1]
  · nlinarith [h1.2, mul_le_mul_of_nonneg_left h3 h4]

/-- **C89** A steady workload (and one without a pattern) makes one task every half second. -/
theorem C89_steady (g : GenState) (hg : g.pattern = 3 ∨ g.pattern = 0) (l : List GenTick) (hl : ∀ t ∈ l, t.paused = false) (w : Option ℕ) :
    2 * (l.length * firstInterval g.pattern w) = (g.run l).1.sum * Spec.second ∧ (g.run l).1 = List.replicate l.length 1 := by
  have h0 : firstInterval g.pattern w = 500 * millisecond := by rcases hg with h | h <;> rw [h] <;> rfl
  have h1 : ∀ (l : List GenTick) (g : GenState), (g.pattern = 3 ∨ g.pattern = 0) → (∀ t ∈ l, t.paused = false) →
      (g.run l).1 = List.replicate l.length 1 := by
    intro l
    induction l with
    | nil => intro g _ _; rfl
    | cons t l ih =>
      intro g hg hl
      have h2 := ih (g.tick t).2.1 (by rw [tick_pattern]; exact hg) (fun t' ht' => hl t' (by simp [ht']))
      have h3 : (g.tick t).1 = 1 := by
        have := hl t (by simp)
        rcases hg with hg | hg <;> simp [GenState.tick, GenState.shouldGenerate, GenState.batchSize, hg, this]
      simp only [GenState.run, h2, h3, List.length_cons, List.replicate_succ]
  have h2 := h1 l g hg hl
  refine ⟨?_, h2⟩
  rw [h2, h0]
  simp [millisecond, Spec.second]; ring

/-- **C89** A mixed workload makes at most three tasks per tick, and after each tick that made some it waits between 200 ms and one second. -/
theorem C89_mixed (g : GenState) (hg : g.pattern = 4) (t : GenTick) :
    0 ≤ (g.tick t).1 ∧ (g.tick t).1 ≤ 3 ∧
    ((g.tick t).1 = 0 → (g.tick t).2.2 = none) ∧
    (0 < (g.tick t).1 → ∃ d, (g.tick t).2.2 = some d ∧ 200 * millisecond ≤ d ∧ d < Spec.second) := by
  have h2 := intn_mem 2 t.k2 (by norm_num)
  have h3 := intn_mem 800 t.k3 (by norm_num)
  simp only [GenState.tick, GenState.shouldGenerate, GenState.batchSize, hg, millisecond, Spec.second]
  split_ifs <;> simp_all <;> omega

/-- **C89** A paused workload makes nothing and keeps its state. -/
theorem C89_paused (g : GenState) (l : List GenTick) (hl : ∀ t ∈ l, t.paused = true) :
    (g.run l).1 = List.replicate l.length 0 ∧ (g.run l).2 = g := by
  induction l with
  | nil => exact ⟨rfl, rfl⟩
  | cons t l ih =>
    have h := ih (fun t' ht' => hl t' (by simp [ht']))
    have h1 : g.tick t = (0, g, none) := by simp [GenState.tick, hl t (by simp)]
    simp only [GenState.run, h1, List.length_cons, List.replicate_succ, h.1, h.2, and_self]

/-! ### Bursts -/

/-- A workload in a burst that ends at `e`. -/
def Bursting (g : GenState) (e : ℤ) : Prop := g.pattern = 2 ∧ g.burstActive = true ∧ g.burstEndTime = some e

theorem bursting_tick (g : GenState) (e : ℤ) (h : Bursting g e) (t : GenTick) (hp : t.paused = false) :
    (t.now ≤ e → 3 ≤ (g.tick t).1 ∧ (g.tick t).1 ≤ 7 ∧ (g.tick t).2.1 = g) ∧
    (e < t.now → (g.tick t).1 = 0 ∧ (g.tick t).2.1.burstActive = false) := by
  obtain ⟨h1, h2, h3⟩ := h
  have hk := intn_mem 5 t.k2 (by norm_num)
  constructor
  · intro hn
    have : ¬ e < t.now := by omega
    simp [GenState.tick, GenState.shouldGenerate, GenState.batchSize, h1, h2, h3, hp, isAfter, this]
    omega
  · intro hn
    simp [GenState.tick, GenState.shouldGenerate, h1, h2, h3, hp, isAfter, hn]

/-- **C89** Every tick of a bursty workload makes nothing or three to seven tasks. -/
theorem C89_burst_sizes (g : GenState) (hg : g.pattern = 2) (t : GenTick) :
    (g.tick t).1 = 0 ∨ (3 ≤ (g.tick t).1 ∧ (g.tick t).1 ≤ 7) := by
  have hk := intn_mem 5 t.k2 (by norm_num)
  cases ha : g.burstActive <;>
  · simp only [GenState.tick, GenState.shouldGenerate, GenState.batchSize, hg, ha]
    split_ifs <;> simp_all <;> omega

/-- A tick of an idle bursty workload that makes tasks starts a burst of half a second to two seconds. -/
theorem burst_begins (g : GenState) (hg : g.pattern = 2) (ha : g.burstActive = false) (t : GenTick) (h : 0 < (g.tick t).1) :
    ∃ e, Bursting (g.tick t).2.1 e ∧ t.now + 500 * millisecond ≤ e ∧ e < t.now + 2 * Spec.second ∧ t.paused = false := by
  have hk := intn_mem 1500 t.k1 (by norm_num)
  refine ⟨t.now + (500 + secureRandIntn 1500 t.k1) * millisecond, ?_⟩
  simp only [GenState.tick, GenState.shouldGenerate, GenState.batchSize, hg, ha] at h ⊢
  simp only [millisecond, Spec.second, Bursting]
  split_ifs at h ⊢ <;> simp_all <;> omega

theorem bursting_run (e : ℤ) : ∀ (l : List GenTick) (g : GenState), Bursting g e →
    (∀ t ∈ l, t.paused = false → t.now ≤ e) →
    List.Forall₂ (fun (t : GenTick) (k : ℤ) => if t.paused then k = 0 else 3 ≤ k ∧ k ≤ 7) l (g.run l).1 ∧ (g.run l).2 = g := by
  intro l
  induction l with
  | nil => intro g _ _; exact ⟨List.Forall₂.nil, rfl⟩
  | cons t l ih =>
    intro g hg hl
    cases hp : t.paused with
    | true =>
      have h1 : g.tick t = (0, g, none) := by simp [GenState.tick, hp]
      have := ih g hg (fun t' ht' => hl t' (by simp [ht']))
      simp only [GenState.run, h1]
      exact ⟨List.Forall₂.cons (by simp [hp]) this.1, this.2⟩
    | false =>
      have h1 := (bursting_tick g e hg t hp).1 (hl t (by simp) hp)
      have := ih g hg (fun t' ht' => hl t' (by simp [ht']))
      simp only [GenState.run, h1.2.2]
      exact ⟨List.Forall₂.cons (by simp only [hp]; exact ⟨h1.1, h1.2.1⟩) this.1, this.2⟩

theorem bursting_stops (e : ℤ) : ∀ (l : List GenTick) (g : GenState), Bursting g e →
    (∃ t ∈ l, t.paused = false ∧ e < t.now) →
    ∃ a t b, l = a ++ t :: b ∧ t.paused = false ∧ ((g.run a).2.tick t).1 = 0 ∧ ((g.run a).2.tick t).2.1.burstActive = false := by
  intro l
  induction l with
  | nil => intro g _ h; obtain ⟨t, h, _⟩ := h; simp at h
  | cons t l ih =>
    intro g hg h
    by_cases ht : t.paused = false ∧ e < t.now
    · exact ⟨[], t, l, rfl, ht.1, (bursting_tick g e hg t ht.1).2 ht.2⟩
    · have h1 : (g.tick t).2.1 = g := by
        cases hp : t.paused with
        | true => simp [GenState.tick, hp]
        | false =>
          have hn : t.now ≤ e := by
            by_contra hc
            exact ht ⟨hp, by omega⟩
          exact ((bursting_tick g e hg t hp).1 hn).2.2
      obtain ⟨t', ht', hp', hn'⟩ := h
      have : t' ∈ l := by
        rcases List.mem_cons.1 ht' with rfl | h'
        · exact absurd ⟨hp', hn'⟩ ht
        · exact h'
      obtain ⟨a, t2, b, e1, e2, e3⟩ := ih g hg ⟨t', this, hp', hn'⟩
      refine ⟨t :: a, t2, b, by rw [e1]; rfl, e2, ?_⟩
      simp only [GenState.run, h1]
      exact e3

/-- **C89** Once an idle bursty workload makes tasks, at a time t₀, every later tick makes three to seven tasks until half a second after t₀
(unless it is paused), and among any ticks reaching two seconds after t₀ there is one that makes nothing and ends the burst. -/
theorem C89_burst (g : GenState) (hg : g.pattern = 2) (ha : g.burstActive = false) (t : GenTick) (h : 0 < (g.tick t).1) :
    (∀ l : List GenTick, (∀ t' ∈ l, t'.now ≤ t.now + 500 * millisecond) →
      List.Forall₂ (fun (t' : GenTick) (k : ℤ) => if t'.paused then k = 0 else 3 ≤ k ∧ k ≤ 7) l ((g.tick t).2.1.run l).1) ∧
    (∀ l : List GenTick, (∃ t' ∈ l, t'.paused = false ∧ t.now + 2 * Spec.second ≤ t'.now) →
      ∃ a t' b, l = a ++ t' :: b ∧ t'.paused = false ∧ (((g.tick t).2.1.run a).2.tick t').1 = 0 ∧
        (((g.tick t).2.1.run a).2.tick t').2.1.burstActive = false) := by
  obtain ⟨e, h1, h2, h3, _⟩ := burst_begins g hg ha t h
  refine ⟨fun l hl => (bursting_run e l _ h1 (fun t' ht' _ => le_trans (hl t' ht') h2)).1, fun l hl => ?_⟩
  obtain ⟨t', m, p, n⟩ := hl
  exact bursting_stops e l _ h1 ⟨t', m, p, by omega⟩

/-- A tick that draws small numbers. -/
def smallTick (now : ℤ) : GenTick :=
  { now := now, paused := false, f1 := some 0, k1 := some 0, f2 := some 0, k2 := some 0, k3 := some 0 }

/-- A new bursty workload whose first draw is 0 starts a burst at once. -/
example : (GenState.new 2).pattern = 2 ∧ (GenState.new 2).burstActive = false ∧ 0 < ((GenState.new 2).tick (smallTick 0)).1 := by
  have h : secureRandFloat32 (some 0) < float32_02 := (C90_chances.1 0).2 (by norm_num)
  have hk := intn_mem 5 (some 0) (by norm_num)
  refine ⟨rfl, rfl, ?_⟩
  simp only [GenState.tick, smallTick, GenState.new, GenState.shouldGenerate, GenState.batchSize, h]
  simp
  omega

/-- Two seconds of a high-frequency workload: 40 ticks of 50 ms with small draws make 80 tasks. -/
example : (GenState.new 1).pattern = 1 ∧ firstInterval 1 (some 0) = 50 * millisecond ∧
    ((GenState.new 1).run (List.replicate 40 (smallTick 0))).1.sum = 80 := by decide

/-- A mixed workload whose draws are 0 makes tasks. -/
theorem mixed_makes (now : ℤ) : 0 < ((GenState.new 4).tick (smallTick now)).1 := by
  have h : secureRandFloat32 (some 0) < float32_07 := (C90_chances.2.2.1 0).2 (by norm_num)
  have hk := intn_mem 2 (some 0) (by norm_num)
  simp only [GenState.tick, smallTick, GenState.new, GenState.shouldGenerate, GenState.batchSize, h]
  simp
  split_ifs <;> omega

/-! ## C93 Activity levels -/

/-- A workload that has just made tasks, and has not handed them all over, is not shown as quiet. -/
def C93_claim : Prop :=
  ∀ (p : PatternType) (l : List GenTick) (t : GenTick) (pending : ℕ),
    0 < (((GenState.new p).run l).2.tick t).1 → 0 < pending →
      ((((GenState.new p).run l).2.tick t).2.1.activity t.now pending).1 ≠ .quiet

theorem run_pattern (l : List GenTick) : ∀ g : GenState, (g.run l).2.pattern = g.pattern := by
  induction l with
  | nil => intro g; rfl
  | cons t l ih => intro g; simp only [GenState.run]; rw [ih, tick_pattern]

theorem tick_last (g : GenState) (t : GenTick) : (g.tick t).2.1.lastRequestTime = g.lastRequestTime := by
  simp only [GenState.tick, GenState.shouldGenerate]
  split_ifs <;> first | rfl | (split <;> rfl)

theorem run_last (l : List GenTick) : ∀ g : GenState, (g.run l).2.lastRequestTime = g.lastRequestTime := by
  induction l with
  | nil => intro g; rfl
  | cons t l ih => intro g; simp only [GenState.run]; rw [ih, tick_last]

/-- **C93** A workload of any pattern but the mixed one that has just made tasks is not shown as quiet. -/
theorem C93_partial (p : PatternType) (hp : p ≠ 4) (l : List GenTick) (t : GenTick) (pending : ℕ)
    (h : 0 < (((GenState.new p).run l).2.tick t).1) (h0 : 0 < pending) :
    ((((GenState.new p).run l).2.tick t).2.1.activity t.now pending).1 ≠ .quiet := by
  have hpat : ((GenState.new p).run l).2.pattern = p := run_pattern l _
  generalize ((GenState.new p).run l).2 = g at *
  have h2 : (g.tick t).2.1.pattern = p := by rw [tick_pattern]; exact hpat
  have hb : p = 2 → (g.tick t).2.1.burstActive = true := by
    intro hp2
    subst hp2
    cases ha : g.burstActive with
    | false => obtain ⟨e, he, _⟩ := burst_begins g hpat ha t h; exact he.2.1
    | true =>
      simp only [GenState.tick, GenState.shouldGenerate, hpat, ha] at h ⊢
      split_ifs at h ⊢ <;> simp_all
  generalize (g.tick t).2.1 = g' at *
  unfold GenState.activity
  split
  · rw [if_pos (hb (by rw [← h2]; assumption))]; simp
  · simp
  · rw [if_pos h0]; simp
  · exact absurd (by rw [← h2]; assumption) hp
  · simp

/-- **C93** A mixed workload is always shown as quiet, whatever it has done: the time of its last request is never recorded. -/
theorem C93_mixed (l : List GenTick) (now : ℤ) (pending : ℕ) :
    (((GenState.new 4).run l).2.activity now pending).1 = .quiet := by
  have h1 : ((GenState.new 4).run l).2.pattern = 4 := run_pattern l _
  have h2 : ((GenState.new 4).run l).2.lastRequestTime = none := run_last l _
  simp only [GenState.activity, h1, h2, sinceTime, millisecond]
  norm_num

/-- A sparse workload whose draw is 0 makes a task, and is then shown active. -/
example : 0 < (((GenState.new 5).run [smallTick 0]).2.tick (smallTick 1)).1 := by
  have h : secureRandFloat32 (some 0) < float32_03 := (C90_chances.2.1 0).2 (by norm_num)
  simp [GenState.tick, GenState.run, smallTick, GenState.new, GenState.shouldGenerate, GenState.batchSize, h]

/-- A mixed workload that has just made tasks is shown as quiet. -/
theorem C93_refuted : ¬ C93_claim := by
  intro h
  refine h 4 [] (smallTick 0) 1 (mixed_makes 0) (by norm_num) ?_
  have := C93_mixed [smallTick 0] 0 1
  exact this

/-- **C93** A bursty workload is shown in a burst exactly when its last tick made tasks. -/
theorem C93_burst (g : GenState) (hg : g.pattern = 2) (t : GenTick) (hp : t.paused = false) (now : ℤ) (pending : ℕ) :
    (g.tick t).2.1.activity now pending = if 0 < (g.tick t).1 then (.burst, true) else (.quiet, false) := by
  have hpat : (g.tick t).2.1.pattern = 2 := by rw [tick_pattern]; exact hg
  have hb : (g.tick t).2.1.burstActive = decide (0 < (g.tick t).1) := by
    have hk := intn_mem 5 t.k2 (by norm_num)
    cases ha : g.burstActive with
    | false =>
      by_cases hd : secureRandFloat32 t.f1 < float32_02
      · simp [GenState.tick, GenState.shouldGenerate, GenState.batchSize, hg, ha, hp, hd]; omega
      · simp [GenState.tick, GenState.shouldGenerate, hg, ha, hp, hd]
    | true =>
      cases hd : isAfter t.now g.burstEndTime
      · simp [GenState.tick, GenState.shouldGenerate, GenState.batchSize, hg, ha, hp, hd]; omega
      · simp [GenState.tick, GenState.shouldGenerate, hg, ha, hp, hd]
  unfold GenState.activity
  rw [hpat]
  by_cases h : 0 < (g.tick t).1 <;> simp [hb, h]

end Verif
