import Verif.Num.F64
import Verif.Lemmas.RoundErr
import Verif.Lemmas.F64
import Verif.Lemmas.Pi

/-!
# Rounding half to even

`Rounding` leaves ties open; IEEE 754 and Go round them to the double with the even significand. The few theorems that need it assume `HalfEven`.
-/

set_option autoImplicit false

namespace Verif
open Rounding

/-- A double whose significand, in the representation with the smallest exponent, is even. -/
def EvenDouble (y : ℝ) : Prop :=
  ∃ m e : ℤ, |m| < 2 ^ 53 ∧ -1074 ≤ e ∧ e ≤ 971 ∧ (2 ^ 52 ≤ |m| ∨ e = -1074) ∧ Even m ∧ y = m * (2 : ℝ) ^ e

/-- Ties go to the even double: if one of the nearest doubles is even, so is the chosen one. -/
def HalfEven [Rounding] : Prop :=
  ∀ x y : ℝ, IsDouble y → |y - x| = |rnd x - x| → EvenDouble y → EvenDouble (rnd x)

open Classical in
/-- Such a rounding exists, so no theorem that assumes `HalfEven` is vacuous. -/
theorem exists_halfEven : ∃ r : Rounding, @HalfEven r := by
  let P : ℝ → ℝ → Prop := fun x y => (IsDouble y ∧ ∀ z, IsDouble z → |y - x| ≤ |z - x|) ∧
    ((∃ w, EvenDouble w ∧ IsDouble w ∧ ∀ z, IsDouble z → |w - x| ≤ |z - x|) → EvenDouble y)
  have hP : ∀ x, ∃ y, P x y := by
    intro x
    by_cases h : ∃ w, EvenDouble w ∧ IsDouble w ∧ ∀ z, IsDouble z → |w - x| ≤ |z - x|
    · obtain ⟨w, h1, h2, h3⟩ := h
      exact ⟨w, ⟨h2, h3⟩, fun _ => h1⟩
    · obtain ⟨y, h1, h2⟩ := exists_nearest x
      exact ⟨y, ⟨h1, h2⟩, fun h' => absurd h' h⟩
  choose f hf using hP
  refine ⟨⟨f, fun x => (hf x).1.1, fun x => (hf x).1.2⟩, ?_⟩
  intro x y hy e he
  exact (hf x).2 ⟨y, he, hy, fun z hz => e ▸ (hf x).1.2 z hz⟩

/-- The significand and the exponent of a double of normal size. -/
theorem normalised {y : ℝ} (h : IsDouble y) (h0 : (2 : ℝ) ^ (-1022 : ℤ) ≤ y) :
    ∃ m e : ℤ, 2 ^ 52 ≤ m ∧ m < 2 ^ 53 ∧ -1074 ≤ e ∧ e ≤ 971 ∧ y = m * (2 : ℝ) ^ e := by
  obtain ⟨m, e, hm, h1, h2, rfl⟩ := h
  have hp : (0 : ℝ) < 2 ^ e := by positivity
  have hm0 : 0 < m := by
    have : (0 : ℝ) < m * 2 ^ e := lt_of_lt_of_le (by positivity) h0
    exact_mod_cast (pos_iff_pos_of_mul_pos this).2 hp
  rw [abs_of_pos hm0] at hm
  -- shift the significand up until it has 53 bits
  have key : ∀ (n : ℕ) (m e : ℤ), 0 < m → m < 2 ^ 53 → -1074 ≤ e → e ≤ 971 → (2 : ℝ) ^ (-1022 : ℤ) ≤ m * 2 ^ e → 2 ^ 53 - m ≤ n →
      ∃ m' e' : ℤ, 2 ^ 52 ≤ m' ∧ m' < 2 ^ 53 ∧ -1074 ≤ e' ∧ e' ≤ 971 ∧ (m : ℝ) * 2 ^ e = m' * (2 : ℝ) ^ e' := by
    intro n
    induction n with
    | zero => intro m e _ h _ _ _ h'; push_cast at h'; omega
    | succ n ih =>
      intro m e hm hm' h1 h2 hb hn
      by_cases hbig : 2 ^ 52 ≤ m
      · exact ⟨m, e, hbig, hm', h1, h2, rfl⟩
      · have he : -1074 < e := by
          by_contra hc
          have : e = -1074 := by omega
          subst this
          have e1 : (2 : ℝ) ^ (-1022 : ℤ) = 2 ^ 52 * 2 ^ (-1074 : ℤ) := by
            rw [← zpow_natCast, ← zpow_add₀ (by norm_num)]; norm_num
          rw [e1] at hb
          have := le_of_mul_le_mul_right hb (by positivity)
          exact hbig (by exact_mod_cast this)
        have e2 : (m : ℝ) * 2 ^ e = ((2 * m : ℤ) : ℝ) * 2 ^ (e - 1) := by
          rw [show (2 : ℝ) ^ e = 2 * 2 ^ (e - 1) by rw [← zpow_one_add₀ (by norm_num)]; congr 1; ring]
          push_cast; ring
        rw [e2] at hb ⊢
        exact ih (2 * m) (e - 1) (by omega) (by omega) (by omega) (by omega) hb (by push_cast at hn ⊢; omega)
  exact key (2 ^ 53 - m).toNat m e hm0 hm h1 h2 h0 (by omega)

theorem zpow_two_lt {a b : ℤ} (h : (2 : ℝ) ^ a < 2 ^ b) : a < b := (zpow_lt_zpow_iff_right₀ (by norm_num)).1 h

/-- The representation of a normal double is unique, so its parity is that of its significand. -/
theorem evenDouble_iff {m e : ℤ} (h1 : 2 ^ 52 ≤ m) (h2 : m < 2 ^ 53) (h3 : -1074 < e) (h4 : e ≤ 971) :
    EvenDouble (m * (2 : ℝ) ^ e) ↔ Even m := by
  refine ⟨?_, fun h => ⟨m, e, by rw [abs_of_pos (by omega)]; exact h2, h3.le, h4, .inl (by rw [abs_of_pos (by omega)]; exact h1), h, rfl⟩⟩
  rintro ⟨m', e', hm', h1', h2', hn, hev, heq⟩
  have he : (0 : ℝ) < 2 ^ e := by positivity
  have he' : (0 : ℝ) < 2 ^ e' := by positivity
  have r1 : (2 : ℝ) ^ 52 ≤ m := by exact_mod_cast h1
  have r2 : (m : ℝ) < 2 ^ 53 := by exact_mod_cast h2
  have hpos : 0 < m' := by
    have : (0 : ℝ) < m' * 2 ^ e' := by rw [← heq]; positivity
    exact_mod_cast (pos_iff_pos_of_mul_pos this).2 he'
  rw [abs_of_pos hpos] at hm' hn
  have r2' : (m' : ℝ) < 2 ^ 53 := by exact_mod_cast hm'
  have p : ∀ (k : ℕ) (j : ℤ), (2 : ℝ) ^ k * 2 ^ j = 2 ^ ((k : ℤ) + j) := fun k j => by rw [← zpow_natCast, ← zpow_add₀ (by norm_num)]
  have hee : e = e' := by
    have a1 : (2 : ℝ) ^ ((52 : ℕ) + e) < 2 ^ ((53 : ℕ) + e') := by
      rw [← p, ← p]
      calc (2 : ℝ) ^ 52 * 2 ^ e ≤ m * 2 ^ e := by gcongr
        _ = m' * 2 ^ e' := heq
        _ < 2 ^ 53 * 2 ^ e' := by gcongr
    have b1 := zpow_two_lt a1
    rcases hn with hn | hn
    · have r1' : (2 : ℝ) ^ 52 ≤ m' := by exact_mod_cast hn
      have a2 : (2 : ℝ) ^ ((52 : ℕ) + e') < 2 ^ ((53 : ℕ) + e) := by
        rw [← p, ← p]
        calc (2 : ℝ) ^ 52 * 2 ^ e' ≤ m' * 2 ^ e' := by gcongr
          _ = m * 2 ^ e := heq.symm
          _ < 2 ^ 53 * 2 ^ e := by gcongr
      have b2 := zpow_two_lt a2
      push_cast at b1 b2
      omega
    · push_cast at b1; omega
  subst hee
  have : (m : ℝ) = m' := mul_right_cancel₀ he.ne' heq
  have : m = m' := by exact_mod_cast this
  rwa [this]

/-- Of two different nearest doubles exactly one is even. -/
theorem tie_parity {x lo hi : ℝ} (hlo : IsDouble lo) (hhi : IsDouble hi) (h0 : (2 : ℝ) ^ (-1000 : ℤ) ≤ lo) (h1 : lo < hi) (h2 : hi ≤ 2 ^ (1001 : ℤ))
    (hn : ∀ z, IsDouble z → |lo - x| ≤ |z - x|) (he : |lo - x| = |hi - x|) : EvenDouble lo ↔ ¬ EvenDouble hi := by
  have hx : x = (lo + hi) / 2 := by
    rcases abs_eq_abs.1 he with h | h
    · linarith
    · linarith
  obtain ⟨m, e, m1, m2, e1, e2, rfl⟩ := normalised hlo (le_trans (zpow_le_zpow_right₀ (by norm_num) (by norm_num)) h0)
  have hp : (0 : ℝ) < 2 ^ e := by positivity
  have p : ∀ (k : ℕ) (j : ℤ), (2 : ℝ) ^ k * 2 ^ j = 2 ^ ((k : ℤ) + j) := fun k j => by rw [← zpow_natCast, ← zpow_add₀ (by norm_num)]
  have r1 : (2 : ℝ) ^ 52 ≤ m := by exact_mod_cast m1
  have r2 : (m : ℝ) < 2 ^ 53 := by exact_mod_cast m2
  have l1 : -1054 < e := by
    have : (2 : ℝ) ^ (-1000 : ℤ) < 2 ^ ((53 : ℕ) + e) := by
      rw [← p]
      exact lt_of_le_of_lt h0 (by gcongr)
    have := zpow_two_lt this
    push_cast at this
    omega
  have l2 : e < 950 := by
    have : (2 : ℝ) ^ ((52 : ℕ) + e) < 2 ^ (1001 : ℤ) := by
      rw [← p]
      refine lt_of_le_of_lt ?_ (lt_of_lt_of_le h1 h2)
      gcongr
    have := zpow_two_lt this
    push_cast at this
    omega
  -- the next double
  have nxt : (((m + 1 : ℤ) : ℝ) * 2 ^ e = ((2 ^ 52 : ℤ) : ℝ) * 2 ^ (e + 1) ∧ m + 1 = 2 ^ 53) ∨ m + 1 < 2 ^ 53 := by
    by_cases h : m + 1 = 2 ^ 53
    · left
      refine ⟨?_, h⟩
      rw [h, zpow_add_one₀ (by norm_num)]; push_cast; ring
    · right; omega
  have dn : IsDouble (((m + 1 : ℤ) : ℝ) * 2 ^ e) := by
    rcases nxt with ⟨h, -⟩ | h
    · rw [h]; exact ⟨2 ^ 52, e + 1, by norm_num, by omega, by omega, rfl⟩
    · exact ⟨m + 1, e, by rw [abs_of_pos (by omega)]; exact h, e1, e2, rfl⟩
  obtain ⟨k, hk⟩ := isDouble_multiple hhi (52 + e) (by
    rw [abs_of_pos (lt_trans (by positivity) h1)]
    refine le_trans ?_ h1.le
    have := p 52 e
    push_cast at this
    rw [← this]
    gcongr)
  rw [show 52 + e - 52 = e by ring] at hk
  have hmk : m + 1 ≤ k := by
    rw [hk] at h1
    have : (m : ℝ) < k := lt_of_mul_lt_mul_right h1 hp.le
    have : m < k := by exact_mod_cast this
    omega
  have hkm : k = m + 1 := by
    by_contra hne
    have h3 : m + 2 ≤ k := by omega
    have h3' : (m : ℝ) + 2 ≤ k := by exact_mod_cast h3
    have := hn _ dn
    rw [hx, hk] at this
    have c1 : ((m : ℝ) + 2) * 2 ^ e ≤ k * 2 ^ e := by gcongr
    rw [abs_of_neg (by nlinarith)] at this
    push_cast at this
    rcases abs_cases (((m : ℝ) + 1) * 2 ^ e - (m * 2 ^ e + k * 2 ^ e) / 2) with ⟨h, -⟩ | ⟨h, -⟩ <;> rw [h] at this <;> nlinarith
  rw [evenDouble_iff m1 m2 (by omega) e2, hk, hkm]
  rcases nxt with ⟨h, h'⟩ | h
  · rw [h, evenDouble_iff (by norm_num) (by norm_num) (by omega) (by omega)]
    have : ¬ Even m := by rw [Int.not_even_iff_odd]; exact ⟨2 ^ 52 - 1, by omega⟩
    simp only [this, false_iff, not_not]
    exact ⟨2 ^ 51, by norm_num⟩
  · rw [evenDouble_iff (by omega) h (by omega) e2]
    rw [Int.even_add_one, not_not]

/-- **Rounding half to even commutes with doubling**, away from the subnormal numbers and from the overflow. -/
theorem rnd_double [Rounding] (hr : HalfEven) {x : ℝ} (h0 : (2 : ℝ) ^ (-999 : ℤ) ≤ x) (h1 : x ≤ 2 ^ (1000 : ℤ)) : rnd (2 * x) = 2 * rnd x := by
  have dz : ∀ j : ℤ, -1074 ≤ j → j ≤ 1022 → IsDouble ((2 : ℝ) ^ j) := fun j h h' => by
    by_cases hj : j ≤ 971
    · exact ⟨1, j, by norm_num, h, hj, by norm_num⟩
    · refine ⟨2 ^ 52, j - 52, by norm_num, by omega, by omega, ?_⟩
      rw [show ((2 ^ 52 : ℤ) : ℝ) = 2 ^ (52 : ℤ) by norm_num, ← zpow_add₀ (by norm_num)]
      congr 1; ring
  have t : ∀ j : ℤ, (2 : ℝ) * 2 ^ j = 2 ^ (j + 1) := fun j => by rw [zpow_add_one₀ (by norm_num)]; ring
  have y0 := le_rnd (dz (-999) (by norm_num) (by norm_num)) h0
  have y1 := rnd_le (dz 1000 (by norm_num) (by norm_num)) h1
  have w0 : (2 : ℝ) ^ (-998 : ℤ) ≤ rnd (2 * x) := le_rnd (dz _ (by norm_num) (by norm_num)) (by
    rw [show (-998 : ℤ) = -999 + 1 by norm_num, ← t]; exact mul_le_mul_of_nonneg_left h0 (by norm_num))
  have w1 : rnd (2 * x) ≤ 2 ^ (1001 : ℤ) := rnd_le (dz _ (by norm_num) (by norm_num)) (by
    rw [show (1001 : ℤ) = 1000 + 1 by norm_num, ← t]; exact mul_le_mul_of_nonneg_left h1 (by norm_num))
  have dy := isDouble x
  have dw := isDouble (2 * x)
  have hny := nearest x
  have hnw := nearest (2 * x)
  have hey := hr x
  have hew := hr (2 * x)
  generalize rnd x = y at *
  generalize rnd (2 * x) = w at *
  have sm : (2 : ℝ) ^ (-1022 : ℤ) ≤ 2 ^ (-999 : ℤ) := zpow_le_zpow_right₀ (by norm_num) (by norm_num)
  have sm' : (2 : ℝ) ^ (-1022 : ℤ) ≤ 2 ^ (-998 : ℤ) := zpow_le_zpow_right₀ (by norm_num) (by norm_num)
  obtain ⟨m, e, m1, m2, e1, e2, ey⟩ := normalised dy (sm.trans y0)
  obtain ⟨n, f, n1, n2, f1, f2, ew⟩ := normalised dw (sm'.trans w0)
  have p : ∀ (k : ℕ) (j : ℤ), (2 : ℝ) ^ k * 2 ^ j = 2 ^ ((k : ℤ) + j) := fun k j => by rw [← zpow_natCast, ← zpow_add₀ (by norm_num)]
  have bounds : ∀ (m e a b : ℤ), 2 ^ 52 ≤ m → m < 2 ^ 53 → (2 : ℝ) ^ a ≤ m * 2 ^ e → (m : ℝ) * 2 ^ e ≤ 2 ^ b → a - 53 < e ∧ e ≤ b - 52 := by
    intro m e a b m1 m2 ha hb
    have hp : (0 : ℝ) < 2 ^ e := by positivity
    have r1 : (2 : ℝ) ^ 52 ≤ m := by exact_mod_cast m1
    have r2 : (m : ℝ) < 2 ^ 53 := by exact_mod_cast m2
    have c1 : (2 : ℝ) ^ a < 2 ^ ((53 : ℕ) + e) := by rw [← p]; exact lt_of_le_of_lt ha (by gcongr)
    have c2 : (2 : ℝ) ^ ((52 : ℕ) + e) ≤ 2 ^ b := by rw [← p]; exact le_trans (by gcongr) hb
    have d1 := zpow_two_lt c1
    have d2 := (zpow_le_zpow_iff_right₀ (by norm_num)).1 c2
    push_cast at d1 d2
    constructor <;> omega
  obtain ⟨b1, b2⟩ := bounds m e (-999) 1000 m1 m2 (ey ▸ y0) (ey ▸ y1)
  obtain ⟨b3, b4⟩ := bounds n f (-998) 1001 n1 n2 (ew ▸ w0) (ew ▸ w1)
  have e2y : 2 * y = m * 2 ^ (e + 1) := by rw [ey, ← t]; ring
  have ew2 : w / 2 = n * 2 ^ (f - 1) := by
    have := t (f - 1)
    rw [sub_add_cancel] at this
    rw [ew, ← this]; ring
  have d2y : IsDouble (2 * y) := e2y ▸ ⟨m, e + 1, by rw [abs_of_pos (by omega)]; exact m2, by omega, by omega, rfl⟩
  have dw2 : IsDouble (w / 2) := ew2 ▸ ⟨n, f - 1, by rw [abs_of_pos (by omega)]; exact n2, by omega, by omega, rfl⟩
  have sc : ∀ a : ℝ, |2 * a - 2 * x| = 2 * |a - x| := fun a => by
    rw [show 2 * a - 2 * x = 2 * (a - x) by ring, abs_mul, abs_of_pos (by norm_num : (0 : ℝ) < 2)]
  have tie : |w / 2 - x| = |y - x| := by
    refine le_antisymm ?_ (hny _ dw2)
    have := hnw _ d2y
    have e3 := sc (w / 2)
    rw [show 2 * (w / 2) = w by ring] at e3
    rw [e3, sc] at this
    linarith
  have evy : EvenDouble y ↔ EvenDouble (2 * y) := by
    rw [e2y, ey, evenDouble_iff m1 m2 (by omega) e2, evenDouble_iff m1 m2 (by omega) (by omega)]
  have evw : EvenDouble (w / 2) ↔ EvenDouble w := by
    rw [ew2, ew, evenDouble_iff n1 n2 (by omega) (by omega), evenDouble_iff n1 n2 (by omega) f2]
  have tie2 : |2 * y - 2 * x| = |w - 2 * x| := by
    rw [sc, ← tie, ← sc, show 2 * (w / 2) = w by ring]
  have k1 : EvenDouble (w / 2) → EvenDouble y := hey _ dw2 tie
  have k2 : EvenDouble y → EvenDouble (w / 2) := fun h => evw.2 (hew _ d2y tie2 (evy.1 h))
  have small : (2 : ℝ) ^ (-1000 : ℤ) ≤ 2 ^ (-999 : ℤ) := zpow_le_zpow_right₀ (by norm_num) (by norm_num)
  have big : (2 : ℝ) ^ (1000 : ℤ) ≤ 2 ^ (1001 : ℤ) := zpow_le_zpow_right₀ (by norm_num) (by norm_num)
  have w2 : (2 : ℝ) ^ (-999 : ℤ) ≤ w / 2 := by
    rw [le_div_iff₀ (by norm_num), mul_comm, t]; exact_mod_cast w0
  have w3 : w / 2 ≤ 2 ^ (1000 : ℤ) := by
    rw [div_le_iff₀ (by norm_num), mul_comm, t, show (1000 : ℤ) + 1 = 1001 by norm_num]; exact w1
  rcases lt_trichotomy (w / 2) y with h | h | h
  · have := tie_parity dw2 dy (small.trans w2) h (y1.trans big) (fun z hz => tie ▸ hny z hz) tie
    tauto
  · linarith
  · have := tie_parity dy dw2 (small.trans y0) h (w3.trans big) hny tie.symm
    tauto

end Verif
