import Verif.Props.PhasePanels
import Verif.Props.SwarmPicture
import Verif.Props.Bars
import Verif.Props.Accuracy

/-!
# C147: panels of single agents in doubles
-/

set_option autoImplicit false
set_option linter.unusedSectionVars false

namespace Verif
open GoMath Spec

variable [Rounding] [LibM]

theorem lit_fin (x y : ℝ) (hy : IsDouble y) (h : x = y) : F64.ofReal x = .fin ⟨y, hy⟩ := by
  subst h; exact F64.ofReal_of_isDouble hy

/-! ### Waves -/

/-- **C147, waves.** The bar of an agent has 0 to 8 rows in doubles too. Row `k` is filled if the sine the library returns is at least `k/4 - 1`,
and only if it is larger than `k/4 - 1 - 2^-52`. -/
theorem C147_wave (p : Dbl) :
    0 ≤ waveHeight (F64.fin p) ∧ waveHeight (F64.fin p) ≤ 8 ∧
    ∀ k : ℤ, 1 ≤ k → k ≤ 8 → ((k : ℝ) / 4 - 1 ≤ (LibM.sin p).1 → k ≤ waveHeight (F64.fin p)) ∧
      (k ≤ waveHeight (F64.fin p) → (k : ℝ) / 4 - 1 - 2 ^ (-52 : ℤ) < (LibM.sin p).1) := by
  have hs := abs_le.1 (LibM.sin_le p)
  set s := (LibM.sin p).1 with hsd
  -- the three roundings
  obtain ⟨a, ha, ea, a0, a2⟩ := F64.ofReal_between (x := s + 1) isDouble_zero (isDouble_ofNat 2 (by norm_num)) (by linarith) (by linarith)
  obtain ⟨b, hb, eb, b0, b1⟩ := F64.ofReal_between (x := a / 2) isDouble_zero isDouble_one (by linarith) (by linarith)
  obtain ⟨c, hc, ec, c0, c8⟩ := F64.ofReal_between (x := b * 8) isDouble_zero (isDouble_ofNat 8 (by norm_num)) (by linarith) (by linarith)
  have e1 : GoMath.sin (F64.fin p) + 1 = F64.fin ⟨a, ha⟩ := by
    rw [← ea, F64.one_def]; rfl
  have e2 : (2.0 : F64) = .fin ⟨2, isDouble_ofNat 2 (by norm_num)⟩ := lit_fin _ _ _ (by norm_num)
  have e8 : (8.0 : F64) = .fin ⟨8, isDouble_ofNat 8 (by norm_num)⟩ := lit_fin _ _ _ (by norm_num)
  have ew : waveHeight (F64.fin p) = toInt (F64.fin ⟨c, hc⟩) := by
    unfold waveHeight
    rw [e1, e2, F64.div_fin (by norm_num), eb, e8, F64.mul_fin, ec]
  rw [ew]
  obtain ⟨t0, t1⟩ := F64.toInt_between ⟨c, hc⟩ 0 8 le_rfl (by norm_num) (by push_cast; exact c0) (by push_cast; exact lt_of_le_of_lt c8 (by norm_num))
  refine ⟨t0, t1, fun k k1 k8 => ⟨fun h => ?_, fun h => ?_⟩⟩
  · have kR : (1 : ℝ) ≤ k := by exact_mod_cast k1
    have kR8 : (k : ℝ) ≤ 8 := by exact_mod_cast k8
    have d4 : IsDouble ((k : ℝ) / 4) := ⟨k, -2, by rw [abs_of_pos (by omega)]; omega, by norm_num, by norm_num, by norm_num; ring⟩
    have d8 : IsDouble ((k : ℝ) / 8) := ⟨k, -3, by rw [abs_of_pos (by omega)]; omega, by norm_num, by norm_num, by norm_num; ring⟩
    have dk : IsDouble (k : ℝ) := isDouble_int (by rw [abs_of_pos (by omega)]; omega)
    obtain ⟨a', ha', ea', l1, -⟩ := F64.ofReal_between (x := s + 1) d4 (isDouble_ofNat 2 (by norm_num)) (by linarith) (by linarith)
    obtain rfl : a = a' := by rw [ea] at ea'; simpa using ea'
    obtain ⟨b', hb', eb', l2, -⟩ := F64.ofReal_between (x := a / 2) d8 isDouble_one (by linarith) (by linarith)
    obtain rfl : b = b' := by rw [eb] at eb'; simpa using eb'
    obtain ⟨c', hc', ec', l3, -⟩ := F64.ofReal_between (x := b * 8) dk (isDouble_ofNat 8 (by norm_num)) (by linarith) (by linarith)
    obtain rfl : c = c' := by rw [ec] at ec'; simpa using ec'
    exact (F64.toInt_between ⟨c, hc⟩ k 8 (by omega) (by norm_num) l3 (by push_cast; exact lt_of_le_of_lt c8 (by norm_num))).1
  · by_contra hcon
    push Not at hcon
    have kR : (1 : ℝ) ≤ k := by exact_mod_cast k1
    have kR8 : (k : ℝ) ≤ 8 := by exact_mod_cast k8
    have z52 : (2 : ℝ) ^ (-52 : ℤ) = 1 / 2 ^ 52 := by rw [zpow_neg]; norm_num
    have z50 : (2 : ℝ) ^ (-50 : ℤ) = 1 / 2 ^ 50 := by rw [zpow_neg]; norm_num
    have z53 : (2 : ℝ) ^ (-53 : ℤ) = 1 / 2 ^ 53 := by rw [zpow_neg]; norm_num
    rw [z52] at hcon
    have d4 : IsDouble ((k : ℝ) / 4 - 1 / 2 ^ 52) := ⟨k * 2 ^ 50 - 1, -52, by rw [abs_of_pos (by omega)]; omega, by norm_num, by norm_num,
      by rw [z52]; push_cast; norm_num; ring⟩
    have d8 : IsDouble ((k : ℝ) / 8 - 1 / 2 ^ 53) := ⟨k * 2 ^ 50 - 1, -53, by rw [abs_of_pos (by omega)]; omega, by norm_num, by norm_num,
      by rw [z53]; push_cast; norm_num; ring⟩
    have dk : IsDouble ((k : ℝ) - 1 / 2 ^ 50) := ⟨k * 2 ^ 50 - 1, -50, by rw [abs_of_pos (by omega)]; omega, by norm_num, by norm_num,
      by rw [z50]; push_cast; norm_num; ring⟩
    obtain ⟨a', ha', ea', -, l1⟩ := F64.ofReal_between (x := s + 1) isDouble_zero d4 (by linarith) (by linarith)
    obtain rfl : a = a' := by rw [ea] at ea'; simpa using ea'
    obtain ⟨b', hb', eb', -, l2⟩ := F64.ofReal_between (x := a / 2) isDouble_zero d8 (by linarith) (by norm_num at l1 ⊢; linarith)
    obtain rfl : b = b' := by rw [eb] at eb'; simpa using eb'
    obtain ⟨c', hc', ec', -, l3⟩ := F64.ofReal_between (x := b * 8) isDouble_zero dk (by linarith) (by norm_num at l2 ⊢; linarith)
    obtain rfl : c = c' := by rw [ec] at ec'; simpa using ec'
    have hup := (F64.toInt_between ⟨c, hc⟩ 0 (k - 1) le_rfl (by omega) (by push_cast; exact c0) (by push_cast; norm_num at l3 ⊢; linarith)).2
    omega

/-! ### Latency histogram -/

/-- The bin of an agent in doubles, for any phase between -7 and 7 (phases are kept in `[0, 2π]`, C02): from 1 to 4, and at least `k` if the phase
is `2 (k - 1)` or more. -/
theorem C147_bin (p : Dbl) (h7 : |p.1| ≤ 7) :
    1 ≤ latencyBin (F64.fin p) ∧ latencyBin (F64.fin p) ≤ 4 ∧
    ∀ k : ℤ, 1 ≤ k → k ≤ 4 → (2 * ((k : ℝ) - 1) ≤ |p.1| → k ≤ latencyBin (F64.fin p)) ∧
      (k < latencyBin (F64.fin p) → 2 * (k : ℝ) - 1 / 2 ^ 40 < |p.1|) := by
  obtain ⟨q, hq, hqv⟩ : ∃ q : Dbl, GoMath.abs (F64.fin p) = .fin q ∧ q.1 = |p.1| := by
    change ∃ q : Dbl, (if p.1 < 0 then F64.neg (F64.fin p) else F64.fin p) = .fin q ∧ q.1 = |p.1|
    split_ifs with hn
    · exact ⟨⟨-p.1, p.2.neg⟩, rfl, (abs_of_neg hn).symm⟩
    · exact ⟨p, rfl, (abs_of_nonneg (not_lt.1 hn)).symm⟩
  rw [← hqv]
  have q0 : 0 ≤ q.1 := by rw [hqv]; positivity
  have q7 : q.1 ≤ 7 := by rw [hqv]; exact h7
  have e5 : (5.0 : F64) = .fin ⟨5, isDouble_ofNat 5 (by norm_num)⟩ := lit_fin _ _ _ (by norm_num)
  have e10 : (10.0 : F64) = .fin ⟨10, isDouble_ofNat 10 (by norm_num)⟩ := lit_fin _ _ _ (by norm_num)
  obtain ⟨a, ha, ea, a0, a2⟩ := F64.ofReal_between (x := q.1 * 5) isDouble_zero (isDouble_ofNat 35 (by norm_num)) (by positivity) (by linarith)
  obtain ⟨b, hb, eb, b0, b1⟩ := F64.ofReal_between (x := 10 + a) (isDouble_ofNat 10 (by norm_num)) (isDouble_ofNat 45 (by norm_num)) (by linarith)
    (by linarith)
  have d45 : IsDouble (4.5 : ℝ) := ⟨9, -1, by norm_num, by norm_num, by norm_num, by norm_num⟩
  obtain ⟨c, hc, ec, c0, c8⟩ := F64.ofReal_between (x := b / 10) isDouble_one d45 (by linarith) (by norm_num; linarith)
  have ew : latencyBin (F64.fin p) = toInt (F64.fin ⟨c, hc⟩) := by
    unfold latencyBin
    rw [hq, e5, F64.mul_fin, ea, e10, F64.add_fin, eb, F64.div_fin (by norm_num), ec]
    obtain ⟨-, t1⟩ := F64.toInt_between ⟨c, hc⟩ 1 4 (by norm_num) (by norm_num) (by push_cast; exact c0)
      (by push_cast; norm_num at c8 ⊢; linarith)
    exact if_neg (by omega)
  rw [ew]
  obtain ⟨t0, t1⟩ := F64.toInt_between ⟨c, hc⟩ 1 4 (by norm_num) (by norm_num) (by push_cast; exact c0)
    (by push_cast; norm_num at c8 ⊢; linarith)
  refine ⟨t0, t1, fun k k1 k4 => ⟨fun h => ?_, fun h => ?_⟩⟩
  · have kR : (1 : ℝ) ≤ k := by exact_mod_cast k1
    have kR4 : (k : ℝ) ≤ 4 := by exact_mod_cast k4
    have dI : ∀ n : ℤ, 0 ≤ n → n < 100 → IsDouble (n : ℝ) := fun n h1 h2 => isDouble_int (by rw [abs_of_nonneg h1]; omega)
    have d1 := dI (10 * (k - 1)) (by omega) (by omega)
    have d2 := dI (10 * k) (by omega) (by omega)
    have d3 := dI k (by omega) (by omega)
    push_cast at d1 d2 d3
    obtain ⟨a', ha', ea', l1, -⟩ := F64.ofReal_between (x := q.1 * 5) d1 (isDouble_ofNat 35 (by norm_num)) (by linarith) (by linarith)
    obtain rfl : a = a' := by rw [ea] at ea'; simpa using ea'
    obtain ⟨b', hb', eb', l2, -⟩ := F64.ofReal_between (x := 10 + a) d2 (isDouble_ofNat 45 (by norm_num)) (by linarith) (by linarith)
    obtain rfl : b = b' := by rw [eb] at eb'; simpa using eb'
    obtain ⟨c', hc', ec', l3, -⟩ := F64.ofReal_between (x := b / 10) d3 d45 (by linarith) (by norm_num; linarith)
    obtain rfl : c = c' := by rw [ec] at ec'; simpa using ec'
    exact (F64.toInt_between ⟨c, hc⟩ k 4 (by omega) (by norm_num) l3 (by push_cast; norm_num at c8 ⊢; linarith)).1
  · by_contra hcon
    push Not at hcon
    have k4' : k ≤ 3 := by omega
    have kR : (1 : ℝ) ≤ k := by exact_mod_cast k1
    have kR4 : (k : ℝ) ≤ 3 := by exact_mod_cast k4'
    have z44 : (2 : ℝ) ^ (-44 : ℤ) = 1 / 2 ^ 44 := by rw [zpow_neg]; norm_num
    have dI : ∀ n : ℤ, 1 ≤ n → n < 100 → IsDouble ((n : ℝ) - 1 / 2 ^ 44) := fun n h1 h2 =>
      ⟨n * 2 ^ 44 - 1, -44, by rw [abs_of_pos (by omega)]; omega, by norm_num, by norm_num, by rw [z44]; push_cast; norm_num; ring⟩
    have z39 : (2 : ℝ) ^ (-39 : ℤ) = 1 / 2 ^ 39 := by rw [zpow_neg]; norm_num
    have dJ : ∀ n : ℤ, 1 ≤ n → n < 100 → IsDouble ((n : ℝ) - 1 / 2 ^ 39) := fun n h1 h2 =>
      ⟨n * 2 ^ 39 - 1, -39, by rw [abs_of_pos (by omega)]; omega, by norm_num, by norm_num, by rw [z39]; push_cast; norm_num; ring⟩
    have d1 := dJ (10 * k) (by omega) (by omega)
    have d2 := dJ (10 * k + 10) (by omega) (by omega)
    have d3 := dI (k + 1) (by omega) (by omega)
    push_cast at d1 d2 d3
    obtain ⟨a', ha', ea', -, l1⟩ := F64.ofReal_between (x := q.1 * 5) isDouble_zero d1 (by positivity) (by norm_num at hcon ⊢; linarith)
    obtain rfl : a = a' := by rw [ea] at ea'; simpa using ea'
    obtain ⟨b', hb', eb', -, l2⟩ := F64.ofReal_between (x := 10 + a) isDouble_zero d2 (by linarith) (by norm_num at l1 ⊢; linarith)
    obtain rfl : b = b' := by rw [eb] at eb'; simpa using eb'
    obtain ⟨c', hc', ec', -, l3⟩ := F64.ofReal_between (x := b / 10) isDouble_zero d3 (by linarith) (by norm_num at l2 ⊢; linarith)
    obtain rfl : c = c' := by rw [ec] at ec'; simpa using ec'
    have hup := (F64.toInt_between ⟨c, hc⟩ 1 k (by norm_num) (by omega) (by push_cast; exact c0) (by norm_num at l3 ⊢; linarith)).2
    omega

/-- **C147, histogram.** In doubles too the histogram never panics, and every agent is counted once, in its bin; the bin of the
fastest stays empty. -/
theorem C147_histogram (l : List Dbl) (h : ∀ p ∈ l, |p.1| ≤ 7) :
    ∃ r, latencyBins (l.map F64.fin) = .ok r ∧ r.length = 5 ∧ r.sum = l.length ∧ r[0]? = some 0 ∧
      ∀ i : ℕ, i < 5 → r[i]? = some (l.countP fun p => decide (latencyBin (F64.fin p) = i)) := by
  obtain ⟨r, h1, h2, h3⟩ := addAt_fold (fun p : F64 => latencyBin p) (l.map F64.fin) [0, 0, 0, 0, 0] fun p hp => by
    obtain ⟨d, hd, rfl⟩ := List.mem_map.1 hp
    have := C147_bin d (h d hd)
    exact ⟨by omega, by show latencyBin (F64.fin d) < 5; omega⟩
  have h3' : ∀ i : ℕ, i < 5 → r[i]? = some (l.countP fun p => decide (latencyBin (F64.fin p) = i)) := by
    intro i hi
    rw [h3]
    have : ([0, 0, 0, 0, 0] : List ℕ)[i]? = some 0 := by
      rcases i with _ | _ | _ | _ | _ | i <;> first | rfl | omega
    rw [this, List.countP_map]; simp [Function.comp_def]
  have hsum : r.sum = l.length := by
    have hr : r = (List.range 5).map fun i => l.countP fun p => decide (latencyBin (F64.fin p) = (i : ℕ)) := by
      apply List.ext_getElem?
      intro i
      by_cases hi : i < 5
      · rw [h3' i hi]; simp [hi]
      · rw [List.getElem?_eq_none (by rw [h2]; simpa using hi), List.getElem?_eq_none (by simpa using hi)]
    rw [hr]
    clear h1 h2 h3 h3' hr
    induction l with
    | nil => simp
    | cons a l ih =>
      have ha := C147_bin a (h a (by simp))
      have il := ih fun p hp => h p (by simp [hp])
      simp only [List.range_succ, List.range_zero, List.map_append, List.map_cons, List.map_nil, List.nil_append, List.sum_append, List.sum_cons,
        List.sum_nil, List.countP_cons, List.length_cons] at il ⊢
      have hc : latencyBin (F64.fin a) = 1 ∨ latencyBin (F64.fin a) = 2 ∨ latencyBin (F64.fin a) = 3 ∨ latencyBin (F64.fin a) = 4 := by omega
      rcases hc with hc | hc | hc | hc <;> simp only [hc] <;> norm_num at il ⊢ <;> omega
  refine ⟨r, h1, h2, hsum, ?_, h3'⟩
  rw [h3' 0 (by norm_num)]
  congr 1
  rw [List.countP_eq_zero]
  intro p hp
  have := C147_bin p (h p hp)
  simp only [decide_eq_true_eq]
  omega

/-! ### Picture of the swarm -/

theorem toInt_abs (d : Dbl) (n : ℤ) (h0 : 0 ≤ n) (hn : n < 2 ^ 62) (h : |d.1| < n + 1) :
    (toInt (F64.fin d) : ℤ) = rtrunc d.1 ∧ |rtrunc d.1| ≤ n := by
  obtain ⟨h1, h2⟩ := abs_lt.1 h
  have r : -n ≤ rtrunc d.1 ∧ rtrunc d.1 ≤ n := by
    unfold rtrunc
    split_ifs with hd
    · exact ⟨by have := Int.floor_nonneg.2 hd; omega, by rw [← Int.lt_add_one_iff, Int.floor_lt]; push_cast; linarith⟩
    · refine ⟨?_, ?_⟩
      · rw [Int.le_ceil_iff]; push_cast; linarith
      · rw [Int.ceil_le]
        have : (0 : ℝ) ≤ n := by exact_mod_cast h0
        push Not at hd; linarith
  refine ⟨?_, abs_le.2 r⟩
  change (if -(2 ^ 63) ≤ rtrunc d.1 ∧ rtrunc d.1 < 2 ^ 63 then rtrunc d.1 else LibM.badInt (F64.fin d)) = _
  rw [if_pos ⟨by omega, by omega⟩]

theorem rtrunc_ge_one {x : ℝ} (h : 1 ≤ |x|) : rtrunc x ≠ 0 := by
  intro hc
  rw [rtrunc_zero_iff] at hc
  linarith

/-- The distance from the centre in doubles. -/
theorem distance_double (c : Dbl) (h1 : c.1 ≤ 1) :
    ∃ r : Dbl, (if F64.fin c > 0.5 then 2.0 + 3.0 * (1 - F64.fin c) else 5.0 : F64) = .fin r ∧ 2 ≤ r.1 ∧ r.1 ≤ 5 ∧ (c.1 ≤ 0.92 → 2.239 ≤ r.1) := by
  have e5 : (5.0 : F64) = .fin ⟨5, isDouble_ofNat 5 (by norm_num)⟩ := lit_fin _ _ _ (by norm_num)
  have e3 : (3.0 : F64) = .fin ⟨3, isDouble_ofNat 3 (by norm_num)⟩ := lit_fin _ _ _ (by norm_num)
  have e2 : (2.0 : F64) = .fin ⟨2, isDouble_ofNat 2 (by norm_num)⟩ := lit_fin _ _ _ (by norm_num)
  have eh : (0.5 : F64) = .fin ⟨1 / 2, half_isDouble⟩ := lit_fin _ _ _ (by norm_num)
  by_cases hc : (1 / 2 : ℝ) < c.1
  · rw [if_pos (by rw [eh]; exact hc)]
    rw [F64.one_def, F64.sub_fin, e3, e2]
    have hh : IsDouble (1 / 2 : ℝ) := half_isDouble
    obtain ⟨a, ha, ea, a0, a1⟩ := F64.ofReal_between (x := 1 - c.1) isDouble_zero hh (by linarith) (by linarith)
    have d32 : IsDouble (3 / 2 : ℝ) := ⟨3, -1, by norm_num, by norm_num, by norm_num, by norm_num⟩
    have d72 : IsDouble (7 / 2 : ℝ) := ⟨7, -1, by norm_num, by norm_num, by norm_num, by norm_num⟩
    obtain ⟨b, hb, eb, b0, b1⟩ := F64.ofReal_between (x := 3 * a) isDouble_zero d32 (by linarith) (by linarith)
    obtain ⟨r, hr, er, r0, r1⟩ := F64.ofReal_between (x := 2 + b) (isDouble_ofNat 2 (by norm_num)) d72 (by linarith) (by linarith)
    refine ⟨⟨r, hr⟩, ?_, r0, by dsimp only; linarith, fun h92 => ?_⟩
    · dsimp only
      rw [ea, F64.mul_fin, eb, F64.add_fin, er]
    · have dA : IsDouble (5242 / 65536 : ℝ) := ⟨5242, -16, by norm_num, by norm_num, by norm_num, by norm_num⟩
      have dB : IsDouble (15726 / 65536 : ℝ) := ⟨15726, -16, by norm_num, by norm_num, by norm_num, by norm_num⟩
      have dC : IsDouble (2 + 15726 / 65536 : ℝ) := ⟨146798, -16, by norm_num, by norm_num, by norm_num, by norm_num⟩
      obtain ⟨a', ha', ea', l1, -⟩ := F64.ofReal_between (x := 1 - c.1) dA hh (by norm_num at h92 ⊢; linarith) (by linarith)
      obtain rfl : a = a' := by rw [ea] at ea'; simpa using ea'
      obtain ⟨b', hb', eb', l2, -⟩ := F64.ofReal_between (x := 3 * a) dB d32 (by norm_num at l1 ⊢; linarith) (by linarith)
      obtain rfl : b = b' := by rw [eb] at eb'; simpa using eb'
      obtain ⟨r', hr', er', l3, -⟩ := F64.ofReal_between (x := 2 + b) dC d72 (by linarith) (by linarith)
      obtain rfl : r = r' := by rw [er] at er'; simpa using er'
      norm_num at l3 ⊢; linarith
  · rw [if_neg (by rw [eh]; exact hc), e5]
    exact ⟨_, rfl, by norm_num, by norm_num, fun _ => by norm_num⟩

/-- The angle of an agent is a finite double. -/
theorem angle_double (i : ℕ) (hi : i < 2 ^ 50) (p : Dbl) (h7 : |p.1| ≤ 7) :
    ∃ d : Dbl, F64.fin p + ofInt (i : ℤ) * piMul 1 / 10.0 = .fin d := by
  obtain ⟨n, en, hn⟩ := fin_nat i (by omega)
  have hpi : (3 : ℝ) < piDouble ∧ piDouble < 4 := by
    unfold piDouble; constructor <;> norm_num
  have e10 : (10.0 : F64) = .fin ⟨10, isDouble_ofNat 10 (by norm_num)⟩ := lit_fin _ _ _ (by norm_num)
  have hi' : (i : ℝ) ≤ 2 ^ 50 := by exact_mod_cast hi.le
  have d52 : IsDouble ((2 : ℝ) ^ 52) := ⟨1, 52, by norm_num, by norm_num, by norm_num, by norm_num⟩
  have d53 : IsDouble ((2 : ℝ) ^ 53) := ⟨1, 53, by norm_num, by norm_num, by norm_num, by norm_num⟩
  have d7 : IsDouble (-7 : ℝ) := (isDouble_ofNat 7 (by norm_num)).neg
  obtain ⟨a, ha, ea, a0, a1⟩ := F64.ofReal_between (x := (i : ℝ) * piDouble) isDouble_zero d52 (by have := hpi.1; positivity) (by nlinarith)
  obtain ⟨b, hb, eb, b0, b1⟩ := F64.ofReal_between (x := a / 10) isDouble_zero d52 (by linarith) (by linarith)
  obtain ⟨r1, r2⟩ := abs_le.1 h7
  obtain ⟨c, hc, ec, -⟩ := F64.ofReal_between (x := p.1 + b) d7 d53 (by linarith) (by norm_num at b1 ⊢; linarith)
  refine ⟨⟨c, hc⟩, ?_⟩
  rw [en, F64.piMul_one, F64.mul_fin, hn, ea, e10, F64.div_fin (by norm_num), eb, F64.add_fin, ec]

/-- **C147, picture.** In doubles every agent falls into the grid, and it is drawn unless it falls on the centre; with a library that is
accurate to a thousandth, no agent does at a coherence of up to 0.92. -/
theorem C147_picture (c : Dbl) (h1 : c.1 ≤ 1) (i : ℕ) (hi : i < 2 ^ 50) (p : Dbl) (h7 : |p.1| ≤ 7) :
    let o := cellOffset (F64.fin c) i (F64.fin p)
    |o.1| ≤ 5 ∧ |o.2| ≤ 2 ∧ (cellDrawn o = true ↔ o ≠ (0, 0)) ∧
      ((∀ d : Dbl, TrigWithin (1 / 10000) d) → c.1 ≤ 0.92 → cellDrawn o = true) := by
  intro o
  obtain ⟨r, er, r2, r5, r92⟩ := distance_double c h1
  obtain ⟨d, ed⟩ := angle_double i hi p h7
  have hcos := abs_le.1 (LibM.cos_le d)
  have hsin := abs_le.1 (LibM.sin_le d)
  have d5 : IsDouble (-5 : ℝ) := (isDouble_ofNat 5 (by norm_num)).neg
  have d52 : IsDouble (5 / 2 : ℝ) := ⟨5, -1, by norm_num, by norm_num, by norm_num, by norm_num⟩
  obtain ⟨x, hx, ex, x0, x1⟩ := F64.ofReal_between (x := r.1 * (LibM.cos d).1) d5 (isDouble_ofNat 5 (by norm_num)) (by nlinarith) (by nlinarith)
  obtain ⟨y, hy, ey, y0, y1⟩ := F64.ofReal_between (x := r.1 * (LibM.sin d).1) d5 (isDouble_ofNat 5 (by norm_num)) (by nlinarith) (by nlinarith)
  obtain ⟨z, hz, ez, z0, z1⟩ := F64.ofReal_between (x := y / 2) d52.neg d52 (by linarith) (by linarith)
  have e2 : (2.0 : F64) = .fin ⟨2, isDouble_ofNat 2 (by norm_num)⟩ := lit_fin _ _ _ (by norm_num)
  have ho : o = (toInt (F64.fin ⟨x, hx⟩), toInt (F64.fin ⟨z, hz⟩)) := by
    have : o = cellOffset (F64.fin c) i (F64.fin p) := rfl
    rw [this]
    unfold cellOffset
    dsimp only
    rw [er, ed]
    refine Prod.ext ?_ ?_
    · show toInt (F64.fin r * F64.fin (LibM.cos d)) = _
      rw [F64.mul_fin, ex]
    · show toInt (F64.fin r * F64.fin (LibM.sin d) / 2.0) = _
      rw [F64.mul_fin, ey, e2, F64.div_fin (by norm_num), ez]
  obtain ⟨t1, b1⟩ := toInt_abs ⟨x, hx⟩ 5 (by norm_num) (by norm_num) (by push_cast; rw [abs_lt]; constructor <;> linarith)
  obtain ⟨t2, b2⟩ := toInt_abs ⟨z, hz⟩ 2 (by norm_num) (by norm_num) (by push_cast; rw [abs_lt]; constructor <;> linarith)
  rw [t1, t2] at ho
  have hx5 : |o.1| ≤ 5 := by rw [ho]; exact b1
  have hy2 : |o.2| ≤ 2 := by rw [ho]; exact b2
  have key : cellDrawn o = true ↔ o ≠ (0, 0) := by
    unfold cellDrawn
    rw [decide_eq_true_iff]
    rw [abs_le] at hx5 hy2
    obtain ⟨a, b⟩ := o
    simp only [ne_eq, Prod.mk.injEq] at *
    omega
  refine ⟨hx5, hy2, key, fun ht hc => ?_⟩
  rw [key]
  intro h0
  rw [ho, Prod.mk.injEq, rtrunc_zero_iff, rtrunc_zero_iff] at h0
  obtain ⟨hs, hk⟩ := ht d
  have hr := r92 hc
  -- monotone rounding: both products are below 1 and 2 up to rounding
  have hux : |r.1 * (LibM.cos d).1| < 1 := by
    by_contra hcon
    push Not at hcon
    rcases le_abs.1 hcon with h | h
    · obtain ⟨x', hx', ex', l, -⟩ := F64.ofReal_between (x := r.1 * (LibM.cos d).1) isDouble_one (isDouble_ofNat 5 (by norm_num)) h (by nlinarith)
      obtain rfl : x = x' := by rw [ex] at ex'; simpa using ex'
      have := (abs_lt.1 h0.1).2; simp only at this; linarith
    · obtain ⟨x', hx', ex', -, l⟩ := F64.ofReal_between (x := r.1 * (LibM.cos d).1) d5 isDouble_one.neg (by nlinarith) (by linarith)
      obtain rfl : x = x' := by rw [ex] at ex'; simpa using ex'
      have := (abs_lt.1 h0.1).1; simp only at this; linarith
  have huz : |y| < 2 := by
    by_contra hcon
    push Not at hcon
    rcases le_abs.1 hcon with h | h
    · obtain ⟨x', hx', ex', l, -⟩ := F64.ofReal_between (x := y / 2) isDouble_one d52 (by linarith) (by linarith)
      obtain rfl : z = x' := by rw [ez] at ex'; simpa using ex'
      have := (abs_lt.1 h0.2).2; simp only at this; linarith
    · obtain ⟨x', hx', ex', -, l⟩ := F64.ofReal_between (x := y / 2) d52.neg isDouble_one.neg (by linarith) (by linarith)
      obtain rfl : z = x' := by rw [ez] at ex'; simpa using ex'
      have := (abs_lt.1 h0.2).1; simp only at this; linarith
  have huy : |r.1 * (LibM.sin d).1| < 2 := by
    have d2 : IsDouble (2 : ℝ) := isDouble_ofNat 2 (by norm_num)
    by_contra hcon
    push Not at hcon
    rcases le_abs.1 hcon with h | h
    · obtain ⟨x', hx', ex', l, -⟩ := F64.ofReal_between (x := r.1 * (LibM.sin d).1) d2 (isDouble_ofNat 5 (by norm_num)) h (by nlinarith)
      obtain rfl : y = x' := by rw [ey] at ex'; simpa using ex'
      have := (abs_lt.1 huz).2; linarith
    · obtain ⟨x', hx', ex', -, l⟩ := F64.ofReal_between (x := r.1 * (LibM.sin d).1) d5 d2.neg (by nlinarith) (by linarith)
      obtain rfl : y = x' := by rw [ey] at ex'; simpa using ex'
      have := (abs_lt.1 huz).1; linarith
  have e := Real.sin_sq_add_cos_sq d.1
  have sq1 := (sq_lt_one_iff_abs_lt_one _).2 hux
  have sq2 : (r.1 * (LibM.sin d).1) ^ 2 < 4 := by
    rw [← sq_abs]; nlinarith [abs_nonneg (r.1 * (LibM.sin d).1)]
  have m1 : ∀ u v : ℝ, |u - v| ≤ 1 / 10000 → |u| ≤ 1 → |v| ≤ 1 → v ^ 2 - 2 / 10000 ≤ u ^ 2 := by
    intro u v h1 h2 h3
    rw [abs_le] at h1 h2 h3
    nlinarith
  have q1 := m1 _ _ hs (LibM.sin_le d) (Real.abs_sin_le_one _)
  have q2 := m1 _ _ hk (LibM.cos_le d) (Real.abs_cos_le_one _)
  have hrr : (5.013 : ℝ) ≤ r.1 ^ 2 := by norm_num at hr ⊢; nlinarith
  rw [mul_pow] at sq1 sq2
  have : (1 - 4 / 10000) * r.1 ^ 2 ≤ r.1 ^ 2 * ((LibM.sin d).1 ^ 2 + (LibM.cos d).1 ^ 2) := by
    nlinarith [sq_nonneg r.1]
  norm_num at hrr
  nlinarith

/-- Non-vacuity: an accurate library, a coherence of 1/2 and the third agent at phase 1. -/
example : letI := LibM.rounded; cellDrawn (cellOffset (F64.fin ⟨1 / 2, half_isDouble⟩) 2 (F64.fin ⟨1, isDouble_one⟩)) = true := by
  let := LibM.rounded
  refine (C147_picture ⟨1 / 2, half_isDouble⟩ (by norm_num) 2 (by norm_num) ⟨1, isDouble_one⟩ (by norm_num)).2.2.2 (fun d => ?_) (by norm_num)
  have h := trigWithin_rounded d
  have e : (2 : ℝ) ^ (-52 : ℤ) ≤ 1 / 10000 := by rw [zpow_neg]; norm_num
  exact ⟨h.1.trans e, h.2.trans e⟩

end Verif
