import Verif.Props.Agent
import Verif.Lemmas.RoundErr

/-! # C148: energy accounting in doubles -/

set_option autoImplicit false
set_option linter.unusedSectionVars false

namespace Verif
open GoMath Spec Rounding

variable [Rounding] [LibM]

/-- Applying a sequence of actions in doubles: the costs reported by the successful ones and the final agent. -/
noncomputable def applyAllD (a : Agent F64) : List (Action F64) → List F64 × Agent F64
  | [] => ([], a)
  | act :: acts =>
    let r := a.applyAction act
    let rs := applyAllD r.2 acts
    (match r.1 with | .ok c => c :: rs.1 | .error _ => rs.1, rs.2)

/-- Every action has a finite non-negative cost. -/
def Spec.ActionCostsOk (acts : List (Action F64)) : Prop := ∀ act ∈ acts, ∃ c : Dbl, act.cost = .fin c ∧ 0 ≤ c.1

/-- What one action does to the energy in doubles. -/
theorem apply_double (a : Agent F64) (act : Action F64) (e c : Dbl) (he : a.state.energy = .fin e) (hc : act.cost = .fin c)
    (h0 : 0 ≤ c.1) (hl : e.1 < 2 ^ (1023 : ℤ)) (x : F64) (h : (a.applyAction act).1 = .ok x) :
    x = .fin c ∧ c.1 ≤ e.1 ∧ ∃ e' : Dbl, (a.applyAction act).2.state.energy = .fin e' ∧ e'.1 = rnd (e.1 - c.1) ∧
      0 ≤ e'.1 ∧ e'.1 ≤ e.1 := by
  have hx := (C36_success_frame a act x h).1
  have hle : c.1 ≤ e.1 := by
    by_contra hlt
    have : act.cost > a.state.energy := by rw [he, hc]; exact not_le.1 hlt
    rw [(C36_outcome a act).1 this] at h
    cases h
  refine ⟨by rw [hx, hc], hle, ?_⟩
  have hn : ¬ act.cost > a.state.energy := by rw [he, hc]; exact not_lt.2 hle
  have hr0 : 0 ≤ rnd (e.1 - c.1) := le_rnd isDouble_zero (by linarith)
  have hr1 : rnd (e.1 - c.1) ≤ e.1 := rnd_le e.2 (by linarith)
  have key : fmax 0 (a.state.energy - act.cost) = (.fin ⟨rnd (e.1 - c.1), isDouble _⟩ : F64) := by
    rw [he, hc]
    change F64.max (.fin ⟨0, isDouble_zero⟩) (F64.ofReal (e.1 + -c.1)) = _
    have hov : |e.1 + -c.1| < overflow := by
      rw [abs_of_nonneg (by linarith)]
      linarith [F64.two1023_lt_overflow]
    unfold F64.ofReal
    rw [if_pos hov]
    unfold F64.max
    dsimp only
    rw [← sub_eq_add_neg, if_neg (not_lt.2 hr0)]
  unfold Agent.applyAction at h ⊢
  rw [if_neg hn] at h ⊢
  cases hf : applyUpdate act with
  | none => simp only [hf] at h; cases h
  | some f =>
    refine ⟨⟨_, isDouble _⟩, ?_, rfl, hr0, hr1⟩
    unfold applyUpdate at hf
    split_ifs at hf <;> cases hf <;> exact key

/-- **C148.** In doubles, whatever actions of non-negative cost are applied: the energy stays finite and non-negative, never
grows, and is the initial energy minus the reported costs up to one rounding per successful action. -/
theorem C148_accounting (a : Agent F64) (acts : List (Action F64)) (e : Dbl) (he : a.state.energy = .fin e) (h0 : 0 ≤ e.1)
    (hl : e.1 < 2 ^ (1023 : ℤ)) (hc : ActionCostsOk acts) :
    ∃ (cs : List Dbl) (e' : Dbl), (applyAllD a acts).1 = cs.map F64.fin ∧ (applyAllD a acts).2.state.energy = .fin e' ∧
      (∀ c ∈ cs, 0 ≤ c.1 ∧ c.1 ≤ e.1) ∧ 0 ≤ e'.1 ∧ e'.1 ≤ e.1 ∧
      |e'.1 - (e.1 - (cs.map Subtype.val).sum)| ≤ cs.length * (ulp * e.1 + eta) := by
  induction acts generalizing a e with
  | nil => exact ⟨[], e, rfl, he, by simp, h0, le_refl _, by simp⟩
  | cons act acts ih =>
    have hc' : ActionCostsOk acts := fun x hx => hc x (List.mem_cons_of_mem _ hx)
    simp only [applyAllD]
    cases hr : (a.applyAction act).1 with
    | error er =>
      rw [C36_failure_unchanged a act er hr]
      exact ih a e he h0 hl hc'
    | ok x =>
      obtain ⟨c, ec, hc0⟩ := hc act List.mem_cons_self
      obtain ⟨rfl, hce, e1, ee1, hr1, h10, h11⟩ := apply_double a act e c he ec hc0 hl x hr
      obtain ⟨cs, e', i1, i2, i3, i4, i5, i6⟩ := ih (a.applyAction act).2 e1 ee1 h10 (lt_of_le_of_lt h11 hl) hc'
      refine ⟨c :: cs, e', by rw [i1]; rfl, i2, ?_, i4, by linarith, ?_⟩
      · intro y hy
        rcases List.mem_cons.1 hy with rfl | hy
        · exact ⟨hc0, hce⟩
        · exact ⟨(i3 y hy).1, by linarith [(i3 y hy).2]⟩
      · have hu := ulp_pos
        have hη := eta_pos
        have hrr : |rnd (e.1 - c.1) - (e.1 - c.1)| ≤ ulp * |e.1 - c.1| + eta :=
          rnd_err (by rw [abs_of_nonneg (by linarith)]; linarith)
        rw [← hr1, abs_of_nonneg (by linarith : 0 ≤ e.1 - c.1)] at hrr
        have m1 : ulp * (e.1 - c.1) ≤ ulp * e.1 := mul_le_mul_of_nonneg_left (by linarith) hu.le
        have m2 : (cs.length : ℝ) * (ulp * e1.1 + eta) ≤ cs.length * (ulp * e.1 + eta) :=
          mul_le_mul_of_nonneg_left (by linarith [mul_le_mul_of_nonneg_left h11 hu.le]) (Nat.cast_nonneg _)
        simp only [List.map_cons, List.sum_cons, List.length_cons, Nat.cast_add, Nat.cast_one]
        generalize (cs.map Subtype.val).sum = S at *
        have t : e'.1 - (e.1 - (c.1 + S)) = (e'.1 - (e1.1 - S)) + (e1.1 - (e.1 - c.1)) := by ring
        rw [t]
        refine le_trans (abs_add_le _ _) ?_
        have : ((cs.length : ℝ) + 1) * (ulp * e.1 + eta) = cs.length * (ulp * e.1 + eta) + (ulp * e.1 + eta) := by ring
        rw [this]
        linarith

/-- The full claim, kept in view: the costs an agent pays never add up to more than the energy it had. -/
def C148_claim : Prop := ∀ (a : Agent F64) (acts : List (Action F64)) (e : Dbl) (cs : List Dbl),
  a.state.energy = .fin e → 0 ≤ e.1 → ActionCostsOk acts → (applyAllD a acts).1 = cs.map F64.fin →
    (cs.map Subtype.val).sum ≤ e.1

/-- A hundred minus less than half a unit in the last place is a hundred. -/
theorem rnd_hundred (c : ℝ) (h0 : 0 ≤ c) (h1 : c < 2 ^ (-47 : ℤ)) : rnd (100 - c) = 100 := by
  have d100 : IsDouble (100 : ℝ) := isDouble_ofNat 100 (by norm_num)
  have hle : rnd (100 - c) ≤ 100 := rnd_le d100 (by linarith)
  have hn := nearest (100 - c) 100 d100
  rw [show (100 : ℝ) - (100 - c) = c by ring, abs_of_nonneg h0] at hn
  obtain ⟨m, ex, hm, -, -, hx⟩ := isDouble (100 - c)
  generalize rnd (100 - c) = y at *
  have hlow : 100 - y < 2 ^ (-46 : ℤ) := by
    have := (abs_le.1 hn).1
    have e2 : (2 : ℝ) ^ (-46 : ℤ) = 2 * 2 ^ (-47 : ℤ) := by rw [← zpow_one_add₀ (by norm_num)]; norm_num
    rw [e2]
    linarith
  have hsmall : (2 : ℝ) ^ (-46 : ℤ) < 1 := by rw [zpow_neg]; norm_num
  have hex : -46 ≤ ex := by
    by_contra hlt
    have h47 : ex ≤ -47 := by omega
    have hp : (2 : ℝ) ^ ex ≤ 2 ^ (-47 : ℤ) := zpow_le_zpow_right₀ (by norm_num) h47
    have hm' : (m : ℝ) < 2 ^ 53 := by exact_mod_cast (abs_lt.1 hm).2
    have hpos : (0 : ℝ) < 2 ^ ex := by positivity
    have : y < 2 ^ 53 * 2 ^ (-47 : ℤ) := by
      rw [hx]
      calc (m : ℝ) * 2 ^ ex < 2 ^ 53 * 2 ^ ex := mul_lt_mul_of_pos_right hm' hpos
        _ ≤ _ := mul_le_mul_of_nonneg_left hp (by norm_num)
    have h64 : (2 : ℝ) ^ 53 * 2 ^ (-47 : ℤ) = 64 := by rw [zpow_neg]; norm_num
    rw [h64] at this
    linarith
  obtain ⟨k, rfl⟩ : ∃ k : ℕ, ex = -46 + k := ⟨(ex + 46).toNat, by omega⟩
  have hy : y = ((m * 2 ^ k : ℤ) : ℝ) * 2 ^ (-46 : ℤ) := by
    rw [hx, zpow_add₀ (by norm_num), zpow_natCast]; push_cast; ring
  generalize m * 2 ^ k = j at hy
  have h100 : (100 : ℝ) = ((100 * 2 ^ 46 : ℤ) : ℝ) * 2 ^ (-46 : ℤ) := by rw [zpow_neg]; norm_num
  have hpos : (0 : ℝ) < 2 ^ (-46 : ℤ) := by positivity
  have j1 : (j : ℝ) ≤ ((100 * 2 ^ 46 : ℤ) : ℝ) := by
    rw [hy, h100] at hle
    exact le_of_mul_le_mul_right hle hpos
  have j2 : ((100 * 2 ^ 46 : ℤ) : ℝ) - j < 1 := by
    rw [hy, h100, ← sub_mul] at hlow
    by_contra hge
    have := mul_le_mul_of_nonneg_right (not_lt.1 hge) hpos.le
    linarith
  have : j = 100 * 2 ^ 46 := by
    have k1 : j ≤ 100 * 2 ^ 46 := by exact_mod_cast j1
    have k2 : 100 * 2 ^ 46 - j < 1 := by exact_mod_cast j2
    omega
  rw [hy, this, ← h100]

/-- The double 100. -/
noncomputable def hundredD : Dbl := ⟨100, isDouble_ofNat 100 (by norm_num)⟩

/-- **C148.** An agent with an energy of 100, what it starts with by default, pays nothing for actions that cost less than
`2^-47`: however many it applies, all succeed, all their costs are reported and the energy stays at 100. -/
theorem C148_free (a : Agent F64) (acts : List (Action F64)) (he : a.state.energy = .fin hundredD)
    (hc : ∀ act ∈ acts, act.type ∈ knownTypes ∧ ∃ c : Dbl, act.cost = .fin c ∧ 0 ≤ c.1 ∧ c.1 < 2 ^ (-47 : ℤ)) :
    (applyAllD a acts).1 = acts.map Action.cost ∧ (applyAllD a acts).2.state.energy = .fin hundredD := by
  induction acts generalizing a with
  | nil => exact ⟨rfl, he⟩
  | cons act acts ih =>
    obtain ⟨hk, c, ec, c0, c1⟩ := hc act List.mem_cons_self
    have hsmall : (2 : ℝ) ^ (-47 : ℤ) < 1 := by rw [zpow_neg]; norm_num
    have hn : ¬ act.cost > a.state.energy := by
      rw [he, ec]; exact not_lt.2 (show c.1 ≤ (100 : ℝ) by linarith)
    have hr := (C36_outcome a act).2.2 hn hk
    have hbig : (100 : ℝ) < 2 ^ (1023 : ℤ) :=
      calc (100 : ℝ) < 2 ^ (7 : ℤ) := by norm_num
        _ ≤ _ := zpow_le_zpow_right₀ (by norm_num) (by norm_num)
    obtain ⟨-, -, e', ee', hr', -⟩ := apply_double a act hundredD c he ec c0 hbig _ hr
    have hh : e' = hundredD := Subtype.ext (by rw [hr']; exact rnd_hundred c.1 c0 c1)
    obtain ⟨i1, i2⟩ := ih (a.applyAction act).2 (by rw [ee', hh]) fun x hx => hc x (List.mem_cons_of_mem _ hx)
    simp only [applyAllD, hr, i1, List.map_cons]
    exact ⟨trivial, i2⟩

/-- The agent of the witness: a new agent, set to an energy of 100. -/
noncomputable def hundredAgent : Agent F64 :=
  let a : Agent F64 := Agent.initial "me" 0 0 0
  { a with state := { a.state with energy := .fin hundredD } }

/-- The action of the witness: an adjustment that costs `2^-50`. -/
noncomputable def tinyAction : Action F64 :=
  ⟨"phase_nudge", .fin ⟨0, isDouble_zero⟩, .fin ⟨2 ^ (-50 : ℤ), ⟨1, -50, by norm_num, by norm_num, by norm_num, by norm_num⟩⟩,
    .fin ⟨0, isDouble_zero⟩⟩

theorem tiny_free (n : ℕ) : (applyAllD hundredAgent (List.replicate n tinyAction)).1 = List.replicate n tinyAction.cost ∧
    (applyAllD hundredAgent (List.replicate n tinyAction)).2.state.energy = .fin hundredD := by
  have h := C148_free hundredAgent (List.replicate n tinyAction) rfl (by
    intro act hact
    rw [List.eq_of_mem_replicate hact]
    refine ⟨by simp [knownTypes, tinyAction], _, rfl, ?_, ?_⟩
    · change (0 : ℝ) ≤ 2 ^ (-50 : ℤ); positivity
    · exact zpow_lt_zpow_right₀ (by norm_num) (by norm_num))
  rwa [List.map_replicate] at h

/-- The claim is false for every rounding to nearest: `2^57 + 1` adjustments of cost `2^-50` cost more than 100. -/
theorem C148_refuted : ¬ C148_claim := fun h => by
  have hr := (tiny_free (2 ^ 57 + 1)).1
  have ht : ActionCostsOk (List.replicate (2 ^ 57 + 1) tinyAction) := by
    intro act hact
    rw [List.eq_of_mem_replicate hact]
    exact ⟨_, rfl, by change (0 : ℝ) ≤ 2 ^ (-50 : ℤ); positivity⟩
  generalize hN : 2 ^ 57 + 1 = N at *
  have := h hundredAgent (List.replicate N tinyAction) hundredD
    (List.replicate N ⟨2 ^ (-50 : ℤ), ⟨1, -50, by norm_num, by norm_num, by norm_num, by norm_num⟩⟩) rfl
    (by change (0 : ℝ) ≤ 100; norm_num) ht (by rw [hr, List.map_replicate]; rfl)
  rw [List.map_replicate, List.sum_replicate, nsmul_eq_mul] at this
  have h2 : (N : ℝ) * (2 : ℝ) ^ (-50 : ℤ) ≤ 100 := this
  rw [← hN, zpow_neg] at h2
  norm_num at h2

/-- **C148 (partial).** The costs add up to at most the initial energy plus one rounding per successful action. Missing: the
rounding errors, through which the exact claim is false. -/
theorem C148_spend_partial (a : Agent F64) (acts : List (Action F64)) (e : Dbl) (cs : List Dbl) (he : a.state.energy = .fin e)
    (h0 : 0 ≤ e.1) (hl : e.1 < 2 ^ (1023 : ℤ)) (hc : ActionCostsOk acts) (hcs : (applyAllD a acts).1 = cs.map F64.fin) :
    (cs.map Subtype.val).sum ≤ e.1 + cs.length * (ulp * e.1 + eta) := by
  obtain ⟨cs', e', h1, -, -, h4, -, h6⟩ := C148_accounting a acts e he h0 hl hc
  have : cs' = cs := by
    rw [hcs] at h1
    exact (List.map_injective_iff.2 (fun x y hxy => by cases hxy; rfl)) h1.symm
  subst this
  have := (abs_le.1 h6).2
  linarith

/-- A thousand adjustments of cost `2^-50` meet the hypotheses of the theorems, and all of them succeed. -/
example : (applyAllD hundredAgent (List.replicate 1000 tinyAction)).1.length = 1000 ∧
    ActionCostsOk (List.replicate 1000 tinyAction) := by
  refine ⟨by rw [(tiny_free 1000).1, List.length_replicate], fun act hact => ?_⟩
  rw [List.eq_of_mem_replicate hact]
  exact ⟨_, rfl, by change (0 : ℝ) ≤ 2 ^ (-50 : ℤ); positivity⟩

end Verif
