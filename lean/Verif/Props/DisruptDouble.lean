import Verif.Props.NudgeDouble
import Verif.Props.Scatter
import Verif.Props.StepDouble

/-!
# C88, C110 in doubles: disruptions and scatters
-/

set_option autoImplicit false
set_option linter.unusedSectionVars false

namespace Verif
open GoMath Spec

variable [Rounding] [LibM]

local notation "π" => Real.pi

namespace Spec

/-- The agents have finite phases in `[0, 2π)`. -/
def Phased (l : List (Agent F64)) (ps : List Dbl) : Prop := l.map (fun a => a.state.phase) = ps.map F64.fin ∧ ∀ p ∈ ps, 0 ≤ p.1 ∧ p.1 < 2 * π

/-- The sine and cosine of the library are within `ε` everywhere. -/
def LibWithin (ε : ℝ) : Prop := ∀ d : Dbl, TrigWithin ε d

end Spec

/-! ### Moving a phase -/

theorem unit_near {a b e : ℝ} (h : Near a b e) : ‖Spec.unit a - Spec.unit b‖ ≤ e := by
  obtain ⟨k, hk⟩ := h
  set x := a - b + k * (2 * π) with hx
  have ha : Spec.unit a = Spec.unit b * Spec.unit x := by
    rw [← unit_add, show b + x = a + k * (2 * π) by rw [hx]; ring]
    exact (unit_sameAngle ⟨k, rfl⟩).symm
  rw [ha, show Spec.unit b * Spec.unit x - Spec.unit b = Spec.unit b * (Spec.unit x - 1) by ring, norm_mul, norm_unit, one_mul, unit_sub_one]
  have h1 : |Real.sin (x / 2)| ≤ |x / 2| := Real.abs_sin_le_abs
  rw [abs_div, abs_two] at h1
  linarith

theorem total_near {l m : List ℝ} {e : ℝ} (h : List.Forall₂ (fun a b => Near a b e) l m) : ‖total l - total m‖ ≤ l.length * e := by
  induction h with
  | nil => simp [total]
  | @cons a b l m hab _ ih =>
    have e1 : ∀ (x : ℝ) (l : List ℝ), total (x :: l) = Spec.unit x + total l := fun x l => by simp [total]
    rw [e1, e1, show Spec.unit a + total l - (Spec.unit b + total m) = (Spec.unit a - Spec.unit b) + (total l - total m) by ring]
    refine (norm_add_le _ _).trans ?_
    rw [List.length_cons]; push_cast
    linarith [unit_near hab]

/-- Moving every phase by at most `e` on the circle changes the order parameter by at most `e`. -/
theorem order_near {l m : List ℝ} {e : ℝ} (h : List.Forall₂ (fun a b => Near a b e) l m) (hne : l ≠ []) : |orderParameter l - orderParameter m| ≤ e := by
  have hl := h.length_eq
  have h0 : (0 : ℝ) < l.length := by exact_mod_cast List.length_pos_iff.2 hne
  rw [orderParameter_eq_total, orderParameter_eq_total, ← hl, ← sub_div, abs_div, abs_of_pos h0, div_le_iff₀ h0]
  refine (abs_norm_sub_norm_le _ _).trans ?_
  rw [mul_comm]; exact total_near h

/-- Setting a phase to a sum, in doubles. -/
theorem shift_double (p : Dbl) (v : F64) (V e : ℝ) (hv : App v V e) (hp : |p.1| ≤ 10) (hV : |V| ≤ 10) (he : e ≤ 1) :
    ∃ r : Dbl, wrapPhase (F64.fin p + v) = .fin r ∧ 0 ≤ r.1 ∧ r.1 < 2 * π ∧ Near r.1 (p.1 + V) (e + 2 / 10 ^ 13) := by
  obtain ⟨d, rfl, hd⟩ := hv
  have hd10 : |d.1| ≤ 11 := by
    have := abs_sub_abs_le_abs_sub d.1 V
    linarith
  have hs0 : |p.1 + d.1| ≤ 21 := (abs_add_le _ _).trans (by linarith)
  obtain ⟨s, es, hs⟩ := tiny_err (x := p.1 + d.1) (by linarith)
  obtain ⟨r, er, r0, r1, hr⟩ := C134_wrap s
  refine ⟨r, by rw [F64.add_fin, es, er], r0, r1, ?_⟩
  have hs1 : |s.1| ≤ 22 := by
    have := abs_sub_abs_le_abs_sub s.1 (p.1 + d.1)
    have h13 : (1 : ℝ) / 10 ^ 13 ≤ 1 := by norm_num
    linarith
  have a : Near r.1 s.1 (1 / 10 ^ 13) := hr.mono (by
    have : (2 : ℝ) ^ (-53 : ℤ) ≤ 1 / 10 ^ 15 := by rw [zpow_neg]; norm_num
    have h2 : (2 * |s.1| + 22) * (2 : ℝ) ^ (-53 : ℤ) ≤ 66 * (1 / 10 ^ 15) := mul_le_mul (by linarith) this (by positivity) (by norm_num)
    refine h2.trans (by norm_num))
  have b : Near s.1 (p.1 + V) (1 / 10 ^ 13 + e) := Near.of_abs (by
    have : s.1 - (p.1 + V) = (s.1 - (p.1 + d.1)) + (d.1 - V) := by ring
    rw [this]; exact (abs_add_le _ _).trans (by linarith))
  exact (a.trans b).mono (by ring_nf; linarith)

/-! ### Scatter -/

theorem scatter_agent_double (a : Agent F64) (p : Dbl) (hp : a.state.phase = .fin p) (h0 : 0 ≤ p.1) (h1 : p.1 < 2 * π) (w : ℕ) :
    ∃ (r : Dbl) (m : ℝ), |m| ≤ 0.15 * π ∧ scatterAgent a w = { a with state := { a.state with phase := .fin r } } ∧ 0 ≤ r.1 ∧ r.1 < 2 * π ∧
      Near r.1 (p.1 + m) (1 / 10 ^ 11) := by
  have hp3 := Real.pi_gt_three
  have hp4 := Real.pi_lt_d2
  obtain ⟨x, x0, x1, hx⟩ := App.rand w
  have ho : App (0.5 : F64) 0.5 (1 / 10 ^ 13) := App.ofReal (by rw [abs_of_pos] <;> norm_num)
  have hpi : App (piMul 1 : F64) π (1 / 10 ^ 13) := by
    have := App.ofReal (x := ((1 : ℚ) : ℝ) * π) (by push_cast; rw [one_mul, abs_of_pos Real.pi_pos]; linarith)
    push_cast at this; rw [one_mul] at this
    obtain ⟨d, e, hd⟩ := this
    exact ⟨d, by rw [← e]; show F64.ofReal _ = _; push_cast; rw [one_mul], hd⟩
  have h3 : App (0.3 : F64) 0.3 (1 / 10 ^ 13) := App.ofReal (by rw [abs_of_pos] <;> norm_num)
  have s1 : App (randFloat64 w - 0.5 : F64) (x - 0.5) (2 / 10 ^ 13) := App.sub hx ho (by rw [abs_le]; constructor <;> norm_num <;> linarith) (by norm_num) (by norm_num)
  have hb1 : |x - 0.5| ≤ 1 / 2 := by rw [abs_le]; constructor <;> norm_num <;> linarith
  have s2 : App ((randFloat64 w - 0.5) * piMul 1 : F64) ((x - 0.5) * π) (1 / 10 ^ 12) :=
    App.mul s1 hpi hb1 (show |π| ≤ 4 by rw [abs_of_pos Real.pi_pos]; linarith) (by norm_num) (by norm_num) (by norm_num)
  have hb2 : |(x - 0.5) * π| ≤ 1 / 2 * π := by rw [abs_mul, abs_of_pos Real.pi_pos]; gcongr
  have s3 : App ((randFloat64 w - 0.5) * piMul 1 * 0.3 : F64) ((x - 0.5) * π * 0.3) (5 / 10 ^ 12) :=
    App.mul s2 h3 (hb2.trans (show 1 / 2 * π ≤ 2 by linarith)) (show |(0.3 : ℝ)| ≤ 1 by rw [abs_of_pos] <;> norm_num) (by norm_num) (by norm_num) (by norm_num)
  have hb3 : |(x - 0.5) * π * 0.3| ≤ 0.15 * π := by
    rw [abs_mul, abs_of_pos (show (0 : ℝ) < 0.3 by norm_num)]; norm_num at hb2 ⊢; linarith
  obtain ⟨r, er, r0, r1, hr⟩ := shift_double p _ _ _ s3 (by rw [abs_of_nonneg h0]; linarith) (hb3.trans (by norm_num; linarith)) (by norm_num)
  refine ⟨r, _, hb3, ?_, r0, r1, hr.mono (by norm_num)⟩
  unfold scatterAgent Agent.setPhase
  rw [hp, er]

/-- **C110, in doubles.** When a low target is exceeded, each agent moves once, by at most 0.15π either way up to `10^-11`, to a finite phase in `[0, 2π)`, and
nothing else changes. -/
theorem C110_once_double (c : AdjustCtx F64) (hlow : c.targetCoherence < 0.4) (hex : c.targetCoherence < c.coherence) (word : ℕ → ℕ → ℕ) (agents : List ℕ)
    (hn : agents.Nodup) (h : ℕ → Agent F64) (ph : ℕ → Dbl) (hp : ∀ x ∈ agents, (h x).state.phase = .fin (ph x) ∧ 0 ≤ (ph x).1 ∧ (ph x).1 < 2 * π) :
    (∀ x, x ∉ agents → applyCompletion c word agents h x = h x) ∧
    ∀ x ∈ agents, ∃ (r : Dbl) (m : ℝ), |m| ≤ 0.15 * π ∧ applyCompletion c word agents h x = { h x with state := { (h x).state with phase := .fin r } } ∧
      0 ≤ r.1 ∧ r.1 < 2 * π ∧ Near r.1 ((ph x).1 + m) (1 / 10 ^ 11) := by
  unfold applyCompletion
  rw [if_pos ⟨hlow, hex⟩]
  refine ⟨fun x hx => scatterLoop_other word agents 0 h x hx, ?_⟩
  have key : ∀ (l : List ℕ) (j : ℕ) (h : ℕ → Agent F64), l.Nodup → (∀ x ∈ l, (h x).state.phase = .fin (ph x) ∧ 0 ≤ (ph x).1 ∧ (ph x).1 < 2 * π) →
      ∀ x ∈ l, ∃ (r : Dbl) (m : ℝ), |m| ≤ 0.15 * π ∧ scatterLoop word l j h x = { h x with state := { (h x).state with phase := .fin r } } ∧
      0 ≤ r.1 ∧ r.1 < 2 * π ∧ Near r.1 ((ph x).1 + m) (1 / 10 ^ 11) := by
    intro l
    induction l with
    | nil => intro j h _ _ x hx; simp at hx
    | cons a l ih =>
      intro j h hnd hph x hx
      rw [List.nodup_cons] at hnd
      rw [scatterLoop]
      by_cases hxa : x = a
      · subst hxa
        rw [scatterLoop_other word l _ _ x hnd.1]
        have e : setAt h x (scatterAgent (h x) (word j 0)) x = scatterAgent (h x) (word j 0) := if_pos rfl
        rw [e]
        obtain ⟨a1, a2, a3⟩ := hph x (by simp)
        exact scatter_agent_double (h x) (ph x) a1 a2 a3 _
      · have hxl : x ∈ l := by simpa [hxa] using hx
        have e : setAt h a (scatterAgent (h a) (word j 0)) x = h x := if_neg hxa
        have hl : ∀ y ∈ l, (setAt h a (scatterAgent (h a) (word j 0)) y).state.phase = .fin (ph y) ∧ 0 ≤ (ph y).1 ∧ (ph y).1 < 2 * π := by
          intro y hy
          have hya : y ≠ a := fun e => hnd.1 (e ▸ hy)
          rw [show setAt h a (scatterAgent (h a) (word j 0)) y = h y from if_neg hya]
          exact hph y (by simp [hy])
        have := ih (j + 1) (setAt h a (scatterAgent (h a) (word j 0))) hnd.2 hl x hxl
        rwa [e] at this
  exact fun x hx => key agents 0 h hn hp x hx

/-- **C110, in doubles.** One scatter changes the measured coherence by at most 0.15π, apart from the errors of the two measurements. -/
theorem C110_change_double (ε : ℝ) (hε : LibWithin ε) (c : AdjustCtx F64) (hlow : c.targetCoherence < 0.4) (hex : c.targetCoherence < c.coherence)
    (word : ℕ → ℕ → ℕ) (agents : List ℕ) (hn : agents.Nodup) (hne : agents ≠ []) (hlen : agents.length < 2 ^ 53) (h : ℕ → Agent F64) (ph : ℕ → Dbl)
    (hp : ∀ x ∈ agents, (h x).state.phase = .fin (ph x) ∧ 0 ≤ (ph x).1 ∧ (ph x).1 < 2 * π) :
    ∃ z z' : Dbl, measureCoherence (agents.map fun x => (h x).state.phase) = .fin z ∧
      measureCoherence (agents.map fun x => (applyCompletion c word agents h x).state.phase) = .fin z' ∧
      |z'.1 - z.1| ≤ 0.15 * π + 1 / 10 ^ 11 + 2 * coherenceError ε agents.length := by
  obtain ⟨-, hm⟩ := C110_once_double c hlow hex word agents hn h ph hp
  have hr : ∀ x, ∃ r : Dbl, x ∈ agents → (applyCompletion c word agents h x).state.phase = .fin r ∧ Near r.1 (ph x).1 (0.15 * π + 1 / 10 ^ 11) := by
    intro x
    by_cases hx : x ∈ agents
    · obtain ⟨r, m, hm, he, -, -, hN⟩ := hm x hx
      refine ⟨r, fun _ => ⟨by rw [he], ?_⟩⟩
      have : Near ((ph x).1 + m) (ph x).1 (0.15 * π) := Near.of_abs (by rw [add_sub_cancel_left]; exact hm)
      exact (hN.trans this).mono (by linarith)
    · exact ⟨⟨0, isDouble_zero⟩, fun h => absurd h hx⟩
  choose r hr using hr
  have e1 : (agents.map fun x => (h x).state.phase) = (agents.map ph).map F64.fin := by
    rw [List.map_map]; exact List.map_congr_left fun x hx => (hp x hx).1
  have e2 : (agents.map fun x => (applyCompletion c word agents h x).state.phase) = (agents.map r).map F64.fin := by
    rw [List.map_map]; exact List.map_congr_left fun x hx => (hr x hx).1
  obtain ⟨z, ez, -, hz⟩ := C133_accurate ε (agents.map ph) (fun d _ => hε d) (by simpa using hlen) (by simpa using hne)
  obtain ⟨z', ez', -, hz'⟩ := C133_accurate ε (agents.map r) (fun d _ => hε d) (by simpa using hlen) (by simpa using hne)
  refine ⟨z, z', by rw [e1, ez], by rw [e2, ez'], ?_⟩
  have key : |orderParameter ((agents.map r).map Subtype.val) - orderParameter ((agents.map ph).map Subtype.val)| ≤ 0.15 * π + 1 / 10 ^ 11 := by
    refine order_near ?_ (by simpa using hne)
    rw [List.map_map, List.map_map, List.forall₂_map_left_iff, List.forall₂_map_right_iff]
    exact List.forall₂_same.2 fun x hx => (hr x hx).2
  rw [List.length_map] at hz hz'
  rw [show z'.1 - z.1 = (z'.1 - orderParameter ((agents.map r).map Subtype.val)) + (orderParameter ((agents.map r).map Subtype.val) -
    orderParameter ((agents.map ph).map Subtype.val)) - (z.1 - orderParameter ((agents.map ph).map Subtype.val)) by ring]
  refine (abs_sub _ _).trans ?_
  have := abs_add_le (z'.1 - orderParameter ((agents.map r).map Subtype.val)) (orderParameter ((agents.map r).map Subtype.val) -
    orderParameter ((agents.map ph).map Subtype.val))
  linarith

/-! ### Disruption -/

theorem disrupt_split (k : ℕ) (l : List (Agent F64)) :
    demoDisruptLoop k l = (l.take k).map (fun a => a.setPhase (a.state.phase + 3.14159)) ++ l.drop k := by
  induction l generalizing k with
  | nil => cases k <;> simp [demoDisruptLoop]
  | cons a l ih =>
    cases k with
    | zero => simp [demoDisruptLoop]
    | succ k => simp [demoDisruptLoop, ih]

/-- **C88, in doubles.** A disruption turns the first fifth of the agents by 3.14159, up to `10^-12`, and leaves the others as they are. -/
theorem C88_disrupt_double (l : List (Agent F64)) (ps : List Dbl) (hp : Phased l ps) :
    ∃ qs : List Dbl, Phased (simDisrupt l) qs ∧ (simDisrupt l).length = l.length ∧
      (∀ i (h : i < ps.length) (h' : i < qs.length), 5 * (i + 1) ≤ l.length → Near qs[i].1 (ps[i].1 + 3.14159) (1 / 10 ^ 12)) ∧
      (∀ i (h : i < l.length) (h' : i < (simDisrupt l).length), ¬ 5 * (i + 1) ≤ l.length → (simDisrupt l)[i] = l[i]) ∧
      ∃ rs : List Dbl, qs = rs ++ ps.drop (l.length / 5) ∧ List.Forall₂ (fun r p => Near r.1 (p.1 + 3.14159) (1 / 10 ^ 12)) rs (ps.take (l.length / 5)) := by
  have hp3 := Real.pi_gt_three
  have hp4 := Real.pi_lt_d2
  obtain ⟨e, hb⟩ := hp
  have hlen : l.length = ps.length := by have := congrArg List.length e; simpa using this
  unfold simDisrupt
  rw [disrupt_split]
  have hl : App (3.14159 : F64) 3.14159 (1 / 10 ^ 13) := App.ofReal (by rw [abs_of_pos] <;> norm_num)
  have mv : ∀ p : Dbl, ∃ r : Dbl, 0 ≤ p.1 ∧ p.1 < 2 * π → wrapPhase (F64.fin p + 3.14159) = .fin r ∧ 0 ≤ r.1 ∧ r.1 < 2 * π ∧ Near r.1 (p.1 + 3.14159) (1 / 10 ^ 12) := by
    intro p
    by_cases h : 0 ≤ p.1 ∧ p.1 < 2 * π
    · obtain ⟨r, er, r0, r1, hr⟩ := shift_double p _ _ _ hl (by rw [abs_of_nonneg h.1]; linarith) (by rw [abs_of_pos] <;> norm_num) (by norm_num)
      exact ⟨r, fun _ => ⟨er, r0, r1, hr.mono (by norm_num)⟩⟩
    · exact ⟨p, fun h' => absurd h' h⟩
  choose f hf using mv
  have hk : l.length / 5 ≤ l.length := Nat.div_le_self _ _
  have F : List.Forall₂ (fun r p => Near r.1 (p.1 + 3.14159) (1 / 10 ^ 12)) ((ps.take (l.length / 5)).map f) (ps.take (l.length / 5)) := by
    rw [List.forall₂_map_left_iff]
    exact List.forall₂_same.2 fun p hp => (hf p (hb p (List.mem_of_mem_take hp))).2.2.2
  refine ⟨(ps.take (l.length / 5)).map f ++ ps.drop (l.length / 5), ⟨?_, ?_⟩, by simp; omega, ?_, ?_, _, rfl, F⟩
  · rw [List.map_append, List.map_append, List.map_map, List.map_map, List.map_drop, e, ← List.map_drop]
    congr 1
    have e' : (l.take (l.length / 5)).map (fun a => a.state.phase) = (ps.take (l.length / 5)).map F64.fin := by rw [List.map_take, e, ← List.map_take]
    have : (l.take (l.length / 5)).map ((fun a => a.state.phase) ∘ fun a => a.setPhase (a.state.phase + 3.14159)) =
        ((l.take (l.length / 5)).map (fun a => a.state.phase)).map fun x => wrapPhase (x + 3.14159) := by
      rw [List.map_map]; rfl
    rw [this, e', List.map_map]
    exact List.map_congr_left fun p hp => (hf p (hb p (List.mem_of_mem_take hp))).1
  · intro q hq
    rcases List.mem_append.1 hq with hq | hq
    · obtain ⟨p, hp, rfl⟩ := List.mem_map.1 hq
      have := hf p (hb p (List.mem_of_mem_take hp))
      exact ⟨this.2.1, this.2.2.1⟩
    · exact hb q (List.mem_of_mem_drop hq)
  · intro i h h' hi
    rw [List.getElem_append_left (by simp; omega)]
    simp only [List.getElem_map, List.getElem_take]
    exact (hf _ (hb _ (List.getElem_mem _))).2.2.2
  · intro i h h' hi
    rw [List.getElem_append_right (by simp; omega)]
    simp only [List.getElem_drop, List.length_map, List.length_take]
    congr 1
    omega

/-- **C88, in doubles.** A disruption changes the measured coherence by at most 0.4, apart from the errors of the two measurements; so a swarm in which all phases are
equal is left with at least 0.6. -/
theorem C88_effect_double (ε : ℝ) (hε : LibWithin ε) (l : List (Agent F64)) (ps : List Dbl) (hp : Phased l ps) (hne : l ≠ []) (hlen : l.length < 2 ^ 53) :
    ∃ z z' : Dbl, agentsCoherence l = .fin z ∧ agentsCoherence (simDisrupt l) = .fin z' ∧ |z'.1 - z.1| ≤ 0.4 + 2 * coherenceError ε l.length ∧
      ((∀ p ∈ ps, ∀ q ∈ ps, p.1 = q.1) → 0.6 - coherenceError ε l.length ≤ z'.1) := by
  obtain ⟨qs, hq, hlq, -, -, rs, eqs, hF⟩ := C88_disrupt_double l ps hp
  have hl1 : l.length = ps.length := by have := congrArg List.length hp.1; simpa using this
  have hl2 : l.length = qs.length := by have := congrArg List.length hq.1; rw [List.length_map, List.length_map, hlq] at this; exact this
  have hpos : 0 < l.length := List.length_pos_iff.2 hne
  have h0 : (0 : ℝ) < l.length := by exact_mod_cast hpos
  obtain ⟨z, ez, -, hz⟩ := C133_accurate ε ps (fun d _ => hε d) (by omega) (List.length_pos_iff.1 (by omega))
  obtain ⟨z', ez', -, hz'⟩ := C133_accurate ε qs (fun d _ => hε d) (by omega) (List.length_pos_iff.1 (by omega))
  rw [← hl1] at hz
  rw [← hl2] at hz'
  have key : |orderParameter (qs.map Subtype.val) - orderParameter (ps.map Subtype.val)| ≤ 0.4 := by
    rw [orderParameter_eq_total, orderParameter_eq_total, List.length_map, List.length_map, ← hl1, ← hl2, ← sub_div, abs_div, abs_of_pos h0, div_le_iff₀ h0]
    refine (abs_norm_sub_norm_le _ _).trans ?_
    have eps : ps.map Subtype.val = (ps.take (l.length / 5)).map Subtype.val ++ (ps.drop (l.length / 5)).map Subtype.val := by
      rw [← List.map_append, List.take_append_drop]
    rw [eps, eqs, List.map_append, total_append, total_append, add_sub_add_right_eq_sub]
    refine (norm_sub_le _ _).trans ?_
    have a := norm_total_le (rs.map Subtype.val)
    have b := norm_total_le ((ps.take (l.length / 5)).map Subtype.val)
    have hrl := hF.length_eq
    rw [List.length_map] at a b
    have ht : (ps.take (l.length / 5)).length = l.length / 5 := by simp; omega
    rw [hrl] at a
    rw [ht] at a b
    have c : ((l.length / 5 : ℕ) : ℝ) ≤ l.length / 5 := Nat.cast_div_le
    refine (add_le_add a b).trans ?_
    norm_num; linarith
  refine ⟨z, z', ?_, ?_, ?_, ?_⟩
  · unfold agentsCoherence; rw [hp.1, ez]
  · unfold agentsCoherence; rw [hq.1, ez']
  · rw [show z'.1 - z.1 = (z'.1 - orderParameter (qs.map Subtype.val)) + (orderParameter (qs.map Subtype.val) - orderParameter (ps.map Subtype.val)) -
      (z.1 - orderParameter (ps.map Subtype.val)) by ring]
    refine (abs_sub _ _).trans ?_
    have := abs_add_le (z'.1 - orderParameter (qs.map Subtype.val)) (orderParameter (qs.map Subtype.val) - orderParameter (ps.map Subtype.val))
    linarith
  · intro hall
    have one : orderParameter (ps.map Subtype.val) = 1 := by
      obtain ⟨p, hpm⟩ := List.exists_mem_of_ne_nil ps (List.length_pos_iff.1 (by omega))
      have : ps.map Subtype.val = List.replicate l.length p.1 := by
        rw [List.eq_replicate_iff]
        refine ⟨by simp [hl1], fun b hb => ?_⟩
        obtain ⟨q, hq, rfl⟩ := List.mem_map.1 hb
        exact hall q hq p hpm
      rw [this, orderParameter_eq_total, total_replicate, norm_mul, norm_unit, List.length_replicate, mul_one, Complex.norm_natCast, div_self h0.ne']
    rw [one] at key
    have k := (abs_le.1 key).1
    have k' := (abs_le.1 hz').1
    norm_num at k ⊢; linarith

example : ∃ (m : LibM) (ε : ℝ), @LibWithin m ε ∧ ε ≤ 1 / 10 ^ 15 :=
  ⟨LibM.rounded, _, fun d => trigWithin_rounded d, by rw [zpow_neg]; norm_num⟩

example (a : Agent F64) (h : a.state.phase = .fin ⟨1, isDouble_one⟩) : Phased (List.replicate 20 a) (List.replicate 20 ⟨1, isDouble_one⟩) := by
  have := Real.pi_gt_three
  refine ⟨by simp [h], fun p hp => ?_⟩
  rw [List.eq_of_mem_replicate hp]
  exact ⟨by norm_num, by show (1 : ℝ) < _; linarith⟩

example : ∃ c : AdjustCtx F64, c.targetCoherence < 0.4 ∧ c.targetCoherence < c.coherence := by
  obtain ⟨d, e, hd⟩ := App.ofReal (x := (0.4 : ℝ)) (by rw [abs_of_pos] <;> norm_num)
  refine ⟨⟨defaultConfig, 0, 0, 1, 0, 0, 0, 1⟩, ?_, show (0 : ℝ) < 1 by norm_num⟩
  rw [show (0.4 : F64) = F64.ofReal 0.4 from rfl, e]
  show (0 : ℝ) < d.1
  have := (abs_le.1 hd).1
  norm_num at this; linarith

end Verif
