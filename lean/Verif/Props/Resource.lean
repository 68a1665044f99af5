import Verif.Model.Resource
import Verif.Lemmas.Pi
import Verif.Lemmas.Normalize
import Mathlib.Logic.Equiv.Fintype
import Mathlib.Data.Fintype.Pi
import Mathlib.Data.Fintype.BigOperators

/-!
# Tokens and random numbers: C29–C32
-/

set_option autoImplicit false

namespace Verif
open GoMath Rounding

/-! ## C29 Tokens are conserved and bounded -/

/-- What a caller put back: the sum of the positive release amounts in a history. -/
noncomputable def returnedTotal : List (TokenOp ℝ) → ℝ
  | [] => 0
  | .request _ :: ops => returnedTotal ops
  | .release a :: ops => max a 0 + returnedTotal ops

/-- Exact arithmetic, one request: the grant is the amount asked for, cut to what is available; the balance goes down
by exactly the grant. -/
theorem C29_request (t : TokenManager ℝ) (h : 0 ≤ t.tokens) (a : ℝ) :
    (t.request a).1 = max 0 (min a t.tokens) ∧ (t.request a).2.tokens + (t.request a).1 = t.tokens ∧
      (t.request a).2.maxTokens = t.maxTokens := by
  unfold TokenManager.request
  dsimp only
  split_ifs with h1 h2
  · refine ⟨?_, by simp, rfl⟩
    rw [max_eq_left]; exact (min_le_left _ _).trans h1
  · have : t.tokens = 0 := le_antisymm h2 h
    refine ⟨?_, by simp, rfl⟩
    rw [max_eq_left]; exact (min_le_right _ _).trans h2
  · push Not at h1 h2
    refine ⟨?_, by simp, rfl⟩
    rw [max_eq_right (le_min h1.le h)]; rfl

/-- Exact arithmetic, one release: the balance grows by the amount, cut at the maximum; negative amounts do nothing. -/
theorem C29_release (t : TokenManager ℝ) (h : t.tokens ≤ t.maxTokens) (a : ℝ) :
    (t.release a).tokens = min (t.tokens + max a 0) t.maxTokens ∧ (t.release a).maxTokens = t.maxTokens := by
  unfold TokenManager.release
  split_ifs with h1
  · rw [max_eq_right h1, add_zero, min_eq_left h]; exact ⟨rfl, rfl⟩
  · push Not at h1
    rw [max_eq_left h1.le]; exact ⟨rfl, rfl⟩

theorem token_run_real (ops : List (TokenOp ℝ)) (t : TokenManager ℝ) (h0 : 0 ≤ t.tokens) (h1 : t.tokens ≤ t.maxTokens) :
    0 ≤ (t.run ops).2.tokens ∧ (t.run ops).2.tokens ≤ t.maxTokens ∧ (t.run ops).2.maxTokens = t.maxTokens ∧
    (∀ g ∈ (t.run ops).1, 0 ≤ g) ∧
    (t.run ops).2.tokens + (t.run ops).1.sum ≤ t.tokens + returnedTotal ops ∧
    t.tokens ≤ (t.run ops).2.tokens + (t.run ops).1.sum := by
  induction ops generalizing t with
  | nil => simp [TokenManager.run, returnedTotal, h0, h1]
  | cons op ops ih =>
    cases op with
    | request a =>
      obtain ⟨e1, e2, e3⟩ := C29_request t h0 a
      have g0 : 0 ≤ (t.request a).1 := by rw [e1]; exact le_max_left _ _
      have gle : (t.request a).1 ≤ t.tokens := by
        rw [e1]; exact max_le h0 (min_le_right _ _)
      obtain ⟨i1, i2, i3, i4, i5, i6⟩ := ih (t.request a).2 (by linarith) (by rw [e3]; linarith)
      refine ⟨i1, by rw [← e3]; exact i2, by rw [← e3]; exact i3, ?_, ?_, ?_⟩
      · intro g hg
        rcases List.mem_cons.1 hg with rfl | hg
        · exact g0
        · exact i4 g hg
      · change _ + ((t.request a).1 :: ((t.request a).2.run ops).1).sum ≤ _ + returnedTotal ops
        rw [List.sum_cons]
        change ((t.request a).2.run ops).2.tokens + _ ≤ _
        linarith
      · change _ ≤ _ + ((t.request a).1 :: ((t.request a).2.run ops).1).sum
        rw [List.sum_cons]
        change _ ≤ ((t.request a).2.run ops).2.tokens + _
        linarith
    | release a =>
      obtain ⟨e1, e2⟩ := C29_release t h1 a
      have ge : t.tokens ≤ (t.release a).tokens := by
        rw [e1]; exact le_min (by linarith [le_max_right a 0]) h1
      have le : (t.release a).tokens ≤ t.tokens + max a 0 := by rw [e1]; exact min_le_left _ _
      have lem : (t.release a).tokens ≤ t.maxTokens := by rw [e1]; exact min_le_right _ _
      obtain ⟨i1, i2, i3, i4, i5, i6⟩ := ih (t.release a) (by linarith) (by rw [e2]; exact lem)
      refine ⟨i1, by rw [← e2]; exact i2, by rw [← e2]; exact i3, ?_, ?_, ?_⟩
      · intro g hg
        rcases List.mem_cons.1 hg with rfl | hg
        · exact le_rfl
        · exact i4 g hg
      · change _ + ((0 : ℝ) :: ((t.release a).run ops).1).sum ≤ _ + (max a 0 + returnedTotal ops)
        rw [List.sum_cons, zero_add]
        change ((t.release a).run ops).2.tokens + _ ≤ _
        linarith
      · change _ ≤ _ + ((0 : ℝ) :: ((t.release a).run ops).1).sum
        rw [List.sum_cons, zero_add]
        change _ ≤ ((t.release a).run ops).2.tokens + _
        linarith

/-- **C29** (exact arithmetic). For every history on a new manager: the balance stays between zero and the maximum, every
grant is non-negative, and what was handed out is covered by the initial balance plus what was put back. -/
theorem C29_bounded_and_conserved (m : ℝ) (ops : List (TokenOp ℝ)) :
    0 ≤ ((TokenManager.new m).run ops).2.available ∧
    ((TokenManager.new m).run ops).2.available ≤ max m 0 ∧
    (∀ g ∈ ((TokenManager.new m).run ops).1, 0 ≤ g) ∧
    ((TokenManager.new m).run ops).2.available + ((TokenManager.new m).run ops).1.sum ≤
      max m 0 + returnedTotal ops ∧
    max m 0 ≤ ((TokenManager.new m).run ops).2.available + ((TokenManager.new m).run ops).1.sum := by
  have e : TokenManager.new m = ⟨max m 0, max m 0⟩ := by
    unfold TokenManager.new
    split_ifs with h
    · rw [max_eq_right h.le]
    · rw [max_eq_left (not_lt.1 h)]
  rw [e]
  obtain ⟨i1, i2, -, i4, i5, i6⟩ := token_run_real ops ⟨max m 0, max m 0⟩ (le_max_right _ _) le_rfl
  exact ⟨i1, i2, i4, i5, i6⟩

/-- No release of the history is cut at the maximum: each finds enough room. -/
def NoCut (t : TokenManager ℝ) : List (TokenOp ℝ) → Prop
  | [] => True
  | op :: ops => (∀ a, op = .release a → t.tokens + max a 0 ≤ t.maxTokens) ∧ NoCut (t.step op).2 ops

/-- As long as no release is cut, the books balance exactly: available + handed out = initial + put back. -/
theorem C29_exact_balance (ops : List (TokenOp ℝ)) (t : TokenManager ℝ) (h0 : 0 ≤ t.tokens)
    (h1 : t.tokens ≤ t.maxTokens) (hc : NoCut t ops) :
    (t.run ops).2.tokens + (t.run ops).1.sum = t.tokens + returnedTotal ops := by
  induction ops generalizing t with
  | nil => simp [TokenManager.run, returnedTotal]
  | cons op ops ih =>
    cases op with
    | request a =>
      obtain ⟨e1, e2, e3⟩ := C29_request t h0 a
      have g0 : 0 ≤ (t.request a).1 := by rw [e1]; exact le_max_left _ _
      have gle : (t.request a).1 ≤ t.tokens := by rw [e1]; exact max_le h0 (min_le_right _ _)
      have i := ih (t.request a).2 (by linarith) (by rw [e3]; linarith) hc.2
      change ((t.request a).2.run ops).2.tokens + ((t.request a).1 :: ((t.request a).2.run ops).1).sum =
        _ + returnedTotal ops
      rw [List.sum_cons]; linarith
    | release a =>
      obtain ⟨e1, e2⟩ := C29_release t h1 a
      have hr := hc.1 a rfl
      rw [min_eq_left hr] at e1
      have i := ih (t.release a) (by rw [e1]; linarith [le_max_right a 0]) (by rw [e1, e2]; exact hr) hc.2
      change ((t.release a).run ops).2.tokens + ((0 : ℝ) :: ((t.release a).run ops).1).sum =
        _ + (max a 0 + returnedTotal ops)
      rw [List.sum_cons]; linarith

example : NoCut ⟨5, 10⟩ [.request 3, .release 4, .request 2] := by
  simp only [NoCut, TokenManager.step, TokenManager.request, TokenManager.release, GoMath.fmin_real]
  norm_num
  exact ⟨by rintro a ⟨⟩, by rintro a ⟨⟩⟩

/-! ### The same bounds in IEEE doubles -/

section F64
variable [Rounding] [LibM]

namespace F64
omit [Rounding] [LibM] in
theorem fin_le_self (a : Dbl) : fin a ≤ fin a := le_refl a.1

omit [Rounding] [LibM] in
theorem cases_pos {a : F64} (hn : a ≠ nan) (h : ¬ a ≤ 0) : a = pinf ∨ ∃ x, a = fin x ∧ 0 < x.1 := by
  cases a with
  | nan => exact absurd rfl hn
  | pinf => exact Or.inl rfl
  | ninf => exact absurd trivial h
  | fin x => exact Or.inr ⟨x, rfl, not_le.1 h⟩
end F64

/-- The balance and the maximum are ordinary numbers with 0 ≤ balance ≤ maximum. -/
def TokenOK (t : TokenManager F64) : Prop :=
  ∃ x m : Dbl, t.tokens = .fin x ∧ t.maxTokens = .fin m ∧ 0 ≤ x.1 ∧ x.1 ≤ m.1

omit [Rounding] [LibM] in
theorem TokenOK.bounds {t : TokenManager F64} (h : TokenOK t) : 0 ≤ t.tokens ∧ t.tokens ≤ t.maxTokens := by
  obtain ⟨x, m, h1, h2, h3, h4⟩ := h
  rw [h1, h2]; exact ⟨h3, h4⟩

/-- A request in doubles: grants at most what is asked for and at most what is there, everything asked for if that is
available, and the balance stays in range without ever growing. -/
theorem C29_request_f64 (t : TokenManager F64) (h : TokenOK t) (a : F64) (ha : a ≠ .nan) :
    TokenOK (t.request a).2 ∧ (t.request a).2.maxTokens = t.maxTokens ∧ (t.request a).2.tokens ≤ t.tokens ∧
    0 ≤ (t.request a).1 ∧ (t.request a).1 ≤ t.tokens ∧ (0 ≤ a → (t.request a).1 ≤ a) ∧
    (0 ≤ a → a ≤ t.tokens → (t.request a).1 = a) ∧ (t.tokens ≤ a → (t.request a).1 = t.tokens) := by
  obtain ⟨x, m, h1, h2, h3, h4⟩ := h
  obtain ⟨tk, mx⟩ := t
  dsimp only at h1 h2; subst h1; subst h2
  unfold TokenManager.request
  by_cases c1 : a ≤ 0
  · rw [if_pos c1]
    refine ⟨⟨x, m, rfl, rfl, h3, h4⟩, rfl, F64.fin_le_self _, F64.fin_le_self _, h3, fun h => h, fun h _ => ?_, fun h => ?_⟩
    · cases a with
      | fin y =>
        have : y.1 = 0 := le_antisymm c1 h
        change F64.fin _ = F64.fin _; congr 1; ext1; exact this.symm
      | nan => exact absurd rfl ha
      | pinf => exact absurd c1 (by simp)
      | ninf => exact h.elim
    · cases a with
      | fin y =>
        have : x.1 = 0 := le_antisymm (le_trans h c1) h3
        change F64.fin _ = F64.fin _; congr 1; ext1; exact this.symm
      | nan => exact absurd rfl ha
      | pinf => exact absurd c1 (by simp)
      | ninf => exact h.elim
  · rw [if_neg c1]
    by_cases c2 : F64.fin x ≤ 0
    · dsimp only
      rw [if_pos c2]
      have hx : x.1 = 0 := le_antisymm c2 h3
      refine ⟨⟨x, m, rfl, rfl, h3, h4⟩, rfl, F64.fin_le_self _, F64.fin_le_self _, h3, fun h => h, fun h h' => ?_, fun h => ?_⟩
      · rcases F64.cases_pos ha c1 with rfl | ⟨y, rfl, hy⟩
        · exact absurd h' (by simp)
        · have : y.1 ≤ x.1 := h'
          linarith
      · change F64.fin _ = F64.fin _; congr 1; ext1; exact hx.symm
    · dsimp only
      rw [if_neg c2]
      have hx : 0 < x.1 := not_le.1 c2
      -- the granted amount
      obtain ⟨g, hg, hg0, hgx, hga, hfull, hall⟩ : ∃ g : Dbl, (fmin a (F64.fin x) : F64) = .fin g ∧ 0 < g.1 ∧
          g.1 ≤ x.1 ∧ F64.fin g ≤ a ∧ (a ≤ F64.fin x → F64.fin g = a) ∧ (F64.fin x ≤ a → F64.fin g = F64.fin x) := by
        rcases F64.cases_pos ha c1 with rfl | ⟨y, rfl, hy⟩
        · exact ⟨x, rfl, hx, le_rfl, trivial, fun h => absurd h (by simp), fun _ => rfl⟩
        · by_cases hyx : y.1 < x.1
          · refine ⟨y, ?_, hy, hyx.le, F64.fin_le_self _, fun _ => rfl, fun h => absurd h (not_le.2 hyx)⟩
            change (if y.1 < x.1 then F64.fin y else F64.fin x) = _; rw [if_pos hyx]
          · refine ⟨x, ?_, hx, le_rfl, not_lt.1 hyx, fun h => ?_, fun _ => rfl⟩
            · change (if y.1 < x.1 then F64.fin y else F64.fin x) = _; rw [if_neg hyx]
            · congr 1; ext1; exact le_antisymm (not_lt.1 hyx) h
      rw [hg, F64.sub_fin]
      obtain ⟨r, hr, er, r0, rx⟩ := F64.ofReal_between (x := x.1 - g.1) isDouble_zero x.2 (by linarith) (by linarith)
      rw [er]
      exact ⟨⟨⟨r, hr⟩, m, rfl, rfl, r0, rx.trans h4⟩, rfl, rx, hg0.le, hgx, fun _ => hga,
        fun _ => hfull, hall⟩

/-- A release in doubles: the balance stays in range, never shrinks, and is exactly the maximum once the exact sum
reaches it. -/
theorem C29_release_f64 (t : TokenManager F64) (h : TokenOK t) (a : F64) (ha : a ≠ .nan) :
    TokenOK (t.release a) ∧ (t.release a).maxTokens = t.maxTokens ∧ t.tokens ≤ (t.release a).tokens ∧
    (a ≤ 0 → (t.release a) = t) ∧ (t.maxTokens ≤ a → t.maxTokens ≠ 0 → (t.release a).tokens = t.maxTokens) := by
  obtain ⟨x, m, h1, h2, h3, h4⟩ := h
  obtain ⟨tk, mx⟩ := t
  dsimp only at h1 h2; subst h1; subst h2
  unfold TokenManager.release
  by_cases c1 : a ≤ 0
  · rw [if_pos c1]
    refine ⟨⟨x, m, rfl, rfl, h3, h4⟩, rfl, F64.fin_le_self _, fun _ => rfl, fun h h' => ?_⟩
    exfalso
    cases a with
    | fin y =>
      apply h'
      have h5 : m.1 ≤ y.1 := h
      have h6 : y.1 ≤ 0 := c1
      change F64.fin _ = F64.fin _; congr 1; ext1; change m.1 = 0; linarith
    | nan => exact absurd rfl ha
    | pinf => exact absurd c1 (by simp)
    | ninf => exact h.elim
  · rw [if_neg c1]
    dsimp only
    -- the unclipped sum
    have hmin : ∀ s : F64, s = .pinf ∨ (∃ y : Dbl, s = .fin y ∧ x.1 ≤ y.1) →
        ∃ z : Dbl, (fmin s (F64.fin m) : F64) = .fin z ∧ x.1 ≤ z.1 ∧ z.1 ≤ m.1 ∧ (F64.fin m ≤ s → z = m) := by
      rintro s (rfl | ⟨y, rfl, hy⟩)
      · exact ⟨m, rfl, h4, le_rfl, fun _ => rfl⟩
      · by_cases c : y.1 < m.1
        · refine ⟨y, ?_, hy, c.le, fun h => absurd h (not_le.2 c)⟩
          change (if y.1 < m.1 then F64.fin y else F64.fin m) = _; rw [if_pos c]
        · refine ⟨m, ?_, h4, le_rfl, fun _ => rfl⟩
          change (if y.1 < m.1 then F64.fin y else F64.fin m) = _; rw [if_neg c]
    have hsum : (F64.fin x + a = .pinf ∨ ∃ y : Dbl, F64.fin x + a = .fin y ∧ x.1 ≤ y.1) ∧
        (F64.fin m ≤ a → F64.fin m ≤ F64.fin x + a) := by
      rcases F64.cases_pos ha c1 with rfl | ⟨y, rfl, hy⟩
      · exact ⟨Or.inl rfl, fun _ => trivial⟩
      · rw [F64.add_fin]
        unfold F64.ofReal
        split_ifs with q1 q2
        · exact ⟨Or.inr ⟨_, rfl, le_rnd x.2 (by linarith)⟩, fun h => le_rnd m.2 (by have : m.1 ≤ y.1 := h; linarith)⟩
        · exact ⟨Or.inl rfl, fun _ => trivial⟩
        · exact absurd (by linarith : 0 < x.1 + y.1) q2
    obtain ⟨z, hz, z1, z2, z3⟩ := hmin _ hsum.1
    rw [hz]
    exact ⟨⟨z, m, rfl, rfl, h3.trans z1, z2⟩, rfl, z1, fun h => absurd h c1,
      fun h _ => by rw [z3 (hsum.2 h)]⟩

/-- The amount of a call. -/
def TokenOp.amount {α : Type} : TokenOp α → α
  | .request a => a
  | .release a => a

omit [Rounding] [LibM] in
theorem tokenOK_new {m : F64} (hm : F64.IsFinite m) : TokenOK (TokenManager.new m) := by
  cases m with
  | fin x =>
    unfold TokenManager.new
    by_cases h : F64.fin x < 0
    · simp only [if_pos h]; exact ⟨_, _, rfl, rfl, le_rfl, le_rfl⟩
    · simp only [if_neg h]; exact ⟨_, _, rfl, rfl, not_lt.1 h, le_rfl⟩
  | _ => exact hm.elim

theorem tokenOK_run (ops : List (TokenOp F64)) (t : TokenManager F64) (h : TokenOK t)
    (hops : ∀ op ∈ ops, op.amount ≠ .nan) : TokenOK (t.run ops).2 ∧ (t.run ops).2.maxTokens = t.maxTokens := by
  induction ops generalizing t with
  | nil => exact ⟨h, rfl⟩
  | cons op ops ih =>
    have hop := hops op List.mem_cons_self
    have hrest := fun o ho => hops o (List.mem_cons_of_mem _ ho)
    cases op with
    | request a =>
      obtain ⟨k1, k2, -⟩ := C29_request_f64 t h a hop
      obtain ⟨i1, i2⟩ := ih _ k1 hrest
      exact ⟨i1, i2.trans k2⟩
    | release a =>
      obtain ⟨k1, k2, -⟩ := C29_release_f64 t h a hop
      obtain ⟨i1, i2⟩ := ih _ k1 hrest
      exact ⟨i1, i2.trans k2⟩

/-- **C29** (IEEE doubles, every round-to-nearest mode). With a finite maximum and no NaN amount, the balance stays
between zero and the maximum through every history, infinite amounts included. -/
theorem C29_bounded_f64 (m : F64) (hm : F64.IsFinite m) (ops : List (TokenOp F64))
    (hops : ∀ op ∈ ops, op.amount ≠ .nan) :
    0 ≤ ((TokenManager.new m).run ops).2.available ∧
    ((TokenManager.new m).run ops).2.available ≤ (TokenManager.new m).maxTokens := by
  obtain ⟨h1, h2⟩ := tokenOK_run ops _ (tokenOK_new hm) hops
  have := h1.bounds
  rw [h2] at this
  exact this

example : F64.IsFinite (1 : F64) ∧ ∀ op ∈ [TokenOp.request F64.pinf, .release F64.pinf, .request (1 : F64)],
    op.amount ≠ .nan := by
  refine ⟨trivial, ?_⟩
  simp [TokenOp.amount]

/-! ## C30 Hostile amounts -/

/-- The claim: whatever the amounts, the balance stays between zero and the maximum. -/
def C30_claim : Prop := ∀ (m : F64), F64.IsFinite m → ∀ ops : List (TokenOp F64),
  0 ≤ ((TokenManager.new m).run ops).2.available ∧
  ((TokenManager.new m).run ops).2.available ≤ (TokenManager.new m).maxTokens

/-- The claim is false: requesting NaN from a manager with one token. -/
theorem C30_refuted : ¬ C30_claim := fun h => by
  have := (h 1 trivial [.request .nan]).1
  have e : ((TokenManager.new (1 : F64)).run [.request .nan]).2.available = .nan := by
    have h1 : ¬ (1 : F64) < 0 := by simp
    have h2 : ¬ (F64.nan ≤ (0 : F64)) := by simp
    have h3 : ¬ ((1 : F64) ≤ 0) := by simp
    simp only [TokenManager.run, TokenManager.step, TokenManager.request, TokenManager.new, if_neg h1, if_neg h2,
      if_neg h3]
    rfl
  rw [e] at this
  simp at this

theorem F64.fmin_nan_right {a : F64} (h : ¬ a ≤ 0) : (fmin a F64.nan : F64) = .nan := by
  cases a with
  | ninf => exact absurd trivial h
  | _ => rfl

/-- Once the balance is NaN it stays NaN whatever is called, and every positive request is granted NaN. -/
theorem C30_poisoned_forever (t : TokenManager F64) (h : t.tokens = .nan) (hm : F64.IsFinite t.maxTokens)
    (ops : List (TokenOp F64)) : (t.run ops).2.tokens = .nan ∧
    ∀ a : F64, 0 < a → ((t.run ops).2.request a).1 = .nan := by
  have hstep : ∀ (t : TokenManager F64) (op : TokenOp F64), t.tokens = .nan → F64.IsFinite t.maxTokens →
      (t.step op).2.tokens = .nan ∧ (t.step op).2.maxTokens = t.maxTokens := by
    intro t op h hm
    cases op with
    | request a =>
      unfold TokenManager.step TokenManager.request
      dsimp only
      split_ifs with h1 h2
      · exact ⟨h, rfl⟩
      · exact ⟨h, rfl⟩
      · refine ⟨?_, rfl⟩
        dsimp only
        rw [h]; rfl
    | release a =>
      unfold TokenManager.step TokenManager.release
      dsimp only
      split_ifs with h1
      · exact ⟨h, rfl⟩
      · refine ⟨?_, rfl⟩
        dsimp only
        rw [h]
        cases hmx : t.maxTokens with
        | fin x => rfl
        | _ => rw [hmx] at hm; exact hm.elim
  have hn : (t.run ops).2.tokens = .nan := by
    induction ops generalizing t with
    | nil => exact h
    | cons op ops ih =>
      obtain ⟨h1, h2⟩ := hstep t op h hm
      exact ih _ h1 (by rw [h2]; exact hm)
  refine ⟨hn, fun a ha => ?_⟩
  have h1 : ¬ a ≤ 0 := by
    cases a with
    | fin x => exact fun h => absurd ha (not_lt.2 (show x.1 ≤ 0 from h))
    | pinf => simp
    | ninf => simp at ha
    | nan => simp
  have h2 : ¬ (F64.nan ≤ (0 : F64)) := by simp
  unfold TokenManager.request
  rw [hn, if_neg h1]
  dsimp only
  rw [if_neg h2]
  exact F64.fmin_nan_right h1

/-- What does hold for every amount: starting in range, one call leaves the balance in range or turns it into NaN, and
the latter happens exactly for a NaN release or a NaN request on a positive balance. -/
theorem C30_step_partial (t : TokenManager F64) (h : TokenOK t) (op : TokenOp F64) :
    (TokenOK (t.step op).2 ∨ (t.step op).2.tokens = .nan) ∧
    ((t.step op).2.tokens = .nan ↔ op.amount = .nan ∧ ((∃ a, op = .release a) ∨ 0 < t.tokens)) := by
  have hok : ∀ t' : TokenManager F64, TokenOK t' → t'.tokens ≠ .nan := by
    rintro t' ⟨x, m, h1, -⟩ h2; rw [h1] at h2; cases h2
  by_cases hn : op.amount = .nan
  · obtain ⟨x, m, h1, h2, h3, h4⟩ := h
    cases op with
    | request a =>
      have hn : a = .nan := hn
      subst hn
      have c1 : ¬ (F64.nan ≤ (0 : F64)) := by simp
      unfold TokenManager.step TokenManager.request
      dsimp only
      rw [if_neg c1, h1]
      by_cases c2 : F64.fin x ≤ 0
      · rw [if_pos c2]
        refine ⟨Or.inl ⟨x, m, h1, h2, h3, h4⟩, iff_of_false (hok t ⟨x, m, h1, h2, h3, h4⟩) ?_⟩
        rintro ⟨-, ⟨a, ha⟩ | h5⟩
        · cases ha
        · exact absurd (show x.1 ≤ 0 from c2) (not_le.2 h5)
      · rw [if_neg c2]
        have : (F64.fin x - fmin F64.nan (F64.fin x) : F64) = .nan := rfl
        exact ⟨Or.inr this, iff_of_true this ⟨rfl, Or.inr (show 0 < x.1 from not_le.1 c2)⟩⟩
    | release a =>
      have hn : a = .nan := hn
      subst hn
      have c1 : ¬ (F64.nan ≤ (0 : F64)) := by simp
      unfold TokenManager.step TokenManager.release
      dsimp only
      rw [if_neg c1, h1, h2]
      have : (fmin (F64.fin x + F64.nan) (F64.fin m) : F64) = .nan := rfl
      exact ⟨Or.inr this, iff_of_true this ⟨rfl, Or.inl ⟨_, rfl⟩⟩⟩
  · have : TokenOK (t.step op).2 := by
      cases op with
      | request a => exact (C29_request_f64 t h a hn).1
      | release a => exact (C29_release_f64 t h a hn).1
    exact ⟨Or.inl this, iff_of_false (hok _ this) (fun h => hn h.1)⟩

/-- An infinite budget is no protection: requesting an infinite amount from it also yields NaN (∞ − ∞). -/
theorem C30_infinite_budget :
    ((TokenManager.new F64.pinf).request F64.pinf).2.tokens = .nan := by
  have h1 : ¬ (F64.pinf < (0 : F64)) := by simp
  have h2 : ¬ (F64.pinf ≤ (0 : F64)) := by simp
  simp only [TokenManager.new, TokenManager.request, if_neg h1, if_neg h2]
  rfl

/-! ## C32 Random floats and phases -/

/-- **C32.** In doubles a random float is exactly `k / 2^53` for the low 53 bits `k` of the word — no rounding takes
place. -/
theorem C32_float_exact (w : ℕ) : ∃ h, (randFloat64 w : F64) = .fin ⟨(w % 2 ^ 53 : ℕ) / 2 ^ 53, h⟩ := by
  have hlt : w % 2 ^ 53 < 2 ^ 53 := Nat.mod_lt _ (by norm_num)
  unfold randFloat64
  generalize w % 2 ^ 53 = k at *
  have hz : |(k : ℤ)| < 2 ^ 53 := by
    rw [abs_of_nonneg (by positivity)]; exact_mod_cast hlt
  have hd1 : IsDouble ((k : ℤ) : ℝ) := isDouble_int hz
  have hd2 : IsDouble (((2 : ℤ) ^ 53 : ℤ) : ℝ) := ⟨1, 53, by norm_num, by norm_num, by norm_num, by norm_num⟩
  have hd3 : IsDouble ((k : ℝ) / 2 ^ 53) := ⟨k, -53, hz, by norm_num, by norm_num, by
    rw [zpow_neg, div_eq_mul_inv]; norm_num⟩
  have e1 : (ofInt (k : ℤ) : F64) = .fin ⟨_, hd1⟩ := F64.ofReal_of_isDouble hd1
  have e2 : (ofInt (2 ^ 53) : F64) = .fin ⟨_, hd2⟩ := F64.ofReal_of_isDouble hd2
  refine ⟨hd3, ?_⟩
  rw [e1, e2, F64.div_fin (by push_cast; norm_num), ← F64.ofReal_of_isDouble hd3]
  congr 1; push_cast; norm_num

/-- It lies in [0, 1), and every multiple of 2^-53 there is produced by some word. -/
theorem C32_float_range :
    (∀ w : ℕ, ∃ x : Dbl, (randFloat64 w : F64) = .fin x ∧ 0 ≤ x.1 ∧ x.1 < 1) ∧
    ∀ k : ℕ, k < 2 ^ 53 → ∃ w < 2 ^ 64, ∃ x : Dbl, (randFloat64 w : F64) = .fin x ∧ x.1 = k / 2 ^ 53 := by
  constructor
  · intro w
    obtain ⟨h, e⟩ := C32_float_exact w
    refine ⟨_, e, by positivity, ?_⟩
    have hlt : w % 2 ^ 53 < 2 ^ 53 := Nat.mod_lt _ (by norm_num)
    dsimp only
    rw [div_lt_one (by norm_num)]; exact_mod_cast hlt
  · intro k hk
    obtain ⟨h, e⟩ := C32_float_exact k
    refine ⟨k, hk.trans (by norm_num), _, e, ?_⟩
    dsimp only
    rw [Nat.mod_eq_of_lt hk]

/-- A random phase, computed in doubles with two rounded multiplications, is in [0, 2π): strictly below the double that
Go uses for `2*math.Pi`, which is itself below 2π. -/
theorem C32_phase (w : ℕ) : ∃ x : Dbl, (randPhase w : F64) = .fin x ∧ 0 ≤ x.1 ∧ x.1 < F64.tau.1 ∧
    F64.tau.1 < 2 * Real.pi := by
  obtain ⟨h, e⟩ := C32_float_exact w
  have hlt : w % 2 ^ 53 < 2 ^ 53 := Nat.mod_lt _ (by norm_num)
  have hk : ((w % 2 ^ 53 : ℕ) : ℝ) ≤ 2 ^ 53 - 1 := by
    have : w % 2 ^ 53 + 1 ≤ 2 ^ 53 := hlt
    have : (((w % 2 ^ 53 : ℕ) : ℝ) + 1) ≤ 2 ^ 53 := by exact_mod_cast this
    linarith
  have hz : |((w % 2 ^ 53 : ℕ) : ℤ)| < 2 ^ 53 := by
    rw [abs_of_nonneg (by positivity)]; exact_mod_cast hlt
  have hpos : (0 : ℝ) ≤ (w % 2 ^ 53 : ℕ) := by positivity
  unfold randPhase
  rw [e, F64.piMul_one]
  clear e
  revert hk hz hpos
  revert h
  generalize w % 2 ^ 53 = k
  intro h hk hz hpos
  have d2 : IsDouble (2 : ℝ) := isDouble_ofNat 2 (by norm_num)
  have e2 : (2.0 : F64) = .fin ⟨2, d2⟩ := by
    change F64.ofReal (2.0 : ℝ) = _
    rw [show (2.0 : ℝ) = 2 by norm_num, F64.ofReal_of_isDouble d2]
  have d3 : IsDouble ((k : ℝ) / 2 ^ 53 * 2) := ⟨k, -52, hz, by norm_num, by norm_num, by
    rw [zpow_neg]; norm_num; ring⟩
  rw [e2, F64.mul_fin]
  dsimp only
  rw [F64.ofReal_of_isDouble d3, F64.mul_fin]
  dsimp only
  have hpd : 3.14 < piDouble ∧ piDouble < 3.15 := by unfold piDouble; constructor <;> norm_num
  -- the exact product and its upper bound
  have hy0 : 0 ≤ (k : ℝ) / 2 ^ 53 * 2 * piDouble := by
    have := hpd.1
    have : (0 : ℝ) < piDouble := by linarith
    positivity
  have hy : (k : ℝ) / 2 ^ 53 * 2 * piDouble ≤ 2 * piDouble * (1 - 1 / 2 ^ 53) := by
    have : (k : ℝ) / 2 ^ 53 ≤ 1 - 1 / 2 ^ 53 := by
      rw [div_le_iff₀ (by norm_num)]; norm_num at hk ⊢; linarith
    nlinarith [hpd.1]
  have dc : IsDouble (2 * piDouble - 1 / 2 ^ 50) := ⟨7074237752028439, -50, by norm_num, by norm_num, by norm_num, by
    unfold piDouble; rw [zpow_neg]; norm_num⟩
  have hr := nearest (2 * piDouble * (1 - 1 / 2 ^ 53)) _ dc
  have hlt' : rnd (2 * piDouble * (1 - 1 / 2 ^ 53)) < 2 * piDouble := by
    have h1 := (abs_le.1 hr).2
    rw [abs_of_nonpos (by linarith [hpd.2])] at h1
    norm_num at h1 ⊢
    linarith [hpd.1]
  unfold F64.ofReal
  rw [if_pos]
  · refine ⟨_, rfl, le_rnd isDouble_zero hy0, ?_, ?_⟩
    · rw [F64.tau_eq]; exact (rnd_mono hy).trans_lt hlt'
    · rw [F64.tau_eq]; have := piDouble_lt_pi; linarith
  · rw [abs_of_nonneg hy0]
    have := (isDouble_ofNat 7 (by norm_num)).abs_lt_overflow
    rw [abs_of_pos (by norm_num)] at this
    have h7 : 2 * piDouble * (1 - 1 / 2 ^ 53) ≤ 7 := by nlinarith [hpd.1, hpd.2]
    linarith

example : (randFloat64 (2 ^ 53 + 1) : ℝ) = 1 / 2 ^ 53 := by
  simp only [randFloat64, ofInt_real]; norm_num

end F64

/-! ## C31 Random integers -/

/-- **C31.** The call panics exactly for n ≤ 0 and n ≥ 2^31. -/
theorem C31_panics_iff (n : ℤ) (ws : List ℕ) : intn n ws = .panic ↔ n ≤ 0 ∨ 2 ^ 31 ≤ n := by
  unfold intn
  split_ifs <;> simp <;> omega

theorem intnLoop_lt {n : ℕ} (hn : 0 < n) (m : ℕ) (ws : List ℕ) (v : ℕ) (h : intnLoop n m ws = some v) : v < n := by
  induction ws with
  | nil => cases h
  | cons w ws ih =>
    unfold intnLoop at h
    split_ifs at h with hw
    · cases h; exact Nat.mod_lt _ hn
    · exact ih h

/-- Whenever the call returns, the value is at least 0 and below n. -/
theorem C31_in_range (n : ℤ) (ws : List ℕ) (v : ℕ) (h : intn n ws = .ok (some v)) : (v : ℤ) < n := by
  unfold intn at h
  split_ifs at h with h1 h2 h3
  · cases h; omega
  · injection h with h
    have := intnLoop_lt (n := n.toNat) (by omega) _ _ _ h
    omega

theorem int31n_of_lt {v : ℕ} (h : v < 2 ^ 31) : int31n v = v := Nat.mod_eq_of_lt h

theorem intn_eq {n : ℕ} (h1 : 1 < n) (h2 : n < 2 ^ 31) (ws : List ℕ) :
    intn n ws = .ok (intnLoop n ((2 ^ 31 - 1) / n * n) ws) := by
  unfold intn
  rw [if_neg (by omega), if_neg (by omega), if_pos (by omega), Int.toNat_natCast]

example : intn 10 [2 ^ 31 - 1, 2 ^ 31 + 17] = .ok (some 7) := by rfl

/-- Every value below n is obtained from exactly the same number of 31-bit draws. -/
theorem C31_equal_shares (n : ℕ) (h1 : 1 < n) (h2 : n < 2 ^ 31) (r : ℕ) (hr : r < n) :
    ((Finset.range (2 ^ 31)).filter fun v => intn (n : ℤ) [v] = Outcome.ok (some r)).card = (2 ^ 31 - 1) / n := by
  have hq : (2 ^ 31 - 1) / n * n ≤ 2 ^ 31 - 1 := Nat.div_mul_le_self _ _
  have e : ((Finset.range (2 ^ 31)).filter fun v => intn (n : ℤ) [v] = Outcome.ok (some r)) =
      (Finset.range ((2 ^ 31 - 1) / n)).image fun i => i * n + r := by
    ext v
    simp only [Finset.mem_filter, Finset.mem_range, Finset.mem_image, intn_eq h1 h2, intnLoop,
      Outcome.ok.injEq]
    generalize (2 ^ 31 - 1) / n = q at *
    constructor
    · rintro ⟨hv, h⟩
      simp only [int31n_of_lt hv] at h
      split_ifs at h with hvq
      injection h with h
      refine ⟨v / n, Nat.div_lt_of_lt_mul (by rwa [mul_comm]), ?_⟩
      rw [← h, mul_comm]; exact Nat.div_add_mod v n
    · rintro ⟨i, hi, rfl⟩
      have : i * n + r < q * n := by nlinarith
      refine ⟨by omega, ?_⟩
      simp only [int31n_of_lt (show i * n + r < 2 ^ 31 by omega)]
      rw [if_pos this, mul_comm, Nat.mul_add_mod, Nat.mod_eq_of_lt hr]
  rw [e, Finset.card_image_of_injective _ (fun a b h => ?_), Finset.card_range]
  exact Nat.eq_of_mul_eq_mul_right (show 0 < n by omega) (Nat.add_right_cancel h)

/-- At least half of all draws are accepted. -/
theorem C31_acceptance (n : ℕ) (h1 : 1 < n) (h2 : n < 2 ^ 31) :
    2 ^ 31 ≤ 2 * ((Finset.range (2 ^ 31)).filter fun v => intn (n : ℤ) [v] ≠ Outcome.ok none).card := by
  have hq : (2 ^ 31 - 1) / n * n ≤ 2 ^ 31 - 1 := Nat.div_mul_le_self _ _
  have hm := Nat.div_add_mod (2 ^ 31 - 1) n
  have hlt := Nat.mod_lt (2 ^ 31 - 1) (show 0 < n by omega)
  have hq1 : 1 ≤ (2 ^ 31 - 1) / n := Nat.div_pos (by omega) (by omega)
  have e : ((Finset.range (2 ^ 31)).filter fun v => intn (n : ℤ) [v] ≠ Outcome.ok none) =
      Finset.range ((2 ^ 31 - 1) / n * n) := by
    ext v
    simp only [Finset.mem_filter, Finset.mem_range, intn_eq h1 h2, intnLoop, ne_eq, Outcome.ok.injEq]
    generalize (2 ^ 31 - 1) / n * n = q at *
    constructor
    · rintro ⟨hv, h⟩
      simp only [int31n_of_lt hv] at h
      by_contra hc
      exact h (if_neg hc)
    · intro hv
      have : v < 2 ^ 31 := by omega
      exact ⟨this, by simp only [int31n_of_lt this]; rw [if_pos hv]; simp⟩
  rw [e, Finset.card_range]
  generalize (2 ^ 31 - 1) / n = q at *
  have : n ≤ q * n := Nat.le_mul_of_pos_left n hq1
  rw [mul_comm] at hm
  omega

/-- Exchange the outcomes `r` and `r'` of a draw. -/
def swapDraw (n q r r' w : ℕ) : ℕ :=
  if w % 2 ^ 31 < q * n then w / 2 ^ 31 * 2 ^ 31 + (w % 2 ^ 31 / n * n + Equiv.swap r r' (w % 2 ^ 31 % n)) else w

section
variable {n q r r' : ℕ} (hq : q * n ≤ 2 ^ 31 - 1) (hr : r < n) (hr' : r' < n)
include hq hr hr'

omit hq in
theorem swap_lt {b : ℕ} (hb : b < n) : Equiv.swap r r' b < n := by
  rw [Equiv.swap_apply_def]; split_ifs <;> assumption

theorem swapDraw_acc {w : ℕ} (h : w % 2 ^ 31 < q * n) :
    swapDraw n q r r' w / 2 ^ 31 = w / 2 ^ 31 ∧
    swapDraw n q r r' w % 2 ^ 31 = w % 2 ^ 31 / n * n + Equiv.swap r r' (w % 2 ^ 31 % n) ∧
    w % 2 ^ 31 / n * n + Equiv.swap r r' (w % 2 ^ 31 % n) < q * n := by
  have hb := swap_lt hr hr' (Nat.mod_lt (w % 2 ^ 31) (show 0 < n by omega))
  have ha : w % 2 ^ 31 / n < q := Nat.div_lt_of_lt_mul (by rwa [mul_comm])
  have hlt : w % 2 ^ 31 / n * n + Equiv.swap r r' (w % 2 ^ 31 % n) < q * n := by
    generalize Equiv.swap r r' (w % 2 ^ 31 % n) = b at *
    generalize w % 2 ^ 31 / n = a at *
    nlinarith
  unfold swapDraw
  rw [if_pos h]
  generalize w % 2 ^ 31 / n * n + Equiv.swap r r' (w % 2 ^ 31 % n) = c at *
  refine ⟨?_, ?_, hlt⟩ <;> omega

theorem int31n_swapDraw (w : ℕ) :
    (int31n (swapDraw n q r r' w) < q * n ↔ int31n w < q * n) ∧
    (int31n w < q * n → int31n (swapDraw n q r r' w) % n = Equiv.swap r r' (int31n w % n)) := by
  unfold int31n
  by_cases h : w % 2 ^ 31 < q * n
  · obtain ⟨-, e2, e3⟩ := swapDraw_acc hq hr hr' h
    rw [e2]
    refine ⟨iff_of_true e3 h, fun _ => ?_⟩
    rw [mul_comm, Nat.mul_add_mod]
    exact Nat.mod_eq_of_lt (swap_lt hr hr' (Nat.mod_lt _ (by omega)))
  · unfold swapDraw
    rw [if_neg h]
    exact ⟨Iff.rfl, fun h' => absurd h' h⟩

theorem swapDraw_swapDraw (w : ℕ) : swapDraw n q r r' (swapDraw n q r r' w) = w := by
  by_cases h : w % 2 ^ 31 < q * n
  · obtain ⟨e1, e2, e3⟩ := swapDraw_acc hq hr hr' h
    have hb := swap_lt hr hr' (Nat.mod_lt (w % 2 ^ 31) (show 0 < n by omega))
    have u : ∀ x, x % 2 ^ 31 < q * n → swapDraw n q r r' x =
        x / 2 ^ 31 * 2 ^ 31 + (x % 2 ^ 31 / n * n + Equiv.swap r r' (x % 2 ^ 31 % n)) := by
      intro x hx; unfold swapDraw; rw [if_pos hx]
    rw [u (swapDraw n q r r' w) (by rw [e2]; exact e3), e1, e2]
    have d1 : (w % 2 ^ 31 / n * n + Equiv.swap r r' (w % 2 ^ 31 % n)) / n = w % 2 ^ 31 / n := by
      rw [mul_comm, Nat.mul_add_div (by omega), Nat.div_eq_of_lt hb, add_zero]
    have d2 : (w % 2 ^ 31 / n * n + Equiv.swap r r' (w % 2 ^ 31 % n)) % n = Equiv.swap r r' (w % 2 ^ 31 % n) := by
      rw [mul_comm, Nat.mul_add_mod, Nat.mod_eq_of_lt hb]
    rw [d1, d2, Equiv.swap_apply_self, mul_comm (w % 2 ^ 31 / n) n, Nat.div_add_mod, mul_comm, Nat.div_add_mod]
  · have : swapDraw n q r r' w = w := by unfold swapDraw; rw [if_neg h]
    rw [this, this]

theorem swapDraw_lt {w : ℕ} (hw : w < 2 ^ 32) : swapDraw n q r r' w < 2 ^ 32 := by
  by_cases h : w % 2 ^ 31 < q * n
  · obtain ⟨e1, e2, e3⟩ := swapDraw_acc hq hr hr' h
    have := Nat.div_add_mod (swapDraw n q r r' w) (2 ^ 31)
    omega
  · have : swapDraw n q r r' w = w := by unfold swapDraw; rw [if_neg h]
    omega

theorem intnLoop_swapDraw (ws : List ℕ) :
    intnLoop n (q * n) (ws.map (swapDraw n q r r')) = (intnLoop n (q * n) ws).map (Equiv.swap r r') := by
  induction ws with
  | nil => rfl
  | cons w ws ih =>
    obtain ⟨h1, h2⟩ := int31n_swapDraw hq hr hr' w
    simp only [List.map_cons, intnLoop]
    by_cases h : int31n w < q * n
    · rw [if_pos (h1.2 h), if_pos h, h2 h]; rfl
    · rw [if_neg (fun hc => h (h1.1 hc)), if_neg h, ih]

end

/-- Uniformity for any number of draws: among all sequences of `k` 32-bit words, equally many yield `r` and `r'`. -/
theorem C31_uniform (n : ℕ) (h1 : 1 < n) (h2 : n < 2 ^ 31) (k r r' : ℕ) (hr : r < n) (hr' : r' < n) :
    (Finset.univ.filter fun f : Fin k → Fin (2 ^ 32) =>
        intn (n : ℤ) (List.ofFn fun i => (f i : ℕ)) = Outcome.ok (some r)).card =
    (Finset.univ.filter fun f : Fin k → Fin (2 ^ 32) =>
        intn (n : ℤ) (List.ofFn fun i => (f i : ℕ)) = Outcome.ok (some r')).card := by
  have hq : (2 ^ 31 - 1) / n * n ≤ 2 ^ 31 - 1 := Nat.div_mul_le_self _ _
  simp only [intn_eq h1 h2]
  generalize (2 ^ 31 - 1) / n = q at *
  let σ : Fin (2 ^ 32) → Fin (2 ^ 32) := fun w => ⟨swapDraw n q r r' w, swapDraw_lt hq hr hr' w.2⟩
  have hσ : Function.Involutive σ := fun w => Fin.ext (swapDraw_swapDraw hq hr hr' w)
  refine Finset.card_equiv (Equiv.arrowCongr (Equiv.refl _) hσ.toPerm) fun f => ?_
  simp only [Finset.mem_filter, Finset.mem_univ, true_and]
  have e : (List.ofFn fun i => (((Equiv.arrowCongr (Equiv.refl (Fin k)) hσ.toPerm) f) i : ℕ)) =
      (List.ofFn fun i => (f i : ℕ)).map (swapDraw n q r r') := by
    rw [List.map_ofFn]; rfl
  rw [e, intnLoop_swapDraw hq hr hr']
  cases intnLoop n (q * n) (List.ofFn fun i => (f i : ℕ)) with
  | none => simp
  | some v =>
    simp only [Outcome.ok.injEq, Option.some.injEq, Option.map_some]
    rw [Equiv.swap_apply_eq_iff, Equiv.swap_apply_right]

end Verif
