import Verif.Model.Continuous
import Verif.Props.SyncSafe

/-!
# C54, C55: continuous running and the decision to resynchronise
-/

set_option autoImplicit false
set_option linter.unusedSectionVars false

namespace Verif
open GoMath

section generic
variable {α : Type} [Zero α] [One α] [Add α] [Sub α] [Mul α] [Div α] [Neg α] [LT α] [LE α]
  [DecidableLT α] [DecidableLE α] [BEq α] [OfScientific α] [GoMath α]

/-! ## C55 -/

/-- The documented reasons to resynchronise, without counters: coherence below the viable or the acceptable minimum, a large drop
from the peak, a small drop that leaves the coherence below the target, or a sudden drop since the last measurement. -/
def Spec.ResyncNeeded (cfg : RecoveryConfig α) (target peak last current : α) : Prop :=
  current < cfg.minimumViableCoherence ∨ current < target * cfg.targetMarginRatio ∨
  (peak * cfg.smallDropRatio < peak - current ∧ peak * cfg.largeDropRatio < peak - current) ∨
  (peak * cfg.smallDropRatio < peak - current ∧ current < target) ∨
  current < last - last * cfg.smallDropRatio

/-- **C55, exactness.** The decision is true exactly for the reasons of the specification, in reals and in doubles alike. In
particular it never depends on the count of measurements without improvement: the "stuck" rule can never fire, because it requires
a coherence for which an earlier rule has already decided. -/
theorem C55_exact (cfg : RecoveryConfig α) (target : α) (st : MonState α) (current : α) :
    (needsResync cfg target st current).1 = true ↔
      Spec.ResyncNeeded cfg target st.peakCoherence st.lastCoherence current := by
  unfold needsResync Spec.ResyncNeeded
  dsimp only
  split_ifs with h1 h2 h3 h4 h5
  · simp [h1]
  · simp [h2]
  · simp only [true_iff]; exact .inr (.inr (.inl h3))
  · simp only [true_iff]; exact .inr (.inr (.inr (.inl h4)))
  · exact absurd h5.2.2 h2
  all_goals
    rw [decide_eq_true_eq]
    constructor
    · intro h; exact .inr (.inr (.inr (.inr h)))
    · rintro (h | h | h | h | h)
      · exact absurd h h1
      · exact absurd h h2
      · exact absurd h h3
      · exact absurd h h4
      · exact h

/-- **C55.** The stuck threshold and the count play no role: changing both never changes a decision. -/
theorem C55_stuck_rule_dead (cfg : RecoveryConfig α) (target : α) (st : MonState α) (current : α) (threshold count : ℤ) :
    (needsResync { cfg with stuckThreshold := threshold } target { st with stableCount := count } current).1 =
      (needsResync cfg target st current).1 := by
  rw [Bool.eq_iff_iff, C55_exact, C55_exact]
  exact Iff.rfl

/-! ## C54 -/

/-- What holds in every state of a continuous run: the latest synchronisation is running and no other; or it has ended and its
result has not been received; or nothing is running. `syncActive` tells the third case from the others. -/
def Spec.OneSync (c : Cont α) : Prop :=
  (c.alive = [c.current] ∧ c.buffer = none ∧ c.mon.syncActive = true) ∨
  (c.alive = [] ∧ c.buffer ≠ none ∧ c.mon.syncActive = true) ∨
  (c.alive = [] ∧ c.buffer = none ∧ c.mon.syncActive = false)

theorem needsResync_keeps (cfg : RecoveryConfig α) (target : α) (st : MonState α) (current : α) :
    (needsResync cfg target st current).2.syncActive = st.syncActive ∧
    (needsResync cfg target st current).2.lastSyncTime = st.lastSyncTime ∧
    (needsResync cfg target st current).2.lastCoherence = st.lastCoherence ∧
    (needsResync cfg target st current).2.peakCoherence = st.peakCoherence := by
  unfold needsResync
  dsimp only
  split_ifs <;> exact ⟨rfl, rfl, rfl, rfl⟩

/-- The peak coherence after a tick that sees `current`: raised to it when it is higher, otherwise down by a twentieth of a per cent. -/
def Spec.decayedPeak (peak current : α) : α := if peak < current then current else peak * 0.9995

theorem newPeak_eq (peak current : α) : newPeak peak current = Spec.decayedPeak peak current := rfl

/-- What one tick does: it starts a synchronisation exactly when one is needed, none is active and more than half a second has
passed since the last start. -/
structure Spec.TickEffect (c : Cont α) (coherence : α) (check stamp : ℤ) (c' : Cont α) : Prop where
  frame : c'.ctx = c.ctx ∧ c'.recovery = c.recovery ∧ c'.goal = c.goal ∧ c'.target = c.target
  last : c'.mon.lastCoherence = coherence
  started : (Spec.ResyncNeeded c.recovery c.goal (Spec.decayedPeak c.mon.peakCoherence coherence) c.mon.lastCoherence coherence ∧
      c.mon.syncActive = false ∧ 500000000 < check - c.mon.lastSyncTime) →
    c'.mon.syncActive = true ∧ c'.mon.lastSyncTime = stamp ∧ c'.mon.peakCoherence = coherence ∧
    c'.current = c.current + 1 ∧ c'.alive = c.alive ++ [c.current + 1] ∧ c'.buffer = none ∧ c'.starts = (check, stamp) :: c.starts
  unchanged : ¬ (Spec.ResyncNeeded c.recovery c.goal (Spec.decayedPeak c.mon.peakCoherence coherence) c.mon.lastCoherence coherence ∧
      c.mon.syncActive = false ∧ 500000000 < check - c.mon.lastSyncTime) →
    c'.mon.syncActive = c.mon.syncActive ∧ c'.mon.lastSyncTime = c.mon.lastSyncTime ∧
    c'.mon.peakCoherence = Spec.decayedPeak c.mon.peakCoherence coherence ∧
    c'.current = c.current ∧ c'.alive = c.alive ∧ c'.buffer = c.buffer ∧ c'.starts = c.starts ∧ c'.gds = c.gds

theorem tick_effect (c : Cont α) (coherence : α) (check stamp : ℤ) :
    Spec.TickEffect c coherence check stamp (c.onTick coherence check stamp) := by
  have hx := C55_exact c.recovery c.goal { c.mon with peakCoherence := Spec.decayedPeak c.mon.peakCoherence coherence } coherence
  obtain ⟨k1, k2, -, k4⟩ := needsResync_keeps c.recovery c.goal
    { c.mon with peakCoherence := Spec.decayedPeak c.mon.peakCoherence coherence } coherence
  dsimp only at hx k1 k2 k4
  unfold Cont.onTick
  dsimp only
  rw [newPeak_eq]
  have hiff : ((needsResync c.recovery c.goal { c.mon with peakCoherence := Spec.decayedPeak c.mon.peakCoherence coherence } coherence).1 = true ∧
      (needsResync c.recovery c.goal { c.mon with peakCoherence := Spec.decayedPeak c.mon.peakCoherence coherence } coherence).2.syncActive = false ∧
      check - (needsResync c.recovery c.goal { c.mon with peakCoherence := Spec.decayedPeak c.mon.peakCoherence coherence } coherence).2.lastSyncTime >
        500 * millisecond) ↔
      (Spec.ResyncNeeded c.recovery c.goal (Spec.decayedPeak c.mon.peakCoherence coherence) c.mon.lastCoherence coherence ∧
      c.mon.syncActive = false ∧ 500000000 < check - c.mon.lastSyncTime) := by
    rw [hx, k1, k2]
    have : (500 * millisecond : ℤ) = 500000000 := by unfold millisecond; norm_num
    rw [this]
  split_ifs with h
  · exact ⟨⟨rfl, rfl, rfl, rfl⟩, rfl, fun _ => ⟨rfl, rfl, rfl, rfl, rfl, rfl, rfl⟩, fun hn => absurd (hiff.1 h) hn⟩
  · exact ⟨⟨rfl, rfl, rfl, rfl⟩, rfl, fun hy => absurd (hiff.2 hy) h, fun _ => ⟨k1, k2, k4, rfl, rfl, rfl, rfl, rfl⟩⟩

theorem finish_goOn {c c' : Cont α} {id : ℕ} {order : SyncMap ℕ → SyncMap ℕ} {evs : List (SyncEvent α)}
    (h : c.step (.finish id order evs) = some (.goOn c')) :
    id ∈ c.alive ∧ (c.gds.achieve order c.target evs).1 ≠ .panic ∧
    ¬ ((c.gds.achieve order c.target evs).1 = .cancelled ∧ id = c.current ∧ c.ctx = none) ∧
    ∃ v, (c.gds.achieve order c.target evs).1.sent (c.ctx.getD .canceled) = some v ∧
      c' = { c with gds := (c.gds.achieve order c.target evs).2.2, target := (c.gds.achieve order c.target evs).2.2.target
                    alive := c.alive.filter (· ≠ id), buffer := if id = c.current then some v else c.buffer } := by
  unfold Cont.step at h
  dsimp only at h
  by_cases h1 : id ∈ c.alive
  · rw [if_pos h1] at h
    by_cases h2 : (c.gds.achieve order c.target evs).1 = .panic
    · rw [if_pos h2] at h; cases h
    · rw [if_neg h2] at h
      by_cases h3 : (c.gds.achieve order c.target evs).1 = .cancelled ∧ id = c.current ∧ c.ctx = none
      · rw [if_pos h3] at h; cases h
      · rw [if_neg h3] at h
        obtain ⟨v, hv, hc⟩ := Option.map_eq_some_iff.1 h
        injection hc with hc
        exact ⟨h1, h2, h3, v, hv, hc.symm⟩
  · rw [if_neg h1] at h; cases h

theorem start_state {g : Gds α} {ctx : Option CtxErr} {x : α} {now : ℤ} {c : Cont α} (h : g.runContinuous ctx x now = .ok c) :
    Spec.OneSync c ∧ c.buffer = none ∧ c.ctx = ctx ∧ c.starts = [] ∧ c.mon.lastSyncTime = now := by
  unfold Gds.runContinuous at h
  dsimp only at h
  generalize (if g.swarm.recoveryConfig.checkInterval = 0 then defaultRecoveryConfig g.swarm.goalState.coherence
    else g.swarm.recoveryConfig) = r at h
  split_ifs at h
  injection h with h; subst h
  exact ⟨.inl ⟨rfl, rfl, rfl⟩, rfl, rfl, rfl, rfl⟩

theorem oneSync_step {c c' : Cont α} (h : Spec.OneSync c) (e : ContEvent α) (hs : c.step e = some (.goOn c')) :
    Spec.OneSync c' := by
  unfold Cont.step at hs
  cases e with
  | ctxDone err =>
    dsimp only at hs
    split_ifs at hs
    injection hs with hs; injection hs with hs; subst hs
    exact h
  | seeCtx =>
    dsimp only at hs
    cases hc : c.ctx with
    | none => rw [hc] at hs; cases hs
    | some x => rw [hc] at hs; cases hs
  | receive =>
    dsimp only at hs
    cases hb : c.buffer with
    | none => rw [hb] at hs; cases hs
    | some v =>
      rw [hb] at hs
      have key : Spec.OneSync { c with buffer := none, mon := { c.mon with syncActive := false } } := by
        rcases h with h | h | h
        · rw [hb] at h; cases h.2.1
        · exact .inr (.inr ⟨h.1, rfl, rfl⟩)
        · rw [hb] at h; cases h.2.1
      dsimp only at hs
      split at hs
      · injection hs with hs; injection hs with hs; subst hs; exact key
      · injection hs with hs; injection hs with hs; subst hs; exact key
      · cases hs
  | tick x ch st =>
    injection hs with hs; injection hs with hs; subst hs
    obtain ⟨-, -, t1, t2⟩ := tick_effect c x ch st
    by_cases hp : Spec.ResyncNeeded c.recovery c.goal (Spec.decayedPeak c.mon.peakCoherence x) c.mon.lastCoherence x ∧
      c.mon.syncActive = false ∧ 500000000 < ch - c.mon.lastSyncTime
    · obtain ⟨a1, -, -, a4, a5, a6, -⟩ := t1 hp
      have ha : c.alive = [] := by
        rcases h with h | h | h
        · rw [hp.2.1] at h; cases h.2.2
        · exact h.1
        · exact h.1
      exact .inl ⟨by rw [a4, a5, ha]; rfl, a6, a1⟩
    · obtain ⟨a1, -, -, a4, a5, a6, -⟩ := t2 hp
      unfold Spec.OneSync
      rw [a1, a4, a5, a6]
      exact h
  | finish id order evs =>
    obtain ⟨h1, -, -, v, -, rfl⟩ := finish_goOn hs
    have ha : c.alive = [c.current] ∧ id = c.current ∧ c.mon.syncActive = true := by
      rcases h with h | h | h
      · rw [h.1, List.mem_singleton] at h1; exact ⟨h.1, h1, h.2.2⟩
      · rw [h.1] at h1; cases h1
      · rw [h.1] at h1; cases h1
    refine .inr (.inl ⟨?_, ?_, ha.2.2⟩)
    · show List.filter _ c.alive = []
      rw [ha.1, ha.2.1]; simp
    · show (if id = c.current then some v else c.buffer) ≠ none
      rw [if_pos ha.2.1]; simp

theorem oneSync_steps {c c' : Cont α} {es : List (ContEvent α)} (h0 : Spec.OneSync c) (h : Cont.Steps c es c') : Spec.OneSync c' := by
  induction h with
  | nil => exact h0
  | snoc h1 h2 ih => exact oneSync_step ih _ h2

/-- **C54, at most one synchronisation.** In every state that a continuous run can reach, under every schedule, at most one
synchronisation goroutine is running, namely the latest one. -/
theorem C54_one_sync (g : Gds α) (ctx : Option CtxErr) (x : α) (now : ℤ) (c c' : Cont α) (es : List (ContEvent α))
    (h0 : g.runContinuous ctx x now = .ok c) (h : Cont.Steps c es c') : Spec.OneSync c' :=
  oneSync_steps (start_state h0).1 h

/-- Restarts, latest first, the first synchronisation having been stamped `t₀`: each check came more than half a second after
the stamp of the start before. -/
def Spec.Spaced (t₀ : ℤ) : List (ℤ × ℤ) → Prop
  | [] => True
  | [p] => 500000000 < p.1 - t₀
  | p :: q :: l => 500000000 < p.1 - q.2 ∧ Spec.Spaced t₀ (q :: l)

/-- The stamp of the latest start. -/
def Spec.lastStart (t₀ : ℤ) (l : List (ℤ × ℤ)) : ℤ := (l.head?.map Prod.snd).getD t₀

theorem spaced_cons (t₀ : ℤ) (p : ℤ × ℤ) (l : List (ℤ × ℤ)) (h : Spec.Spaced t₀ l) (hp : 500000000 < p.1 - Spec.lastStart t₀ l) :
    Spec.Spaced t₀ (p :: l) := by
  cases l with
  | nil => exact hp
  | cons q l => exact ⟨hp, h⟩

theorem step_starts {c c' : Cont α} (e : ContEvent α) (hs : c.step e = some (.goOn c')) :
    (c'.starts = c.starts ∧ c'.mon.lastSyncTime = c.mon.lastSyncTime) ∨
    ∃ x ch st, e = .tick x ch st ∧ c'.starts = (ch, st) :: c.starts ∧ c'.mon.lastSyncTime = st ∧ 500000000 < ch - c.mon.lastSyncTime ∧
      Spec.ResyncNeeded c.recovery c.goal (Spec.decayedPeak c.mon.peakCoherence x) c.mon.lastCoherence x ∧ c.mon.syncActive = false := by
  unfold Cont.step at hs
  cases e with
  | ctxDone err =>
    dsimp only at hs
    split_ifs at hs
    injection hs with hs; injection hs with hs; subst hs
    exact .inl ⟨rfl, rfl⟩
  | seeCtx =>
    dsimp only at hs
    cases hc : c.ctx with
    | none => rw [hc] at hs; cases hs
    | some x => rw [hc] at hs; cases hs
  | receive =>
    dsimp only at hs
    cases hb : c.buffer with
    | none => rw [hb] at hs; cases hs
    | some v =>
      rw [hb] at hs
      dsimp only at hs
      split at hs
      · injection hs with hs; injection hs with hs; subst hs; exact .inl ⟨rfl, rfl⟩
      · injection hs with hs; injection hs with hs; subst hs; exact .inl ⟨rfl, rfl⟩
      · cases hs
  | tick x ch st =>
    injection hs with hs; injection hs with hs; subst hs
    obtain ⟨-, -, t1, t2⟩ := tick_effect c x ch st
    by_cases hp : Spec.ResyncNeeded c.recovery c.goal (Spec.decayedPeak c.mon.peakCoherence x) c.mon.lastCoherence x ∧
      c.mon.syncActive = false ∧ 500000000 < ch - c.mon.lastSyncTime
    · obtain ⟨-, a2, -, -, -, -, a7⟩ := t1 hp
      exact .inr ⟨x, ch, st, rfl, a7, a2, hp.2.2, hp.1, hp.2.1⟩
    · obtain ⟨-, a2, -, -, -, -, a7, -⟩ := t2 hp
      exact .inl ⟨a7, a2⟩
  | finish id order evs =>
    obtain ⟨-, -, -, v, -, rfl⟩ := finish_goOn hs
    exact .inl ⟨rfl, rfl⟩

/-- **C54, spacing.** Under every schedule, consecutive synchronisations are started more than 500 ms apart: whenever one is
started, more than 500 ms have passed since the start of the one before was complete. -/
theorem C54_spacing (g : Gds α) (ctx : Option CtxErr) (x : α) (now : ℤ) (c c' : Cont α) (es : List (ContEvent α))
    (h0 : g.runContinuous ctx x now = .ok c) (h : Cont.Steps c es c') : Spec.Spaced now c'.starts := by
  have key : Spec.Spaced now c'.starts ∧ c'.mon.lastSyncTime = Spec.lastStart now c'.starts := by
    obtain ⟨-, -, -, s1, s2⟩ := start_state h0
    clear h0
    induction h with
    | nil => rw [s1, s2]; exact ⟨trivial, rfl⟩
    | snoc h1 h2 ih =>
      obtain ⟨i1, i2⟩ := ih
      rcases step_starts _ h2 with ⟨e1, e2⟩ | ⟨x, ch, st, -, e1, e2, e3, -, -⟩
      · rw [e1, e2]; exact ⟨i1, i2⟩
      · rw [e1, e2]
        exact ⟨spaced_cons _ _ _ i1 (by rw [← i2]; exact e3), rfl⟩
  exact key.1

/-- **C54, restarts.** A tick starts a synchronisation exactly when resynchronisation is needed for one of the documented
reasons, no synchronisation is active and more than 500 ms have passed since the last start. -/
theorem C54_restart_iff (c : Cont α) (x : α) (check stamp : ℤ) :
    (∃ c', c.step (.tick x check stamp) = some (.goOn c') ∧ c'.current ≠ c.current) ↔
      Spec.ResyncNeeded c.recovery c.goal (Spec.decayedPeak c.mon.peakCoherence x) c.mon.lastCoherence x ∧
      c.mon.syncActive = false ∧ 500000000 < check - c.mon.lastSyncTime := by
  obtain ⟨-, -, t1, t2⟩ := tick_effect c x check stamp
  constructor
  · rintro ⟨c', h, hc⟩
    injection h with h; injection h with h; subst h
    by_contra hn
    exact hc (t2 hn).2.2.2.1
  · intro hp
    exact ⟨_, rfl, by rw [(t1 hp).2.2.2.1]; omega⟩

/-- The context was done during the schedule or before, with this error. -/
def Spec.CtxWas (ctx : Option CtxErr) (es : List (ContEvent α)) (e : CtxErr) : Prop := ctx = some e ∨ .ctxDone e ∈ es

theorem step_ctx {c c' : Cont α} (e : ContEvent α) (hs : c.step e = some (.goOn c')) :
    c'.ctx = c.ctx ∨ ∃ err, e = .ctxDone err ∧ c'.ctx = some err := by
  unfold Cont.step at hs
  cases e with
  | ctxDone err =>
    dsimp only at hs
    split_ifs at hs
    injection hs with hs; injection hs with hs; subst hs
    exact .inr ⟨err, rfl, rfl⟩
  | seeCtx =>
    dsimp only at hs
    cases hc : c.ctx with
    | none => rw [hc] at hs; cases hs
    | some x => rw [hc] at hs; cases hs
  | receive =>
    dsimp only at hs
    cases hb : c.buffer with
    | none => rw [hb] at hs; cases hs
    | some v =>
      rw [hb] at hs
      dsimp only at hs
      split at hs
      · injection hs with hs; injection hs with hs; subst hs; exact .inl rfl
      · injection hs with hs; injection hs with hs; subst hs; exact .inl rfl
      · cases hs
  | tick x ch st =>
    injection hs with hs; injection hs with hs; subst hs
    exact .inl (tick_effect c x ch st).frame.1
  | finish id order evs =>
    obtain ⟨-, -, -, v, -, rfl⟩ := finish_goOn hs
    exact .inl rfl

theorem steps_ctx {c c' : Cont α} {es : List (ContEvent α)} (h : Cont.Steps c es c') (e : CtxErr) (hc : c'.ctx = some e) :
    Spec.CtxWas c.ctx es e := by
  induction h with
  | nil => exact .inl hc
  | snoc h1 h2 ih =>
    rcases step_ctx _ h2 with h3 | ⟨err, he, h3⟩
    · rcases ih (by rw [← h3]; exact hc) with h4 | h4
      · exact .inl h4
      · exact .inr (List.mem_append_left _ h4)
    · rw [h3] at hc
      injection hc with hc
      subst hc he
      exact .inr (by simp)

/-- Some synchronisation finished during the schedule by giving up after `n` iterations. -/
def Spec.SyncFailed (c : Cont α) (es : List (ContEvent α)) (n : ℤ) : Prop :=
  ∃ es₁ c₁ id order evs, Cont.Steps c es₁ c₁ ∧ (es₁ ++ [.finish id order evs]) <+: es ∧ (c₁.gds.achieve order c₁.target evs).1 = .failed n

theorem steps_buffer {c c' : Cont α} {es : List (ContEvent α)} (h0 : Spec.OneSync c ∧ c.buffer = none) (h : Cont.Steps c es c') (v : ContErr)
    (hb : c'.buffer = some (some v)) : (∃ e, v = .ctx e ∧ Spec.CtxWas c.ctx es e) ∨ ∃ n, v = .failed n ∧ Spec.SyncFailed c es n := by
  induction h with
  | nil => rw [h0.2] at hb; cases hb
  | @snoc c' c'' es e h1 h2 ih =>
    have hone : Spec.OneSync c' := oneSync_steps h0.1 h1
    have keep : c'.buffer = some (some v) → (∃ e', v = .ctx e' ∧ Spec.CtxWas c.ctx (es ++ [e]) e') ∨
        ∃ n, v = .failed n ∧ Spec.SyncFailed c (es ++ [e]) n := by
      intro hk
      rcases ih hk with ⟨e', h3, h4⟩ | ⟨n, h3, es₁, c₁, id, order, evs, h5, h6, h7⟩
      · refine .inl ⟨e', h3, ?_⟩
        rcases h4 with h4 | h4
        · exact .inl h4
        · exact .inr (List.mem_append_left _ h4)
      · exact .inr ⟨n, h3, es₁, c₁, id, order, evs, h5, h6.trans (List.prefix_append _ _), h7⟩
    unfold Cont.step at h2
    cases e with
    | ctxDone err =>
      dsimp only at h2
      split_ifs at h2
      injection h2 with h2; injection h2 with h2; subst h2
      exact keep hb
    | seeCtx =>
      dsimp only at h2
      cases hc : c'.ctx with
      | none => rw [hc] at h2; cases h2
      | some x => rw [hc] at h2; cases h2
    | receive =>
      dsimp only at h2
      cases hb' : c'.buffer with
      | none => rw [hb'] at h2; cases h2
      | some v =>
        rw [hb'] at h2
        dsimp only at h2
        split at h2
        · injection h2 with h2; injection h2 with h2; subst h2; cases hb
        · injection h2 with h2; injection h2 with h2; subst h2; cases hb
        · cases h2
    | tick x ch st =>
      injection h2 with h2; injection h2 with h2; subst h2
      obtain ⟨-, -, t1, t2⟩ := tick_effect c' x ch st
      by_cases hp : Spec.ResyncNeeded c'.recovery c'.goal (Spec.decayedPeak c'.mon.peakCoherence x) c'.mon.lastCoherence x ∧
        c'.mon.syncActive = false ∧ 500000000 < ch - c'.mon.lastSyncTime
      · rw [(t1 hp).2.2.2.2.2.1] at hb; cases hb
      · rw [(t2 hp).2.2.2.2.2.1] at hb; exact keep hb
    | finish id order evs =>
      obtain ⟨h3, h4, h5, u, hu, rfl⟩ := finish_goOn h2
      have hid : id = c'.current := by
        rcases hone with h | h | h
        · rw [h.1, List.mem_singleton] at h3; exact h3
        · rw [h.1] at h3; cases h3
        · rw [h.1] at h3; cases h3
      dsimp only at hb
      rw [if_pos hid] at hb
      injection hb with hb
      subst hb
      unfold SyncResult.sent at hu
      cases hr : (c'.gds.achieve order c'.target evs).1 with
      | cancelled =>
        rw [hr] at hu h5
        injection hu with hu; injection hu with hu
        cases hc : c'.ctx with
        | none => exact absurd ⟨rfl, hid, hc⟩ h5
        | some e' =>
          rw [hc] at hu
          refine .inl ⟨e', hu.symm, ?_⟩
          rcases steps_ctx h1 e' hc with h6 | h6
          · exact .inl h6
          · exact .inr (List.mem_append_left _ h6)
      | failed n =>
        rw [hr] at hu
        injection hu with hu; injection hu with hu
        exact .inr ⟨n, hu.symm, es, c', id, order, evs, h1, List.prefix_rfl, hr⟩
      | achieved => rw [hr] at hu; injection hu with hu; cases hu
      | waiting => rw [hr] at hu; cases hu
      | panic => exact absurd hr h4
      | running => rw [hr] at hu; cases hu

/-- **C54, exits, partial.** A continuous run returns only after its context is done, with the context's error, or after one of
its synchronisations has failed, with that failure. What the full claim lacks: the second case, which the documentation excludes. -/
theorem C54_exit_partial (g : Gds α) (ctx : Option CtxErr) (x : α) (now : ℤ) (c c' : Cont α) (es : List (ContEvent α)) (e : ContEvent α)
    (err : ContErr) (h0 : g.runContinuous ctx x now = .ok c) (h : Cont.Steps c es c') (hx : c'.step e = some (.exit err)) :
    (∃ e', err = .ctx e' ∧ Spec.CtxWas ctx es e') ∨ ∃ n, err = .failed n ∧ Spec.SyncFailed c es n := by
  have hs := start_state h0
  rw [← hs.2.2.1]
  unfold Cont.step at hx
  cases e with
  | ctxDone err' => dsimp only at hx; split_ifs at hx; cases hx
  | seeCtx =>
    dsimp only at hx
    cases hc : c'.ctx with
    | none => rw [hc] at hx; cases hx
    | some e' =>
      rw [hc] at hx
      injection hx with hx; injection hx with hx
      exact .inl ⟨e', hx.symm, steps_ctx h e' hc⟩
  | receive =>
    dsimp only at hx
    cases hb : c'.buffer with
    | none => rw [hb] at hx; cases hx
    | some v =>
      rw [hb] at hx
      cases v with
      | none => cases hx
      | some w =>
        have hw : w = err := by
          dsimp only at hx
          split at hx
          · cases hx
          · cases hx
          · next h1 h2 =>
            injection h2 with h2
            injection hx with hx; injection hx with hx
            exact h2.trans hx
        subst hw
        exact steps_buffer ⟨hs.1, hs.2.1⟩ h w hb
  | tick a b d => cases hx
  | finish id order evs =>
    dsimp only at hx
    split_ifs at hx with h1 h2 h3
    · cases hx
    all_goals
      obtain ⟨v, -, hv⟩ := Option.map_eq_some_iff.1 hx
      cases hv

/-- **C54.** Whenever a synchronisation of the run fails, the run returns that failure as soon as it looks at the result: it makes no
further attempt. -/
theorem C54_failure_ends (c : Cont α) (hc : Spec.OneSync c) (id : ℕ) (hid : id ∈ c.alive) (order : SyncMap ℕ → SyncMap ℕ)
    (evs : List (SyncEvent α)) (n : ℤ) (hf : (c.gds.achieve order c.target evs).1 = .failed n) :
    ∃ c', c.step (.finish id order evs) = some (.goOn c') ∧ c'.step .receive = some (.exit (.failed n)) := by
  have hcur : id = c.current := by
    rcases hc with h | h | h
    · rw [h.1, List.mem_singleton] at hid; exact hid
    · rw [h.1] at hid; cases hid
    · rw [h.1] at hid; cases hid
  unfold Cont.step
  dsimp only
  rw [if_pos hid, hf, if_neg (by simp), if_neg (by simp)]
  refine ⟨_, rfl, ?_⟩
  dsimp only
  rw [if_pos hcur]

/-! ## A recovery configuration without an interval is ignored -/

/-- **C54.** A recovery configuration is used exactly when it has a positive check interval. One whose interval is left at zero is
silently replaced by the default, thresholds included; with a negative interval the run panics. -/
theorem C54_recovery_config (g : Gds α) (ctx : Option CtxErr) (x : α) (now : ℤ)
    (hd : 0 < (defaultRecoveryConfig g.swarm.goalState.coherence : RecoveryConfig α).checkInterval) :
    (0 < g.swarm.recoveryConfig.checkInterval → ∃ c, g.runContinuous ctx x now = .ok c ∧ c.recovery = g.swarm.recoveryConfig) ∧
    (g.swarm.recoveryConfig.checkInterval = 0 → ∃ c, g.runContinuous ctx x now = .ok c ∧
      c.recovery = defaultRecoveryConfig g.swarm.goalState.coherence) ∧
    (g.swarm.recoveryConfig.checkInterval < 0 → g.runContinuous ctx x now = .panic) := by
  unfold Gds.runContinuous
  dsimp only
  refine ⟨fun h => ?_, fun h => ?_, fun h => ?_⟩
  · rw [if_neg (show ¬ g.swarm.recoveryConfig.checkInterval = 0 by omega), if_neg (by omega)]
    exact ⟨_, rfl, rfl⟩
  · rw [if_pos h, if_neg (by omega)]
    exact ⟨_, rfl, rfl⟩
  · rw [if_neg (show ¬ g.swarm.recoveryConfig.checkInterval = 0 by omega), if_pos (by omega)]

theorem recovery_interval (t : α) : (defaultRecoveryConfig t : RecoveryConfig α).checkInterval = 100000000 := by
  unfold defaultRecoveryConfig
  split_ifs <;> (show (100 * millisecond : ℤ) = 100000000; unfold millisecond; norm_num)

end generic

/-! ## C54 is false -/

/-- What the documentation of `RunContinuous` says: it returns only when its context is done. -/
def C54_claim : Prop := ∀ (g : Gds ℝ) (x : ℝ) (now : ℤ) (c c' : Cont ℝ) (es : List (ContEvent ℝ)) (e : ContEvent ℝ) (err : ContErr),
  g.config.validate = none → g.runContinuous none x now = .ok c → Cont.Steps c es c' → c'.step e = some (.exit err) →
    ∃ e', .ctxDone e' ∈ es

/-- One agent of frequency 3, put back at every tick, and a target of frequency 1: no iteration ever achieves the goal. -/
theorem never_achieved (s : Swarm ℝ) (hs : s.optimized = false) (ha : s.agents = [("a", 0)]) (h0 : (s.heap 0).state = ⟨0, 1, 0, 3⟩)
    (g : Gds ℝ) (hc : g.config = defaultConfig) (ht : g.target.frequency = 1) (n : ℕ) :
    ∃ g', Spec.Unachieved g (List.replicate n { Tick.plain 1 with others := fun _ => s }) g' := by
  induction n generalizing g with
  | zero => exact ⟨g, .nil g⟩
  | succ n ih =>
    obtain ⟨⟨b, g'⟩, hr⟩ := (C51_iteration_ends g { Tick.plain 1 with others := fun _ => s }
        ⟨(fun h => by change s.optimized = true at h; rw [hs] at h; exact absurd h (by simp)),
          fun _ h => by change s.agents = [] at h; rw [ha] at h; exact absurd h (by simp)⟩).2 (by
      intro p hp
      have : p = 0 := by
        change p ∈ s.phases _ at hp
        unfold Swarm.phases Swarm.collectAgents at hp
        rw [hs] at hp
        simp only [Bool.false_eq_true, if_false] at hp
        change p ∈ (s.agents.map Prod.snd).map _ at hp
        rw [ha] at hp
        simp only [List.map_cons, List.map_nil, List.mem_singleton, h0] at hp
        exact hp
      rw [this]
      exact ⟨le_rfl, by positivity⟩) le_rfl
    cases b with
    | false =>
      obtain ⟨-, k2, k3, -⟩ := iterate_keeps (V := fun _ _ => True) (Q := fun _ => True) (fun _ _ _ _ => trivial) g g' _ false trivial
        (fun _ _ _ => ⟨fun _ => True, fun _ => ⟨fun _ _ _ => trivial, fun _ _ _ => trivial, fun _ _ _ _ _ => trivial, fun _ _ _ _ _ => trivial,
          fun _ _ _ => trivial, fun _ _ _ => trivial, trivial, fun _ _ => trivial⟩⟩) hr
      obtain ⟨g'', h''⟩ := ih g' (by rw [k2, hc]) (by rw [k3, ht])
      exact ⟨g'', .cons hr h''⟩
    | true =>
      exfalso
      have h := ((iterate_true _ _).1 ⟨g', hr⟩).2.1
      have hf : (s.pattern { Tick.plain 1 with others := fun _ => s }).frequency = 3 := by
        simp [Swarm.pattern, measureSystemPattern, Swarm.rangeAgents, Swarm.allAgents, Tick.plain, SyncMap.store, hs, ha, h0]
      change patternDistance (some (s.pattern { Tick.plain 1 with others := fun _ => s })) (some g.target) < g.config.patternDistanceThreshold at h
      rw [patternDistance_some, hc] at h
      generalize s.pattern { Tick.plain 1 with others := fun _ => s } = c at h hf
      have hp : 0 ≤ |phaseDifference g.target.phase c.phase| / Real.pi := div_nonneg (abs_nonneg _) Real.pi_pos.le
      have hco : 0 ≤ |g.target.coherence - c.coherence| := abs_nonneg _
      norm_num [Spec.freqDeviation, defaultConfig, hf, ht] at h
      linarith

theorem achieve_eq' (g : Gds ℝ) (order : SyncMap ℕ → SyncMap ℕ) (target : TargetPattern ℝ) (hi : 0 < g.config.updateInterval) :
    ∃ (g' : Gds ℝ) (b : ℤ), g'.config = g.config ∧ g'.target.frequency = target.frequency ∧
      ∀ evs, g.achieve order target evs = g'.loop b evs 0 := by
  refine ⟨{ g with target := adjustTarget _ target, monitor := g.monitor.setTarget (some (adjustTarget _ target)) }, _, rfl, ?_,
    fun evs => if_neg (not_le.2 hi)⟩
  show (adjustTarget _ target).frequency = _
  unfold adjustTarget
  dsimp only
  split_ifs <;> rfl

/-- A swarm with the default configurations that is disturbed again and again, so that its synchronisation never succeeds. -/
theorem exists_failing : ∃ (g : Gds ℝ) (c : Cont ℝ) (order : SyncMap ℕ → SyncMap ℕ) (evs : List (SyncEvent ℝ)) (n : ℤ),
    g.config.validate = none ∧ g.runContinuous none 1 0 = .ok c ∧ (c.gds.achieve order c.target evs).1 = .failed n := by
  obtain ⟨n, s, -, -⟩ := exists_swarm (fun _ _ => (0 : ℝ)) 5 (by norm_num) (by norm_num) goalR goalR_valid
  let s' : Swarm ℝ := { s with
    heap := fun a => { s.heap a with state := ⟨0, 1, 0, 3⟩ }, agents := [("a", 0)], optimized := false
    goalState := ⟨0, 1, 0.5⟩, recoveryConfig := defaultRecoveryConfig 0.5 }
  let g : Gds ℝ := Gds.new s' defaultConfig s'.targetPattern
  have hv : (defaultConfig : GoalConfig ℝ).validate = none := by
    unfold GoalConfig.validate defaultConfig
    norm_num [millisecond, second]
  have hint : g.swarm.recoveryConfig.checkInterval = 100000000 := recovery_interval (0.5 : ℝ)
  have hrun : ∃ c, g.runContinuous none 1 0 = .ok c ∧ c.gds.config = defaultConfig ∧ c.target.frequency = 1 := by
    unfold Gds.runContinuous
    dsimp only
    rw [hint, if_neg (by rw [if_neg (by norm_num), hint]; norm_num)]
    exact ⟨_, rfl, rfl, rfl⟩
  obtain ⟨c, hc, hcfg, htf⟩ := hrun
  obtain ⟨g', b, k1, k2, k3⟩ := achieve_eq' c.gds id c.target (by rw [hcfg]; norm_num [defaultConfig, millisecond])
  obtain ⟨g'', hu⟩ := never_achieved s' rfl rfl rfl g' (by rw [k1, hcfg]) (by rw [k2, htf]) b.toNat
  refine ⟨g, c, id, (List.replicate b.toNat { Tick.plain 1 with others := fun _ => s' }).map .tick ++ [], b, hv, hc, ?_⟩
  rw [k3]
  by_cases hb : 0 ≤ b
  · exact (C51_complete hu b []).2.2 (by rw [List.length_replicate]; omega)
  · have : b.toNat = 0 := by omega
    rw [this]
    unfold Gds.loop
    rw [if_neg (show ¬ ((0 : ℕ) : ℤ) < b by omega)]

/-- **C54 is false**: with the default configurations, a swarm disturbed for longer than the iteration budget makes `RunContinuous`
return although its context is not done. -/
theorem C54_refuted : ¬ C54_claim := by
  intro h
  obtain ⟨g, c, order, evs, n, hv, hc, hf⟩ := exists_failing
  have h1 := C54_one_sync g none 1 0 c c [] hc (.nil c)
  have hal : c.current ∈ c.alive := by
    rcases h1 with h1 | h1 | h1
    · rw [h1.1]; simp
    · exact absurd (start_state hc).2.1 h1.2.1
    · unfold Gds.runContinuous at hc
      dsimp only at hc
      generalize (if g.swarm.recoveryConfig.checkInterval = 0 then defaultRecoveryConfig g.swarm.goalState.coherence
        else g.swarm.recoveryConfig) = r at hc
      split_ifs at hc
      injection hc with hc; subst hc
      cases h1.1
  obtain ⟨c', e1, e2⟩ := C54_failure_ends c h1 c.current hal order evs n hf
  obtain ⟨e', he⟩ := h g 1 0 c c' _ .receive (.failed n) hv hc (.snoc (.nil c) e1) e2
  simp at he

/-! ## C55 over the reals -/

/-- What one would expect: with the default thresholds nothing is done while the coherence is at or above the target. -/
def C55_claim : Prop := ∀ (target : ℝ) (st : MonState ℝ) (current : ℝ), 0 ≤ target → target ≤ 1 →
  0 ≤ st.peakCoherence → st.peakCoherence ≤ 1 → 0 ≤ st.lastCoherence → st.lastCoherence ≤ 1 → target ≤ current → current ≤ 1 →
    (needsResync (defaultRecoveryConfig target) target st current).1 = false

/-- **C55 is false**: for targets below 0.2 the viable minimum of the default thresholds is above the target, so a swarm exactly at its
target is resynchronised for ever. -/
theorem C55_low_targets (target : ℝ) (st : MonState ℝ) (current : ℝ) (ht : target < 0.2) (hc : current < 0.2) :
    (needsResync (defaultRecoveryConfig target) target st current).1 = true := by
  rw [C55_exact]
  left
  have e : (defaultRecoveryConfig target : RecoveryConfig ℝ).minimumViableCoherence = 0.2 := by
    unfold defaultRecoveryConfig
    rw [if_neg (by norm_num at ht ⊢; linarith), if_neg (by norm_num at ht ⊢; linarith), if_neg (by norm_num at ht ⊢; linarith)]
  rw [e]; exact hc

/-- A swarm with target 0.1 that is at its target is disturbed. -/
theorem C55_refuted : ¬ C55_claim := by
  intro h
  have h1 := h 0.1 ⟨0.1, 0.1, 0, false, 0⟩ 0.1 (by norm_num) (by norm_num) (by norm_num) (by norm_num) (by norm_num) (by norm_num)
    le_rfl (by norm_num)
  rw [C55_low_targets 0.1 _ 0.1 (by norm_num) (by norm_num)] at h1
  cases h1

/-- **C55, partial.** For targets of at least 0.2, with the default thresholds, the swarm at or above its target is left alone unless its
coherence dropped sharply: by more than the large drop ratio from the peak or the small ratio since the last measurement. -/
theorem C55_at_target_partial (target : ℝ) (st : MonState ℝ) (current : ℝ) (h0 : 0.2 ≤ target) (hc : target ≤ current)
    (hp : 0 ≤ st.peakCoherence) :
    (needsResync (defaultRecoveryConfig target) target st current).1 = true ↔
      st.peakCoherence * (defaultRecoveryConfig target : RecoveryConfig ℝ).largeDropRatio < st.peakCoherence - current ∨
      current < st.lastCoherence - st.lastCoherence * (defaultRecoveryConfig target : RecoveryConfig ℝ).smallDropRatio := by
  have hd : (defaultRecoveryConfig target : RecoveryConfig ℝ).minimumViableCoherence ≤ target ∧
      target * (defaultRecoveryConfig target : RecoveryConfig ℝ).targetMarginRatio ≤ target ∧
      (defaultRecoveryConfig target : RecoveryConfig ℝ).smallDropRatio ≤ (defaultRecoveryConfig target : RecoveryConfig ℝ).largeDropRatio := by
    unfold defaultRecoveryConfig
    norm_num at h0
    split_ifs with h1 h2 h3
    all_goals
      norm_num at *
      refine ⟨?_, ?_⟩ <;> linarith
  rw [C55_exact]
  unfold Spec.ResyncNeeded
  obtain ⟨d1, d2, d3⟩ := hd
  constructor
  · rintro (h | h | h | h | h)
    · exact absurd h (by linarith)
    · exact absurd h (by linarith)
    · exact .inl h.2
    · exact absurd h.2 (by linarith)
    · exact .inr h
  · rintro (h | h)
    · exact .inr (.inr (.inl ⟨lt_of_le_of_lt (mul_le_mul_of_nonneg_left d3 hp) h, h⟩))
    · exact .inr (.inr (.inr (.inr h)))

/-- **C55.** Too much coherence never triggers anything: a swarm that should stay at a low coherence, as for load distribution, but is
completely synchronised at every measurement is left alone, whatever the thresholds between 0 and 1. -/
theorem C55_oversynchronised (cfg : RecoveryConfig ℝ) (target : ℝ) (st : MonState ℝ) (ht : target ≤ 1)
    (hv : cfg.minimumViableCoherence ≤ 1) (hm0 : 0 ≤ cfg.targetMarginRatio) (hm : cfg.targetMarginRatio ≤ 1) (hs : 0 ≤ cfg.smallDropRatio)
    (hp0 : 0 ≤ st.peakCoherence) (hp : st.peakCoherence ≤ 1) (hl0 : 0 ≤ st.lastCoherence) (hl : st.lastCoherence ≤ 1) :
    (needsResync cfg target st 1).1 = false := by
  rw [Bool.eq_false_iff, ne_eq, C55_exact]
  have h2 := mul_nonneg hp0 hs
  have h3 := mul_nonneg hl0 hs
  rintro (h | h | h | h | h)
  · linarith
  · nlinarith
  · linarith [h.1]
  · linarith [h.1]
  · linarith

/-- **C55 in doubles.** A NaN coherence, which a single NaN phase causes, never triggers a resynchronisation. -/
theorem C55_nan_ignored [Rounding] [LibM] (cfg : RecoveryConfig F64) (target : F64) (st : MonState F64) :
    (needsResync cfg target st .nan).1 = false := by
  rw [Bool.eq_false_iff, ne_eq, C55_exact]
  have h1 : ∀ x : F64, ¬ F64.nan < x := fun x => by cases x <;> exact not_false
  have h2 : ∀ x : F64, ¬ x < F64.nan := fun x => by cases x <;> exact not_false
  have h3 : ∀ x : F64, x - F64.nan = .nan := fun x => by cases x <;> rfl
  rintro (h | h | h | h | h)
  · exact h1 _ h
  · exact h1 _ h
  · rw [h3] at h; exact h2 _ h.1
  · exact h1 _ h.2
  · exact h1 _ h

/-! ## Examples -/

/-- Beside `C55_exact`: a small drop below the target is a reason, the same drop above the target is not. -/
example : Spec.ResyncNeeded (defaultRecoveryConfig (0.6 : ℝ)) 0.6 0.65 0.59 0.59 ∧
    ¬ Spec.ResyncNeeded (defaultRecoveryConfig (0.6 : ℝ)) 0.6 0.67 0.61 0.61 := by
  unfold Spec.ResyncNeeded defaultRecoveryConfig
  norm_num

/-- Beside `C55_at_target_partial` and `C55_oversynchronised`. -/
example : (0.2 : ℝ) ≤ 0.5 ∧ (0.5 : ℝ) ≤ 0.6 ∧ (0 : ℝ) ≤ (⟨0.6, 0.9, 0, false, 0⟩ : MonState ℝ).peakCoherence := by norm_num

/-- Beside the theorems on runs: a run that receives a success, then restarts. -/
example : ∃ (c c' : Cont ℝ) (x : ℝ) (check stamp : ℤ), Spec.OneSync c ∧ c.step (.tick x check stamp) = some (.goOn c') ∧
    c'.starts = [(check, stamp)] ∧ c.starts = [] := by
  obtain ⟨g, c, order, evs, n, hv, hc, hf⟩ := exists_failing
  let c₁ : Cont ℝ := { c with mon := ⟨0.5, 0.5, 0, false, 0⟩, alive := [], buffer := none, recovery := defaultRecoveryConfig 0.5, goal := 0.5, starts := [] }
  have ht := (tick_effect c₁ 0.1 600000000 600000001).started ⟨by
    unfold Spec.ResyncNeeded; left
    show (0.1 : ℝ) < (defaultRecoveryConfig 0.5 : RecoveryConfig ℝ).minimumViableCoherence
    unfold defaultRecoveryConfig; norm_num, rfl, by show (500000000 : ℤ) < 600000000 - 0; norm_num⟩
  exact ⟨c₁, _, 0.1, 600000000, 600000001, .inr (.inr ⟨rfl, rfl, rfl⟩), rfl, ht.2.2.2.2.2.2, rfl⟩

/-- Beside `C54_recovery_config`: the default interval is positive. -/
example : 0 < (defaultRecoveryConfig (0.5 : ℝ) : RecoveryConfig ℝ).checkInterval := by rw [recovery_interval]; norm_num

end Verif
