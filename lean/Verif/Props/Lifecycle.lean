import Verif.Model.Lifecycle
import Mathlib.Data.List.Count
import Mathlib.Data.List.Duplicate
import Mathlib.Data.List.NodupEquivFin
import Mathlib.Tactic.Ring

/-!
# C77: at most one synchronisation runs per simulation
-/

set_option autoImplicit false

namespace Verif

/-- A history of moves. -/
inductive Spec.LifeRun : LifeSys → List LifeMove → LifeSys → Prop where
  | refl (s : LifeSys) : Spec.LifeRun s [] s
  | tail {s t u : LifeSys} {l : List LifeMove} {m : LifeMove} (h : Spec.LifeRun s l t) (hs : t.step m = some u) : Spec.LifeRun s (l ++ [m]) u

/-- Context `i` is neither cancelled nor is its parent done. -/
def Spec.live (s : LifeSys) (i : ℕ) : Prop := ∃ c, s.ctxs[i]? = some c ∧ c.cancelled = false ∧ c.parent ∉ s.ended

/-- There are two calls of `emergeClient.Start` that nobody has told to end. -/
def Spec.TwoLive (s : LifeSys) : Prop := ∃ i j, i ≠ j ∧ i < s.runs.length ∧ j < s.runs.length ∧
  (∀ k, s.runs[i]? = some k → Spec.live s k) ∧ (∀ k, s.runs[j]? = some k → Spec.live s k)

/-- Some call of `emergeClient.Start` has not been told to end. -/
def Spec.SomeLive (s : LifeSys) : Prop := ∃ k ∈ s.runs, Spec.live s k

open Spec

/-- **C77, in full.** There are never two runs, and after a pause there is none. -/
def C77_claim : Prop := ∀ (l : List LifeMove) (s : LifeSys), LifeRun LifeSys.init l s → ¬ TwoLive s ∧ (s.paused = true → ¬ SomeLive s)

/-- A live context is live after any move that is not its cancellation. -/
theorem live_mono {s u : LifeSys} {m : LifeMove} (h : s.step m = some u) {k : ℕ} (hk : live s k) (hp : m = .pause → k + 1 < s.ctxs.length)
    (hst : ∀ p, m = .stop p → ∀ c, s.ctxs[k]? = some c → c.parent ≠ p) : live u k := by
  obtain ⟨c, hc, h1, h2⟩ := hk
  obtain ⟨hlt, -⟩ := List.getElem?_eq_some_iff.1 hc
  cases m with
  | start p => cases h; exact ⟨c, by simp [List.getElem?_append_left hlt, hc], h1, h2⟩
  | pause =>
    cases h
    refine ⟨c, ?_, h1, h2⟩
    have := hp rfl
    simp only [LifeSys.swarmCancel]
    rw [List.getElem?_modify_ne _ _ (by omega)]; exact hc
  | resume =>
    unfold LifeSys.step at h
    rcases hpc : s.parentCtx with _ | p <;> rw [hpc] at h <;> cases h
    · exact ⟨c, hc, h1, h2⟩
    · exact ⟨c, by simp [List.getElem?_append_left hlt, hc], h1, h2⟩
  | stop p =>
    cases h
    refine ⟨c, hc, h1, ?_⟩
    simp only [List.mem_cons, not_or]
    exact ⟨hst p rfl c hc, h2⟩
  | begin =>
    unfold LifeSys.step at h; dsimp only at h
    split_ifs at h
    cases h; exact ⟨c, hc, h1, h2⟩
  | finish i =>
    unfold LifeSys.step at h; dsimp only at h
    split_ifs at h
    cases h; exact ⟨c, hc, h1, h2⟩

/-- Resuming without a pause starts a second run beside the first, and a later pause ends only the second. -/
theorem C77_refuted : (∃ (l : List LifeMove) (s : LifeSys), LifeRun LifeSys.init l s ∧ TwoLive s) ∧
    (∃ (l : List LifeMove) (s : LifeSys), LifeRun LifeSys.init l s ∧ s.paused = true ∧ SomeLive s) ∧ ¬ C77_claim := by
  have r1 := (LifeRun.refl LifeSys.init).tail (m := .start 0) rfl
  have r2 := r1.tail (m := .begin) rfl
  have r3 := r2.tail (m := .resume) rfl
  have r4 := r3.tail (m := .begin) rfl
  have r5 := r4.tail (m := .pause) rfl
  have h1 : TwoLive ⟨false, some 0, [], [⟨0, false⟩, ⟨0, false⟩], 0, [0, 1]⟩ := by
    refine ⟨0, 1, by simp, by simp, by simp, ?_, ?_⟩ <;> intro k hk <;> simp at hk <;> subst hk <;> exact ⟨_, rfl, rfl, by simp⟩
  have h2 : SomeLive ⟨true, some 0, [], [⟨0, false⟩, ⟨0, true⟩], 0, [0, 1]⟩ := ⟨0, by simp, _, rfl, rfl, by simp⟩
  exact ⟨⟨_, _, r4, h1⟩, ⟨_, _, r5, rfl, h2⟩, fun hcl => (hcl _ _ r4).1 h1⟩

/-- **C77, orphans.** A run whose context is not the newest stays live until it returns by itself or the parent context is done: neither pausing
nor any other call ends it. -/
theorem C77_orphan {s u : LifeSys} {l : List LifeMove} (h : LifeRun s l u) {k : ℕ} (hk : live s k) (hn : k + 1 < s.ctxs.length)
    (hst : ∀ p, LifeMove.stop p ∈ l → ∀ c, s.ctxs[k]? = some c → c.parent ≠ p) : live u k := by
  have key : live u k ∧ k + 1 < u.ctxs.length ∧ u.ctxs[k]? = s.ctxs[k]? := by
    induction h with
    | refl => exact ⟨hk, hn, rfl⟩
    | @tail t u l m h hs ih =>
      obtain ⟨i1, i2, i3⟩ := ih (fun p hp => hst p (List.mem_append_left _ hp))
      refine ⟨live_mono hs i1 (fun _ => i2) (fun p hp c hc => hst p (by simp [hp]) c (by rw [← i3]; exact hc)), ?_⟩
      have hlt : k < t.ctxs.length := by omega
      cases m with
      | start p => cases hs; exact ⟨by simp; omega, by rw [← i3]; simp [List.getElem?_append_left hlt]⟩
      | pause =>
        cases hs
        exact ⟨by simpa [LifeSys.swarmCancel] using i2, by rw [← i3]; simp only [LifeSys.swarmCancel]; rw [List.getElem?_modify_ne _ _ (by omega)]⟩
      | resume =>
        unfold LifeSys.step at hs
        rcases hpc : t.parentCtx with _ | p <;> rw [hpc] at hs <;> cases hs
        · exact ⟨i2, i3⟩
        · exact ⟨by simp; omega, by rw [← i3]; simp [List.getElem?_append_left hlt]⟩
      | stop p => cases hs; exact ⟨i2, i3⟩
      | begin =>
        unfold LifeSys.step at hs; dsimp only at hs
        split_ifs at hs
        cases hs; exact ⟨i2, i3⟩
      | finish i =>
        unfold LifeSys.step at hs; dsimp only at hs
        split_ifs at hs
        cases hs; exact ⟨i2, i3⟩
  exact key.1

/-- A history in which `Start` is called once, before anything else, and `Resume` is only called while the simulation is paused. -/
inductive Spec.Disciplined : List LifeMove → LifeSys → Prop where
  | init : Spec.Disciplined [] LifeSys.init
  | tail {t u : LifeSys} {l : List LifeMove} {m : LifeMove} (h : Spec.Disciplined l t) (hstart : ∀ p, m = .start p → t.ctxs = [] ∧ t.paused = false)
      (hpause : m = .pause → t.ctxs ≠ []) (hresume : m = .resume → t.paused = true) (hs : t.step m = some u) : Spec.Disciplined (l ++ [m]) u

theorem Spec.Disciplined.run {l : List LifeMove} {s : LifeSys} (h : Disciplined l s) : LifeRun LifeSys.init l s := by
  induction h with
  | init => exact .refl _
  | tail h _ _ _ hs ih => exact ih.tail hs

/-- Every context but the newest is cancelled, and while paused the newest is too; every run has one of the contexts. -/
theorem disciplined_inv {l : List LifeMove} {s : LifeSys} (h : Disciplined l s) :
    (∀ i c, s.ctxs[i]? = some c → (i + 1 < s.ctxs.length ∨ s.paused = true) → c.cancelled = true) ∧
    (∀ k ∈ s.runs, k < s.ctxs.length) ∧ (0 < s.spawned → s.ctxs ≠ []) := by
  induction h with
  | init => simp [LifeSys.init]
  | @tail t u l m h hstart hpause hresume hs ih =>
    obtain ⟨i1, i2, i3⟩ := ih
    cases m with
    | start p =>
      obtain ⟨he, hp⟩ := hstart p rfl
      cases hs
      refine ⟨fun i c hc ho => ?_, fun k hk => ?_, by simp⟩
      · simp [he, hp] at hc ho
      · have := i2 k hk; simp [he] at this
    | pause =>
      have hne := hpause rfl
      cases hs
      refine ⟨fun i c hc ho => ?_, fun k hk => by simpa [LifeSys.swarmCancel] using i2 k hk, fun h0 => ?_⟩
      · simp only [LifeSys.swarmCancel] at hc
        by_cases hi : t.ctxs.length - 1 = i
        · subst hi
          rw [List.getElem?_modify_eq] at hc
          rcases hx : t.ctxs[t.ctxs.length - 1]? with _ | x <;> rw [hx] at hc <;> simp at hc
          rw [← hc]
        · rw [List.getElem?_modify_ne _ _ hi] at hc
          obtain ⟨hlt, -⟩ := List.getElem?_eq_some_iff.1 hc
          exact i1 i c hc (.inl (by omega))
      · have := i3 h0
        simpa [LifeSys.swarmCancel] using this
    | resume =>
      have hp := hresume rfl
      unfold LifeSys.step at hs
      rcases hpc : t.parentCtx with _ | p <;> rw [hpc] at hs <;> cases hs
      · exact ⟨fun i c hc ho => i1 i c hc (.inr hp), i2, i3⟩
      · refine ⟨fun i c hc ho => ?_, fun k hk => ?_, by simp⟩
        · simp at ho
          rw [List.getElem?_append_left ho] at hc
          exact i1 i c hc (.inr hp)
        · have := i2 k hk; simp; omega
    | stop p => cases hs; exact ⟨i1, i2, i3⟩
    | begin =>
      unfold LifeSys.step at hs; dsimp only at hs
      split_ifs at hs with h0
      cases hs
      refine ⟨i1, fun k hk => ?_, fun _ => i3 h0⟩
      have := List.length_pos_iff.2 (i3 h0)
      rcases List.mem_append.1 hk with hk | hk
      · exact i2 k hk
      · simp at hk; dsimp only; omega
    | finish i =>
      unfold LifeSys.step at hs; dsimp only at hs
      split_ifs at hs with h0
      cases hs
      exact ⟨i1, fun k hk => i2 k (List.mem_of_mem_eraseIdx hk), i3⟩

/-- **C77, partial.** If `Start` is called once and `Resume` only while paused, then while the simulation is paused no run is live, and otherwise every
live run has the newest context, so that the next pause ends it. Missing: other histories (`C77_refuted`), and that there is only one run
(`C77_race_refuted`). -/
theorem C77_paused_partial {l : List LifeMove} {s : LifeSys} (h : Disciplined l s) :
    (s.paused = true → ¬ SomeLive s) ∧ ∀ k ∈ s.runs, live s k → k + 1 = s.ctxs.length := by
  obtain ⟨i1, i2, -⟩ := disciplined_inv h
  constructor
  · rintro hp ⟨k, hk, c, hc, h1, -⟩
    rw [i1 k c hc (.inr hp)] at h1; cases h1
  · rintro k hk ⟨c, hc, h1, -⟩
    have := i2 k hk
    by_contra hne
    rw [i1 k c hc (.inl (by omega))] at h1; cases h1

/-- The claim that it suffices to call `Start` once and `Resume` only while paused. -/
def C77_race_claim : Prop := ∀ (l : List LifeMove) (s : LifeSys), Disciplined l s → ¬ TwoLive s

/-- It does not: if `Pause` and `Resume` are called before the goroutine made by `Start` runs for the first time, it finds the new context and is not
stopped by the pause; so two runs are live. -/
theorem C77_race_refuted : ¬ C77_race_claim := by
  intro hcl
  have r1 := Disciplined.init.tail (m := .start 0) (by simp [LifeSys.init]) (by simp) (by simp) rfl
  have r2 := r1.tail (m := .pause) (by simp) (by simp [LifeSys.init]) (by simp) rfl
  have r3 := r2.tail (m := .resume) (by simp) (by simp) (by simp) rfl
  have r4 := r3.tail (m := .begin) (by simp) (by simp) (by simp) rfl
  have r5 := r4.tail (m := .begin) (by simp) (by simp) (by simp) rfl
  refine hcl _ _ r5 ⟨0, 1, by simp, by simp [LifeSys.init], by simp [LifeSys.init], ?_, ?_⟩
  all_goals
    intro k hk
    simp [LifeSys.init, LifeSys.swarmCancel] at hk
    subst hk
    exact ⟨_, rfl, rfl, by simp [LifeSys.init]⟩

/-- A disciplined history in which moreover every goroutine runs before the next call. -/
inductive Spec.Prompt : List LifeMove → LifeSys → Prop where
  | init : Spec.Prompt [] LifeSys.init
  | tail {t u : LifeSys} {l : List LifeMove} {m : LifeMove} (h : Spec.Prompt l t) (hstart : ∀ p, m = .start p → t.ctxs = [] ∧ t.paused = false)
      (hpause : m = .pause → t.ctxs ≠ []) (hresume : m = .resume → t.paused = true) (hbegun : m = .pause ∨ m = .resume → t.spawned = 0)
      (hs : t.step m = some u) : Spec.Prompt (l ++ [m]) u

theorem Spec.Prompt.disciplined {l : List LifeMove} {s : LifeSys} (h : Prompt l s) : Disciplined l s := by
  induction h with
  | init => exact .init
  | tail h h1 h2 h3 _ hs ih => exact ih.tail h1 h2 h3 hs

/-- **C77, partial.** If moreover every goroutine has run before the next call of `Pause` or `Resume`, there are never two live runs. Missing: the race of
`C77_race_refuted`. -/
theorem C77_single_partial {l : List LifeMove} {s : LifeSys} (h : Prompt l s) : ¬ TwoLive s := by
  have key : s.runs.count (s.ctxs.length - 1) + s.spawned ≤ 1 := by
    induction h with
    | init => simp [LifeSys.init]
    | @tail t u l m h hstart hpause hresume hbegun hs ih =>
      obtain ⟨-, i2, i3⟩ := disciplined_inv h.disciplined
      have fresh : t.runs.count t.ctxs.length = 0 := List.count_eq_zero.2 fun hm => absurd (i2 _ hm) (by omega)
      cases m with
      | start p =>
        obtain ⟨he, -⟩ := hstart p rfl
        have hr : t.runs = [] := by
          rcases hr : t.runs with _ | ⟨k, rs⟩
          · rfl
          · have := i2 k (by rw [hr]; simp)
            simp [he] at this
        have h0 : t.spawned = 0 := by
          by_contra h0
          exact i3 (by omega) he
        cases hs
        simp [hr, h0]
      | pause => cases hs; simpa [LifeSys.swarmCancel] using ih
      | resume =>
        have h0 := hbegun (.inr rfl)
        unfold LifeSys.step at hs
        rcases hpc : t.parentCtx with _ | p <;> rw [hpc] at hs <;> cases hs
        · exact ih
        · simp [fresh, h0]
      | stop p => cases hs; exact ih
      | begin =>
        unfold LifeSys.step at hs; dsimp only at hs
        split_ifs at hs with h0
        cases hs
        simp [List.count_append] at ih ⊢
        omega
      | finish i =>
        unfold LifeSys.step at hs; dsimp only at hs
        split_ifs at hs with h0
        cases hs
        dsimp only
        have := (List.eraseIdx_sublist t.runs i).count_le (t.ctxs.length - 1)
        omega
  rintro ⟨i, j, hij, hi, hj, h1, h2⟩
  have hp := (C77_paused_partial h.disciplined).2
  have e1 := hp _ (List.getElem_mem hi) (h1 _ (List.getElem?_eq_getElem hi))
  have e2 := hp _ (List.getElem_mem hj) (h2 _ (List.getElem?_eq_getElem hj))
  have hd : List.Duplicate (s.ctxs.length - 1) s.runs := by
    rcases lt_or_gt_of_ne hij with hlt | hlt
    · exact List.duplicate_iff_exists_distinct_get.2 ⟨⟨i, hi⟩, ⟨j, hj⟩, hlt, by simp; omega, by simp; omega⟩
    · exact List.duplicate_iff_exists_distinct_get.2 ⟨⟨j, hj⟩, ⟨i, hi⟩, hlt, by simp; omega, by simp; omega⟩
  have := List.duplicate_iff_two_le_count.1 hd
  omega

/-- **C77, stopping.** When the parent context of all starts is done, no run is live, and none becomes live unless `Start` is called with another
context. -/
theorem C77_stop {l : List LifeMove} {s : LifeSys} {p : ℕ} (h : LifeRun LifeSys.init l s) (hp : ∀ q, LifeMove.start q ∈ l → q = p)
    (hs : LifeMove.stop p ∈ l) : ¬ SomeLive s := by
  have key : (∀ c ∈ s.ctxs, c.parent = p) ∧ (∀ q, s.parentCtx = some q → q = p) ∧ (LifeMove.stop p ∈ l → p ∈ s.ended) := by
    clear hs
    revert hp
    generalize he : LifeSys.init = s₀ at h
    intro hp
    induction h with
    | refl => subst he; simp [LifeSys.init]
    | @tail t u l m h hs ih =>
      obtain ⟨i1, i2, i3⟩ := ih (fun q hq => hp q (List.mem_append_left _ hq))
      cases m with
      | start q =>
        have := hp q (by simp)
        subst this
        cases hs
        refine ⟨fun c hc => ?_, fun q hq => by simpa using hq.symm, fun hm => i3 (by simpa using hm)⟩
        rcases List.mem_append.1 hc with hc | hc
        · exact i1 c hc
        · simp at hc; rw [hc]
      | pause =>
        cases hs
        refine ⟨fun c hc => ?_, i2, fun hm => i3 (by simpa using hm)⟩
        obtain ⟨j, hj⟩ := List.mem_iff_getElem?.1 hc
        simp only [LifeSys.swarmCancel, List.getElem?_modify] at hj
        rcases hx : t.ctxs[j]? with _ | x <;> rw [hx] at hj <;> simp at hj
        have := i1 x (List.mem_of_getElem? hx)
        rw [← hj]
        split_ifs <;> exact this
      | resume =>
        unfold LifeSys.step at hs
        rcases hpc : t.parentCtx with _ | q <;> rw [hpc] at hs <;> cases hs
        · exact ⟨i1, fun q hq => i2 q (by rw [hpc]; exact hq), fun hm => i3 (by simpa using hm)⟩
        · refine ⟨fun c hc => ?_, fun q' hq => i2 q' (by rw [hpc]; exact hq), fun hm => i3 (by simpa using hm)⟩
          rcases List.mem_append.1 hc with hc | hc
          · exact i1 c hc
          · simp at hc; rw [hc]; exact i2 q hpc
      | stop q =>
        cases hs
        refine ⟨i1, i2, fun hm => ?_⟩
        rcases List.mem_append.1 hm with hm | hm
        · exact List.mem_cons_of_mem _ (i3 hm)
        · simp at hm; simp [hm]
      | begin =>
        unfold LifeSys.step at hs; dsimp only at hs
        split_ifs at hs
        cases hs; exact ⟨i1, i2, fun hm => i3 (by simpa using hm)⟩
      | finish i =>
        unfold LifeSys.step at hs; dsimp only at hs
        split_ifs at hs
        cases hs; exact ⟨i1, i2, fun hm => i3 (by simpa using hm)⟩
  rintro ⟨k, -, c, hc, -, hne⟩
  rw [key.1 c (List.mem_of_getElem? hc)] at hne
  exact hne (key.2.2 hs)

/-- A prompt history with a start, a pause, a resumption and a live run; and one that is stopped. -/
example : (∃ l s, Prompt l s ∧ SomeLive s ∧ LifeMove.pause ∈ l ∧ LifeMove.resume ∈ l) ∧
    ∃ l s, LifeRun LifeSys.init l s ∧ (∀ q, LifeMove.start q ∈ l → q = 3) ∧ LifeMove.stop 3 ∈ l ∧ s.runs ≠ [] := by
  have r1 := Prompt.init.tail (m := .start 3) (by simp [LifeSys.init]) (by simp) (by simp) (by simp) rfl
  have r2 := r1.tail (m := .begin) (by simp) (by simp) (by simp) (by simp) rfl
  have r3 := r2.tail (m := .pause) (by simp) (by simp [LifeSys.init]) (by simp) (by simp [LifeSys.init]) rfl
  have r4 := r3.tail (m := .resume) (by simp) (by simp) (by simp) (by simp [LifeSys.init]) rfl
  have r5 := r4.tail (m := .begin) (by simp) (by simp) (by simp) (by simp) rfl
  refine ⟨⟨_, _, r5, ⟨1, by simp [LifeSys.init, LifeSys.swarmCancel], _, rfl, rfl, by simp [LifeSys.init]⟩, by simp, by simp⟩, ?_⟩
  have q := r5.disciplined.run.tail (m := .stop 3) rfl
  exact ⟨_, _, q, by simp, by simp, by simp [LifeSys.init]⟩

/-- A run that is live with a context that is not the newest, as in `C77_orphan`. -/
example : ∃ s l, LifeRun LifeSys.init l s ∧ live s 0 ∧ 0 + 1 < s.ctxs.length := by
  have r1 := (LifeRun.refl LifeSys.init).tail (m := .start 0) rfl
  have r2 := r1.tail (m := .resume) rfl
  exact ⟨_, _, r2, ⟨_, rfl, rfl, by simp [LifeSys.init]⟩, by simp [LifeSys.init]⟩

/-- How many calls of `Start`, and of `Resume` after the first of them, a history contains. `b`: whether `Start` was called before. -/
def Spec.launched : Bool → List LifeMove → ℕ
  | _, [] => 0
  | _, .start _ :: l => Spec.launched true l + 1
  | b, .resume :: l => Spec.launched b l + (if b then 1 else 0)
  | b, _ :: l => Spec.launched b l

/-- The move is a return of a call of `emergeClient.Start`. -/
def Spec.returns : LifeMove → Bool
  | .finish _ => true
  | _ => false

/-- The move is a call of `Start`. -/
def Spec.starts : LifeMove → Bool
  | .start _ => true
  | _ => false

theorem launched_append (l : List LifeMove) (m : LifeMove) : ∀ b, Spec.launched b (l ++ [m]) = Spec.launched b l + Spec.launched (b || l.any Spec.starts) [m] := by
  induction l with
  | nil => intro b; simp [Spec.launched]
  | cons a l ih =>
    intro b
    cases a <;> simp only [List.cons_append, Spec.launched, ih, List.any_cons, Spec.starts, Bool.true_or, Bool.or_true, Bool.false_or] <;> omega

/-- **C77, counting.** Every `Start`, and every `Resume` after it, makes one context and one call of `emergeClient.Start`, which waits to run, runs or has returned. -/
theorem C77_calls {l : List LifeMove} {s : LifeSys} (h : LifeRun LifeSys.init l s) :
    s.ctxs.length = launched false l ∧ s.spawned + s.runs.length + l.countP returns = launched false l := by
  have key : s.ctxs.length = launched false l ∧ s.spawned + s.runs.length + l.countP returns = launched false l ∧ (s.parentCtx.isSome = l.any starts) := by
    generalize he : LifeSys.init = s₀ at h
    induction h with
    | refl => subst he; simp [LifeSys.init, launched]
    | @tail t u l m h hs ih =>
      obtain ⟨i1, i2, i3⟩ := ih
      rw [launched_append, List.countP_append, List.any_append, ← i3, Bool.false_or]
      cases m with
      | start q => cases hs; simp [launched, returns, starts, i1]; omega
      | pause => cases hs; simp [launched, returns, starts, i1, LifeSys.swarmCancel]; omega
      | resume =>
        unfold LifeSys.step at hs
        rcases hpc : t.parentCtx with _ | q <;> rw [hpc] at hs <;> cases hs <;> simp [launched, returns, starts, i1] <;> omega
      | stop q => cases hs; simp [launched, returns, starts, i1]; omega
      | begin =>
        unfold LifeSys.step at hs; dsimp only at hs
        split_ifs at hs
        cases hs; simp [launched, returns, starts, i1]; omega
      | finish i =>
        unfold LifeSys.step at hs; dsimp only at hs
        split_ifs at hs
        cases hs; simp [launched, returns, starts, i1, List.length_eraseIdx]; split_ifs; omega
  exact ⟨key.1, key.2.1⟩

/-- **C77, returning.** Any of the running calls can return next; exactly that one is then gone. -/
theorem C77_return {s : LifeSys} {l₁ l₂ : List ℕ} {k : ℕ} (h : s.runs = l₁ ++ k :: l₂) :
    ∃ u, LifeRun s [.finish l₁.length] u ∧ u = { s with runs := l₁ ++ l₂ } := by
  refine ⟨_, .tail (l := []) (.refl s) (u := { s with runs := l₁ ++ l₂ }) ?_, rfl⟩
  have : s.runs.eraseIdx l₁.length = l₁ ++ l₂ := by
    rw [h, List.eraseIdx_append_of_length_le le_rfl]; simp
  unfold LifeSys.step
  dsimp only
  rw [if_pos (by rw [h]; simp), this]

/-- A resumed simulation whose first call has returned: two calls were made. -/
example : ∃ s, LifeRun LifeSys.init [.resume, .start 0, .begin, .pause, .resume, .finish 0] s ∧ launched false [.resume, .start 0, .begin, .pause, .resume, .finish 0] = 2 ∧
    s.spawned = 1 ∧ s.runs = [] := by
  have r1 := (LifeRun.refl LifeSys.init).tail (m := .resume) rfl
  have r2 := r1.tail (m := .start 0) rfl
  have r3 := r2.tail (m := .begin) rfl
  have r4 := r3.tail (m := .pause) rfl
  have r5 := r4.tail (m := .resume) rfl
  have r6 := r5.tail (m := .finish 0) rfl
  exact ⟨_, r6, rfl, rfl, rfl⟩

end Verif
