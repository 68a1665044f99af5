import Verif.Model.WorkerPool
import Mathlib.Data.List.Basic
import Mathlib.Data.List.Nodup
import Mathlib.Tactic.Linarith

/-!
# C68: the worker pool
-/

set_option autoImplicit false
set_option linter.unusedSectionVars false

namespace Verif

section
variable {T : Type}

/-- A run of the pool, under any schedule, with what can be observed of it. -/
inductive Spec.PoolRun : WorkerPool T → List (PoolNote T) → WorkerPool T → Prop where
  | refl (p : WorkerPool T) : Spec.PoolRun p [] p
  | tail {p q r : WorkerPool T} {notes : List (PoolNote T)} {m : PoolMove T} {n : PoolNote T} (h : Spec.PoolRun p notes q)
      (hs : q.step m = some (.ok (r, n))) : Spec.PoolRun p (notes ++ [n]) r

/-- The tasks submitted, in order. -/
def Spec.submitted (l : List (PoolNote T)) : List T := l.filterMap fun | .submitted t => some t | _ => none
/-- The tasks started, in order. -/
def Spec.begun (l : List (PoolNote T)) : List T := l.filterMap fun | .started t => some t | _ => none
/-- The tasks finished, in order. -/
def Spec.finished (l : List (PoolNote T)) : List T := l.filterMap fun | .finished t => some t | _ => none
/-- Whether the pool was stopped. -/
def Spec.wasStopped (l : List (PoolNote T)) : Prop := PoolNote.stopped ∈ l

/-- The tasks the workers are running. -/
def Spec.running (p : WorkerPool T) : List T := p.workers.filterMap fun | .busy t => some t | _ => none

open Spec

theorem submitted_snoc (l : List (PoolNote T)) (n : PoolNote T) : submitted (l ++ [n]) = submitted l ++ submitted [n] := List.filterMap_append
theorem started_snoc (l : List (PoolNote T)) (n : PoolNote T) : begun (l ++ [n]) = begun l ++ begun [n] := List.filterMap_append
theorem finished_snoc (l : List (PoolNote T)) (n : PoolNote T) : finished (l ++ [n]) = finished l ++ finished [n] := List.filterMap_append

theorem running_start (l : List (Worker T)) (w : ℕ) (t : T) (h : l[w]? = some .idle) :
    List.Perm ((l.set w (.busy t)).filterMap fun | .busy t => some t | _ => none) (t :: l.filterMap fun | .busy t => some t | _ => none) := by
  induction l generalizing w with
  | nil => simp at h
  | cons a l ih =>
    cases w with
    | zero =>
      obtain rfl : a = .idle := by simpa using h
      simp [List.set]
    | succ w =>
      have := ih w (by simpa using h)
      cases a with
      | idle => simpa [List.set] using this
      | gone => simpa [List.set] using this
      | busy u =>
        simp only [List.set, List.filterMap_cons]
        exact (this.cons u).trans (.swap _ _ _)

theorem running_stop (l : List (Worker T)) (w : ℕ) (t : T) (h : l[w]? = some (.busy t)) :
    List.Perm (l.filterMap fun | .busy t => some t | _ => none) (t :: (l.set w .idle).filterMap fun | .busy t => some t | _ => none) := by
  induction l generalizing w with
  | nil => simp at h
  | cons a l ih =>
    cases w with
    | zero =>
      obtain rfl : a = .busy t := by simpa using h
      simp [List.set]
    | succ w =>
      have := ih w (by simpa using h)
      cases a with
      | idle => simpa [List.set] using this
      | gone => simpa [List.set] using this
      | busy u =>
        simp only [List.set, List.filterMap_cons]
        exact (this.cons u).trans (.swap _ _ _)

theorem running_leave (l : List (Worker T)) (w : ℕ) (h : l[w]? = some .idle) :
    ((l.set w .gone).filterMap fun | .busy t => some t | _ => none) = l.filterMap fun | .busy t => some t | _ => none := by
  induction l generalizing w with
  | nil => simp at h
  | cons a l ih =>
    cases w with
    | zero =>
      obtain rfl : a = .idle := by simpa using h
      simp [List.set]
    | succ w =>
      have := ih w (by simpa using h)
      cases a <;> simpa [List.set] using this

/-- What a possible move does. -/
inductive PoolMoved (p : WorkerPool T) : PoolMove T → WorkerPool T → PoolNote T → Prop where
  | submit (t : T) (h : p.queue.length < p.cap) : PoolMoved p (.submit t) { p with queue := p.queue ++ [t] } (.submitted t)
  | stop (h : p.closed = false) : PoolMoved p .stop { p with closed := true } .stopped
  | take (w : ℕ) (t : T) (rest : List T) (h : p.workers[w]? = some .idle) (hq : p.queue = t :: rest) :
      PoolMoved p (.take w) { p with queue := rest, workers := p.workers.set w (.busy t) } (.started t)
  | finish (w : ℕ) (t : T) (h : p.workers[w]? = some (.busy t)) : PoolMoved p (.finish w) { p with workers := p.workers.set w .idle } (.finished t)
  | leave (w : ℕ) (h : p.workers[w]? = some .idle) (hc : p.closed = true) :
      PoolMoved p (.leave w) { p with workers := p.workers.set w .gone } (.left w)

theorem step_moved {p q : WorkerPool T} {m : PoolMove T} {n : PoolNote T} (h : p.step m = some (.ok (q, n))) : PoolMoved p m q n := by
  cases m with
  | submit t =>
    unfold WorkerPool.step at h
    dsimp only at h
    split_ifs at h with hl
    cases h
    exact .submit t hl
  | stop =>
    unfold WorkerPool.step at h
    dsimp only at h
    split_ifs at h with hl
    · cases h
    · cases h
      exact .stop (by simpa using hl)
  | take w =>
    unfold WorkerPool.step at h
    dsimp only at h
    split at h
    · rename_i t rest h1 h2
      cases h
      exact .take w t rest h1 h2
    · cases h
  | finish w =>
    unfold WorkerPool.step at h
    dsimp only at h
    split at h
    · rename_i t h1
      cases h
      exact .finish w t h1
    · cases h
  | leave w =>
    unfold WorkerPool.step at h
    dsimp only at h
    split at h
    · rename_i h1
      split_ifs at h with hc
      cases h
      exact .leave w h1 hc
    · cases h

theorem moved_step {p q : WorkerPool T} {m : PoolMove T} {n : PoolNote T} (h : PoolMoved p m q n) : p.step m = some (.ok (q, n)) := by
  cases h with
  | submit t h => simp [WorkerPool.step, h]
  | stop h => simp [WorkerPool.step, h]
  | take w t rest h hq => simp [WorkerPool.step, h, hq]
  | finish w t h => simp [WorkerPool.step, h]
  | leave w h hc => simp [WorkerPool.step, h, hc]

/-- **C68, order.** After every run, the tasks submitted so far are the tasks started, in the same order, followed by the waiting ones. -/
theorem C68_order {w : ℤ} {p q : WorkerPool T} {l : List (PoolNote T)} (hp : WorkerPool.new w = .ok p) (h : PoolRun p l q) :
    submitted l = begun l ++ q.queue := by
  have h0 : p.queue = [] := by
    unfold WorkerPool.new at hp
    split_ifs at hp
    cases hp; rfl
  induction h with
  | refl => simp [submitted, begun, h0]
  | tail h hs ih =>
    rw [submitted_snoc, started_snoc, ih]
    cases step_moved hs with
    | submit t h => simp [submitted, begun]
    | stop h => simp [submitted, begun]
    | take w t rest h hq => simp [submitted, begun, hq]
    | finish w t h => simp [submitted, begun]
    | leave w h hc => simp [submitted, begun]

/-- **C68, once.** The tasks started are exactly those finished and those being run, each as often as it was started. -/
theorem C68_conserved {w : ℤ} {p q : WorkerPool T} {l : List (PoolNote T)} (hp : WorkerPool.new w = .ok p) (h : PoolRun p l q) :
    (begun l).Perm (finished l ++ running q) := by
  have h0 : running p = [] := by
    unfold WorkerPool.new at hp
    split_ifs at hp
    cases hp
    simp [running]
  induction h with
  | refl => simp [finished, begun, h0]
  | tail h hs ih =>
    rw [finished_snoc, started_snoc]
    cases step_moved hs with
    | submit t h => simpa [finished, begun, running] using ih
    | stop h => simpa [finished, begun, running] using ih
    | take w t rest h hq =>
      have := running_start _ w t h
      simp only [begun, finished, List.filterMap_cons, List.filterMap_nil, List.append_nil] at ih ⊢
      refine (List.perm_append_comm).trans ((ih.cons t).trans ?_)
      refine List.perm_middle.symm.trans (List.Perm.append_left _ ?_)
      exact this.symm
    | finish w t h =>
      have := running_stop _ w t h
      simp only [begun, finished, List.filterMap_cons, List.filterMap_nil, List.append_nil] at ih ⊢
      rw [List.append_assoc]
      exact ih.trans (List.Perm.append_left _ this)
    | leave w h hc =>
      have := running_leave _ w h
      simp only [begun, finished, List.filterMap_cons, List.filterMap_nil, List.append_nil] at ih ⊢
      unfold running at ih ⊢
      rw [this]
      exact ih

/-- **C68, at most once.** If no task is submitted twice, none is started twice, and none is finished twice. -/
theorem C68_once {w : ℤ} {p q : WorkerPool T} {l : List (PoolNote T)} (hp : WorkerPool.new w = .ok p) (h : PoolRun p l q)
    (hn : (submitted l).Nodup) : (begun l).Nodup ∧ (finished l).Nodup ∧ ∀ t ∈ begun l, t ∈ submitted l := by
  rw [C68_order hp h] at hn ⊢
  have h1 := hn.of_append_left
  exact ⟨h1, (((C68_conserved hp h).nodup_iff).1 h1).of_append_left, fun t ht => List.mem_append_left _ ht⟩

/-- The capacity and the number of workers never change, the queue never overflows. -/
theorem C68_bounds {w : ℤ} {p q : WorkerPool T} {l : List (PoolNote T)} (hp : WorkerPool.new w = .ok p) (h : PoolRun p l q) :
    (q.workers.length : ℤ) = w ∧ (q.cap : ℤ) = 2 * w ∧ q.queue.length ≤ q.cap ∧ (running q).length ≤ q.workers.length := by
  suffices (q.workers.length : ℤ) = w ∧ (q.cap : ℤ) = 2 * w ∧ q.queue.length ≤ q.cap from
    ⟨this.1, this.2.1, this.2.2, List.length_filterMap_le _ _⟩
  have h0 : 0 ≤ w ∧ (p.workers.length : ℤ) = w ∧ (p.cap : ℤ) = 2 * w ∧ p.queue = [] := by
    unfold WorkerPool.new at hp
    split_ifs at hp
    cases hp
    simp only [List.length_replicate, and_true]
    omega
  induction h with
  | refl => rw [h0.2.2.2]; exact ⟨h0.2.1, h0.2.2.1, by simp⟩
  | tail h hs ih =>
    obtain ⟨i1, i2, i3⟩ := ih
    cases step_moved hs with
    | submit t h => exact ⟨i1, i2, by simp; omega⟩
    | stop h => exact ⟨i1, i2, i3⟩
    | take w t rest h hq => rw [hq] at i3; exact ⟨by simpa using i1, i2, by simp at i3 ⊢; omega⟩
    | finish w t h => exact ⟨by simpa using i1, i2, i3⟩
    | leave w h hc => exact ⟨by simpa using i1, i2, i3⟩

/-- Without a call of `Stop` no worker ever returns. -/
theorem C68_no_exit {w : ℤ} {p q : WorkerPool T} {l : List (PoolNote T)} (hp : WorkerPool.new w = .ok p) (h : PoolRun p l q) :
    (q.closed = true ↔ wasStopped l) ∧ (¬ wasStopped l → ∀ k ∈ q.workers, k ≠ .gone) := by
  have h0 : p.closed = false ∧ ∀ k ∈ p.workers, k ≠ .gone := by
    unfold WorkerPool.new at hp
    split_ifs at hp
    cases hp
    refine ⟨rfl, fun k hk => ?_⟩
    rw [(List.mem_replicate.1 hk).2]
    intro h; cases h
  induction h with
  | refl => exact ⟨by simp [h0.1, wasStopped], fun _ => h0.2⟩
  | tail h hs ih =>
    obtain ⟨i1, i2⟩ := ih
    cases step_moved hs with
    | submit t h => exact ⟨by simpa [wasStopped] using i1, by simpa [wasStopped] using i2⟩
    | stop h => exact ⟨by simp [wasStopped], by simp [wasStopped]⟩
    | take w t rest h hq =>
      refine ⟨by simpa [wasStopped] using i1, fun hn k hk => ?_⟩
      rcases List.mem_or_eq_of_mem_set hk with hk | rfl
      · exact i2 (by simpa [wasStopped] using hn) k hk
      · intro h; cases h
    | finish w t h =>
      refine ⟨by simpa [wasStopped] using i1, fun hn k hk => ?_⟩
      rcases List.mem_or_eq_of_mem_set hk with hk | rfl
      · exact i2 (by simpa [wasStopped] using hn) k hk
      · intro h; cases h
    | leave w h hc =>
      exact ⟨by simpa [wasStopped] using i1, fun hn => absurd (i1.1 hc) (by simpa [wasStopped] using hn)⟩

/-- A move of a worker. -/
def Spec.isWork : PoolMove T → Prop
  | .take _ | .finish _ => True
  | _ => False

/-- No worker can start or finish a task. -/
def Spec.Quiet (p : WorkerPool T) : Prop := ∀ m, isWork m → p.step m = none

/-- **C68, all tasks run.** If the pool has workers and was never stopped, and no worker can start or finish a task, then every submitted
task has been run to the end. -/
theorem C68_quiescent {w : ℤ} {p q : WorkerPool T} {l : List (PoolNote T)} (hp : WorkerPool.new w = .ok p) (h : PoolRun p l q)
    (hw : 0 < w) (hs : ¬ wasStopped l) (hq : Quiet q) : q.queue = [] ∧ begun l = submitted l ∧ (finished l).Perm (submitted l) := by
  have hg := (C68_no_exit hp h).2 hs
  have hidle : ∀ k ∈ q.workers, k = .idle := by
    intro k hk
    obtain ⟨i, hi⟩ := List.getElem?_of_mem hk
    cases k with
    | idle => rfl
    | gone => exact absurd rfl (hg _ hk)
    | busy t => exact absurd (hq (.finish i) trivial) (by rw [moved_step (.finish i t hi)]; simp)
  have hrun : running q = [] := by
    unfold running
    rw [List.filterMap_eq_nil_iff]
    intro k hk
    rw [hidle k hk]
  have hlen := (C68_bounds hp h).1
  have h0 : q.workers[0]? = some .idle := by
    have hpos : 0 < q.workers.length := by omega
    rw [List.getElem?_eq_getElem hpos, hidle _ (List.getElem_mem hpos)]
  have hqe : q.queue = [] := by
    rcases hqq : q.queue with _ | ⟨t, rest⟩
    · rfl
    · exact absurd (hq (.take 0) trivial) (by rw [moved_step (.take 0 t rest h0 hqq)]; simp)
  have ho := C68_order hp h
  rw [hqe, List.append_nil] at ho
  have hc := C68_conserved hp h
  rw [hrun, List.append_nil] at hc
  exact ⟨hqe, ho.symm, ho ▸ hc.symm⟩

/-- What the workers still have to do. -/
def Spec.work (p : WorkerPool T) : ℕ := 2 * p.queue.length + (running p).length

/-- **C68, the workers get done.** Every move of a worker leaves one thing less to do, so from every state the workers stop after at most
twice as many moves as tasks are waiting, plus one per task being run. -/
theorem C68_terminates {p q : WorkerPool T} {m : PoolMove T} {n : PoolNote T} (h : p.step m = some (.ok (q, n))) (hm : isWork m) :
    work q + 1 = work p := by
  have hs := step_moved h
  clear h
  cases hs with
  | submit t h => exact hm.elim
  | stop h => exact hm.elim
  | leave w h hc => exact hm.elim
  | take w t rest h hq =>
    have := (running_start _ w t h).length_eq
    unfold work running
    rw [hq]
    simp only [List.length_cons] at this ⊢
    omega
  | finish w t h =>
    have := (running_stop _ w t h).length_eq
    unfold work running
    simp only [List.length_cons] at this ⊢
    omega

/-- **C68, submitting.** A blocked `Submit` on a pool that has workers and was not stopped is never stuck: some worker can move. -/
theorem C68_submit {w : ℤ} {p q : WorkerPool T} {l : List (PoolNote T)} (hp : WorkerPool.new w = .ok p) (h : PoolRun p l q) (hw : 0 < w)
    (hs : ¬ wasStopped l) (t : T) (hb : q.step (.submit t) = none) : ¬ Quiet q := by
  intro hq
  have := (C68_quiescent hp h hw hs hq).1
  have hc := (C68_bounds hp h).2.1
  rw [moved_step (.submit t (by rw [this]; simp; omega))] at hb
  cases hb

/-- **C68, stopping.** Stopping panics exactly if the pool has been stopped before. -/
theorem C68_stop {w : ℤ} {p q : WorkerPool T} {l : List (PoolNote T)} (hp : WorkerPool.new w = .ok p) (h : PoolRun p l q) :
    q.step .stop = some .panic ↔ wasStopped l := by
  rw [← (C68_no_exit hp h).1]
  unfold WorkerPool.step
  cases q.closed <;> simp

/-- **C68, after stopping.** When every worker has returned, nothing is started any more, and at most as many tasks as fit into the queue
are accepted: every further `Submit` blocks for ever. -/
theorem C68_after_stop {p q : WorkerPool T} {l : List (PoolNote T)} (hg : ∀ k ∈ p.workers, k = .gone) (h : PoolRun p l q) :
    begun l = [] ∧ q.queue = p.queue ++ submitted l ∧ p.queue.length + (submitted l).length ≤ max p.cap p.queue.length := by
  suffices begun l = [] ∧ q.queue = p.queue ++ submitted l ∧ p.queue.length + (submitted l).length ≤ max p.cap p.queue.length ∧
      q.workers = p.workers ∧ q.cap = p.cap from ⟨this.1, this.2.1, this.2.2.1⟩
  induction h with
  | refl => simp [begun, submitted]
  | tail h hs ih =>
    obtain ⟨i1, i2, i3, i4, i5⟩ := ih
    have hno : ∀ w, ∀ k : Worker T, p.workers[w]? = some k → k = .gone := fun w k hk => hg k (List.mem_of_getElem? hk)
    rw [started_snoc, submitted_snoc]
    cases step_moved hs with
    | submit t h =>
      refine ⟨by simpa [begun] using i1, by simp [i2, submitted], ?_, i4, i5⟩
      rw [i2, i5, List.length_append] at h
      simp [submitted] at h ⊢
      omega
    | stop h => exact ⟨by simpa [begun] using i1, by simpa [submitted] using i2, by simpa [submitted] using i3, i4, i5⟩
    | take w t rest h hq => rw [i4] at h; cases hno _ _ h
    | finish w t h => rw [i4] at h; cases hno _ _ h
    | leave w h hc => rw [i4] at h; cases hno _ _ h

/-- **C68, stopping does not lose tasks.** -/
def C68_drain_claim : Prop :=
  ∀ (T : Type) (w : ℤ) (p q : WorkerPool T) (l : List (PoolNote T)), 0 < w → WorkerPool.new w = .ok p → PoolRun p l q →
    (∀ m, (∀ t, m ≠ .submit t) → m ≠ .stop → q.step m = none) → (finished l).Perm (submitted l)

/-- A task submitted just before the pool is stopped may never be run: the worker may see `quit` first. -/
theorem C68_drain_refuted : ¬ C68_drain_claim := by
  intro h
  let p0 : WorkerPool ℕ := ⟨2, [], [.idle], false⟩
  have r0 : PoolRun p0 [] p0 := .refl _
  have r1 := r0.tail (moved_step (.submit 7 (by decide)))
  have r2 := r1.tail (moved_step (.stop rfl))
  have r3 := r2.tail (moved_step (.leave 0 rfl rfl))
  have := h ℕ 1 p0 _ _ (by decide) rfl r3 (by
    intro m h1 h2
    cases m with
    | submit t => exact absurd rfl (h1 t)
    | stop => exact absurd rfl h2
    | take w => cases w <;> rfl
    | finish w => cases w <;> rfl
    | leave w => cases w <;> rfl)
  simpa [finished, submitted] using this.length_eq

/-- Creating a pool panics exactly for a negative number of workers. -/
theorem C68_new (w : ℤ) : (WorkerPool.new w : Outcome (WorkerPool T)) = .panic ↔ w < 0 := by
  unfold WorkerPool.new
  split_ifs with h
  · simp [h]
  · simp [h]

/-- **C68, the number of workers.** On a machine with at least one processor every swarm size gets at least one worker and at most 32 or
twice the number of processors. -/
theorem C68_workerCount (cpus size : ℤ) (h : 1 ≤ cpus) : 1 ≤ optimalWorkerCount cpus size ∧ optimalWorkerCount cpus size ≤ max 32 (2 * cpus) := by
  unfold optimalWorkerCount minInt
  split_ifs <;> omega

/-- The number of workers grows with the swarm exactly on machines with at most 16 processors. -/
theorem C68_workerCount_mono (cpus : ℤ) (h : 1 ≤ cpus) :
    (∀ a b, a ≤ b → optimalWorkerCount cpus a ≤ optimalWorkerCount cpus b) ↔ cpus ≤ 16 := by
  constructor
  · intro hm
    have := hm 999 1000 (by norm_num)
    unfold optimalWorkerCount minInt at this
    norm_num at this
    split_ifs at this <;> omega
  · intro hc a b hab
    unfold optimalWorkerCount minInt
    split_ifs <;> omega

/-- A run in which both workers are busy, a task waits, and one was finished. -/
example : ∃ (p q : WorkerPool ℕ) (l : List (PoolNote ℕ)), WorkerPool.new 2 = .ok p ∧ PoolRun p l q ∧ (submitted l).Nodup ∧ ¬ wasStopped l ∧
    q.queue = [4] ∧ (running q).length = 2 ∧ finished l = [1] := by
  let p0 : WorkerPool ℕ := ⟨4, [], [.idle, .idle], false⟩
  have r0 : PoolRun p0 [] p0 := .refl _
  have r1 := r0.tail (moved_step (.submit 1 (by decide)))
  have r2 := r1.tail (moved_step (.submit 2 (by decide)))
  have r3 := r2.tail (moved_step (.submit 3 (by decide)))
  have r4 := r3.tail (moved_step (.submit 4 (by decide)))
  have r5 := r4.tail (moved_step (.take 1 _ _ rfl rfl))
  have r6 := r5.tail (moved_step (.take 0 _ _ rfl rfl))
  have r7 := r6.tail (moved_step (.finish 1 _ rfl))
  have r8 := r7.tail (moved_step (.take 1 _ _ rfl rfl))
  exact ⟨p0, _, _, rfl, r8, by simp [submitted], by simp [wasStopped], rfl, rfl, rfl⟩

/-- A quiet pool after a task was run, and a stopped pool whose workers have returned. -/
example : ∃ (p q r : WorkerPool ℕ) (l k : List (PoolNote ℕ)), WorkerPool.new 1 = .ok p ∧ PoolRun p l q ∧ ¬ wasStopped l ∧ Quiet q ∧
    submitted l = [5] ∧ PoolRun p k r ∧ (∀ k ∈ r.workers, k = .gone) ∧ r.queue = [6] := by
  let p0 : WorkerPool ℕ := ⟨2, [], [.idle], false⟩
  have r0 : PoolRun p0 [] p0 := .refl _
  have r1 := r0.tail (moved_step (.submit 5 (by decide)))
  have r2 := r1.tail (moved_step (.take 0 _ _ rfl rfl))
  have r3 := r2.tail (moved_step (.finish 0 _ rfl))
  have s1 := r0.tail (moved_step (.submit 6 (by decide)))
  have s2 := s1.tail (moved_step (.stop rfl))
  have s3 := s2.tail (moved_step (.leave 0 rfl rfl))
  refine ⟨p0, _, _, _, _, rfl, r3, by simp [wasStopped], ?_, rfl, s3, ?_, rfl⟩
  · intro m hm
    cases m with
    | submit t => exact hm.elim
    | stop => exact hm.elim
    | leave w => exact hm.elim
    | take w => cases w <;> rfl
    | finish w => cases w <;> rfl
  · intro k hk
    simpa [p0] using hk

end
end Verif
