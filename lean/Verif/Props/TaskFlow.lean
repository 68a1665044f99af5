import Verif.Props.Batching
import Mathlib.Data.List.Basic
import Mathlib.Data.List.Count
import Mathlib.Data.List.Nodup
import Std.Data.String.ToNat

/-!
# C71: tasks are accounted for; C82: resetting returns; C83: resetting starts afresh; C84: task IDs are unique
-/

set_option autoImplicit false
set_option linter.unusedSectionVars false

namespace Verif

/-- A run of the demo under any schedule, with what became of tasks in every move. -/
inductive Spec.BatchRun : BatchSys → List (BatchMove × BatchNote) → BatchSys → Prop where
  | refl (s : BatchSys) : Spec.BatchRun s [] s
  | tail {s t u : BatchSys} {l : List (BatchMove × BatchNote)} {m : BatchMove} {n : BatchNote} (h : Spec.BatchRun s l t)
      (hs : t.step m = some (u, n)) : Spec.BatchRun s (l ++ [(m, n)]) u

/-- The tasks created, in order. -/
def Spec.created (l : List (BatchMove × BatchNote)) : List SimTask := l.flatMap fun x => x.2.created
/-- The tasks lost because the queue was full. -/
def Spec.overflowed (l : List (BatchMove × BatchNote)) : List SimTask := l.flatMap fun x => x.2.overflow
/-- The tasks discarded by a reset. -/
def Spec.discarded (l : List (BatchMove × BatchNote)) : List SimTask := l.flatMap fun x => x.2.discarded

/-- The tasks the consumer has received and not yet processed. -/
def Spec.consumed : Consumer → List SimTask
  | .waiting => []
  | .collecting tasks => tasks
  | .processing batches | .updating batches => batches.flatten

/-- The tasks a workload holds. -/
def Spec.held (w : Workload) : List SimTask := w.hand.toList ++ w.pendingTasks

/-- The tasks that have been processed. -/
def Spec.processed (s : BatchSys) : List SimTask := s.recorded.flatten

/-- All tasks that are somewhere: with a workload, in the queue, with the consumer, or processed. -/
def Spec.located (s : BatchSys) : List SimTask :=
  s.workloads.flatMap Spec.held ++ s.queue.flatten ++ Spec.consumed s.consumer ++ Spec.processed s

open Spec

/-! ### Conservation -/

theorem count_set (t : SimTask) (l : List Workload) (i : ℕ) (w w' : Workload) (h : l[i]? = some w) :
    ((l.set i w').flatMap held).count t + (held w).count t = (l.flatMap held).count t + (held w').count t := by
  induction l generalizing i with
  | nil => simp at h
  | cons a l ih =>
    cases i with
    | zero =>
      obtain rfl : a = w := by simpa using h
      simp [List.set, List.flatMap_cons, List.count_append]
      omega
    | succ i =>
      have := ih i (by simpa using h)
      simp [List.set, List.flatMap_cons, List.count_append] at this ⊢
      omega

/-- What a possible move does. -/
inductive BatchMoved (s : BatchSys) : BatchMove → BatchSys → BatchNote → Prop where
  | tick (i k : ℕ) (w : Workload) (h : s.workloads[i]? = some w) (hr : s.resetter = .idle) (h0 : w.toCreate = 0) (hh : w.hand = none) :
      BatchMoved s (.tick i k) { s with workloads := s.workloads.set i { w with toCreate := k } } {}
  | create (i : ℕ) (w : Workload) (h : s.workloads[i]? = some w) (h0 : 0 < w.toCreate) (hh : w.hand = none) :
      BatchMoved s (.create i)
        { s with workloads := s.workloads.set i { w.createTask.2 with hand := some w.createTask.1, toCreate := w.toCreate - 1 } }
        { created := [w.createTask.1] }
  | append (i : ℕ) (w : Workload) (t : SimTask) (h : s.workloads[i]? = some w) (hh : w.hand = some t) :
      BatchMoved s (.append i) { s with workloads := s.workloads.set i { w with pendingTasks := w.pendingTasks ++ [t], hand := none } } {}
  | poll (i : ℕ) (w : Workload) (h : s.workloads[i]? = some w) (hr : s.resetter = .idle) (hc : w.checked = false) :
      BatchMoved s (.poll i) { s with workloads := s.workloads.set i { w with checked := true } } {}
  | sendNone (i : ℕ) (w : Workload) (h : s.workloads[i]? = some w) (hc : w.checked = true) (he : w.pendingTasks = []) :
      BatchMoved s (.send i) { s with workloads := s.workloads.set i { w with checked := false } } {}
  | send (i : ℕ) (w : Workload) (h : s.workloads[i]? = some w) (hc : w.checked = true) (he : w.pendingTasks ≠ []) (hq : s.queue.length < 100) :
      BatchMoved s (.send i)
        { s with workloads := s.workloads.set i { w with pendingTasks := [], checked := false }, queue := s.queue ++ [w.pendingTasks] } {}
  | sendFull (i : ℕ) (w : Workload) (h : s.workloads[i]? = some w) (hc : w.checked = true) (he : w.pendingTasks ≠ [])
      (hq : 100 ≤ s.queue.length) :
      BatchMoved s (.send i) { s with workloads := s.workloads.set i { w with pendingTasks := [], checked := false } } { overflow := w.pendingTasks }
  | skip (i : ℕ) (w : Workload) (h : s.workloads[i]? = some w) (hc : w.checked = true) :
      BatchMoved s (.skip i) { s with workloads := s.workloads.set i { w with checked := false } } {}
  | receiveFirst (b : List SimTask) (rest : List (List SimTask)) (hc : s.consumer = .waiting) (hq : s.queue = b :: rest) :
      BatchMoved s .receive { s with consumer := .collecting b, queue := rest } {}
  | receiveMore (tasks b : List SimTask) (rest : List (List SimTask)) (hc : s.consumer = .collecting tasks) (hq : s.queue = b :: rest) :
      BatchMoved s .receive { s with consumer := .collecting (tasks ++ b), queue := rest } {}
  | close (tasks : List SimTask) (hc : s.consumer = .collecting tasks) :
      BatchMoved s .close { s with consumer := .processing (if tasks.length = 0 then [] else splitIntoAPIBatches tasks) } {}
  | processEnd (hc : s.consumer = .processing []) : BatchMoved s .process { s with consumer := .waiting } {}
  | process (b : List SimTask) (rest : List (List SimTask)) (hc : s.consumer = .processing (b :: rest)) :
      BatchMoved s .process { s with consumer := .updating rest, recorded := s.recorded ++ [b] } {}
  | update (rest : List (List SimTask)) (hc : s.consumer = .updating rest) (hr : s.resetter ≠ .checking ∧ s.resetter ≠ .receiving) :
      BatchMoved s .update { s with consumer := .processing rest } {}
  | reset (hr : s.resetter = .idle) : BatchMoved s .reset { s with resetter := .locking } {}
  | lock (hr : s.resetter = .locking) : BatchMoved s .resetStep { s with resetter := .checking } {}
  | checkSome (hr : s.resetter = .checking) (hq : s.queue ≠ []) : BatchMoved s .resetStep { s with resetter := .receiving } {}
  | checkNone (hr : s.resetter = .checking) (hq : s.queue = []) : BatchMoved s .resetStep { s with resetter := .workloads 0 } {}
  | drain (b : List SimTask) (rest : List (List SimTask)) (hr : s.resetter = .receiving) (hq : s.queue = b :: rest) :
      BatchMoved s .resetStep { s with queue := rest, resetter := .checking } { discarded := b }
  | resetWorkload (k : ℕ) (w : Workload) (hr : s.resetter = .workloads k) (h : s.workloads[k]? = some w) :
      BatchMoved s .resetStep { s with workloads := s.workloads.set k w.reset, resetter := .workloads (k + 1) } { discarded := w.pendingTasks }
  | resetEnd (k : ℕ) (hr : s.resetter = .workloads k) (h : s.workloads[k]? = none) : BatchMoved s .resetStep { s with resetter := .idle } {}

theorem batch_moved {s u : BatchSys} {m : BatchMove} {n : BatchNote} (h : s.step m = some (u, n)) : BatchMoved s m u n := by
  cases m with
  | tick i k =>
    unfold BatchSys.step at h; dsimp only at h
    rcases hw : s.workloads[i]? with _ | w <;> rw [hw] at h <;> dsimp only at h
    · cases h
    · split_ifs at h with hc
      cases h; exact .tick i k w hw hc.1 hc.2.1 hc.2.2
  | create i =>
    unfold BatchSys.step at h; dsimp only at h
    rcases hw : s.workloads[i]? with _ | w <;> rw [hw] at h <;> dsimp only at h
    · cases h
    · split_ifs at h with hc
      cases h; exact .create i w hw hc.1 hc.2
  | append i =>
    unfold BatchSys.step at h; dsimp only at h
    rcases hw : s.workloads[i]? with _ | w <;> rw [hw] at h <;> dsimp only at h
    · cases h
    · rcases hh : w.hand with _ | t <;> rw [hh] at h <;> dsimp only at h
      · cases h
      · cases h; exact .append i w t hw hh
  | poll i =>
    unfold BatchSys.step at h; dsimp only at h
    rcases hw : s.workloads[i]? with _ | w <;> rw [hw] at h <;> dsimp only at h
    · cases h
    · split_ifs at h with hc
      cases h; exact .poll i w hw hc.1 hc.2
  | send i =>
    unfold BatchSys.step at h; dsimp only at h
    rcases hw : s.workloads[i]? with _ | w <;> rw [hw] at h <;> dsimp only at h
    · cases h
    · by_cases hc : w.checked = false
      · rw [if_pos hc] at h; cases h
      · rw [if_neg hc] at h
        replace hc : w.checked = true := by simpa using hc
        by_cases he : w.pendingTasks.length = 0
        · rw [if_pos he] at h
          cases h; exact .sendNone i w hw hc (List.length_eq_zero_iff.1 he)
        · rw [if_neg he] at h
          have he' : w.pendingTasks ≠ [] := fun e => he (by rw [e]; rfl)
          by_cases hq : s.queue.length < 100
          · rw [if_pos hq] at h
            cases h; exact .send i w hw hc he' hq
          · rw [if_neg hq] at h
            cases h; exact .sendFull i w hw hc he' (by omega)
  | skip i =>
    unfold BatchSys.step at h; dsimp only at h
    rcases hw : s.workloads[i]? with _ | w <;> rw [hw] at h <;> dsimp only at h
    · cases h
    · split_ifs at h with hc
      cases h; exact .skip i w hw (by simpa using hc)
  | receive =>
    unfold BatchSys.step at h; dsimp only at h
    split at h
    · rename_i b rest h1 h2
      cases h; exact .receiveFirst b rest h1 h2
    · rename_i t b rest h1 h2
      cases h; exact .receiveMore t b rest h1 h2
    · cases h
  | close =>
    unfold BatchSys.step at h; dsimp only at h
    split at h
    · rename_i t h1
      cases h; exact .close t h1
    · cases h
  | process =>
    unfold BatchSys.step at h; dsimp only at h
    split at h
    · rename_i h1
      cases h; exact .processEnd h1
    · rename_i b rest h1
      cases h; exact .process b rest h1
    · cases h
  | update =>
    unfold BatchSys.step at h; dsimp only at h
    split at h
    · rename_i rest h1
      split_ifs at h with hc
      cases h; exact .update rest h1 (not_or.1 hc)
    · cases h
  | reset =>
    unfold BatchSys.step at h; dsimp only at h
    split_ifs at h with hc
    cases h; exact .reset hc
  | resetStep =>
    unfold BatchSys.step at h; dsimp only at h
    rcases hr : s.resetter with _ | _ | _ | _ | k <;> rw [hr] at h <;> dsimp only at h
    · cases h
    · cases h; exact .lock hr
    · by_cases hq : s.queue.length > 0
      · rw [if_pos hq] at h
        cases h; exact .checkSome hr (List.length_pos_iff.1 hq)
      · rw [if_neg hq] at h
        cases h; exact .checkNone hr (List.length_eq_zero_iff.1 (by omega))
    · rcases hq : s.queue with _ | ⟨b, rest⟩ <;> rw [hq] at h <;> dsimp only at h
      · cases h
      · cases h; exact .drain b rest hr hq
    · rcases hw : s.workloads[k]? with _ | w <;> rw [hw] at h <;> dsimp only at h
      · cases h; exact .resetEnd k hr hw
      · cases h; exact .resetWorkload k w hr hw

theorem moved_batch {s u : BatchSys} {m : BatchMove} {n : BatchNote} (h : BatchMoved s m u n) : s.step m = some (u, n) := by
  cases h with
  | tick i k w h hr h0 hh => simp [BatchSys.step, h, hr, h0, hh]
  | create i w h h0 hh => simp [BatchSys.step, h, h0, hh]
  | append i w t h hh => simp [BatchSys.step, h, hh]
  | poll i w h hr hc => simp [BatchSys.step, h, hr, hc]
  | sendNone i w h hc he => simp [BatchSys.step, h, hc, he]
  | send i w h hc he hq => simp [BatchSys.step, h, hc, he, hq]
  | sendFull i w h hc he hq => simp [BatchSys.step, h, hc, he, not_lt.2 hq]
  | skip i w h hc => simp [BatchSys.step, h, hc]
  | receiveFirst b rest hc hq => simp [BatchSys.step, hc, hq]
  | receiveMore t b rest hc hq => simp [BatchSys.step, hc, hq]
  | close t hc => simp [BatchSys.step, hc]
  | processEnd hc => simp [BatchSys.step, hc]
  | process b rest hc => simp [BatchSys.step, hc]
  | update rest hc hr => simp [BatchSys.step, hc, hr.1, hr.2]
  | reset hr => simp [BatchSys.step, hr]
  | lock hr => simp [BatchSys.step, hr]
  | checkSome hr hq => simp [BatchSys.step, hr, List.length_pos_iff.2 hq]
  | checkNone hr hq => simp [BatchSys.step, hr, hq]
  | drain b rest hr hq => simp [BatchSys.step, hr, hq]
  | resetWorkload k w hr h => simp [BatchSys.step, hr, h]
  | resetEnd k hr h => simp [BatchSys.step, hr, h]

theorem step_count (t : SimTask) {s u : BatchSys} {m : BatchMove} {n : BatchNote} (h : BatchMoved s m u n) :
    (located u).count t + n.overflow.count t + n.discarded.count t = (located s).count t + n.created.count t := by
  have hset := fun i w w' hw => count_set t s.workloads i w w' hw
  unfold located processed
  simp only [List.count_append]
  cases h with
  | tick i k w h hr h0 hh =>
    have := hset i w { w with toCreate := k } h
    simp [held] at this ⊢; omega
  | create i w h h0 hh =>
    have := hset i w { w.createTask.2 with hand := some w.createTask.1, toCreate := w.toCreate - 1 } h
    simp [held, hh, Workload.createTask, List.count_cons] at this ⊢; omega
  | append i w x h hh =>
    have := hset i w { w with pendingTasks := w.pendingTasks ++ [x], hand := none } h
    simp [held, hh, List.count_cons] at this ⊢; omega
  | poll i w h hr hc =>
    have := hset i w { w with checked := true } h
    simp [held] at this ⊢; omega
  | sendNone i w h hc he =>
    have := hset i w { w with checked := false } h
    simp [held] at this ⊢; omega
  | send i w h hc he hq =>
    have := hset i w { w with pendingTasks := [], checked := false } h
    simp [held] at this ⊢; omega
  | sendFull i w h hc he hq =>
    have := hset i w { w with pendingTasks := [], checked := false } h
    simp [held] at this ⊢; omega
  | skip i w h hc =>
    have := hset i w { w with checked := false } h
    simp [held] at this ⊢; omega
  | receiveFirst b rest hc hq => simp [hc, hq, consumed]; omega
  | receiveMore tasks b rest hc hq => simp [hc, hq, consumed]; omega
  | close tasks hc =>
    have : (if tasks.length = 0 then [] else splitIntoAPIBatches tasks).flatten = tasks := by
      split_ifs with h0
      · rw [List.length_eq_zero_iff.1 h0]; rfl
      · exact (C69_split tasks).1
    simp only [consumed, this, hc]
    simp
  | processEnd hc => simp [hc, consumed]
  | process b rest hc => simp [hc, consumed]; omega
  | update rest hc hr => simp [hc, consumed]
  | reset hr => simp
  | lock hr => simp
  | checkSome hr hq => simp
  | checkNone hr hq => simp
  | drain b rest hr hq => simp [hq]; omega
  | resetWorkload k w hr h =>
    have := hset k w w.reset h
    simp [held, Workload.reset] at this ⊢; omega
  | resetEnd k hr h => simp

/-- **C71.** After every run from the beginning: the tasks created are exactly those that are with a workload, in the queue, with the consumer or
processed, those lost because the queue was full and those discarded by a reset, each as often as it was created. -/
theorem C71_conserved {ids : List String} {s : BatchSys} {l : List (BatchMove × BatchNote)} (h : BatchRun (BatchSys.init ids) l s) :
    (created l).Perm (located s ++ overflowed l ++ discarded l) := by
  rw [List.perm_iff_count]
  intro t
  have key : ∀ (s₀ : BatchSys), BatchRun s₀ l s →
      (located s).count t + (overflowed l).count t + (discarded l).count t = (located s₀).count t + (created l).count t := by
    intro s₀ h'
    clear h
    induction h' with
    | refl => simp [overflowed, discarded, created]
    | tail h hs ih =>
      have := step_count t (batch_moved hs)
      simp only [overflowed, discarded, created, List.flatMap_append, List.flatMap_cons, List.flatMap_nil, List.append_nil,
        List.count_append] at ih ⊢
      omega
  have h0 : (located (BatchSys.init ids)).count t = 0 := by
    have : located (BatchSys.init ids) = [] := by
      unfold located BatchSys.init processed consumed
      have : (ids.map Workload.new).flatMap held = [] := by
        rw [List.flatMap_eq_nil_iff]
        intro w hw
        obtain ⟨id, -, rfl⟩ := List.mem_map.1 hw
        rfl
      simp [this]
    rw [this]; rfl
  have := key _ h
  rw [List.count_append, List.count_append]
  omega

/-- **C71, at most once.** If no two tasks created are equal, no task is processed twice. -/
theorem C71_once {ids : List String} {s : BatchSys} {l : List (BatchMove × BatchNote)} (h : BatchRun (BatchSys.init ids) l s)
    (hn : (created l).Nodup) : (located s).Nodup ∧ (processed s).Nodup ∧ ∀ t ∈ processed s, t ∉ overflowed l ∧ t ∉ discarded l := by
  have hp := ((C71_conserved h).nodup_iff).1 hn
  have h1 := hp.of_append_left
  have h2 := h1.of_append_left
  refine ⟨h2, h2.of_append_right, fun t ht => ⟨fun hc => ?_, fun hc => ?_⟩⟩
  · exact List.disjoint_of_nodup_append h1 (List.mem_append_right _ ht) hc
  · exact List.disjoint_of_nodup_append hp (List.mem_append_left _ (List.mem_append_right _ ht)) hc

/-- **C71, losses.** A move loses tasks only if the queue holds 100 batches, and discards tasks only for a reset. -/
theorem C71_losses {s u : BatchSys} {m : BatchMove} {n : BatchNote} (h : s.step m = some (u, n)) :
    (n.overflow ≠ [] → 100 ≤ s.queue.length ∧ ∃ i, m = .send i) ∧ (n.discarded ≠ [] → s.resetter ≠ .idle ∧ m = .resetStep) := by
  cases batch_moved h with
  | sendFull i w h hc he hq => exact ⟨fun _ => ⟨hq, i, rfl⟩, fun h => absurd rfl h⟩
  | drain b rest hr hq => exact ⟨fun h => absurd rfl h, fun _ => ⟨by rw [hr]; simp, rfl⟩⟩
  | resetWorkload k w hr h => exact ⟨fun h => absurd rfl h, fun _ => ⟨by rw [hr]; simp, rfl⟩⟩
  | _ => exact ⟨fun h => absurd rfl h, fun h => absurd rfl h⟩

/-- **C71, limits.** The queue never holds more than 100 batches, and none of them is empty; every API batch processed has 1 to 100 tasks. -/
theorem C71_limits {ids : List String} {s : BatchSys} {l : List (BatchMove × BatchNote)} (h : BatchRun (BatchSys.init ids) l s) :
    s.queue.length ≤ 100 ∧ (∀ b ∈ s.queue, b ≠ []) ∧ ∀ b ∈ s.recorded, b ≠ [] ∧ b.length ≤ 100 := by
  have key : ∀ s₀ : BatchSys, BatchRun s₀ l s → s₀ = BatchSys.init ids →
      s.queue.length ≤ 100 ∧ (∀ b ∈ s.queue, b ≠ []) ∧ (∀ b ∈ s.recorded, b ≠ [] ∧ b.length ≤ 100) ∧
      (match s.consumer with | .processing L | .updating L => ∀ b ∈ L, b ≠ [] ∧ b.length ≤ 100 | _ => True) := by
    intro s₀ h' e
    clear h
    induction h' with
    | refl => subst e; simp [BatchSys.init]
    | tail h hs ih =>
      obtain ⟨i1, i2, i3, i4⟩ := ih
      cases batch_moved hs with
      | send i w h hc he hq =>
        refine ⟨by simp; omega, fun b hb => ?_, i3, i4⟩
        rcases List.mem_append.1 hb with hb | hb
        · exact i2 b hb
        · obtain rfl : b = w.pendingTasks := by simpa using hb
          exact he
      | receiveFirst b rest hc hq =>
        rw [hq] at i1 i2
        exact ⟨by simp at i1 ⊢; omega, fun c hc => i2 c (List.mem_cons_of_mem _ hc), i3, trivial⟩
      | receiveMore t b rest hc hq =>
        rw [hq] at i1 i2
        exact ⟨by simp at i1 ⊢; omega, fun c hc => i2 c (List.mem_cons_of_mem _ hc), i3, trivial⟩
      | close t hc =>
        refine ⟨i1, i2, i3, fun b hb => ?_⟩
        split_ifs at hb with h0
        · simp at hb
        · exact (C69_split t).2.1 b hb
      | processEnd hc => exact ⟨i1, i2, i3, trivial⟩
      | process b rest hc =>
        rw [hc] at i4
        refine ⟨i1, i2, fun c hcm => ?_, fun c hcm => i4 c (List.mem_cons_of_mem _ hcm)⟩
        rcases List.mem_append.1 hcm with hcm | hcm
        · exact i3 c hcm
        · obtain rfl : c = b := by simpa using hcm
          exact i4 c List.mem_cons_self
      | update rest hc hr => rw [hc] at i4; exact ⟨i1, i2, i3, i4⟩
      | drain b rest hr hq =>
        rw [hq] at i1 i2
        exact ⟨by simp at i1 ⊢; omega, fun c hc => i2 c (List.mem_cons_of_mem _ hc), i3, i4⟩
      | _ => exact ⟨i1, i2, i3, i4⟩
  obtain ⟨h1, h2, h3, -⟩ := key _ h rfl
  exact ⟨h1, h2, h3⟩

/-- A move of the consumer. -/
def Spec.isConsumer : BatchMove → Prop
  | .receive | .close | .process | .update => True
  | _ => False

/-- **C71, the queue is emptied.** Outside of a reset, the consumer can always move as long as a batch is waiting or in its hands; and when it
cannot, every task ever created is still with a workload, processed, lost or discarded. -/
theorem C71_drained {ids : List String} {s : BatchSys} {l : List (BatchMove × BatchNote)} (h : BatchRun (BatchSys.init ids) l s)
    (hr : s.resetter = .idle) (hq : ∀ m, isConsumer m → s.step m = none) :
    s.queue = [] ∧ (created l).Perm (s.workloads.flatMap held ++ processed s ++ overflowed l ++ discarded l) := by
  have hc : s.consumer = .waiting := by
    rcases hc : s.consumer with _ | t | L | L
    · rfl
    · have := hq .close trivial
      rw [moved_batch (.close t hc)] at this; cases this
    · rcases L with _ | ⟨b, L⟩
      · have := hq .process trivial
        rw [moved_batch (.processEnd hc)] at this; cases this
      · have := hq .process trivial
        rw [moved_batch (.process b L hc)] at this; cases this
    · have := hq .update trivial
      rw [moved_batch (.update L hc (by rw [hr]; simp))] at this; cases this
  have hqe : s.queue = [] := by
    rcases hqq : s.queue with _ | ⟨b, rest⟩
    · rfl
    · have := hq .receive trivial
      rw [moved_batch (.receiveFirst b rest hc hqq)] at this; cases this
  refine ⟨hqe, ?_⟩
  have := C71_conserved h
  unfold located at this
  rw [hqe, hc] at this
  simpa [consumed] using this

/-- **C84, in full.** If the workloads have different IDs, no two tasks processed have the same ID. -/
def C84_claim : Prop :=
  ∀ (ids : List String) (s : BatchSys) (l : List (BatchMove × BatchNote)), ids.Nodup → BatchRun (BatchSys.init ids) l s →
    ((processed s).map SimTask.id).Nodup

/-! ### IDs -/

theorem append_sep {c : Char} {X Y D E : List Char} (h : X ++ c :: D = Y ++ c :: E) (hD : c ∉ D) (hE : c ∉ E) : X = Y ∧ D = E := by
  rcases List.append_eq_append_iff.1 h with ⟨as, h1, h2⟩ | ⟨as, h1, h2⟩
  · rcases as with _ | ⟨a, as⟩
    · simp at h1 h2; exact ⟨h1.symm, h2⟩
    · simp at h2; exact absurd (by rw [h2.2]; simp) hD
  · rcases as with _ | ⟨a, as⟩
    · simp at h1 h2; exact ⟨h1, h2.symm⟩
    · simp at h2; exact absurd (by rw [h2.2]; simp) hE

/-- The ID of a task determines the workload and the number. -/
theorem taskID_inj {a b : String} {n m : ℕ} (h : a ++ "-task-" ++ toString n = b ++ "-task-" ++ toString m) : a = b ∧ n = m := by
  have hl := congrArg String.toList h
  have e : ∀ (a : String) (n : ℕ), (a ++ "-task-" ++ toString n).toList = (a.toList ++ "-task".toList) ++ '-' :: (Nat.toDigits 10 n) := by
    intro a n
    simp only [String.toList_append]
    rw [show (toString n).toList = Nat.toDigits 10 n from Nat.toList_repr]
    simp
  rw [e, e] at hl
  have hd : ∀ n, '-' ∉ Nat.toDigits 10 n := by
    intro n hn
    have := Nat.isDigit_of_mem_toDigits (by norm_num) (by norm_num) hn
    revert this
    decide
  obtain ⟨h1, h2⟩ := append_sep hl (hd n) (hd m)
  refine ⟨?_, ?_⟩
  · exact String.toList_inj.1 (List.append_cancel_right h1)
  · have := congrArg (fun l => Nat.ofDigitChars 10 l 0) h2
    simpa [Nat.ofDigitChars_ten_toDigits] using this

/-- **C84, partial.** For workloads with different IDs and a run without a reset, no two tasks created have the same ID; so no two
processed. Missing: runs with a reset, after which the numbers start again. -/
theorem C84_ids_partial {ids : List String} (hids : ids.Nodup) {s : BatchSys} {l : List (BatchMove × BatchNote)}
    (h : BatchRun (BatchSys.init ids) l s) (hr : ∀ x ∈ l, x.1 ≠ .reset) :
    ((created l).map SimTask.id).Nodup ∧ ((processed s).map SimTask.id).Nodup := by
  have key : ∀ s₀ : BatchSys, BatchRun s₀ l s → s₀ = BatchSys.init ids →
      s.resetter = .idle ∧ s.workloads.map Workload.id = ids ∧
      (∀ t ∈ created l, ∃ w ∈ s.workloads, ∃ n, n ≤ w.taskCounter ∧ t.id = w.id ++ "-task-" ++ toString n) ∧
      ((created l).map SimTask.id).Nodup := by
    intro s₀ h' e
    clear h
    induction h' with
    | refl => subst e; exact ⟨rfl, by simp [BatchSys.init, Workload.new, Function.comp_def], by simp [created], by simp [created]⟩
    | @tail t u l m n h hs ih =>
      obtain ⟨i1, i2, i3, i4⟩ := ih (fun x hx => hr x (List.mem_append_left _ hx))
      have hnr : m ≠ .reset := hr (m, n) (by simp)
      -- replacing a workload by one with the same ID and no smaller counter
      have hset : ∀ (i : ℕ) (w w' : Workload), t.workloads[i]? = some w → w'.id = w.id → w.taskCounter ≤ w'.taskCounter →
          (t.workloads.set i w').map Workload.id = ids ∧
          ∀ x ∈ created l, ∃ v ∈ t.workloads.set i w', ∃ n, n ≤ v.taskCounter ∧ x.id = v.id ++ "-task-" ++ toString n := by
        intro i w w' hw hid hc
        obtain ⟨hi, hwi⟩ := List.getElem?_eq_some_iff.1 hw
        constructor
        · rw [List.map_set, i2, hid]
          have : ids[i]? = some w.id := by rw [← i2, List.getElem?_map, hw]; rfl
          obtain ⟨hi', e⟩ := List.getElem?_eq_some_iff.1 this
          rw [← e]; exact List.set_getElem_self hi'
        · intro x hx
          obtain ⟨v, hv, n, hn, e⟩ := i3 x hx
          obtain ⟨j, hj, hvj⟩ := List.mem_iff_getElem.1 hv
          by_cases hij : j = i
          · subst hij
            have : v = w := by rw [← hvj, ← hwi]
            subst this
            exact ⟨w', List.mem_set hi _, n, hn.trans hc, by rw [hid]; exact e⟩
          · refine ⟨v, ?_, n, hn, e⟩
            rw [List.mem_iff_getElem]
            exact ⟨j, by simpa using hj, by rw [List.getElem_set_ne (by omega)]; exact hvj⟩
      have hsnoc : created (l ++ [(m, n)]) = created l ++ n.created := by simp [created]
      rw [hsnoc]
      cases batch_moved hs with
      | tick i k w h hr h0 hh =>
        obtain ⟨a, b⟩ := hset i w { w with toCreate := k } h rfl le_rfl
        simp only [List.append_nil]; exact ⟨i1, a, b, i4⟩
      | append i w x h hh =>
        obtain ⟨a, b⟩ := hset i w { w with pendingTasks := w.pendingTasks ++ [x], hand := none } h rfl le_rfl
        simp only [List.append_nil]; exact ⟨i1, a, b, i4⟩
      | poll i w h hr hc =>
        obtain ⟨a, b⟩ := hset i w { w with checked := true } h rfl le_rfl
        simp only [List.append_nil]; exact ⟨i1, a, b, i4⟩
      | sendNone i w h hc he =>
        obtain ⟨a, b⟩ := hset i w { w with checked := false } h rfl le_rfl
        simp only [List.append_nil]; exact ⟨i1, a, b, i4⟩
      | send i w h hc he hq =>
        obtain ⟨a, b⟩ := hset i w { w with pendingTasks := [], checked := false } h rfl le_rfl
        simp only [List.append_nil]; exact ⟨i1, a, b, i4⟩
      | sendFull i w h hc he hq =>
        obtain ⟨a, b⟩ := hset i w { w with pendingTasks := [], checked := false } h rfl le_rfl
        simp only [List.append_nil]; exact ⟨i1, a, b, i4⟩
      | skip i w h hc =>
        obtain ⟨a, b⟩ := hset i w { w with checked := false } h rfl le_rfl
        simp only [List.append_nil]; exact ⟨i1, a, b, i4⟩
      | create i w h h0 hh =>
        obtain ⟨a, b⟩ := hset i w { w.createTask.2 with hand := some w.createTask.1, toCreate := w.toCreate - 1 } h rfl
          (by simp [Workload.createTask])
        refine ⟨i1, a, ?_, ?_⟩
        · intro x hx
          rcases List.mem_append.1 hx with hx | hx
          · exact b x hx
          · obtain rfl : x = w.createTask.1 := by simpa using hx
            obtain ⟨hi, -⟩ := List.getElem?_eq_some_iff.1 h
            exact ⟨{ w.createTask.2 with hand := some w.createTask.1, toCreate := w.toCreate - 1 }, List.mem_set hi _, w.taskCounter + 1, le_rfl, rfl⟩
        · rw [List.map_append]
          refine List.Nodup.append i4 (by simp) ?_
          intro y hy hy'
          obtain ⟨x, hx, rfl⟩ := List.mem_map.1 hy
          have e : x.id = w.id ++ "-task-" ++ toString (w.taskCounter + 1) := by simpa [Workload.createTask] using hy'
          obtain ⟨v, hv, k, hk, e'⟩ := i3 x hx
          rw [e'] at e
          obtain ⟨e1, e2⟩ := taskID_inj e
          have hvw : v = w := by
            have hnd : (t.workloads.map Workload.id).Nodup := by rw [i2]; exact hids
            exact List.inj_on_of_nodup_map hnd hv (List.mem_of_getElem? h) e1
          subst hvw
          omega
      | reset hr => exact absurd rfl hnr
      | lock hres => rw [hres] at i1; cases i1
      | checkSome hres hq => rw [hres] at i1; cases i1
      | checkNone hres hq => rw [hres] at i1; cases i1
      | drain b rest hres hq => rw [hres] at i1; cases i1
      | resetWorkload k w hres h => rw [hres] at i1; cases i1
      | resetEnd k hres h => rw [hres] at i1; cases i1
      | _ => simp only [List.append_nil]; exact ⟨i1, i2, i3, i4⟩
  obtain ⟨-, -, -, hn⟩ := key _ h rfl
  refine ⟨hn, ?_⟩
  have hp := (C71_conserved h).map SimTask.id
  have := (hp.nodup_iff).1 hn
  rw [List.map_append, List.map_append] at this
  have := this.of_append_left.of_append_left
  unfold located at this
  rw [List.map_append] at this
  exact this.of_append_right

theorem split_one (t : SimTask) : splitIntoAPIBatches [t] = [[t]] := by
  unfold splitIntoAPIBatches
  rw [splitFrom_step [t] 0 (by simp), splitFrom_end _ _ (by simp)]
  rfl

/-- One task, from its creation to the end of its processing, by the only workload of a demo that is otherwise at rest. -/
theorem one_task (w : Workload) (rec : List (List SimTask)) (hh : w.hand = none) (h0 : w.toCreate = 0) (hp : w.pendingTasks = [])
    (hc : w.checked = false) :
    ∃ l, BatchRun ⟨[w], [], .waiting, rec, .idle⟩ l
        ⟨[{ w with taskCounter := w.taskCounter + 1 }], [], .waiting, rec ++ [[w.createTask.1]], .idle⟩ ∧
      created l = [w.createTask.1] ∧ discarded l = [] ∧ ∀ x ∈ l, x.1 ≠ .reset := by
  obtain ⟨id, pend, ctr, hand, toCreate, checked⟩ := w
  dsimp only at hh h0 hp hc
  subst hh h0 hp hc
  have r1 := (BatchRun.refl ⟨[⟨id, [], ctr, none, 0, false⟩], [], .waiting, rec, .idle⟩).tail (moved_batch (.tick 0 1 _ rfl rfl rfl rfl))
  have r2 := r1.tail (moved_batch (.create 0 _ rfl Nat.one_pos rfl))
  have r3 := r2.tail (moved_batch (.append 0 _ _ rfl rfl))
  have r4 := r3.tail (moved_batch (.poll 0 _ rfl rfl rfl))
  have r5 := r4.tail (moved_batch (.send 0 _ rfl rfl (by simp) (by simp)))
  have r6 := r5.tail (moved_batch (.receiveFirst _ _ rfl rfl))
  have r7 := r6.tail (moved_batch (.close _ rfl))
  have r8 := r7.tail (moved_batch (.process [Workload.createTask ⟨id, [], ctr, none, 0, false⟩ |>.1] [] (by
    simp [split_one, Workload.createTask])))
  have r9 := r8.tail (moved_batch (.update _ rfl (by simp)))
  have r10 := r9.tail (moved_batch (.processEnd rfl))
  exact ⟨_, r10, rfl, rfl, by simp⟩

/-- A reset of a demo with one workload that is at rest. -/
theorem one_reset (w : Workload) (rec : List (List SimTask)) :
    ∃ l, BatchRun ⟨[w], [], .waiting, rec, .idle⟩ l ⟨[w.reset], [], .waiting, rec, .idle⟩ ∧ created l = [] := by
  have r1 := (BatchRun.refl ⟨[w], [], .waiting, rec, .idle⟩).tail (moved_batch (.reset rfl))
  have r2 := r1.tail (moved_batch (.lock rfl))
  have r3 := r2.tail (moved_batch (.checkNone rfl rfl))
  have r4 := r3.tail (moved_batch (.resetWorkload 0 w rfl rfl))
  have r5 := r4.tail (moved_batch (.resetEnd 1 rfl rfl))
  exact ⟨_, r5, rfl⟩

theorem Spec.BatchRun.trans {s t u : BatchSys} {l l' : List (BatchMove × BatchNote)} (h : BatchRun s l t) (h' : BatchRun t l' u) :
    BatchRun s (l ++ l') u := by
  induction h' with
  | refl => simpa using h
  | tail h' hs ih => rw [← List.append_assoc]; exact ih.tail hs

/-- A workload numbers its tasks from 1 again after a reset, so that the first task before a reset and the first after it have the same ID. -/
theorem C84_refuted : ¬ C84_claim := by
  intro hcl
  obtain ⟨l1, r1, -⟩ := one_task (Workload.new "a") [] rfl rfl rfl rfl
  obtain ⟨l2, r2, -⟩ := one_reset { Workload.new "a" with taskCounter := 1 } ([] ++ [[(Workload.new "a").createTask.1]])
  obtain ⟨l3, r3, -⟩ := one_task (Workload.reset { Workload.new "a" with taskCounter := 1 }) ([] ++ [[(Workload.new "a").createTask.1]])
    rfl rfl rfl rfl
  have := hcl ["a"] _ _ (by simp) ((r1.trans r2).trans r3)
  simp [processed, Workload.createTask, Workload.new, Workload.reset] at this

/-- Tasks do get lost: while the consumer is processing (here: does not run at all), a workload fills the queue, and its next tasks are dropped. -/
theorem C71_overflow : ∃ (s : BatchSys) (l : List (BatchMove × BatchNote)), BatchRun (BatchSys.init ["a"]) l s ∧ overflowed l ≠ [] := by
  have fill : ∀ k ≤ 100, ∃ (w : Workload) (q : List (List SimTask)) (l : List (BatchMove × BatchNote)),
      BatchRun (BatchSys.init ["a"]) l ⟨[w], q, .waiting, [], .idle⟩ ∧ q.length = k ∧ w.hand = none ∧ w.toCreate = 0 ∧
      w.pendingTasks = [] ∧ w.checked = false := by
    intro k
    induction k with
    | zero => exact fun _ => ⟨Workload.new "a", [], [], .refl _, rfl, rfl, rfl, rfl, rfl⟩
    | succ k ih =>
      intro hk
      obtain ⟨⟨id, pend, ctr, hand, toCreate, checked⟩, q, l, r, hq, rfl, rfl, rfl, rfl⟩ := ih (by omega)
      have r1 := r.tail (moved_batch (.tick 0 1 _ rfl rfl rfl rfl))
      have r2 := r1.tail (moved_batch (.create 0 _ rfl Nat.one_pos rfl))
      have r3 := r2.tail (moved_batch (.append 0 _ _ rfl rfl))
      have r4 := r3.tail (moved_batch (.poll 0 _ rfl rfl rfl))
      have r5 := r4.tail (moved_batch (.send 0 _ rfl rfl (by simp) (by show q.length < 100; omega)))
      exact ⟨_, _, _, r5, by simp [hq], rfl, rfl, rfl, rfl⟩
  obtain ⟨⟨id, pend, ctr, hand, toCreate, checked⟩, q, l, r, hq, rfl, rfl, rfl, rfl⟩ := fill 100 le_rfl
  have r1 := r.tail (moved_batch (.tick 0 1 _ rfl rfl rfl rfl))
  have r2 := r1.tail (moved_batch (.create 0 _ rfl Nat.one_pos rfl))
  have r3 := r2.tail (moved_batch (.append 0 _ _ rfl rfl))
  have r4 := r3.tail (moved_batch (.poll 0 _ rfl rfl rfl))
  have r5 := r4.tail (moved_batch (.sendFull 0 _ rfl rfl (by simp) (by show 100 ≤ q.length; omega)))
  exact ⟨_, _, r5, by simp [overflowed]⟩

/-- A run meeting the hypotheses of the theorems above, with a task created and processed and no reset. -/
example : ∃ (s : BatchSys) (l : List (BatchMove × BatchNote)), BatchRun (BatchSys.init ["a"]) l s ∧ (∀ x ∈ l, x.1 ≠ .reset) ∧
    created l = processed s ∧ (created l).length = 1 ∧ (created l).Nodup ∧ s.resetter = .idle ∧ ∀ m, isConsumer m → s.step m = none := by
  obtain ⟨l, r, hc, -, hr⟩ := one_task (Workload.new "a") [] rfl rfl rfl rfl
  refine ⟨_, l, r, hr, by rw [hc]; rfl, by rw [hc]; rfl, by rw [hc]; simp, rfl, fun m hm => ?_⟩
  cases m <;> first | exact absurd hm id | rfl

/-! ### Resetting -/

/-- **C82, in full.** From no reachable state of a demo does the whole program stand still while `Reset` has not returned. -/
def C82_claim : Prop :=
  ∀ (ids : List String) (s : BatchSys) (l : List (BatchMove × BatchNote)), BatchRun (BatchSys.init ids) l s →
    s.resetter ≠ .idle → ∃ m, s.step m ≠ none

/-- `Reset` sees a batch in the queue, the consumer takes it, and `Reset` waits for a batch for ever. It holds the locks that the workloads need to
look at their pattern and that the consumer needs to record its batch, so no batch will ever come. -/
theorem C82_refuted : ¬ C82_claim := by
  intro hcl
  have r1 := (BatchRun.refl (BatchSys.init ["a"])).tail (moved_batch (.tick 0 1 _ rfl rfl rfl rfl))
  have r2 := r1.tail (moved_batch (.create 0 _ rfl Nat.one_pos rfl))
  have r3 := r2.tail (moved_batch (.append 0 _ _ rfl rfl))
  have r4 := r3.tail (moved_batch (.poll 0 _ rfl rfl rfl))
  have r5 := r4.tail (moved_batch (.send 0 _ rfl rfl (by simp) (by simp [BatchSys.init])))
  have r6 := r5.tail (moved_batch (.reset rfl))
  have r7 := r6.tail (moved_batch (.lock rfl))
  have r8 := r7.tail (moved_batch (.checkSome rfl (by simp [BatchSys.init])))
  have r9 := r8.tail (moved_batch (.receiveFirst _ _ rfl rfl))
  have r10 := r9.tail (moved_batch (.close _ rfl))
  have r11 := r10.tail (moved_batch (.process [(Workload.new "a").createTask.1] [] (by
    simp [split_one, Workload.createTask, Workload.new])))
  obtain ⟨m, hm⟩ := hcl ["a"] _ _ r11 (by simp)
  apply hm
  have hw : ∀ (w : Workload) (i : ℕ), ([w] : List Workload)[i]? = none ∨ i = 0 := by
    intro w i
    rcases i with _ | i
    · exact .inr rfl
    · exact .inl rfl
  rcases m with ⟨i, k⟩ | i | i | i | i | i | _ | _ | _ | _ | _ | _
  all_goals first
    | rfl
    | (rcases i with _ | i <;> rfl)

/-- **C82, exactly when.** The whole program stands still with `Reset` not returned exactly if `Reset` waits to receive from an empty queue,
the consumer waits too (for a batch, or for the lock that `Reset` holds), and no workload has a task to create or store or a batch to send. -/
theorem C82_stuck (s : BatchSys) :
    (s.resetter ≠ .idle ∧ ∀ m, s.step m = none) ↔
      s.resetter = .receiving ∧ s.queue = [] ∧ (s.consumer = .waiting ∨ ∃ L, s.consumer = .updating L) ∧
      ∀ w ∈ s.workloads, w.toCreate = 0 ∧ w.hand = none ∧ w.checked = false := by
  have no : ∀ {m u n}, BatchMoved s m u n → ¬ ∀ m, s.step m = none := by
    intro m u n h hn
    have := hn m
    rw [moved_batch h] at this; cases this
  constructor
  · rintro ⟨hr, hn⟩
    have hrec : s.resetter = .receiving ∧ s.queue = [] := by
      rcases hres : s.resetter with _ | _ | _ | _ | k
      · exact absurd hres hr
      · exact absurd hn (no (.lock hres))
      · by_cases hq : s.queue = []
        · exact absurd hn (no (.checkNone hres hq))
        · exact absurd hn (no (.checkSome hres hq))
      · rcases hq : s.queue with _ | ⟨b, rest⟩
        · exact ⟨rfl, rfl⟩
        · exact absurd hn (no (.drain b rest hres hq))
      · rcases hw : s.workloads[k]? with _ | w
        · exact absurd hn (no (.resetEnd k hres hw))
        · exact absurd hn (no (.resetWorkload k w hres hw))
    refine ⟨hrec.1, hrec.2, ?_, ?_⟩
    · rcases hc : s.consumer with _ | t | L | L
      · exact .inl rfl
      · exact absurd hn (no (.close t hc))
      · rcases L with _ | ⟨b, L⟩
        · exact absurd hn (no (.processEnd hc))
        · exact absurd hn (no (.process b L hc))
      · exact .inr ⟨L, rfl⟩
    · intro w hw
      obtain ⟨i, hi⟩ := List.mem_iff_getElem?.1 hw
      have hh : w.hand = none := by
        rcases hh : w.hand with _ | t
        · rfl
        · exact absurd hn (no (.append i w t hi hh))
      refine ⟨?_, hh, ?_⟩
      · rcases Nat.eq_zero_or_pos w.toCreate with h0 | h0
        · exact h0
        · exact absurd hn (no (.create i w hi h0 hh))
      · rcases hc : w.checked with _ | _
        · rfl
        · exact absurd hn (no (.skip i w hi hc))
  · rintro ⟨hr, hq, hc, hw⟩
    refine ⟨by rw [hr]; simp, fun m => ?_⟩
    rcases hm : s.step m with _ | ⟨u, n⟩
    · rfl
    · exfalso
      cases batch_moved hm with
      | tick i k w h hr' h0 hh => rw [hr] at hr'; cases hr'
      | create i w h h0 hh => have := (hw w (List.mem_of_getElem? h)).1; omega
      | append i w t h hh => rw [(hw w (List.mem_of_getElem? h)).2.1] at hh; cases hh
      | poll i w h hr' hc => rw [hr] at hr'; cases hr'
      | sendNone i w h hc' he => rw [(hw w (List.mem_of_getElem? h)).2.2] at hc'; cases hc'
      | send i w h hc' he hq => rw [(hw w (List.mem_of_getElem? h)).2.2] at hc'; cases hc'
      | sendFull i w h hc' he hq => rw [(hw w (List.mem_of_getElem? h)).2.2] at hc'; cases hc'
      | skip i w h hc' => rw [(hw w (List.mem_of_getElem? h)).2.2] at hc'; cases hc'
      | receiveFirst b rest hc' hq' => rw [hq] at hq'; cases hq'
      | receiveMore t b rest hc' hq' => rw [hq] at hq'; cases hq'
      | close t hc' => rcases hc with hc | ⟨L, hc⟩ <;> rw [hc] at hc' <;> cases hc'
      | processEnd hc' => rcases hc with hc | ⟨L, hc⟩ <;> rw [hc] at hc' <;> cases hc'
      | process b rest hc' => rcases hc with hc | ⟨L, hc⟩ <;> rw [hc] at hc' <;> cases hc'
      | update rest hc' hr' => exact hr'.2 hr
      | reset hr' => rw [hr] at hr'; cases hr'
      | lock hr' => rw [hr] at hr'; cases hr'
      | checkSome hr' hq' => rw [hr] at hr'; cases hr'
      | checkNone hr' hq' => rw [hr] at hr'; cases hr'
      | drain b rest hr' hq' => rw [hq] at hq'; cases hq'
      | resetWorkload k w hr' h => rw [hr] at hr'; cases hr'
      | resetEnd k hr' h => rw [hr] at hr'; cases hr'

/-- A run in which the consumer never receives between the moment `Reset` saw a batch in the queue and the moment it takes it. -/
inductive Spec.CalmRun : BatchSys → List (BatchMove × BatchNote) → BatchSys → Prop where
  | refl (s : BatchSys) : Spec.CalmRun s [] s
  | tail {s t u : BatchSys} {l : List (BatchMove × BatchNote)} {m : BatchMove} {n : BatchNote} (h : Spec.CalmRun s l t)
      (hm : ¬ (t.resetter = .receiving ∧ m = .receive)) (hs : t.step m = some (u, n)) : Spec.CalmRun s (l ++ [(m, n)]) u

/-- **C82, partial.** In a run in which the consumer never receives between `Reset`'s look at the queue and its taking of the batch, the next step
of `Reset` is always possible. Missing: other runs, in which it may be stuck (`C82_refuted`, `C82_stuck`). -/
theorem C82_reset_partial {ids : List String} {s : BatchSys} {l : List (BatchMove × BatchNote)} (h : CalmRun (BatchSys.init ids) l s)
    (hr : s.resetter ≠ .idle) : s.step .resetStep ≠ none := by
  have key : ∀ s₀ : BatchSys, CalmRun s₀ l s → s₀ = BatchSys.init ids → s.resetter = .receiving → s.queue ≠ [] := by
    intro s₀ h' e
    clear h hr
    induction h' with
    | refl => subst e; intro h; cases h
    | tail h hm hs ih =>
      intro hres
      cases batch_moved hs with
      | send i w h hc he hq => simp
      | receiveFirst b rest hc hq => exact absurd ⟨hres, rfl⟩ hm
      | receiveMore t b rest hc hq => exact absurd ⟨hres, rfl⟩ hm
      | reset hr => cases hres
      | lock hr => cases hres
      | checkSome hr hq => exact hq
      | checkNone hr hq => cases hres
      | drain b rest hr hq => cases hres
      | resetWorkload k w hr h => cases hres
      | resetEnd k hr h => cases hres
      | _ => exact ih hres
  have hk := key _ h rfl
  rcases hres : s.resetter with _ | _ | _ | _ | k
  · exact absurd hres hr
  · rw [moved_batch (.lock hres)]; simp
  · by_cases hq : s.queue = []
    · rw [moved_batch (.checkNone hres hq)]; simp
    · rw [moved_batch (.checkSome hres hq)]; simp
  · rcases hq : s.queue with _ | ⟨b, rest⟩
    · exact absurd hq (hk hres)
    · rw [moved_batch (.drain b rest hres hq)]; simp
  · rcases hw : s.workloads[k]? with _ | w
    · rw [moved_batch (.resetEnd k hres hw)]; simp
    · rw [moved_batch (.resetWorkload k w hres hw)]; simp

/-- How many steps `Reset` still has to take if nobody else moves. -/
def Spec.resetLeft (s : BatchSys) : ℕ :=
  match s.resetter with
  | .idle => 0
  | .locking => 2 * s.queue.length + s.workloads.length + 3
  | .checking => 2 * s.queue.length + s.workloads.length + 2
  | .receiving => 2 * s.queue.length + s.workloads.length + 1
  | .workloads k => s.workloads.length - k + 1

/-- **C82, the length of a reset.** Every step of `Reset` brings it one step closer to returning. Nobody can make it longer, except that a workload may put
one more batch into the queue, each of which costs two steps; and a workload that was not looking at its pattern when `Reset` began cannot do
so before `Reset` returns. -/
theorem C82_length {s u : BatchSys} {m : BatchMove} {n : BatchNote} (h : s.step m = some (u, n)) (hr : s.resetter ≠ .idle) :
    (m = .resetStep → resetLeft u + 1 = resetLeft s) ∧
    (m ≠ .resetStep → resetLeft u ≤ resetLeft s + 2 ∧ (resetLeft s < resetLeft u → ∃ i, m = .send i)) ∧
    (∀ i k, m ≠ .tick i k ∧ m ≠ .poll i) := by
  have hlen : ∀ i (w : Workload), (s.workloads.set i w).length = s.workloads.length := fun i w => List.length_set
  cases batch_moved h with
  | tick i k w h hr' h0 hh => exact absurd hr' hr
  | poll i w h hr' hc => exact absurd hr' hr
  | reset hr' => exact absurd hr' hr
  | lock hr' => refine ⟨fun _ => ?_, by simp, by simp⟩; simp [resetLeft, hr']
  | checkSome hr' hq => refine ⟨fun _ => ?_, by simp, by simp⟩; simp [resetLeft, hr']
  | checkNone hr' hq => refine ⟨fun _ => ?_, by simp, by simp⟩; simp [resetLeft, hr', hq]
  | drain b rest hr' hq => refine ⟨fun _ => ?_, by simp, by simp⟩; simp [resetLeft, hr', hq]; omega
  | resetWorkload k w hr' hw =>
    obtain ⟨hk, -⟩ := List.getElem?_eq_some_iff.1 hw
    refine ⟨fun _ => ?_, by simp, by simp⟩; simp [resetLeft, hr']; omega
  | resetEnd k hr' hw =>
    have hk := List.getElem?_eq_none_iff.1 hw
    refine ⟨fun _ => ?_, by simp, by simp⟩; simp [resetLeft, hr']; omega
  | send i w h hc he hq =>
    refine ⟨by simp, fun _ => ⟨?_, fun _ => ⟨i, rfl⟩⟩, by simp⟩
    unfold resetLeft; rcases s.resetter <;> simp <;> omega
  | receiveFirst b rest hc hq =>
    refine ⟨by simp, fun _ => ?_, by simp⟩
    have : resetLeft { s with consumer := .collecting b, queue := rest } ≤ resetLeft s := by
      unfold resetLeft; rw [hq]; rcases s.resetter <;> simp
    exact ⟨by omega, fun _ => by omega⟩
  | receiveMore t b rest hc hq =>
    refine ⟨by simp, fun _ => ?_, by simp⟩
    have : resetLeft { s with consumer := .collecting (t ++ b), queue := rest } ≤ resetLeft s := by
      unfold resetLeft; rw [hq]; rcases s.resetter <;> simp
    exact ⟨by omega, fun _ => by omega⟩
  | _ =>
    refine ⟨by simp, fun _ => ?_, by simp⟩
    simp [resetLeft]

/-- **C83, in full.** Once a reset has returned, no task created before it is processed. -/
def C83_claim : Prop :=
  ∀ (ids : List String) (s t u : BatchSys) (l l' l'' : List (BatchMove × BatchNote)), BatchRun (BatchSys.init ids) l s → s.resetter = .idle →
    BatchRun s ((.reset, {}) :: l') t → t.resetter = .idle → BatchRun t l'' u →
      ∀ b ∈ u.recorded.drop t.recorded.length, ∀ x ∈ b, x ∈ created l''

/-- A batch taken from the queue before the reset is processed after it. -/
theorem C83_refuted : ¬ C83_claim := by
  intro hcl
  have r1 := (BatchRun.refl (BatchSys.init ["a"])).tail (moved_batch (.tick 0 1 _ rfl rfl rfl rfl))
  have r2 := r1.tail (moved_batch (.create 0 _ rfl Nat.one_pos rfl))
  have r3 := r2.tail (moved_batch (.append 0 _ _ rfl rfl))
  have r4 := r3.tail (moved_batch (.poll 0 _ rfl rfl rfl))
  have r5 := r4.tail (moved_batch (.send 0 _ rfl rfl (by simp) (by simp [BatchSys.init])))
  have r6 := r5.tail (moved_batch (.receiveFirst _ _ rfl rfl))
  have q1 := (BatchRun.refl _).tail (moved_batch (.reset (s := ⟨[⟨"a", [], 1, none, 0, false⟩], [],
    .collecting [(Workload.new "a").createTask.1], [], .idle⟩) rfl))
  have q2 := q1.tail (moved_batch (.lock rfl))
  have q3 := q2.tail (moved_batch (.checkNone rfl rfl))
  have q4 := q3.tail (moved_batch (.resetWorkload 0 _ rfl rfl))
  have q5 := q4.tail (moved_batch (.resetEnd 1 rfl rfl))
  have p1 := (BatchRun.refl _).tail (moved_batch (.close (s := ⟨[⟨"a", [], 0, none, 0, false⟩], [],
    .collecting [(Workload.new "a").createTask.1], [], .idle⟩) _ rfl))
  have p2 := p1.tail (moved_batch (.process [(Workload.new "a").createTask.1] [] (by simp [split_one])))
  have := hcl ["a"] _ _ _ _ _ _ r6 rfl q5 rfl p2
  simp [created] at this

theorem conserved_from {s u : BatchSys} {l : List (BatchMove × BatchNote)} (h : BatchRun s l u) :
    (located s ++ created l).Perm (located u ++ overflowed l ++ discarded l) := by
  rw [List.perm_iff_count]
  intro t
  simp only [List.count_append]
  induction h with
  | refl => simp [overflowed, discarded, created]
  | tail h hs ih =>
    have := step_count t (batch_moved hs)
    simp only [overflowed, discarded, created, List.flatMap_append, List.flatMap_cons, List.flatMap_nil, List.append_nil,
      List.count_append] at ih ⊢
    omega

theorem recorded_mono {s u : BatchSys} {l : List (BatchMove × BatchNote)} (h : BatchRun s l u) :
    ∃ L, u.recorded = s.recorded ++ L := by
  induction h with
  | refl => exact ⟨[], by simp⟩
  | tail h hs ih =>
    obtain ⟨L, ih⟩ := ih
    cases batch_moved hs with
    | process b rest hc => exact ⟨L ++ [b], by simp [ih]⟩
    | _ => exact ⟨L, ih⟩

/-- **C83, partial.** A task processed after any moment was with a workload, in the queue or with the consumer at that moment, or was created later. So
if the workloads, the queue and the consumer hold nothing when a reset returns, only tasks created afterwards are processed. -/
theorem C83_later_partial {t u : BatchSys} {l : List (BatchMove × BatchNote)} (h : BatchRun t l u) :
    ∀ b ∈ u.recorded.drop t.recorded.length, ∀ x ∈ b,
      x ∈ t.workloads.flatMap held ∨ x ∈ t.queue.flatten ∨ x ∈ consumed t.consumer ∨ x ∈ created l := by
  obtain ⟨L, hL⟩ := recorded_mono h
  intro b hb x hx
  rw [hL, List.drop_left] at hb
  have hp := (List.perm_iff_count.1 (conserved_from h)) x
  simp only [List.count_append, located, processed, hL, List.flatten_append] at hp
  have hpos : 0 < L.flatten.count x := List.count_pos_iff.2 (List.mem_flatten.2 ⟨b, hb, hx⟩)
  by_contra hc
  push Not at hc
  obtain ⟨h1, h2, h3, h4⟩ := hc
  rw [List.count_eq_zero.2 h1, List.count_eq_zero.2 h2, List.count_eq_zero.2 h3, List.count_eq_zero.2 h4] at hp
  omega

/-- **C83, an undisturbed reset.** If the consumer is waiting and no workload is between creating a task and storing it when a reset begins, and
nobody else moves until it returns, then afterwards the workloads, the queue and the consumer hold nothing and the workloads number their tasks from 1
again. -/
theorem C83_undisturbed {s t : BatchSys} {l : List (BatchMove × BatchNote)} (hs : s.resetter = .locking) (hc : s.consumer = .waiting)
    (hh : ∀ w ∈ s.workloads, w.hand = none) (h : BatchRun s l t) (hl : ∀ x ∈ l, x.1 = .resetStep) (ht : t.resetter = .idle) :
    t.queue = [] ∧ t.consumer = .waiting ∧ t.recorded = s.recorded ∧ ∀ w ∈ t.workloads, held w = [] ∧ w.taskCounter = 0 := by
  have key : t.consumer = .waiting ∧ t.recorded = s.recorded ∧ (∀ w ∈ t.workloads, w.hand = none) ∧
      (match t.resetter with
        | .workloads k => t.queue = [] ∧ ∀ j w, j < k → t.workloads[j]? = some w → w.pendingTasks = [] ∧ w.taskCounter = 0
        | .idle => t.queue = [] ∧ ∀ w ∈ t.workloads, w.pendingTasks = [] ∧ w.taskCounter = 0
        | _ => True) := by
    clear ht
    induction h with
    | refl => exact ⟨hc, rfl, hh, by rw [hs]; trivial⟩
    | @tail t u l m n h hst ih =>
      obtain ⟨i1, i2, i3, i4⟩ := ih (fun x hx => hl x (List.mem_append_left _ hx))
      obtain rfl : m = .resetStep := hl (m, n) (by simp)
      cases batch_moved hst with
      | lock hr => exact ⟨i1, i2, i3, trivial⟩
      | checkSome hr hq => exact ⟨i1, i2, i3, trivial⟩
      | checkNone hr hq => exact ⟨i1, i2, i3, hq, fun j w hj => absurd hj (by omega)⟩
      | drain b rest hr hq => exact ⟨i1, i2, i3, trivial⟩
      | resetWorkload k w hr hw =>
        rw [hr] at i4
        refine ⟨i1, i2, fun v hv => ?_, i4.1, fun j v hj hv => ?_⟩
        · rcases List.mem_or_eq_of_mem_set hv with hv | rfl
          · exact i3 v hv
          · exact i3 w (List.mem_of_getElem? hw)
        · by_cases hjk : k = j
          · subst hjk
            obtain ⟨hk, -⟩ := List.getElem?_eq_some_iff.1 hw
            rw [List.getElem?_set_self hk] at hv
            cases hv
            exact ⟨rfl, rfl⟩
          · rw [List.getElem?_set_ne hjk] at hv
            exact i4.2 j v (by omega) hv
      | resetEnd k hr hw =>
        rw [hr] at i4
        refine ⟨i1, i2, i3, i4.1, fun v hv => ?_⟩
        obtain ⟨j, hj⟩ := List.mem_iff_getElem?.1 hv
        obtain ⟨hj', -⟩ := List.getElem?_eq_some_iff.1 hj
        exact i4.2 j v (lt_of_lt_of_le hj' (List.getElem?_eq_none_iff.1 hw)) hj
  obtain ⟨k1, k2, k3, k4⟩ := key
  rw [ht] at k4
  exact ⟨k4.1, k1, k2, fun w hw => ⟨by simp [held, k3 w hw, (k4.2 w hw).1], (k4.2 w hw).2⟩⟩

/-- A reset that is not disturbed, of a demo with a batch in the queue and a task with a workload. -/
example : ∃ (s t : BatchSys) (l : List (BatchMove × BatchNote)), s.resetter = .locking ∧ s.consumer = .waiting ∧
    (∀ w ∈ s.workloads, w.hand = none) ∧ CalmRun s l t ∧ BatchRun s l t ∧ (∀ x ∈ l, x.1 = .resetStep) ∧ t.resetter = .idle ∧
    s.queue.length = 1 ∧ s.workloads.flatMap held ≠ [] ∧ discarded l = [⟨"a-task-1", "a"⟩, ⟨"a-task-2", "a"⟩] := by
  let s : BatchSys := ⟨[⟨"a", [⟨"a-task-2", "a"⟩], 2, none, 0, false⟩], [[⟨"a-task-1", "a"⟩]], .waiting, [], .locking⟩
  have m1 := moved_batch (.lock (s := s) rfl)
  have m2 := moved_batch (.checkSome (s := { s with resetter := .checking }) rfl (by simp [s]))
  have m3 := moved_batch (.drain (s := { s with resetter := .receiving }) _ _ rfl rfl)
  have m4 := moved_batch (.checkNone (s := { s with queue := [], resetter := .checking }) rfl rfl)
  have m5 := moved_batch (.resetWorkload (s := { s with queue := [], resetter := .workloads 0 }) 0 _ rfl rfl)
  have m6 := moved_batch (.resetEnd (s := { s with workloads := [⟨"a", [], 0, none, 0, false⟩], queue := [], resetter := .workloads 1 }) 1 rfl rfl)
  refine ⟨s, _, _, rfl, rfl, by simp [s], ((((((CalmRun.refl s).tail (by simp) m1).tail (by simp) m2).tail (by simp) m3).tail (by simp) m4).tail
    (by simp) m5).tail (by simp) m6, ((((((BatchRun.refl s).tail m1).tail m2).tail m3).tail m4).tail m5).tail m6, by simp, rfl, rfl,
    by simp [s, held], rfl⟩

end Verif
