import Verif.Model.RWLock
import Verif.Num.Real

/-!
# C62: exclusion and deadlocks of the convergence monitor
-/

set_option autoImplicit false
set_option linter.unusedSectionVars false

namespace Verif
open GoMath

section
variable {σ : Type} {n : ℕ}

/-- A goroutine has ended. -/
def Spec.Ended (t : LockThread σ) : Prop := t.wait = .running ∧ t.todo = []

/-- Some goroutine has not ended, and none can move. -/
def Spec.Deadlock (s : LockSys σ n) : Prop := (∃ i, ¬ Spec.Ended (s.threads i)) ∧ ∀ i, s.step i = none

/-- A program that, holding `r` read locks (and the write lock if `w`), uses the lock properly to the end: it writes only with the write lock
and reads only with a read lock, releases everything, and never holds more than `d` read locks. -/
inductive Spec.Proper (d : ℕ) : ℕ → Bool → List (LockOp σ) → Prop where
  | nil : Spec.Proper d 0 false []
  | rlock {r : ℕ} {rest : List (LockOp σ)} (h : Spec.Proper d (r + 1) false rest) (hd : r + 1 ≤ d) : Spec.Proper d r false (.rlock :: rest)
  | runlock {r : ℕ} {rest : List (LockOp σ)} (h : Spec.Proper d r false rest) : Spec.Proper d (r + 1) false (.runlock :: rest)
  | lock {rest : List (LockOp σ)} (h : Spec.Proper d 0 true rest) : Spec.Proper d 0 false (.lock :: rest)
  | unlock {rest : List (LockOp σ)} (h : Spec.Proper d 0 false rest) : Spec.Proper d 0 true (.unlock :: rest)
  | write {rest : List (LockOp σ)} {f : σ → σ} (h : Spec.Proper d 0 true rest) : Spec.Proper d 0 true (.write f :: rest)
  | read {r : ℕ} {w : Bool} {rest : List (LockOp σ)} {f : σ → List (LockOp σ)} (h : ∀ x, Spec.Proper d r w (f x ++ rest))
      (hr : 0 < r) : Spec.Proper d r w (.read f :: rest)

/-- What holds for a goroutine in every reachable state. -/
def threadOk (d : ℕ) (t : LockThread σ) : Prop :=
  match t.wait with
  | .running => Spec.Proper d t.reads t.writes t.todo
  | .inRLock => t.writes = false ∧ t.reads + 1 ≤ d ∧ Spec.Proper d (t.reads + 1) false t.todo
  | .inLock => t.writes = false ∧ t.reads = 0 ∧ Spec.Proper d 0 true t.todo

/-- What holds in every reachable state. -/
structure LockInv (d : ℕ) (s : LockSys σ n) : Prop where
  thread : ∀ i, threadOk d (s.threads i)
  writes : ∀ i, (s.threads i).writes = true → s.writer = some i ∧ ∀ j, (s.threads j).reads = 0
  inLock : ∀ i, (s.threads i).wait = .inLock → s.writer = some i
  inRLock : ∀ i, (s.threads i).wait = .inRLock → s.writer ≠ none
  writer : ∀ i, s.writer = some i → (s.threads i).wait = .inLock ∨ ((s.threads i).wait = .running ∧ (s.threads i).writes = true)

theorem proper_rlock {d r : ℕ} {w : Bool} {p : List (LockOp σ)} (h : Spec.Proper d r w (.rlock :: p)) :
    w = false ∧ r + 1 ≤ d ∧ Spec.Proper d (r + 1) false p := by
  cases h with
  | rlock h hd => exact ⟨rfl, hd, h⟩

theorem proper_runlock {d r : ℕ} {w : Bool} {p : List (LockOp σ)} (h : Spec.Proper d r w (.runlock :: p)) :
    w = false ∧ 0 < r ∧ Spec.Proper d (r - 1) false p := by
  cases h with
  | runlock h => exact ⟨rfl, Nat.succ_pos _, h⟩

theorem proper_lock {d r : ℕ} {w : Bool} {p : List (LockOp σ)} (h : Spec.Proper d r w (.lock :: p)) :
    w = false ∧ r = 0 ∧ Spec.Proper d 0 true p := by
  cases h with
  | lock h => exact ⟨rfl, rfl, h⟩

theorem proper_unlock {d r : ℕ} {w : Bool} {p : List (LockOp σ)} (h : Spec.Proper d r w (.unlock :: p)) :
    w = true ∧ r = 0 ∧ Spec.Proper d 0 false p := by
  cases h with
  | unlock h => exact ⟨rfl, rfl, h⟩

theorem proper_write {d r : ℕ} {w : Bool} {f : σ → σ} {p : List (LockOp σ)} (h : Spec.Proper d r w (.write f :: p)) :
    w = true ∧ r = 0 ∧ Spec.Proper d 0 true p := by
  cases h with
  | write h => exact ⟨rfl, rfl, h⟩

theorem proper_read {d r : ℕ} {w : Bool} {f : σ → List (LockOp σ)} {p : List (LockOp σ)} (h : Spec.Proper d r w (.read f :: p)) :
    0 < r ∧ ∀ x, Spec.Proper d r w (f x ++ p) := by
  cases h with
  | read h hr => exact ⟨hr, h⟩

theorem lockInv_init (d : ℕ) (x : σ) (progs : Fin n → List (LockOp σ)) (h : ∀ i, Spec.Proper d 0 false (progs i)) :
    LockInv d (LockSys.init x progs) := by
  refine ⟨fun i => h i, fun i hi => ?_, fun i hi => ?_, fun i hi => ?_, fun i hi => ?_⟩ <;> cases hi

theorem set_threads (s : LockSys σ n) (i j : Fin n) (t : LockThread σ) :
    (s.set i t).threads j = if j = i then t else s.threads j := rfl

/-- A step that changes one goroutine, without touching the write lock or announcing anything. -/
theorem lockInv_set {d : ℕ} {s : LockSys σ n} (h : LockInv d s) (i : Fin n) (t : LockThread σ) (x : σ) (ht : threadOk d t)
    (hw : t.writes = (s.threads i).writes) (h0 : (s.threads i).wait = .running)
    (hl : t.wait = .running ∨ (t.wait = .inRLock ∧ s.writer ≠ none ∧ t.writes = false))
    (hr : s.writer ≠ none → t.reads ≤ (s.threads i).reads) :
    LockInv d { (s.set i t) with data := x } := by
  refine ⟨fun j => ?_, fun j hj => ?_, fun j hj => ?_, fun j hj => ?_, fun j hj => ?_⟩
  · show threadOk d ((s.set i t).threads j)
    rw [set_threads]; split_ifs
    · exact ht
    · exact h.thread j
  · change ((s.set i t).threads j).writes = true at hj
    have hj' : (s.threads j).writes = true := by
      rw [set_threads] at hj
      split_ifs at hj with e
      · rw [e, ← hw]; exact hj
      · exact hj
    obtain ⟨h1, h2⟩ := h.writes j hj'
    refine ⟨h1, fun k => ?_⟩
    show ((s.set i t).threads k).reads = 0
    rw [set_threads]; split_ifs with e
    · have := hr (by rw [h1]; simp)
      rw [h2 i] at this; omega
    · exact h2 k
  · change ((s.set i t).threads j).wait = .inLock at hj
    rw [set_threads] at hj
    split_ifs at hj with e
    · rcases hl with hl | hl
      · rw [hl] at hj; cases hj
      · rw [hl.1] at hj; cases hj
    · exact h.inLock j hj
  · change ((s.set i t).threads j).wait = .inRLock at hj
    rw [set_threads] at hj
    split_ifs at hj with e
    · rcases hl with hl | hl
      · rw [hl] at hj; cases hj
      · exact hl.2.1
    · exact h.inRLock j hj
  · change s.writer = some j at hj
    show ((s.set i t).threads j).wait = .inLock ∨ (((s.set i t).threads j).wait = .running ∧ ((s.set i t).threads j).writes = true)
    rw [set_threads]; split_ifs with e
    · subst e
      rcases h.writer j hj with h1 | h1
      · rw [h0] at h1; cases h1
      · rcases hl with hl | hl
        · exact .inr ⟨hl, by rw [hw]; exact h1.2⟩
        · rw [hw, h1.2] at hl; cases hl.2.2
    · exact h.writer j hj

theorem lockInv_step {d : ℕ} {s s' : LockSys σ n} (h : LockInv d s) (i : Fin n) (e : s.step i = some s') : LockInv d s' := by
  have hi := h.thread i
  unfold LockSys.step at e
  dsimp only at e
  unfold threadOk at hi
  cases hw : (s.threads i).wait with
  | inRLock => rw [hw] at e; cases e
  | inLock =>
    rw [hw] at e hi
    dsimp only at e hi
    split_ifs at e with hn
    injection e with e; subst e
    have hwr := h.inLock i hw
    refine ⟨fun j => ?_, fun j hj => ?_, fun j hj => ?_, fun j hj => ?_, fun j hj => ?_⟩
    · rw [set_threads]; split_ifs
      · show Spec.Proper d (s.threads i).reads true (s.threads i).todo
        rw [hi.2.1]; exact hi.2.2
      · exact h.thread j
    · refine ⟨?_, fun k => ?_⟩
      · rw [set_threads] at hj
        split_ifs at hj with ej
        · rw [ej]; exact hwr
        · exact (h.writes j hj).1
      · rw [set_threads]; split_ifs
        · exact hn i
        · exact hn k
    · rw [set_threads] at hj
      split_ifs at hj with ej
      exact h.inLock j hj
    · rw [set_threads] at hj
      split_ifs at hj with ej
      exact h.inRLock j hj
    · rw [set_threads]
      have : j = i := by
        change s.writer = some j at hj
        rw [hwr] at hj; injection hj with hj; exact hj.symm
      rw [if_pos this]
      exact .inr ⟨rfl, rfl⟩
  | running =>
    rw [hw] at e hi
    dsimp only at e hi
    cases ht : (s.threads i).todo with
    | nil => rw [ht] at e; cases e
    | cons op rest =>
      rw [ht] at e hi
      cases op with
      | rlock =>
        obtain ⟨p1, p2, p3⟩ := proper_rlock hi
        dsimp only at e
        split_ifs at e with hn
        · injection e with e; subst e
          refine lockInv_set h i _ s.data ?_ rfl hw (.inl rfl) (fun hne => absurd (Option.isNone_iff_eq_none.1 hn) hne)
          unfold threadOk
          dsimp only
          rw [p1]; exact p3
        · injection e with e; subst e
          refine lockInv_set h i _ s.data ?_ rfl hw
            (.inr ⟨rfl, fun hne => hn (Option.isNone_iff_eq_none.2 hne), p1⟩) (fun _ => le_rfl)
          exact ⟨p1, p2, p3⟩
      | runlock =>
        obtain ⟨p1, p2, p3⟩ := proper_runlock hi
        dsimp only at e
        rw [if_neg (by omega)] at e
        injection e with e; subst e
        refine lockInv_set h i _ s.data ?_ rfl hw (.inl rfl) (fun _ => Nat.sub_le _ _)
        unfold threadOk
        dsimp only
        rw [p1]; exact p3
      | lock =>
        obtain ⟨p1, p2, p3⟩ := proper_lock hi
        dsimp only at e
        split_ifs at e with hn
        injection e with e; subst e
        have hn' := Option.isNone_iff_eq_none.1 hn
        refine ⟨fun j => ?_, fun j hj => ?_, fun j hj => ?_, fun j hj => ?_, fun j hj => ?_⟩
        · show threadOk d ((s.set i _).threads j)
          rw [set_threads]; split_ifs
          · exact ⟨p1, p2, p3⟩
          · exact h.thread j
        · change ((s.set i _).threads j).writes = true at hj
          rw [set_threads] at hj
          split_ifs at hj with ej
          · change (s.threads i).writes = true at hj
            rw [p1] at hj; cases hj
          · have := (h.writes j hj).1; rw [hn'] at this; cases this
        · change ((s.set i _).threads j).wait = .inLock at hj
          rw [set_threads] at hj
          split_ifs at hj with ej
          · rw [ej]
          · have := h.inLock j hj; rw [hn'] at this; cases this
        · change some i ≠ none; simp
        · change some i = some j at hj
          injection hj with hj
          subst hj
          left
          show ((s.set i _).threads i).wait = .inLock
          rw [set_threads, if_pos rfl]
      | unlock =>
        obtain ⟨p1, p2, p3⟩ := proper_unlock hi
        dsimp only at e
        rw [if_pos p1] at e
        injection e with e; subst e
        obtain ⟨w1, w2⟩ := h.writes i p1
        have other : ∀ j, j ≠ i → (s.threads j).writes = false ∧ (s.threads j).wait ≠ .inLock := by
          intro j hj
          refine ⟨Bool.eq_false_iff.2 fun h1 => ?_, fun h1 => ?_⟩
          · have := (h.writes j h1).1
            rw [w1] at this; injection this with this; exact hj this.symm
          · have := h.inLock j h1
            rw [w1] at this; injection this with this; exact hj this.symm
        refine ⟨fun j => ?_, fun j hj => ?_, fun j hj => ?_, fun j hj => ?_, fun j hj => ?_⟩
        · dsimp only
          rw [set_threads]
          by_cases ej : j = i
          · rw [if_pos ej, if_neg (by simp)]
            unfold threadOk
            dsimp only
            rw [p2]; exact p3
          · rw [if_neg ej]
            have hj := h.thread j
            unfold threadOk at hj ⊢
            split_ifs with hr
            · rw [hr] at hj
              dsimp only at hj ⊢
              rw [hj.1]; exact hj.2.2
            · exact hj
        · dsimp only at hj
          rw [set_threads] at hj
          by_cases ej : j = i
          · rw [if_pos ej, if_neg (by simp)] at hj; cases hj
          · rw [if_neg ej] at hj
            split_ifs at hj
            · rw [(other j ej).1] at hj; cases hj
            · rw [(other j ej).1] at hj; cases hj
        · dsimp only at hj
          rw [set_threads] at hj
          by_cases ej : j = i
          · rw [if_pos ej, if_neg (by simp)] at hj; cases hj
          · rw [if_neg ej] at hj
            split_ifs at hj
            exact absurd hj (other j ej).2
        · dsimp only at hj
          rw [set_threads] at hj
          by_cases ej : j = i
          · rw [if_pos ej, if_neg (by simp)] at hj; cases hj
          · rw [if_neg ej] at hj
            split_ifs at hj with hr
            exact absurd hj hr
        · cases hj
      | write f =>
        obtain ⟨p1, p2, p3⟩ := proper_write hi
        dsimp only at e
        injection e with e; subst e
        refine lockInv_set h i _ (f s.data) ?_ rfl hw (.inl rfl) (fun _ => le_rfl)
        unfold threadOk
        dsimp only
        rw [p1, p2]; exact p3
      | read f =>
        obtain ⟨p1, p2⟩ := proper_read hi
        dsimp only at e
        injection e with e; subst e
        refine lockInv_set h i _ s.data ?_ rfl hw (.inl rfl) (fun _ => le_rfl)
        unfold threadOk
        dsimp only
        exact p2 s.data

theorem lockInv_reach {d : ℕ} (x : σ) (progs : Fin n → List (LockOp σ)) (h : ∀ i, Spec.Proper d 0 false (progs i)) (s : LockSys σ n)
    (hs : (LockSys.init x progs).Reach s) : LockInv d s := by
  induction hs with
  | init => exact lockInv_init d x progs h
  | step i _ e ih => exact lockInv_step ih i e

/-- Goroutines that use the lock properly and never hold two read locks at once cannot deadlock. -/
theorem no_deadlock (x : σ) (progs : Fin n → List (LockOp σ)) (h : ∀ i, Spec.Proper 1 0 false (progs i)) (s : LockSys σ n)
    (hs : (LockSys.init x progs).Reach s) : ¬ Spec.Deadlock s := by
  have inv := lockInv_reach x progs h s hs
  rintro ⟨⟨i, hi⟩, hst⟩
  -- a goroutine that holds the read lock can move
  have hread : ∀ j, (s.threads j).reads = 0 := by
    intro j
    by_contra hj
    have hj1 := inv.thread j
    have hj2 := hst j
    unfold threadOk at hj1
    unfold LockSys.step at hj2
    dsimp only at hj2
    cases hw : (s.threads j).wait with
    | inRLock => rw [hw] at hj1; dsimp only at hj1; omega
    | inLock => rw [hw] at hj1; exact hj hj1.2.1
    | running =>
      rw [hw] at hj1 hj2
      dsimp only at hj1 hj2
      cases ht : (s.threads j).todo with
      | nil =>
        rw [ht] at hj1
        generalize (s.threads j).reads = r at hj hj1
        generalize (s.threads j).writes = w at hj1
        cases hj1; exact hj rfl
      | cons op rest =>
        rw [ht] at hj1 hj2
        cases op with
        | rlock => have := (proper_rlock hj1).2.1; omega
        | runlock =>
          dsimp only at hj2
          rw [if_neg hj] at hj2; cases hj2
        | lock => exact hj (proper_lock hj1).2.1
        | unlock => exact hj (proper_unlock hj1).2.1
        | write f => cases hj2
        | read f => cases hj2
  -- so a goroutine that waits in `Lock` or holds the write lock can move
  have hwriter : s.writer = none := by
    cases hwr : s.writer with
    | none => rfl
    | some j =>
      exfalso
      have hj1 := inv.thread j
      have hj2 := hst j
      unfold threadOk at hj1
      unfold LockSys.step at hj2
      dsimp only at hj2
      rcases inv.writer j hwr with hw | ⟨hw, hw2⟩
      · rw [hw] at hj2
        dsimp only at hj2
        rw [if_pos (show s.noReaders from hread)] at hj2; cases hj2
      · rw [hw] at hj1 hj2
        dsimp only at hj1 hj2
        rw [hw2] at hj1 hj2
        cases ht : (s.threads j).todo with
        | nil =>
          rw [ht] at hj1
          generalize (s.threads j).reads = r at hj1
          cases hj1
        | cons op rest =>
          rw [ht] at hj1 hj2
          cases op with
          | rlock => cases (proper_rlock hj1).1
          | runlock => cases (proper_runlock hj1).1
          | lock => cases (proper_lock hj1).1
          | unlock => cases hj2
          | write f => cases hj2
          | read f => cases hj2
  have hi1 := inv.thread i
  have hi2 := hst i
  unfold threadOk at hi1
  unfold LockSys.step at hi2
  dsimp only at hi2
  cases hw : (s.threads i).wait with
  | inRLock => exact inv.inRLock i hw hwriter
  | inLock => have := inv.inLock i hw; rw [hwriter] at this; cases this
  | running =>
    rw [hw] at hi1 hi2
    dsimp only at hi1 hi2
    cases ht : (s.threads i).todo with
    | nil => exact hi ⟨hw, ht⟩
    | cons op rest =>
      rw [ht] at hi1 hi2
      cases op with
      | rlock =>
        dsimp only at hi2
        rw [if_pos (by rw [hwriter]; rfl)] at hi2; cases hi2
      | runlock =>
        dsimp only at hi2
        rw [if_neg (by have := (proper_runlock hi1).2.1; omega)] at hi2; cases hi2
      | lock =>
        dsimp only at hi2
        rw [if_pos (by rw [hwriter]; rfl)] at hi2; cases hi2
      | unlock =>
        dsimp only at hi2
        rw [if_pos (proper_unlock hi1).1] at hi2; cases hi2
      | write f => cases hi2
      | read f => cases hi2

end

section
variable {α : Type} [Zero α] [One α] [Add α] [Sub α] [Mul α] [Div α] [Neg α] [LT α] [LE α]
  [DecidableLT α] [DecidableLE α] [BEq α] [OfScientific α] [GoMath α]

/-- A call that does not call other methods of the monitor. -/
def Spec.Simple : TrackerCall α → Prop
  | .predict => False
  | .statistics => False
  | _ => True

theorem proper_flatMap {d : ℕ} (calls : List (TrackerCall α))
    (h : ∀ c ∈ calls, ∀ rest, Spec.Proper d 0 false rest → Spec.Proper d 0 false (c.ops ++ rest)) :
    Spec.Proper d 0 false (calls.flatMap TrackerCall.ops) := by
  induction calls with
  | nil => exact .nil
  | cons c cs ih =>
    rw [List.flatMap_cons]
    exact h c (by simp) _ (ih fun c hc => h c (by simp [hc]))

theorem proper_simple (c : TrackerCall α) (hc : Spec.Simple c) (rest : List (LockOp (Tracker α))) (h : Spec.Proper 1 0 false rest) :
    Spec.Proper 1 0 false (c.ops ++ rest) := by
  cases c with
  | record x now => exact .lock (.write (.unlock h))
  | reset now => exact .lock (.write (.unlock h))
  | predict => exact hc.elim
  | statistics => exact hc.elim
  | _ => exact .rlock (.runlock h) le_rfl

theorem proper_predict {d r : ℕ} (hd : r + 2 ≤ d) (rest : List (LockOp (Tracker α))) (h : Spec.Proper d r false rest) :
    Spec.Proper d r false (predictOps ++ rest) := by
  refine .rlock (.read (fun m => ?_) (by omega)) (by omega)
  split_ifs
  · exact .runlock h
  · exact .rlock (.runlock (.runlock h)) (by omega)
  · exact .rlock (.runlock (.rlock (.runlock (.runlock h)) (by omega))) (by omega)

theorem proper_all (c : TrackerCall α) (rest : List (LockOp (Tracker α))) (h : Spec.Proper 3 0 false rest) :
    Spec.Proper 3 0 false (c.ops ++ rest) := by
  cases c with
  | record x now => exact .lock (.write (.unlock h))
  | reset now => exact .lock (.write (.unlock h))
  | predict => exact proper_predict (by omega) rest h
  | statistics =>
    refine .rlock (.rlock (.runlock (.rlock (.runlock (.rlock (.runlock ?_) (by omega))) (by omega))) (by omega)) (by omega)
    show Spec.Proper 3 1 false ((predictOps ++ [.runlock]) ++ rest)
    rw [List.append_assoc]
    exact proper_predict (by omega) _ (.runlock h)
  | _ => exact .rlock (.runlock h) (by omega)

/-- **C62.** Whatever the goroutines call and however they are scheduled, the data is written only by a goroutine that holds the write lock
while nobody else holds any lock, and read only by one that holds a lock while nobody else writes. -/
theorem C62_exclusion {n : ℕ} (m : Tracker α) (calls : Fin n → List (TrackerCall α)) (s : LockSys (Tracker α) n)
    (hs : (TrackerCall.sys m calls).Reach s) (i : Fin n) (hi : (s.threads i).wait = .running) :
    (∀ f rest, (s.threads i).todo = .write f :: rest →
      (s.threads i).writes = true ∧ (∀ j, (s.threads j).reads = 0) ∧ ∀ j, j ≠ i → (s.threads j).writes = false) ∧
    (∀ f rest, (s.threads i).todo = .read f :: rest → 0 < (s.threads i).reads ∧ ∀ j, (s.threads j).writes = false) := by
  have inv := lockInv_reach (d := 3) m _ (fun i => proper_flatMap _ fun c _ rest hr => proper_all c rest hr) s hs
  have h1 := inv.thread i
  unfold threadOk at h1
  rw [hi] at h1
  dsimp only at h1
  refine ⟨fun f rest ht => ?_, fun f rest ht => ?_⟩
  · rw [ht] at h1
    have hw := (proper_write h1).1
    obtain ⟨w1, w2⟩ := inv.writes i hw
    refine ⟨hw, w2, fun j hj => Bool.eq_false_iff.2 fun hj' => ?_⟩
    have := (inv.writes j hj').1
    rw [w1] at this; injection this with this; exact hj this.symm
  · rw [ht] at h1
    have hr := (proper_read h1).1
    refine ⟨hr, fun j => Bool.eq_false_iff.2 fun hj' => ?_⟩
    have := (inv.writes j hj').2 i
    omega

/-- **C62, partial.** Calls of methods that do not call other methods of the monitor never deadlock, in any number, order and schedule.
Missing: `PredictConvergenceTime` and `Statistics`, for which it is false. -/
theorem C62_simple_partial {n : ℕ} (m : Tracker α) (calls : Fin n → List (TrackerCall α)) (h : ∀ i, ∀ c ∈ calls i, Spec.Simple c)
    (s : LockSys (Tracker α) n) (hs : (TrackerCall.sys m calls).Reach s) : ¬ Spec.Deadlock s :=
  no_deadlock m _ (fun i => proper_flatMap _ fun c hc rest hr => proper_simple c (h i c hc) rest hr) s hs

/-- A program that only reads: it holds `r` read locks and releases them all. -/
inductive Spec.ReadOnly {σ : Type} : ℕ → List (LockOp σ) → Prop where
  | nil : Spec.ReadOnly 0 []
  | rlock {r : ℕ} {rest : List (LockOp σ)} (h : Spec.ReadOnly (r + 1) rest) : Spec.ReadOnly r (.rlock :: rest)
  | runlock {r : ℕ} {rest : List (LockOp σ)} (h : Spec.ReadOnly r rest) : Spec.ReadOnly (r + 1) (.runlock :: rest)
  | read {r : ℕ} {rest : List (LockOp σ)} {f : σ → List (LockOp σ)} (h : ∀ x, Spec.ReadOnly r (f x ++ rest)) :
      Spec.ReadOnly r (.read f :: rest)

/-- A call that does not change the monitor. -/
def Spec.Reader : TrackerCall α → Prop
  | .record _ _ => False
  | .reset _ => False
  | _ => True

theorem readOnly_predict {r : ℕ} (rest : List (LockOp (Tracker α))) (h : Spec.ReadOnly r rest) : Spec.ReadOnly r (predictOps ++ rest) := by
  refine .rlock (.read fun m => ?_)
  split_ifs
  · exact .runlock h
  · exact .rlock (.runlock (.runlock h))
  · exact .rlock (.runlock (.rlock (.runlock (.runlock h))))

theorem readOnly_call (c : TrackerCall α) (hc : Spec.Reader c) (rest : List (LockOp (Tracker α))) (h : Spec.ReadOnly 0 rest) :
    Spec.ReadOnly 0 (c.ops ++ rest) := by
  cases c with
  | record x now => exact hc.elim
  | reset now => exact hc.elim
  | predict => exact readOnly_predict rest h
  | statistics =>
    refine .rlock (.rlock (.runlock (.rlock (.runlock (.rlock (.runlock ?_))))))
    show Spec.ReadOnly 1 ((predictOps ++ [.runlock]) ++ rest)
    rw [List.append_assoc]
    exact readOnly_predict _ (.runlock h)
  | _ => exact .rlock (.runlock h)

theorem readOnly_step {σ : Type} {n : ℕ} (s : LockSys σ n) (hw : s.writer = none)
    (h : ∀ i, (s.threads i).wait = .running ∧ Spec.ReadOnly (s.threads i).reads (s.threads i).todo) (i : Fin n) :
    ((s.threads i).todo = [] ∧ s.step i = none) ∨ ∃ s', s.step i = some s' ∧ s'.writer = none ∧
      ∀ j, (s'.threads j).wait = .running ∧ Spec.ReadOnly (s'.threads j).reads (s'.threads j).todo := by
  obtain ⟨h1, h2⟩ := h i
  have key : ∀ t : LockThread σ, t.wait = .running → Spec.ReadOnly t.reads t.todo →
      ∀ j, ((s.set i t).threads j).wait = .running ∧ Spec.ReadOnly ((s.set i t).threads j).reads ((s.set i t).threads j).todo := by
    intro t ht1 ht2 j
    rw [set_threads]
    split_ifs
    · exact ⟨ht1, ht2⟩
    · exact h j
  unfold LockSys.step
  dsimp only
  rw [h1]
  generalize ht : (s.threads i).todo = todo at h2
  generalize hr : (s.threads i).reads = r at h2
  cases h2 with
  | nil => exact .inl ⟨rfl, rfl⟩
  | rlock h3 =>
    right
    dsimp only
    rw [if_pos (by rw [hw]; rfl)]
    exact ⟨_, rfl, hw, key _ rfl h3⟩
  | runlock h3 =>
    right
    dsimp only
    rw [if_neg (by omega)]
    exact ⟨_, rfl, hw, key _ rfl h3⟩
  | read h3 => exact .inr ⟨_, rfl, hw, key _ rfl (h3 s.data)⟩

/-- **C62, partial.** As long as nobody records or resets, all methods together never deadlock. -/
theorem C62_readers_partial {n : ℕ} (m : Tracker α) (calls : Fin n → List (TrackerCall α)) (h : ∀ i, ∀ c ∈ calls i, Spec.Reader c)
    (s : LockSys (Tracker α) n) (hs : (TrackerCall.sys m calls).Reach s) : ¬ Spec.Deadlock s := by
  have inv : s.writer = none ∧ ∀ i, (s.threads i).wait = .running ∧ Spec.ReadOnly (s.threads i).reads (s.threads i).todo := by
    induction hs with
    | init =>
      refine ⟨rfl, fun i => ⟨rfl, ?_⟩⟩
      show Spec.ReadOnly 0 ((calls i).flatMap TrackerCall.ops)
      have : ∀ l : List (TrackerCall α), (∀ c ∈ l, Spec.Reader c) → Spec.ReadOnly 0 (l.flatMap TrackerCall.ops) := by
        intro l
        induction l with
        | nil => exact fun _ => .nil
        | cons c cs ih =>
          intro hl
          rw [List.flatMap_cons]
          exact readOnly_call c (hl c (by simp)) _ (ih fun c hc => hl c (by simp [hc]))
      exact this _ (h i)
    | step i _ e ih =>
      rcases readOnly_step _ ih.1 ih.2 i with ⟨-, h'⟩ | ⟨s', e', h'⟩
      · rw [h'] at e; cases e
      · rw [e'] at e; injection e with e; subst e; exact h'
  rintro ⟨⟨i, hi⟩, hst⟩
  rcases readOnly_step s inv.1 inv.2 i with ⟨h', -⟩ | ⟨s', e', -⟩
  · exact hi ⟨(inv.2 i).1, h'⟩
  · rw [hst i] at e'; cases e'

/-! ## The deadlock -/

/-- Two goroutines, one calling `c` and one recording a sample. -/
def twoCalls (c : TrackerCall α) (x : α) (now : ℤ) : Fin 2 → List (TrackerCall α) := fun i => if i = 0 then [c] else [.record x now]

/-- **C62 is false.** With any monitor that is not converged, a `PredictConvergenceTime` and a `Record` can block each other for ever: the
first takes the read lock, the second queues for the write lock, and the first asks for the read lock again. -/
theorem C62_deadlock_predict (m : Tracker α) (hm : m.convergedTime = none) (x : α) (now : ℤ) :
    ∃ s, (TrackerCall.sys m (twoCalls .predict x now)).Reach s ∧ Spec.Deadlock s := by
  obtain ⟨history, timestamps, threshold, start, converged, hi, lo⟩ := m
  change converged = none at hm
  subst hm
  refine ⟨_, .step 0 (.step 0 (.step 1 (.step 0 .init rfl) rfl) rfl) rfl, ⟨0, fun h => by cases h.1⟩, ?_⟩
  intro i
  match i with
  | 0 => rfl
  | 1 => rfl

/-- The same happens with `Statistics` and `Record` on any monitor, converged or not. -/
theorem C62_deadlock_statistics (m : Tracker α) (x : α) (now : ℤ) :
    ∃ s, (TrackerCall.sys m (twoCalls .statistics x now)).Reach s ∧ Spec.Deadlock s := by
  refine ⟨_, .step 0 (.step 1 (.step 0 .init rfl) rfl) rfl, ⟨0, fun h => by cases h.1⟩, ?_⟩
  intro i
  match i with
  | 0 => rfl
  | 1 => rfl

end

/-- What one would expect. -/
def C62_claim : Prop := ∀ (n : ℕ) (m : Tracker ℝ) (calls : Fin n → List (TrackerCall ℝ)) (s : LockSys (Tracker ℝ) n),
  (TrackerCall.sys m calls).Reach s → ¬ Spec.Deadlock s

/-- Asking for the statistics while another goroutine records can deadlock. -/
theorem C62_refuted : ¬ C62_claim := by
  intro h
  obtain ⟨s, h1, h2⟩ := C62_deadlock_statistics (Tracker.new (0.8 : ℝ) 0) 0.5 1
  exact h 2 _ _ s h1 h2

/-! ## Examples -/

/-- Beside `C62_simple_partial`: two goroutines that record and read; beside `C62_readers_partial`: two that predict. -/
example : (∀ c ∈ ([.record 0.5 1, .stability, .reset 2] : List (TrackerCall ℝ)), Spec.Simple c) ∧
    ∀ c ∈ ([.predict, .statistics] : List (TrackerCall ℝ)), Spec.Reader c := by
  refine ⟨?_, ?_⟩ <;>
  · intro c hc
    simp only [List.mem_cons, List.not_mem_nil, or_false] at hc
    rcases hc with rfl | rfl | rfl <;> trivial

/-- Beside `C62_exclusion`: a reachable state in which a goroutine is about to write. -/
example : ∃ s, (TrackerCall.sys (Tracker.new (0.8 : ℝ) 0) (twoCalls .stability 0.5 1)).Reach s ∧ (s.threads 1).wait = .running ∧
    ∃ f rest, (s.threads 1).todo = .write f :: rest := by
  exact ⟨_, .step 1 (.step 1 .init rfl) rfl, rfl, _, _, rfl⟩

end Verif
