import Verif.Model.KeyQueue
import Verif.Props.App

/-!
# C131, C132: the queue of key events and the time limit
-/

set_option autoImplicit false
set_option linter.unusedSectionVars false

namespace Verif

/-- The keys pressed in a history. -/
def Spec.keysOf (l : List KeyMove) : List Key := l.filterMap fun m => match m with | .press k => some k | _ => none

/-- The accepted events since the last switch. -/
def Spec.acceptedSince : List KeyNote → List Event → List Event
  | [], acc => acc
  | .accepted e :: l, acc => Spec.acceptedSince l (acc ++ [e])
  | .switched :: l, _ => Spec.acceptedSince l []
  | _ :: l, acc => Spec.acceptedSince l acc

/-- The handled events since the last switch. -/
def Spec.handledSince : List KeyNote → List Event → List Event
  | [], acc => acc
  | .handled e :: l, acc => Spec.handledSince l (acc ++ [e])
  | .switched :: l, _ => Spec.handledSince l []
  | _ :: l, acc => Spec.handledSince l acc

/-- Nothing is lost: no event is dropped, and no event is waiting when a run begins. -/
def Spec.lossless (timeout : ℤ) : KeySys → List KeyMove → Prop
  | _, [] => True
  | s, m :: l => ∃ t n, s.step timeout m = some (t, n) ∧ (∀ e, n ≠ .dropped e) ∧ (n = .switched → s.queue = []) ∧ Spec.lossless timeout t l

/-- At no moment of a history the time limit can end the run. -/
def Spec.unlimited (timeout : ℤ) : KeySys → List KeyMove → Prop
  | s, [] => s.step timeout .expire = none
  | s, m :: l => s.step timeout .expire = none ∧ ∀ t n, s.step timeout m = some (t, n) → Spec.unlimited timeout t l

open Spec

/-- **C131 (order).** At most ten events wait. The events accepted since the last switch are those handled, in the same order, followed by the
waiting ones; and a key that means something is dropped only if ten events are waiting. -/
theorem C131_order (timeout : ℤ) (a : App) (now : ℤ) (l : List KeyMove) (s : KeySys) (ns : List KeyNote)
    (h : (KeySys.start a now).run timeout l = some (s, ns)) :
    s.queue.length ≤ 10 ∧ acceptedSince ns [] = handledSince ns [] ++ s.queue ∧
    (∀ k t e, s.step timeout (.press k) = some (t, .dropped e) → s.queue.length = 10 ∧ t = s ∧ processKey k = some e) := by
  have key : ∀ (l : List KeyMove) (s₀ s : KeySys) (ns : List KeyNote) (x y : List Event), s₀.run timeout l = some (s, ns) →
      s₀.queue.length ≤ 10 → x = y ++ s₀.queue → s.queue.length ≤ 10 ∧ acceptedSince ns x = handledSince ns y ++ s.queue := by
    intro l
    induction l with
    | nil => intro s₀ s ns x y h h1 h2; cases h; exact ⟨h1, h2⟩
    | cons m l ih =>
      intro s₀ s ns x y h h1 h2
      simp only [KeySys.run] at h
      split at h
      · cases h
      rename_i t n ht
      split at h
      · cases h
      rename_i u ns' hu
      cases h
      cases m <;> simp only [KeySys.step] at ht
      case pass d => cases ht; exact ih _ _ ns' x y hu h1 h2
      case press k =>
        cases hk : processKey k with
        | none =>
          simp only [hk] at ht
          split_ifs at ht
          cases ht; exact ih _ _ ns' x y hu h1 h2
        | some e =>
          simp only [hk] at ht
          split_ifs at ht with ho hlt
          · cases ht
            exact ih _ _ ns' _ y hu (by simp; omega) (by simp [h2])
          · cases ht; exact ih _ _ ns' x y hu h1 h2
      case handle =>
        split_ifs at ht
        split at ht
        · cases ht
        · rename_i e rest hq
          rw [hq] at h1 h2
          have h1' : rest.length ≤ 10 := by simp at h1; omega
          have h2' : x = (y ++ [e]) ++ rest := by simp [h2]
          split at ht <;> cases ht <;> exact ih _ _ ns' x _ hu h1' h2'
      case leave =>
        split_ifs at ht
        split at ht
        · cases ht
        · cases ht; exact ih _ _ ns' x y hu h1 h2
        · cases ht; exact ih _ _ ns' [] [] hu (by simp) rfl
      case expire =>
        split_ifs at ht
        cases ht; exact ih _ _ ns' x y hu h1 h2
  obtain ⟨k1, k2⟩ := key l _ s ns [] [] h (by simp [KeySys.start]) rfl
  refine ⟨k1, k2, ?_⟩
  intro k t e hs
  simp only [KeySys.step] at hs
  cases he : processKey k with
  | none => simp only [he] at hs; split_ifs at hs; simp at hs
  | some e' =>
    simp only [he] at hs
    split_ifs at hs with ho hlt
    · simp at hs
    · simp only [Option.some.injEq, Prod.mk.injEq, KeyNote.dropped.injEq] at hs
      obtain ⟨rfl, rfl⟩ := hs
      exact ⟨by omega, rfl, rfl⟩

/-! ### Every key counts -/

/-- The full claim: when no event is waiting, the program is where the keys pressed lead if each is handled at once. -/
def C131_claim : Prop :=
  ∀ (timeout : ℤ) (a : App) (now : ℤ) (l : List KeyMove) (s : KeySys) (ns : List KeyNote), timeout ≤ 0 →
    (KeySys.start a now).run timeout l = some (s, ns) → s.queue = [] → s.leaving = none →
    a.pressAll (keysOf l) = if s.over then none else some s.app

/-- Handling an event as `App.press` does. -/
def Spec.act (a : App) (e : Event) : Option App :=
  match handleEvent a.current a.paused e with
  | .cancel => none
  | .restart e => (nextConfig a.config e).map fun c => ⟨c, false, [], a.restarts + 1⟩
  | .call c p => some { a with paused := p, calls := a.calls ++ [c] }
  | .ignore => some a

/-- Handling events one after the other. -/
def Spec.actAll : Option App → List Event → Option App
  | o, [] => o
  | o, e :: l => Spec.actAll (o.bind fun a => Spec.act a e) l

theorem actAll_append (o : Option App) (l r : List Event) : actAll o (l ++ r) = actAll (actAll o l) r := by
  induction l generalizing o with
  | nil => rfl
  | cons e l ih => exact ih _

theorem actAll_none (l : List Event) : actAll none l = none := by
  induction l with
  | nil => rfl
  | cons e l ih => exact ih

theorem press_act (a : App) (k : Key) : a.press k = match processKey k with | none => some a | some e => act a e := by
  unfold App.press act
  cases processKey k with
  | none => rfl
  | some e =>
    simp only
    cases h : handleEvent a.current a.paused e <;> simp [nextConfig]

/-- **C131 (every key counts), proved part.** In a history without time limit in which nothing is lost, at every moment the keys pressed so far lead, each handled at once,
where the program will be when the waiting events are handled. In particular, when none is waiting, the program is where the keys lead. -/
theorem C131_every_key_partial (timeout : ℤ) (ht : timeout ≤ 0) (a : App) (now : ℤ) (l : List KeyMove) (s : KeySys) (ns : List KeyNote)
    (h : (KeySys.start a now).run timeout l = some (s, ns)) (hl : lossless timeout (KeySys.start a now) l) (hq : s.queue = []) (hv : s.leaving = none) :
    a.pressAll (keysOf l) = if s.over then none else some s.app := by
  have key : ∀ (l : List KeyMove) (s₀ s : KeySys) (ns : List KeyNote), s₀.run timeout l = some (s, ns) → (s₀.over = true → s₀.leaving = some none) →
      lossless timeout s₀ l →
      actAll (actAll (s₀.leaving.getD (some s₀.app)) s₀.queue) ((keysOf l).filterMap processKey) = actAll (s.leaving.getD (some s.app)) s.queue ∧
      (s.over = true → s.leaving = some none) := by
    intro l
    induction l with
    | nil =>
      intro s₀ s ns h ho _
      cases h
      exact ⟨rfl, ho⟩
    | cons m l ih =>
      intro s₀ s ns h ho hl
      simp only [KeySys.run] at h
      obtain ⟨t', n', hst, hnd, hsw, hl⟩ := hl
      split at h
      · cases h
      rename_i t n hstep
      rw [hstep] at hst
      simp only [Option.some.injEq, Prod.mk.injEq] at hst
      obtain ⟨rfl, rfl⟩ := hst
      split at h
      · cases h
      rename_i u ns' hu
      cases h
      cases m <;> simp only [KeySys.step] at hstep
      case pass d =>
        simp only [Option.some.injEq, Prod.mk.injEq] at hstep
        obtain ⟨rfl, rfl⟩ := hstep
        have q := ih _ _ ns' hu ho hl
        exact q
      case press k =>
        cases he : processKey k with
        | none =>
          simp only [he] at hstep
          split_ifs at hstep with hov
          cases hstep
          have := ih _ _ ns' hu ho hl
          simpa [keysOf, he] using this
        | some e =>
          simp only [he] at hstep
          split_ifs at hstep with hov hlt
          · cases hstep
            have := ih _ _ ns' hu ho hl
            rw [actAll_append] at this
            simpa [keysOf, he, actAll] using this
          · cases hstep
            exact absurd rfl (hnd e)
      case handle =>
        split_ifs at hstep with hov
        simp only [not_or] at hov
        have hno : s₀.over = false := by simpa using hov.1
        have hlv : s₀.leaving = none := by simpa using hov.2
        split at hstep
        · cases hstep
        · rename_i e rest hqe
          have ex : actAll (s₀.leaving.getD (some s₀.app)) s₀.queue = actAll (act s₀.app e) rest := by rw [hlv, hqe]; rfl
          rw [ex]
          have hact : act s₀.app e = match handleEvent s₀.app.current s₀.app.paused e with
              | .cancel => none
              | .restart e => (nextConfig s₀.app.config e).map fun c => ⟨c, false, [], s₀.app.restarts + 1⟩
              | .call c p => some { s₀.app with paused := p, calls := s₀.app.calls ++ [c] }
              | .ignore => some s₀.app := rfl
          split at hstep <;> rename_i hh <;> rw [hh] at hact <;> cases hstep <;> rw [hact]
          · exact ih _ _ ns' hu (fun hc => by simp [hno] at hc) hl
          · exact ih _ _ ns' hu (fun hc => by simp [hno] at hc) hl
          · have := ih _ _ ns' hu (fun hc => by simp [hno] at hc) hl
            simpa [hlv, keysOf] using this
          · have := ih _ _ ns' hu (fun hc => by simp [hno] at hc) hl
            simpa [hlv, keysOf] using this
      case leave =>
        split_ifs at hstep with hov
        split at hstep
        · cases hstep
        · rename_i hlv
          cases hstep
          have := ih _ _ ns' hu (fun _ => hlv) hl
          simpa [keysOf] using this
        · rename_i b hlv
          cases hstep
          have hq0 := hsw rfl
          have := ih _ _ ns' hu (fun hc => absurd hc hov) hl
          rw [hlv, hq0]
          simpa [keysOf] using this
      case expire =>
        split_ifs at hstep with _ hc
        omega
  have hk := key l _ s ns h (by simp [KeySys.start]) hl
  have hover : s.over = false := by
    by_contra hc
    have := hk.2 (by simpa using hc)
    rw [hv] at this
    cases this
  have hp : ∀ (ks : List Key) (o : Option App), (o.bind fun a => a.pressAll ks) = actAll o (ks.filterMap processKey) := by
    intro ks
    induction ks with
    | nil => intro o; cases o <;> rfl
    | cons k ks ih =>
      intro o
      cases o with
      | none => simp [actAll_none]
      | some a =>
        simp only [Option.bind_some, App.pressAll]
        rw [ih, press_act]
        cases hpk : processKey k with
        | none => simp [hpk]
        | some e => simp [hpk, actAll]
  have h1 := hk.1
  rw [hv, hq] at h1
  have h2 := hp (keysOf l) (some a)
  rw [Option.bind_some] at h2
  rw [h2, hover]
  simpa [KeySys.start, actAll] using h1

/-- The claim is false: the eleventh of eleven keys pressed quickly does nothing, and a key pressed just after a switch does nothing. -/
theorem C131_refuted : ¬ C131_claim := by
  intro h
  have := h 0 (App.start 0) 0 [.press (.char '2'), .press (.char 'l'), .handle, .leave]
    ⟨⟨⟨0, 1, 0⟩, false, [], 1⟩, [], none, false, 0, 0⟩ [.accepted (.scale 1), .accepted (.goal 1), .handled (.scale 1), .switched] le_rfl rfl rfl rfl
  exact absurd this (by decide +kernel)

/-- The eleventh key: ten resets are waiting, and quitting is forgotten. -/
theorem C131_full : ∃ (s : KeySys) (ns : List KeyNote),
    (KeySys.start (App.start 0) 0).run 0 (List.replicate 10 (.press (.char 'r')) ++ [.press (.char 'q')] ++ List.replicate 10 .handle) = some (s, ns) ∧
    s.queue = [] ∧ s.over = false ∧ s.leaving = none ∧ s.app.calls.length = 10 :=
  ⟨_, _, rfl, rfl, rfl, rfl, rfl⟩

/-- A history in which nothing is lost, and which ends with no event waiting: a switch of scale, then a reset and a pause of the new run. -/
example : lossless 0 (KeySys.start (App.start 0) 0) [.press (.char '2'), .handle, .leave, .press (.char 'r'), .press (.char 'p'), .handle, .handle] ∧
    ∃ s ns, (KeySys.start (App.start 0) 0).run 0 [.press (.char '2'), .handle, .leave, .press (.char 'r'), .press (.char 'p'), .handle, .handle] = some (s, ns) ∧
      s.queue = [] ∧ s.leaving = none ∧ s.app.calls.length = 2 := by
  constructor
  · refine ⟨_, _, rfl, by simp, by simp, _, _, rfl, by simp, by simp, _, _, rfl, by simp, fun _ => rfl, _, _, rfl, by simp, by simp, _, _, rfl, by simp, by simp,
      _, _, rfl, by simp, by simp, _, _, rfl, by simp, by simp, trivial⟩
  · exact ⟨_, _, rfl, rfl, rfl, rfl⟩

/-! ### The time limit -/

/-- The full claim: a time limit limits how long the program runs. -/
def C132_claim : Prop :=
  ∀ (timeout : ℤ), 0 < timeout → ∀ (a : App), ∃ bound : ℤ, ∀ (l : List KeyMove) (s : KeySys) (ns : List KeyNote),
    unlimited timeout (KeySys.start a 0) l → (KeySys.start a 0).run timeout l = some (s, ns) → s.over = false → s.leaving = none → s.now ≤ bound

theorem expire_when (timeout : ℤ) (s : KeySys) (ho : s.over = false) (hl : s.leaving = none) :
    s.step timeout .expire = if 0 < timeout ∧ s.began + timeout ≤ s.now then some ({ s with leaving := some none }, .nothing) else none := by
  obtain ⟨app, queue, leaving, over, now, began⟩ := s
  subst ho hl
  simp only [KeySys.step]
  rw [if_neg (by simp)]

/-- The time limit can end a run exactly if it is set and has been reached since the run began. From then on no event is handled and no new run begins, whatever keys are
pressed: the program is over or about to be. -/
theorem C132_when (timeout : ℤ) (s : KeySys) (ho : s.over = false) (hl : s.leaving = none) :
    ((∃ r, s.step timeout .expire = some r) ↔ 0 < timeout ∧ s.began + timeout ≤ s.now) ∧
    ∀ (l : List KeyMove) (t : KeySys) (ns : List KeyNote), s.run timeout (.expire :: l) = some (t, ns) →
      KeyNote.switched ∉ ns ∧ (∀ e, KeyNote.handled e ∉ ns) ∧ t.app = s.app ∧ (t.over = true ∨ ∀ u n, t.step timeout .leave = some (u, n) → u.over = true) := by
  have key : ∀ (l : List KeyMove) (s t : KeySys) (ns : List KeyNote), s.leaving = some none → s.run timeout l = some (t, ns) →
      KeyNote.switched ∉ ns ∧ (∀ e, KeyNote.handled e ∉ ns) ∧ t.app = s.app ∧ t.leaving = some none := by
    intro l
    induction l with
    | nil =>
      intro s t ns hs h
      simp only [KeySys.run, Option.some.injEq, Prod.mk.injEq] at h
      obtain ⟨rfl, rfl⟩ := h
      simp [hs]
    | cons m l ih =>
      intro s t ns hs h
      simp only [KeySys.run] at h
      split at h
      · cases h
      · rename_i s' n hstep
        split at h
        · cases h
        · rename_i u ns' hu
          simp only [Option.some.injEq, Prod.mk.injEq] at h
          obtain ⟨rfl, rfl⟩ := h
          have one : s'.leaving = some none ∧ s'.app = s.app ∧ n ≠ .switched ∧ ∀ e, n ≠ .handled e := by
            cases m with
            | pass d => simp only [KeySys.step, Option.some.injEq, Prod.mk.injEq] at hstep; obtain ⟨rfl, rfl⟩ := hstep; simp [hs]
            | press k =>
              simp only [KeySys.step] at hstep
              cases hk : processKey k <;> simp only [hk] at hstep <;> split_ifs at hstep <;>
                (simp only [Option.some.injEq, Prod.mk.injEq] at hstep; obtain ⟨rfl, rfl⟩ := hstep; simp [hs])
            | handle => simp [KeySys.step, hs] at hstep
            | leave =>
              simp only [KeySys.step, hs] at hstep
              split_ifs at hstep
              simp only [Option.some.injEq, Prod.mk.injEq] at hstep; obtain ⟨rfl, rfl⟩ := hstep; simp [hs]
            | expire => simp [KeySys.step, hs] at hstep
          obtain ⟨h1, h2, h3, h4⟩ := one
          obtain ⟨g1, g2, g3, g4⟩ := ih s' u ns' h1 hu
          refine ⟨by simp [g1, h3.symm], fun e => by simp [g2 e, (h4 e).symm], g3.trans h2, g4⟩
  refine ⟨?_, ?_⟩
  · simp only [KeySys.step, ho, hl]
    by_cases hc : timeout > 0 ∧ s.now ≥ s.began + timeout
    · simp [hc]
    · rw [if_neg (by simp), if_neg hc]; simpa using hc
  · intro l t ns h
    simp only [KeySys.run] at h
    split at h
    · cases h
    · rename_i s' n hstep
      split at h
      · cases h
      · rename_i u ns' hu
        simp only [Option.some.injEq, Prod.mk.injEq] at h
        obtain ⟨rfl, rfl⟩ := h
        simp only [KeySys.step, ho, hl] at hstep
        rw [if_neg (by simp)] at hstep
        split_ifs at hstep
        simp only [Option.some.injEq, Prod.mk.injEq] at hstep
        obtain ⟨rfl, rfl⟩ := hstep
        obtain ⟨g1, g2, g3, g4⟩ := key l _ u ns' rfl hu
        refine ⟨by simp [g1], fun e => by simp [g2 e], g3, ?_⟩
        by_cases hov : u.over = true
        · exact .inl hov
        · refine .inr fun v n hv => ?_
          simp only [KeySys.step, g4] at hv
          rw [if_neg hov] at hv
          simp only [Option.some.injEq, Prod.mk.injEq] at hv
          rw [← hv.1]

/-- **C132, proved part.** Without a switch of scale, goal or pattern the program does not last longer than the time limit. -/
theorem C132_one_run_partial (timeout : ℤ) (ht : 0 < timeout) (a : App) (now : ℤ) (l : List KeyMove) (s : KeySys) (ns : List KeyNote)
    (hu : unlimited timeout (KeySys.start a now) l) (h : (KeySys.start a now).run timeout l = some (s, ns)) (hn : KeyNote.switched ∉ ns)
    (ho : s.over = false) (hl : s.leaving = none) : s.now < now + timeout := by
  have key : ∀ (l : List KeyMove) (s₀ s : KeySys) (ns : List KeyNote), s₀.run timeout l = some (s, ns) → unlimited timeout s₀ l →
      KeyNote.switched ∉ ns → s.began = s₀.began ∧ s.step timeout .expire = none := by
    intro l
    induction l with
    | nil => intro s₀ s ns h hu _; cases h; exact ⟨rfl, hu⟩
    | cons m l ih =>
      intro s₀ s ns h hu hn
      simp only [KeySys.run] at h
      split at h
      · cases h
      rename_i t n hstep
      split at h
      · cases h
      rename_i u ns' hr
      cases h
      obtain ⟨h1, h2⟩ := ih _ _ ns' hr (hu.2 t n hstep) (fun hc => hn (List.mem_cons_of_mem _ hc))
      refine ⟨h1.trans ?_, h2⟩
      have hnn : n ≠ .switched := fun hc => hn (hc ▸ List.mem_cons_self)
      cases m <;> simp only [KeySys.step] at hstep
      case pass d => cases hstep; rfl
      case press k =>
        cases he : processKey k <;> simp only [he] at hstep <;> split_ifs at hstep <;> cases hstep <;> rfl
      case handle =>
        split_ifs at hstep
        split at hstep
        · cases hstep
        · split at hstep <;> cases hstep <;> rfl
      case leave =>
        split_ifs at hstep
        split at hstep
        · cases hstep
        · cases hstep; rfl
        · cases hstep; exact absurd rfl hnn
      case expire => split_ifs at hstep; cases hstep; rfl
  obtain ⟨h1, h2⟩ := key l _ s ns h hu hn
  rw [expire_when timeout s ho hl] at h2
  split_ifs at h2 with hc
  have : s.began = now := h1
  by_contra hlt
  exact hc ⟨ht, by omega⟩

/-- **C132 (refuted).** The time limit begins anew with every switch of scale, goal or pattern: whatever it is, a program whose user switches often enough runs as long as
they like. -/
theorem C132_forever (timeout : ℤ) (ht : 2 ≤ timeout) (a : App) (n : ℕ) : ∃ (l : List KeyMove) (s : KeySys) (ns : List KeyNote),
    unlimited timeout (KeySys.start a 0) l ∧ (KeySys.start a 0).run timeout l = some (s, ns) ∧ s.over = false ∧ s.leaving = none ∧ s.now = n := by
  have key : ∀ (n : ℕ) (a : App) (t : ℤ), ∃ (l : List KeyMove) (s : KeySys) (ns : List KeyNote),
      unlimited timeout (KeySys.start a t) l ∧ (KeySys.start a t).run timeout l = some (s, ns) ∧ s.over = false ∧ s.leaving = none ∧ s.now = t + n := by
    intro n
    induction n with
    | zero =>
      intro a t
      refine ⟨[], _, _, ?_, rfl, rfl, rfl, by simp [KeySys.start]⟩
      simp only [unlimited]
      rw [expire_when _ _ rfl rfl, if_neg]
      simp only [KeySys.start]; omega
    | succ n ih =>
      intro a t
      obtain ⟨k, e, b, h1, h2, h3⟩ : ∃ (k : Key) (e : Event) (b : App), processKey k = some e ∧ (∃ e', handleEvent a.current a.paused e = .restart e' ∧
          (nextConfig a.config e').map (fun c => (⟨c, false, [], a.restarts + 1⟩ : App)) = some b) ∧ True := by
        have hcur : a.current.scale = a.config.scale := by
          unfold App.current
          split <;> rfl
        by_cases hs : a.config.scale = 0
        · refine ⟨.char '2', .scale 1, ⟨{ a.config with scale := 1 }, false, [], a.restarts + 1⟩, rfl, ⟨.scale 1, ?_, ?_⟩, trivial⟩
          · simp [handleEvent, isChangeEvent, hcur, hs]
          · simp only [nextConfig, hs]
            rw [if_pos (by decide)]
            rfl
        · refine ⟨.char '1', .scale 0, ⟨{ a.config with scale := 0 }, false, [], a.restarts + 1⟩, rfl, ⟨.scale 0, ?_, ?_⟩, trivial⟩
          · simp [handleEvent, isChangeEvent, hcur, hs]
          · simp only [nextConfig]
            rw [if_pos hs]
            rfl
      obtain ⟨e', h2, h2'⟩ := h2
      obtain ⟨l, s, ns, hu, hr, ho, hl, hn⟩ := ih b (t + 1)
      have s1 : (KeySys.start a t).step timeout (.pass 1) = some ({ KeySys.start a t with now := t + 1 }, .nothing) := rfl
      have s2 : KeySys.step timeout { KeySys.start a t with now := t + 1 } (.press k) = some ({ KeySys.start a t with now := t + 1, queue := [e] }, .accepted e) := by
        simp [KeySys.step, KeySys.start, h1]
      have s3 : KeySys.step timeout { KeySys.start a t with now := t + 1, queue := [e] } .handle =
          some ({ KeySys.start a t with now := t + 1, leaving := some (some b) }, .handled e) := by
        simp only [KeySys.step, KeySys.start, h2, h2']
        rw [if_neg (by simp)]
      have s4 : KeySys.step timeout { KeySys.start a t with now := t + 1, leaving := some (some b) } .leave = some (KeySys.start b (t + 1), .switched) := by
        simp [KeySys.step, KeySys.start]
      have x0 : ∀ q : List Event, KeySys.step timeout { KeySys.start a t with now := t + 1, queue := q } .expire = none := by
        intro q
        rw [expire_when _ _ rfl rfl, if_neg]
        simp only [KeySys.start]; omega
      refine ⟨.pass 1 :: .press k :: .handle :: .leave :: l, s, .nothing :: .accepted e :: .handled e :: .switched :: ns, ?_, ?_, ho, hl, by push_cast; omega⟩
      · refine ⟨?_, ?_⟩
        · rw [expire_when _ _ rfl rfl, if_neg]
          simp only [KeySys.start]; omega
        intro t1 n1 e1
        rw [s1] at e1; cases e1
        refine ⟨x0 [], ?_⟩
        intro t1 n1 e1
        rw [s2] at e1; cases e1
        refine ⟨x0 [e], ?_⟩
        intro t1 n1 e1
        rw [s3] at e1; cases e1
        refine ⟨by simp [KeySys.step], ?_⟩
        intro t1 n1 e1
        rw [s4] at e1; cases e1
        exact hu
      · simp only [KeySys.run, s1, s2, s3, s4, hr]
  obtain ⟨l, s, ns, h⟩ := key n a 0
  exact ⟨l, s, ns, h.1, h.2.1, h.2.2.1, h.2.2.2.1, by simpa using h.2.2.2.2⟩

/-- No bound holds for a time limit of 2. -/
theorem C132_refuted : ¬ C132_claim := by
  intro h
  obtain ⟨bound, hb⟩ := h 2 (by norm_num) (App.start 0)
  obtain ⟨l, s, ns, hu, hr, ho, hl, hn⟩ := C132_forever 2 le_rfl (App.start 0) (bound.toNat + 1)
  have := hb l s ns hu hr ho hl
  rw [hn] at this
  push_cast at this
  have := Int.self_le_toNat bound
  omega

/-- A history of one run that lasts one nanosecond less than its limit. -/
example : ∃ s ns, (KeySys.start (App.start 0) 0).run 1000 [.press (.char 'p'), .handle, .pass 999] = some (s, ns) ∧ s.step 1000 .expire = none ∧
    ∃ s' ns', s.run 1000 [.pass 1, .expire, .leave] = some (s', ns') ∧ s'.over = true :=
  ⟨_, _, rfl, rfl, _, _, rfl, rfl⟩

end Verif
