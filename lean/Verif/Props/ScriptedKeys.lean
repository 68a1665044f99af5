import Verif.Model.ScriptedKeys
import Mathlib.Data.List.Basic
import Mathlib.Tactic.Linarith

/-!
# C138: the scripted controller delivers its script
-/

set_option autoImplicit false

namespace Verif
variable {E : Type}

namespace Spec

/-- The time the first `n` sleeps take together. -/
def sleepTotal (delays : List Int) (n : Nat) : Int := ((delays.take n).map (max 0)).sum

end Spec
open Spec

/-- How many events the goroutine has sent. -/
def ScriptPc.sent (n : Nat) : ScriptPc → Nat
  | .top i => i
  | .sleeping i _ => i
  | .sending i => i
  | .done => n

/-- The invariant of the controller started at `t0`. -/
structure ScriptInv (script : List E) (delays : List Int) (t0 : Int) (s : ScriptState E) : Prop where
  sent : s.pc.sent script.length ≤ script.length
  strict : ∀ i, (∃ t, s.pc = .sleeping i t) ∨ s.pc = .sending i → i < script.length
  order : s.got.map Prod.fst ++ s.chan = script.take (s.pc.sent script.length)
  room : s.chan.length ≤ 10
  clock : t0 + sleepTotal delays (s.pc.sent script.length) ≤ s.now ∨ s.pc = .done
  late : t0 ≤ s.now ∧ (s.chan ≠ [] → t0 + sleepTotal delays (s.got.length + s.chan.length) ≤ s.now)
  sleep : ∀ i t, s.pc = .sleeping i t → t0 + sleepTotal delays (i + 1) ≤ t
  sending : ∀ i, s.pc = .sending i → t0 + sleepTotal delays (i + 1) ≤ s.now
  times : ∀ j e t, s.got[j]? = some (e, t) → t0 + sleepTotal delays (j + 1) ≤ t

theorem sleepTotal_succ (delays : List Int) (n : Nat) :
    sleepTotal delays (n + 1) = sleepTotal delays n + (match delays[n]? with | some d => max 0 d | none => 0) := by
  unfold sleepTotal
  rw [List.take_add_one]
  cases h : delays[n]? with
  | none => simp
  | some d => simp

theorem sleepTotal_mono (delays : List Int) {m n : Nat} (h : m ≤ n) : sleepTotal delays m ≤ sleepTotal delays n := by
  induction n, h using Nat.le_induction with
  | base => exact le_rfl
  | succ n _ ih =>
    rw [sleepTotal_succ]
    cases delays[n]? with
    | none => simpa using ih
    | some d => have := le_max_left 0 d; dsimp only; linarith

theorem ScriptInv.init (script : List E) (delays : List Int) (t0 : Int) : ScriptInv script delays t0 (ScriptState.init t0) where
  sent := Nat.zero_le _
  strict := by rintro i (⟨t, h⟩ | h) <;> cases h
  order := by simp [ScriptState.init, ScriptPc.sent]
  room := by simp [ScriptState.init]
  clock := Or.inl (by simp [ScriptState.init, ScriptPc.sent, sleepTotal])
  late := ⟨le_rfl, fun h => absurd rfl h⟩
  sleep := by intro i t h; cases h
  sending := by intro i h; cases h
  times := by intro j e t h; simp [ScriptState.init] at h

theorem ScriptInv.step {script : List E} {delays : List Int} {t0 : Int} {s s' : ScriptState E} (a : ScriptStep)
    (h : ScriptInv script delays t0 s) (hs : s.step script delays a = some s') : ScriptInv script delays t0 s' := by
  obtain ⟨now, pc, chan, got⟩ := s
  have hsent := h.sent
  have hord := h.order
  dsimp only at hsent hord
  cases a with
  | time d =>
    simp only [ScriptState.step, Option.some.injEq] at hs
    subst hs
    have hd : (0 : Int) ≤ d := Int.natCast_nonneg d
    refine ⟨h.sent, h.strict, h.order, h.room, ?_, ⟨?_, ?_⟩, h.sleep, ?_, h.times⟩
    · rcases h.clock with hc | hc
      · left; dsimp only at hc ⊢; omega
      · exact Or.inr hc
    · have := h.late.1; dsimp only at this ⊢; omega
    · intro hne; have := h.late.2 hne; dsimp only at this ⊢; omega
    · intro i hi; have := h.sending i hi; dsimp only at this ⊢; omega
  | loop =>
    cases pc with
    | top i =>
      simp only [ScriptState.step] at hs
      split_ifs at hs with hi
      · have hc : t0 + sleepTotal delays i ≤ now := by
          rcases h.clock with hc | hc
          · exact hc
          · cases hc
        cases hd : delays[i]? with
        | some d =>
          rw [hd] at hs
          simp only [Option.some.injEq] at hs
          subst hs
          refine ⟨hsent, ?_, hord, h.room, Or.inl hc, h.late, ?_, (by intro j hj; cases hj), h.times⟩
          · rintro j (⟨t, hj⟩ | hj)
            · injection hj with e _; rw [← e]; exact hi
            · cases hj
          · intro j t hj
            injection hj with e1 e2
            subst e1 e2
            rw [sleepTotal_succ, hd]; dsimp only; linarith
        | none =>
          rw [hd] at hs
          simp only [Option.some.injEq] at hs
          subst hs
          refine ⟨hsent, ?_, hord, h.room, Or.inl hc, h.late, (by intro j t hj; cases hj), ?_, h.times⟩
          · rintro j (⟨t, hj⟩ | hj)
            · cases hj
            · injection hj with e; rw [← e]; exact hi
          · intro j hj
            injection hj with e
            subst e
            rw [sleepTotal_succ, hd]; dsimp only; omega
      · simp only [Option.some.injEq] at hs
        subst hs
        have e : i = script.length := by simp only [ScriptPc.sent] at hsent; omega
        subst e
        exact ⟨le_rfl, (by rintro j (⟨t, hj⟩ | hj) <;> cases hj), hord, h.room, Or.inr rfl, h.late,
          (by intro j t hj; cases hj), (by intro j hj; cases hj), h.times⟩
    | _ => simp [ScriptState.step] at hs
  | wake =>
    cases pc with
    | sleeping i t =>
      simp only [ScriptState.step] at hs
      split_ifs at hs with ht
      simp only [Option.some.injEq] at hs
      subst hs
      refine ⟨hsent, ?_, hord, h.room, ?_, h.late, (by intro j t hj; cases hj), ?_, h.times⟩
      · rintro j (⟨t', hj⟩ | hj)
        · cases hj
        · injection hj with e; rw [← e]; exact h.strict i (Or.inl ⟨t, rfl⟩)
      · rcases h.clock with hc | hc
        · exact Or.inl hc
        · cases hc
      · intro j hj
        injection hj with e
        subst e
        have := h.sleep i t rfl
        dsimp only at ht ⊢; omega
    | _ => simp [ScriptState.step] at hs
  | send =>
    cases pc with
    | sending i =>
      simp only [ScriptState.step] at hs
      split_ifs at hs with hr
      have hi := h.strict i (Or.inr rfl)
      rw [List.getElem?_eq_getElem hi] at hs
      simp only [Option.some.injEq] at hs
      subst hs
      have hse := h.sending i rfl
      have hlen : got.length + chan.length = i := by
        have := congrArg List.length hord
        simp only [List.length_append, List.length_map, List.length_take, ScriptPc.sent] at this
        omega
      refine ⟨hi, (by rintro j (⟨t', hj⟩ | hj) <;> cases hj), ?_, ?_, Or.inl hse, ⟨h.late.1, fun _ => ?_⟩,
        (by intro j t hj; cases hj), (by intro j hj; cases hj), h.times⟩
      · simp only [ScriptPc.sent] at hord ⊢
        rw [← List.append_assoc, hord, List.take_add_one, List.getElem?_eq_getElem hi]
        rfl
      · simp only [List.length_append, List.length_singleton]; omega
      · simp only [List.length_append, List.length_singleton]
        rw [← add_assoc, hlen]; exact hse
    | _ => simp [ScriptState.step] at hs
  | receive =>
    cases chan with
    | nil => simp [ScriptState.step] at hs
    | cons e r =>
      simp only [ScriptState.step, Option.some.injEq] at hs
      subst hs
      have hl := h.late.2 (by simp)
      have hroom := h.room
      simp only [List.length_cons] at hl hroom
      refine ⟨h.sent, h.strict, ?_, ?_, h.clock, ⟨h.late.1, fun _ => ?_⟩, h.sleep, h.sending, ?_⟩
      · rw [← hord]; simp
      · dsimp only; omega
      · simp only [List.length_append, List.length_singleton]
        rw [add_assoc got.length, add_comm 1]; exact hl
      · intro j e' t hj
        dsimp only at hj
        rw [List.getElem?_append] at hj
        split_ifs at hj with hlt
        · exact h.times j e' t hj
        · obtain ⟨hk, hv⟩ := List.getElem?_eq_some_iff.1 hj
          simp only [List.length_singleton] at hk
          have hj0 : j = got.length := by omega
          subst hj0
          simp only [Nat.sub_self, List.getElem_cons_zero, Prod.mk.injEq] at hv
          rw [← hv.2]
          have := sleepTotal_mono delays (show got.length + 1 ≤ got.length + (r.length + 1) by omega)
          omega

theorem ScriptInv.run {script : List E} {delays : List Int} {t0 : Int} {s s' : ScriptState E} (as : List ScriptStep)
    (h : ScriptInv script delays t0 s) (hs : s.run script delays as = some s') : ScriptInv script delays t0 s' := by
  induction as generalizing s with
  | nil => simp only [ScriptState.run, Option.some.injEq] at hs; exact hs ▸ h
  | cons a as ih =>
    simp only [ScriptState.run, Option.bind_eq_some_iff] at hs
    obtain ⟨s1, h1, h2⟩ := hs
    exact ih (h.step a h1) h2

/-- **C138.** At every moment of every run, what was received followed by what waits in the channel is a beginning of the
script: in order, nothing lost, nothing twice. -/
theorem C138_order (script : List E) (delays : List Int) (t0 : Int) (as : List ScriptStep) (s : ScriptState E)
    (h : (ScriptState.init t0).run script delays as = some s) :
    s.got.map Prod.fst ++ s.chan <+: script ∧ s.chan.length ≤ 10 := by
  have hi := (ScriptInv.init script delays t0).run as h
  exact ⟨hi.order ▸ List.take_prefix _ _, hi.room⟩

/-- **C138** When the goroutine has ended and the channel is empty, exactly the script was received. -/
theorem C138_complete (script : List E) (delays : List Int) (t0 : Int) (as : List ScriptStep) (s : ScriptState E)
    (h : (ScriptState.init t0).run script delays as = some s) (hd : s.pc = .done) (hc : s.chan = []) :
    s.got.map Prod.fst = script := by
  have hi := ((ScriptInv.init script delays t0).run as h).order
  rw [hd, hc, List.append_nil] at hi
  rw [hi]; exact List.take_length

/-- **C138** No event arrives early: the `j`-th received event comes at least the first `j+1` delays after the start. -/
theorem C138_time (script : List E) (delays : List Int) (t0 : Int) (as : List ScriptStep) (s : ScriptState E)
    (h : (ScriptState.init t0).run script delays as = some s) (j : Nat) (e : E) (t : Int) (hj : s.got[j]? = some (e, t)) :
    t0 + sleepTotal delays (j + 1) ≤ t :=
  ((ScriptInv.init script delays t0).run as h).times j e t hj

theorem scriptRun_append (script : List E) (delays : List Int) (as bs : List ScriptStep) (s s1 s2 : ScriptState E)
    (h1 : s.run script delays as = some s1) (h2 : s1.run script delays bs = some s2) :
    s.run script delays (as ++ bs) = some s2 := by
  induction as generalizing s with
  | nil => simp only [ScriptState.run, Option.some.injEq] at h1; subst h1; exact h2
  | cons a as ih =>
    simp only [ScriptState.run, Option.bind_eq_some_iff, List.cons_append] at h1 ⊢
    obtain ⟨s', e, h⟩ := h1
    exact ⟨s', e, ih s' h⟩

/-- **C138** The bound on the times is exact: in some run (the receiver always waiting) the `j`-th event arrives exactly
the first `j+1` delays after the start. -/
theorem C138_exact (script : List E) (delays : List Int) (t0 : Int) :
    ∃ as s, (ScriptState.init t0).run script delays as = some s ∧ s.pc = .done ∧
      s.got.length = script.length ∧
      ∀ j (hj : j < script.length), s.got[j]? = some (script[j], t0 + sleepTotal delays (j + 1)) := by
  have key : ∀ i, i ≤ script.length → ∃ as got, (ScriptState.init t0).run script delays as =
      some ⟨t0 + sleepTotal delays i, .top i, [], got⟩ ∧ got.length = i ∧
      ∀ j (hj : j < script.length), j < i → got[j]? = some (script[j], t0 + sleepTotal delays (j + 1)) := by
    intro i
    induction i with
    | zero => exact fun _ => ⟨[], [], by simp [ScriptState.run, ScriptState.init, sleepTotal], rfl, fun j _ h => absurd h (Nat.not_lt_zero j)⟩
    | succ i ih =>
      intro hi
      obtain ⟨as, got, hr, hl, hg⟩ := ih (by omega)
      have hi' : i < script.length := hi
      have hrun : ∃ bs, ScriptState.run script delays ⟨t0 + sleepTotal delays i, .top i, [], got⟩ bs =
          some ⟨t0 + sleepTotal delays (i + 1), .top (i + 1), [], got ++ [(script[i], t0 + sleepTotal delays (i + 1))]⟩ := by
        cases hd : delays[i]? with
        | none =>
          refine ⟨[.loop, .send, .receive], ?_⟩
          simp [ScriptState.run, ScriptState.step, hd, hi', sleepTotal_succ]
        | some d =>
          refine ⟨[.loop, .time (max 0 d).toNat, .wake, .send, .receive], ?_⟩
          have e : (((max 0 d).toNat : Nat) : Int) = max 0 d := Int.toNat_of_nonneg (le_max_left 0 d)
          simp only [ScriptState.run, ScriptState.step, hd, hi', sleepTotal_succ, e, if_true, Option.bind_some, le_refl,
            List.length_nil, Nat.zero_lt_succ, List.getElem?_eq_getElem hi', List.nil_append, add_assoc]
      obtain ⟨bs, hb⟩ := hrun
      refine ⟨as ++ bs, _, scriptRun_append _ _ _ _ _ _ _ hr hb, by simp [hl], ?_⟩
      intro j hj hji
      rw [List.getElem?_append]
      split_ifs with hlt
      · exact hg j hj (by omega)
      · have : j = i := by omega
        subst this
        simp [hl]
  obtain ⟨as, got, hr, hl, hg⟩ := key script.length le_rfl
  refine ⟨as ++ [.loop], _, scriptRun_append _ _ _ _ _ _ ⟨t0 + sleepTotal delays script.length, .done, [], got⟩ hr ?_, rfl, hl, fun j hj => hg j hj hj⟩
  simp [ScriptState.run, ScriptState.step]

/-- **C138** The goroutine is never stuck for good while somebody receives: from every reachable state some continuation
delivers the rest of the script. -/
theorem C138_progress (script : List E) (delays : List Int) (t0 : Int) (as : List ScriptStep) (s : ScriptState E)
    (h : (ScriptState.init t0).run script delays as = some s) :
    ∃ bs s', s.run script delays bs = some s' ∧ s'.pc = .done ∧ s'.chan = [] ∧ s'.got.map Prod.fst = script := by
  have hi := (ScriptInv.init script delays t0).run as h
  clear h
  -- draining the channel
  have drain : ∀ (c : List E) (s : ScriptState E), s.chan = c → ScriptInv script delays t0 s →
      ∃ bs s', s.run script delays bs = some s' ∧ s'.pc = s.pc ∧ s'.chan = [] ∧ s'.now = s.now ∧
        ScriptInv script delays t0 s' := by
    intro c
    induction c with
    | nil => exact fun s hc hs => ⟨[], s, rfl, rfl, hc, rfl, hs⟩
    | cons e r ih =>
      intro s hc hs
      have e1 : s.step script delays .receive = some { s with chan := r, got := s.got ++ [(e, s.now)] } := by
        unfold ScriptState.step; simp only [hc]
      obtain ⟨bs, s', h1, h2, h3, h4, h5⟩ := ih _ rfl (hs.step .receive e1)
      exact ⟨.receive :: bs, s', by simp only [ScriptState.run, e1, Option.bind_some]; exact h1, h2, h3, h4, h5⟩
  have finish : ∀ (n : Nat) (s : ScriptState E) (i : Nat), s.pc = .top i → script.length - i ≤ n →
      ScriptInv script delays t0 s → ∃ bs s', s.run script delays bs = some s' ∧ s'.pc = .done ∧ s'.chan = [] ∧
        ScriptInv script delays t0 s' := by
    have send : ∀ (s : ScriptState E) (i : Nat), s.pc = .sending i → ScriptInv script delays t0 s →
        ∃ bs s', s.run script delays bs = some s' ∧ s'.pc = .top (i + 1) ∧ ScriptInv script delays t0 s' := by
      intro s i hp hs
      obtain ⟨bs, s1, h1, h2, h3, -, h5⟩ := drain s.chan s rfl hs
      have hlt := h5.strict i (Or.inr (h2.trans hp))
      have e1 : s1.step script delays .send = some { s1 with pc := .top (i + 1), chan := s1.chan ++ [script[i]] } := by
        unfold ScriptState.step
        simp only [h2.trans hp, h3, List.length_nil, List.getElem?_eq_getElem hlt]
        simp
      exact ⟨bs ++ [.send], _, scriptRun_append _ _ _ _ _ _ _ h1 (by simp only [ScriptState.run, e1, Option.bind_some]), rfl,
        h5.step .send e1⟩
    intro n
    induction n with
    | zero =>
      intro s i hp hn hs
      obtain ⟨bs, s1, h1, h2, h3, -, h5⟩ := drain s.chan s rfl hs
      have e1 : s1.step script delays .loop = some { s1 with pc := .done } := by
        unfold ScriptState.step
        simp only [h2.trans hp]
        rw [if_neg (by omega)]
      exact ⟨bs ++ [.loop], { s1 with pc := .done }, scriptRun_append _ _ _ _ _ _ _ h1 (by simp only [ScriptState.run, e1, Option.bind_some]), rfl,
        h3, h5.step .loop e1⟩
    | succ n ih =>
      intro s i hp hn hs
      by_cases hi : i < script.length
      · have key : ∃ bs s', s.run script delays bs = some s' ∧ s'.pc = .sending i ∧ ScriptInv script delays t0 s' := by
          cases hd : delays[i]? with
          | none =>
            have e1 : s.step script delays .loop = some { s with pc := .sending i } := by
              unfold ScriptState.step
              simp only [hp]
              rw [if_pos hi, hd]
            exact ⟨[.loop], _, by simp only [ScriptState.run, e1, Option.bind_some], rfl, hs.step .loop e1⟩
          | some d =>
            have e1 : s.step script delays .loop = some { s with pc := .sleeping i (s.now + max 0 d) } := by
              unfold ScriptState.step
              simp only [hp]
              rw [if_pos hi, hd]
            have i1 := hs.step .loop e1
            have e2 : ScriptState.step script delays { s with pc := .sleeping i (s.now + max 0 d) } (.time (max 0 d).toNat) =
                some { s with now := s.now + (max 0 d).toNat, pc := .sleeping i (s.now + max 0 d) } := rfl
            have i2 := i1.step _ e2
            have e3 : ScriptState.step script delays
                { s with now := s.now + (max 0 d).toNat, pc := .sleeping i (s.now + max 0 d) } .wake =
                some { s with now := s.now + (max 0 d).toNat, pc := .sending i } := by
              unfold ScriptState.step
              dsimp only
              rw [if_pos (by have := Int.toNat_of_nonneg (le_max_left 0 d); omega)]
            exact ⟨[.loop, .time (max 0 d).toNat, .wake], _, by
              simp only [ScriptState.run, e1, Option.bind_some, e2, e3], rfl, i2.step _ e3⟩
        obtain ⟨b1, s1, r1, p1, i1⟩ := key
        obtain ⟨b2, s2, r2, p2, i2⟩ := send s1 i p1 i1
        obtain ⟨b3, s3, r3, h3⟩ := ih s2 (i + 1) p2 (by omega) i2
        exact ⟨b1 ++ (b2 ++ b3), s3, scriptRun_append _ _ _ _ _ _ _ r1 (scriptRun_append _ _ _ _ _ _ _ r2 r3), h3⟩
      · exact ih s i hp (by omega) hs
  have wrap : ∃ bs s', s.run script delays bs = some s' ∧ s'.pc = .done ∧ s'.chan = [] ∧ ScriptInv script delays t0 s' := by
    have send : ∀ (s : ScriptState E) (i : Nat), s.pc = .sending i → ScriptInv script delays t0 s →
        ∃ bs s', s.run script delays bs = some s' ∧ s'.pc = .done ∧ s'.chan = [] ∧ ScriptInv script delays t0 s' := by
      intro s i hp hs
      obtain ⟨bs, s1, h1, h2, h3, -, h5⟩ := drain s.chan s rfl hs
      have hlt := h5.strict i (Or.inr (h2.trans hp))
      have e1 : s1.step script delays .send = some { s1 with pc := .top (i + 1), chan := s1.chan ++ [script[i]] } := by
        unfold ScriptState.step
        simp only [h2.trans hp, h3, List.length_nil, List.getElem?_eq_getElem hlt]
        simp
      obtain ⟨b2, s2, r2, hh⟩ := finish script.length _ (i + 1) rfl (by omega) (h5.step .send e1)
      exact ⟨bs ++ (.send :: b2), s2, scriptRun_append _ _ _ _ _ _ _ h1 (by
        simp only [ScriptState.run, e1, Option.bind_some]; exact r2), hh⟩
    cases hp : s.pc with
    | top i => exact finish script.length s i hp (by omega) hi
    | sending i => exact send s i hp hi
    | sleeping i t =>
      have e1 : s.step script delays (.time (t - s.now).toNat) = some { s with now := s.now + (t - s.now).toNat } := rfl
      have i1 := hi.step _ e1
      have e2 : ScriptState.step script delays { s with now := s.now + (t - s.now).toNat } .wake =
          some { s with now := s.now + (t - s.now).toNat, pc := .sending i } := by
        unfold ScriptState.step
        simp only [hp]
        rw [if_pos (by omega)]
      obtain ⟨bs, s', r, hh⟩ := send _ i rfl (i1.step _ e2)
      exact ⟨.time (t - s.now).toNat :: .wake :: bs, s', by simp only [ScriptState.run, e1, e2, Option.bind_some]; exact r, hh⟩
    | done =>
      obtain ⟨bs, s1, h1, h2, h3, -, h5⟩ := drain s.chan s rfl hi
      exact ⟨bs, s1, h1, h2.trans hp, h3, h5⟩
  obtain ⟨bs, s', r, hd, hc, hs'⟩ := wrap
  refine ⟨bs, s', r, hd, hc, ?_⟩
  have := hs'.order
  rw [hd, hc, List.append_nil] at this
  rw [this]; exact List.take_length

/-- **C138** The goroutine has no way to be stopped: once nobody receives any more and more than ten events are
outstanding, it never ends. -/
theorem C138_leak (script : List E) (delays : List Int) (t0 : Int) (as bs : List ScriptStep) (s s' : ScriptState E)
    (h : (ScriptState.init t0).run script delays as = some s) (h' : s.run script delays bs = some s')
    (hb : .receive ∉ bs) (hl : s.got.length + 10 < script.length) : s'.pc ≠ .done := by
  have hgot : ∀ (bs : List ScriptStep) (s s' : ScriptState E), s.run script delays bs = some s' → .receive ∉ bs → s'.got = s.got := by
    intro bs
    induction bs with
    | nil => intro s s' h _; simp only [ScriptState.run, Option.some.injEq] at h; rw [h]
    | cons b bs ih =>
      intro s s' h hb
      simp only [ScriptState.run, Option.bind_eq_some_iff] at h
      obtain ⟨s1, h1, h2⟩ := h
      rw [ih s1 s' h2 (fun hc => hb (List.mem_cons_of_mem _ hc))]
      cases b with
      | time d => simp only [ScriptState.step, Option.some.injEq] at h1; rw [← h1]
      | receive => exact absurd List.mem_cons_self hb
      | loop =>
        simp only [ScriptState.step] at h1
        split at h1
        · split_ifs at h1
          · split at h1 <;> (simp only [Option.some.injEq] at h1; rw [← h1])
          · simp only [Option.some.injEq] at h1; rw [← h1]
        · cases h1
      | wake =>
        simp only [ScriptState.step] at h1
        split at h1
        · split_ifs at h1; simp only [Option.some.injEq] at h1; rw [← h1]
        · cases h1
      | send =>
        simp only [ScriptState.step] at h1
        split at h1
        · split_ifs at h1
          split at h1
          · simp only [Option.some.injEq] at h1; rw [← h1]
          · cases h1
        · cases h1
  have hi := (ScriptInv.init script delays t0).run _ (scriptRun_append _ _ _ _ _ _ _ h h')
  intro hd
  have ho := congrArg List.length hi.order
  rw [hd, hgot bs s s' h' hb] at ho
  simp only [List.length_append, List.length_map, List.length_take, ScriptPc.sent] at ho
  have := hi.room
  omega

/-- **C138** But it needs no receiver for the last ten events: if at most ten are outstanding, it can end although nobody receives. -/
theorem C138_ends (script : List E) (delays : List Int) (t0 : Int) (as : List ScriptStep) (s : ScriptState E)
    (h : (ScriptState.init t0).run script delays as = some s) (hl : script.length ≤ s.got.length + 10) :
    ∃ bs s', .receive ∉ bs ∧ s.run script delays bs = some s' ∧ s'.pc = .done := by
  have hi := (ScriptInv.init script delays t0).run as h
  have ho := congrArg List.length hi.order
  simp only [List.length_append, List.length_map, List.length_take] at ho
  have hsent := hi.sent
  -- sending the event `i` into a channel with room, and the rest
  have finish : ∀ (n : Nat) (s : ScriptState E) (i : Nat), script.length - i ≤ n → s.chan.length + (script.length - i) ≤ 10 →
      (s.pc = .top i → ∃ bs s', .receive ∉ bs ∧ s.run script delays bs = some s' ∧ s'.pc = .done) ∧
      (s.pc = .sending i → i < script.length → ∃ bs s', .receive ∉ bs ∧ s.run script delays bs = some s' ∧ s'.pc = .done) := by
    intro n
    induction n with
    | zero =>
      intro s i hn _
      refine ⟨fun hp => ?_, fun _ hlt => by omega⟩
      have e1 : s.step script delays .loop = some { s with pc := .done } := by
        unfold ScriptState.step
        simp only [hp]
        rw [if_neg (by omega)]
      exact ⟨[.loop], { s with pc := .done }, by simp, by simp only [ScriptState.run, e1, Option.bind_some], rfl⟩
    | succ n ih =>
      have send : ∀ (s : ScriptState E) (i : Nat), script.length - i ≤ n + 1 → s.chan.length + (script.length - i) ≤ 10 →
          s.pc = .sending i → i < script.length → ∃ bs s', .receive ∉ bs ∧ s.run script delays bs = some s' ∧ s'.pc = .done := by
        intro s i hn hr hp hlt
        have e1 : s.step script delays .send = some { s with pc := .top (i + 1), chan := s.chan ++ [script[i]] } := by
          unfold ScriptState.step
          simp only [hp]
          rw [if_pos (by omega), List.getElem?_eq_getElem hlt]
        obtain ⟨bs, s', h1, h2, h3⟩ := (ih { s with pc := .top (i + 1), chan := s.chan ++ [script[i]] } (i + 1) (by omega) (by
          simp only [List.length_append, List.length_cons, List.length_nil]; omega)).1 rfl
        exact ⟨.send :: bs, s', by simp [h1], by simp only [ScriptState.run, e1, Option.bind_some]; exact h2, h3⟩
      intro s i hn hr
      refine ⟨fun hp => ?_, fun hp hlt => send s i hn hr hp hlt⟩
      by_cases hlt : i < script.length
      · cases hd : delays[i]? with
        | none =>
          have e1 : s.step script delays .loop = some { s with pc := .sending i } := by
            unfold ScriptState.step
            simp only [hp]
            rw [if_pos hlt, hd]
          obtain ⟨bs, s', h1, h2, h3⟩ := send { s with pc := .sending i } i hn hr rfl hlt
          exact ⟨.loop :: bs, s', by simp [h1], by simp only [ScriptState.run, e1, Option.bind_some]; exact h2, h3⟩
        | some d =>
          have e1 : s.step script delays .loop = some { s with pc := .sleeping i (s.now + max 0 d) } := by
            unfold ScriptState.step
            simp only [hp]
            rw [if_pos hlt, hd]
          have e2 : ScriptState.step script delays { s with pc := .sleeping i (s.now + max 0 d) } (.time (max 0 d).toNat) =
              some { s with now := s.now + (max 0 d).toNat, pc := .sleeping i (s.now + max 0 d) } := rfl
          have e3 : ScriptState.step script delays
              { s with now := s.now + (max 0 d).toNat, pc := .sleeping i (s.now + max 0 d) } .wake =
              some { s with now := s.now + (max 0 d).toNat, pc := .sending i } := by
            unfold ScriptState.step
            dsimp only
            rw [if_pos (by have := Int.toNat_of_nonneg (le_max_left 0 d); omega)]
          obtain ⟨bs, s', h1, h2, h3⟩ := send { s with now := s.now + (max 0 d).toNat, pc := .sending i } i hn hr rfl hlt
          exact ⟨.loop :: .time (max 0 d).toNat :: .wake :: bs, s', by simp [h1], by
            simp only [ScriptState.run, e1, Option.bind_some, e2, e3]; exact h2, h3⟩
      · exact (ih s i (by omega) hr).1 hp
  cases hp : s.pc with
  | top i =>
    rw [hp] at ho hsent
    simp only [ScriptPc.sent] at ho hsent
    exact (finish script.length s i (by omega) (by omega)).1 hp
  | sending i =>
    have hlt := hi.strict i (Or.inr hp)
    rw [hp] at ho hsent
    simp only [ScriptPc.sent] at ho hsent
    exact (finish script.length s i (by omega) (by omega)).2 hp hlt
  | sleeping i t =>
    have hlt := hi.strict i (Or.inl ⟨t, hp⟩)
    rw [hp] at ho hsent
    simp only [ScriptPc.sent] at ho hsent
    have e1 : s.step script delays (.time (t - s.now).toNat) = some { s with now := s.now + (t - s.now).toNat } := rfl
    have e2 : ScriptState.step script delays { s with now := s.now + (t - s.now).toNat } .wake =
        some { s with now := s.now + (t - s.now).toNat, pc := .sending i } := by
      unfold ScriptState.step
      simp only [hp]
      rw [if_pos (by omega)]
    obtain ⟨bs, s', h1, h2, h3⟩ := (finish script.length { s with now := s.now + (t - s.now).toNat, pc := .sending i } i (by omega)
      (by dsimp only; omega)).2 rfl hlt
    exact ⟨.time (t - s.now).toNat :: .wake :: bs, s', by simp [h1], by simp only [ScriptState.run, e1, e2, Option.bind_some]; exact h2, h3⟩
  | done => exact ⟨[], s, by simp, rfl, hp⟩

/-- Non-vacuity: a script of two events, the first after five nanoseconds; both are received, the first at time five. -/
example : ∃ s, (ScriptState.init 0).run ["a", "b"] [5] [.loop, .time 5, .wake, .send, .loop, .receive, .send, .loop, .receive] =
    some s ∧ s.got = [("a", 5), ("b", 5)] ∧ s.pc = .done := ⟨_, rfl, rfl, rfl⟩

/-- Non-vacuity of the leak: eleven events, nothing received yet. -/
example : (ScriptState.init 0 : ScriptState Nat).got.length + 10 < (List.replicate 11 0).length := by decide

end Verif
