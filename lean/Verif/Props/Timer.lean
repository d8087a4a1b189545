import Mathlib.Data.List.Induction
import Mathlib.Algebra.Order.Group.Defs
import Mathlib.Algebra.Order.Group.Int
import Mathlib.Algebra.Order.BigOperators.Group.List
import Mathlib.Tactic.Abel
import Verif.Spec.Api

/-!
# Timer (C39)
-/

namespace Cfd
open Spec

section
variable {T : Type} [AddCommGroup T]

/-- The state of a timer described by a timeline. -/
private def Agrees (x : Timer T) (s : Option T × List (T × T) × Option Int) : Prop :=
  x.start = s.1 ∧ x.elapsed = total s.2.1 ∧ x.nelem = s.2.2

private theorem total_append (l : List (T × T)) (a t : T) : total (l ++ [(a, t)]) = total l + (t - a) := by
  simp [total]

private theorem agrees_go (h : List (TimerOp × T)) (x : Timer T) (s : Option T × List (T × T) × Option Int)
    (hs : Agrees x s) : Agrees (x.after h) (timeline.go s h) := by
  induction h generalizing x s with
  | nil => exact hs
  | cons c h ih =>
      obtain ⟨op, t⟩ := c
      obtain ⟨xs, xe, xn⟩ := x
      obtain ⟨so, sl, sn⟩ := s
      obtain ⟨h1, h2, h3⟩ := hs
      simp only at h1 h2 h3
      subst h1 h2 h3
      unfold Timer.after
      rw [List.foldl_cons]
      change Agrees (Timer.after _ h) _
      cases op with
      | start =>
          cases xs with
          | none => exact ih _ _ ⟨rfl, rfl, rfl⟩
          | some a => exact ih _ _ ⟨rfl, rfl, rfl⟩
      | pause =>
          cases xs with
          | none => exact ih _ _ ⟨rfl, rfl, rfl⟩
          | some a => exact ih _ _ ⟨rfl, (total_append _ _ _).symm, rfl⟩
      | reset => exact ih _ _ ⟨rfl, by simp [Timer.call, Timer.doReset, total], rfl⟩
      | stop k =>
          cases xs with
          | none =>
              cases k with
              | none => exact ih _ _ ⟨rfl, rfl, rfl⟩
              | some k => exact ih _ _ ⟨rfl, rfl, rfl⟩
          | some a =>
              cases k with
              | none =>
                  by_cases hn : xn = some 0
                  · subst hn
                    exact ih _ _ ⟨rfl, (total_append _ _ _).symm, rfl⟩
                  · simp only [timeline.go, Timer.call, Timer.doStop, Timer.doPause, if_true, if_neg hn]
                    exact ih _ _ ⟨rfl, by simp [Timer.doReset, total], rfl⟩
              | some k =>
                  by_cases hn : k = 0
                  · subst hn
                    exact ih _ _ ⟨rfl, (total_append _ _ _).symm, rfl⟩
                  · simp only [timeline.go, Timer.call, Timer.doStop, Timer.doPause, Option.some.injEq,
                      reduceCtorEq, if_false, if_neg hn]
                    exact ih _ _ ⟨rfl, by simp [Timer.doReset, total], rfl⟩

private theorem agrees (n : Option Int) (h : List (TimerOp × T)) :
    Agrees ((Timer.new n).after h) (timeline n h) :=
  agrees_go h _ _ ⟨rfl, by simp [Timer.new, total], rfl⟩

/-- **C39** (elapsed time). After any history of calls, raising or not, the elapsed time is the total
length of the intervals closed since the last completed `stop` or `reset`, and the timer is running
exactly when an interval is open. -/
theorem C39_elapsed (n : Option Int) (h : List (TimerOp × T)) :
    ((Timer.new n).after h).elapsed = total (timeline n h).2.1 ∧
    ((Timer.new n).after h).start = (timeline n h).1 :=
  ⟨(agrees n h).2.1, (agrees n h).1⟩

example : timeline (T := Int) none [(.start, 1), (.pause, 4), (.start, 6), (.start, 7), (.pause, 9),
    (.pause, 10), (.start, 20)] = (some 20, [(1, 4), (6, 9)], none) := by decide

/-- **C39** (exceptions). After any history, `start` raises exactly when the timer is running, `pause`
exactly when it is not. A raising `start` or `pause` changes nothing. -/
theorem C39_start_pause_raise (n : Option Int) (h : List (TimerOp × T)) (t : T) :
    let x := (Timer.new n).after h
    (x.call .start t = (.error .timer, x) ↔ (timeline n h).1 ≠ none) ∧
    ((x.call .start t).1 = .ok none ↔ (timeline n h).1 = none) ∧
    (x.call .pause t = (.error .timer, x) ↔ (timeline n h).1 = none) ∧
    ((x.call .pause t).1 = .ok none ↔ (timeline n h).1 ≠ none) := by
  intro x
  have hx : x.start = (timeline n h).1 := (agrees n h).1
  rw [← hx]
  simp only [Timer.call, Timer.doStart, Timer.doPause]
  cases x.start <;> simp [Except.map]

/-- **C39** (report). After any history, `stop` raises TimerError exactly when the timer is not running;
otherwise, unless the number of elements is zero, it reports the total length of the intervals closed
since the last completed `stop` or `reset`, including the one it closes, and leaves a reset timer. -/
theorem C39_stop (n : Option Int) (h : List (TimerOp × T)) (k : Option Int) (t : T) :
    let x := (Timer.new n).after h
    ((timeline n h).1 = none → (x.call (.stop k) t).1 = .error .timer) ∧
    (∀ a, (timeline n h).1 = some a → (if k = none then (timeline n h).2.2 else k) ≠ some 0 →
      (x.call (.stop k) t).1 = .ok (some (total ((timeline n h).2.1 ++ [(a, t)]))) ∧
      (x.call (.stop k) t).2.start = none ∧ (x.call (.stop k) t).2.elapsed = 0) := by
  intro x
  have hx := agrees n h
  change Agrees x _ at hx
  obtain ⟨h1, h2, h3⟩ := hx
  refine ⟨fun hr => ?_, fun a ha hk => ?_⟩
  · rw [hr] at h1
    cases k <;> simp [Timer.call, Timer.doStop, Timer.doPause, h1, Except.map]
  · rw [ha] at h1
    rw [total_append, ← h2]
    cases k with
    | none =>
        simp only [if_true] at hk
        rw [← h3] at hk
        simp [Timer.call, Timer.doStop, Timer.doPause, h1, hk, Except.map, Timer.doReset]
    | some k =>
        simp only [reduceCtorEq, if_false, ne_eq, Option.some.injEq] at hk
        simp [Timer.call, Timer.doStop, Timer.doPause, h1, hk, Except.map, Timer.doReset]

example : ((Timer.new (T := Int)).after [(.start, 1), (.pause, 4), (.start, 6)]).call (.stop (some 5)) 10 =
    (.ok (some 7), ⟨none, 0, some 5⟩) := by decide

/-- **C39** fails for zero elements: a running timer raises ZeroDivisionError when it is stopped with
`nelem=0`; the interval is closed but the timer is not reset, so that it is counted again in the next
report. -/
theorem C39_zero_elements_refuted :
    let x := ((Timer.new (T := Int)).after [(.start, 1)]).call (.stop (some 0)) 3
    x.1 = .error .zeroDiv ∧ x.2.elapsed = 2 ∧
    ((x.2.after [(.start, 10)]).call (.stop (some 1)) 11).1 = .ok (some 3) := by decide

/-- **C39** (with-block). Once a with-block is entered, the timer is not running when the block is left,
whatever the body does with the timer and whether it raises or not; the exception of the body goes on. -/
theorem C39_with_block (x : Timer T) (t0 t1 : T) (body : List (TimerOp × T)) (outcome : Py Unit) :
    (x.start = none → (x.withBlock t0 body outcome t1).2.start = none) ∧
    (x.start ≠ none → x.withBlock t0 body outcome t1 = (.error .timer, x)) ∧
    (x.start = none → x.nelem ≠ some 0 → body = [] →
      x.withBlock t0 body outcome t1 = (outcome, x.doReset)) := by
  have stopNone : ∀ y : Timer T, (y.doStop none t1).2.start = none := by
    intro y
    obtain ⟨s, e, m⟩ := y
    cases s with
    | none => simp [Timer.doStop, Timer.doPause]
    | some a =>
        simp only [Timer.doStop, Timer.doPause]
        split <;> simp [Timer.doReset]
  refine ⟨fun hx => ?_, fun hx => ?_, fun hx hn hb => ?_⟩
  · simp only [Timer.withBlock, Timer.doStart, hx]
    have := stopNone (({ x with start := some t0 } : Timer T).after body)
    split <;> rename_i heq <;> rw [heq] at this <;> exact this
  · cases hs : x.start with
    | none => exact absurd hs hx
    | some a => simp [Timer.withBlock, Timer.doStart, hs]
  · subst hb
    simp [Timer.withBlock, Timer.doStart, hx, Timer.after, Timer.doStop, Timer.doPause, hn,
      Timer.doReset]

example : (Timer.new (T := Int)).withBlock 2 [(.pause, 5), (.start, 8)] (.error .value) 9 =
    (.error .value, Timer.new) := by decide

/-- **C39** (successive intervals). Any number of `start`/`pause` pairs, then `start` and `stop`: the time
reported is the sum of the lengths. -/
theorem C39_sum_of_intervals (l : List (T × T)) (a b : T) :
    let h := l.flatMap fun i => [(TimerOp.start, i.1), (TimerOp.pause, i.2)]
    (((Timer.new (T := T)).after (h ++ [(.start, a)])).call (.stop none) b).1 =
      .ok (some ((l.map fun i => i.2 - i.1).sum + (b - a))) := by
  intro h
  have key : ∀ (l : List (T × T)) (s : List (T × T)),
      timeline.go (none, s, none) ((l.flatMap fun i => [(TimerOp.start, i.1), (TimerOp.pause, i.2)]) ++
        [(.start, a)]) = (some a, s ++ l, none) := by
    intro l
    induction l with
    | nil => intro s; simp [timeline.go]
    | cons i t ih =>
        intro s
        simp only [List.flatMap_cons, List.cons_append, List.nil_append, timeline.go]
        rw [ih]
        simp
  have hk : timeline none (h ++ [(.start, a)]) = (some a, l, none) := by
    have := key l []
    simpa [timeline, h] using this
  have := (C39_stop none (h ++ [(.start, a)]) none b).2 a (by rw [hk]) (by rw [hk]; simp)
  rw [this.1, hk, total_append]
  rfl

end

/-- **C39** (sign). With a clock that never goes backwards, the elapsed time is never negative, after any
history. -/
theorem C39_nonneg {T : Type} [AddCommGroup T] [LinearOrder T] [IsOrderedAddMonoid T] (n : Option Int)
    (h : List (TimerOp × T)) (mono : (h.map (·.2)).Pairwise (· ≤ ·)) :
    0 ≤ ((Timer.new n).after h).elapsed := by
  rw [(C39_elapsed n h).1]
  have key : ∀ (h : List (TimerOp × T)) (s : Option T × List (T × T) × Option Int),
      (h.map (·.2)).Pairwise (· ≤ ·) → (∀ a, s.1 = some a → ∀ c ∈ h, a ≤ c.2) →
      (∀ i ∈ s.2.1, i.1 ≤ i.2) → ∀ i ∈ (timeline.go s h).2.1, i.1 ≤ i.2 := by
    intro h
    induction h with
    | nil => intro s _ _ hs; exact hs
    | cons c h ih =>
        obtain ⟨op, t⟩ := c
        rintro ⟨so, sl, sn⟩ hm ho hs
        simp only [List.map_cons, List.pairwise_cons, List.mem_map, forall_exists_index, and_imp,
          forall_apply_eq_imp_iff₂] at hm
        simp only at ho hs
        have ho' : ∀ a, so = some a → ∀ c ∈ h, a ≤ c.2 :=
          fun a ha c hc => ho a ha c (List.mem_cons_of_mem _ hc)
        cases op with
        | start =>
            cases so with
            | none => exact ih _ hm.2 (fun a ha c hc => by simp at ha; rw [← ha]; exact hm.1 c hc) hs
            | some a => exact ih _ hm.2 ho' hs
        | pause =>
            cases so with
            | none => exact ih _ hm.2 ho' hs
            | some a =>
                refine ih _ hm.2 (by simp) (fun i hi => ?_)
                rcases List.mem_append.1 hi with hi | hi
                · exact hs i hi
                · simp only [List.mem_singleton] at hi
                  subst hi
                  exact ho a rfl (TimerOp.pause, t) (by simp)
        | reset => exact ih _ hm.2 (by simp) (by simp)
        | stop k =>
            cases so with
            | none => exact ih _ hm.2 (by simp) hs
            | some a =>
                simp only [timeline.go]
                refine ih _ hm.2 (by simp) (fun i hi => ?_)
                have hat : a ≤ t := ho a rfl (TimerOp.stop k, t) (by simp)
                simp only at hi
                generalize (if k = none then sn else k) = m at hi
                by_cases hk : m = some 0
                · rw [if_pos hk] at hi
                  rcases List.mem_append.1 hi with hi | hi
                  · exact hs i hi
                  · simp only [List.mem_singleton] at hi
                    subst hi
                    exact hat
                · rw [if_neg hk] at hi; simp at hi
  refine List.sum_nonneg fun x hx => ?_
  obtain ⟨i, hi, rfl⟩ := List.mem_map.1 hx
  exact sub_nonneg.2 (key h (none, [], n) mono (by simp) (by simp) i hi)

example := C39_nonneg none [(TimerOp.start, (1 : Int)), (.pause, 4), (.pause, 4), (.start, 6)] (by decide)

example : ([(TimerOp.start, (1 : Int)), (.pause, 4), (.pause, 4), (.start, 6)].map (·.2)).Pairwise
    (· ≤ ·) := by decide

end Cfd
