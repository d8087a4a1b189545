import Mathlib.Algebra.Group.Basic
import Mathlib.Algebra.BigOperators.Group.List.Basic
import Verif.Model.Api

/-!
# Specification of the registry, the timer, memoization and lazy properties
-/

namespace Cfd.Spec

/-- The registry after a history of registrations. -/
def registerAll {C : Type} (h : List (Registration C)) : Registry C := h.foldl register []

/-- `e` is the extension given by the last registration (reader or writer) of the format. -/
def LastExt {C : Type} (h : List (Registration C)) (name : String) (e : Name) : Prop :=
  ∃ pre r post, h = pre ++ r :: post ∧ r.name = name ∧ r.ext = e ∧ ∀ s ∈ post, s.name ≠ name

/-- `c` is the class given by the last registration of a reader (`reader = true`) or of a writer of the
format, `none` when there is none. -/
def LastClass {C : Type} (h : List (Registration C)) (reader : Bool) (name : String) :
    Option C → Prop
  | some c => ∃ pre r post, h = pre ++ r :: post ∧ r.name = name ∧ r.isReader = reader ∧ r.cls = c ∧
      ∀ s ∈ post, ¬ (s.name = name ∧ s.isReader = reader)
  | none => ∀ r ∈ h, ¬ (r.name = name ∧ r.isReader = reader)

/-- What a history of calls means for a timer made with `nelem` elements: the time at which the interval
still open began, the intervals closed since the last completed `stop` or `reset`, and the number of
elements announced last. A `start` of a running timer and a `pause` or a `stop` of an idle one do
nothing (they raise). A `stop` with zero elements closes the interval but does not complete. -/
def timeline {T : Type} (nelem : Option Int) (h : List (TimerOp × T)) :
    Option T × List (T × T) × Option Int :=
  go (none, [], nelem) h
where
  /-- One call after another. -/
  go (s : Option T × List (T × T) × Option Int) :
      List (TimerOp × T) → Option T × List (T × T) × Option Int
    | [] => s
    | (.start, t) :: h => match s.1 with
        | none => go (some t, s.2) h
        | some _ => go s h
    | (.pause, t) :: h => match s.1 with
        | none => go s h
        | some a => go (none, s.2.1 ++ [(a, t)], s.2.2) h
    | (.stop k, t) :: h =>
        let n := if k = none then s.2.2 else k
        match s.1 with
        | none => go (none, s.2.1, n) h
        | some a => go (none, if n = some 0 then s.2.1 ++ [(a, t)] else [], n) h
    | (.reset, _) :: h => go (none, [], s.2.2) h

/-- Total length of intervals. -/
def total {T : Type} [AddCommGroup T] (l : List (T × T)) : T := (l.map fun i => i.2 - i.1).sum

end Cfd.Spec
