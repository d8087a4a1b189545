import Verif.Lemmas.Basic
import Verif.Spec.Api

/-!
# Memoization and lazy properties (C40, C58)
-/

namespace Cfd
open Spec

section
variable {σ A K B : Type} [DecidableEq K]

/-- The cache only grows, and a value never changes. -/
theorem memo_call_mono (key : A → Option K) (f : σ → A → Py B × σ) (w : σ) (m : Memo K B) (a : A)
    (k : K) (b : B) (h : m.cache.get? k = some b) :
    (m.call key f w a).2.2.cache.get? k = some b := by
  unfold Memo.call
  cases hk : key a with
  | none => exact h
  | some k' =>
      simp only
      cases hg : m.cache.get? k' with
      | some b' => exact h
      | none =>
          simp only
          rcases hf : f w a with ⟨r, w'⟩
          cases r with
          | error e => exact h
          | ok b' =>
              have : k ≠ k' := fun e => by rw [e, hg] at h; simp at h
              simp only [Dict.get?_set_ne _ _ this]
              exact h

theorem memo_call_value (key : A → Option K) (f : σ → A → Py B × σ) (w : σ) (m : Memo K B) (a : A)
    (k : K) (b : B) (hk : key a = some k) (h : (m.call key f w a).1 = .ok b) :
    (m.call key f w a).2.2.cache.get? k = some b := by
  unfold Memo.call at h ⊢
  rw [hk] at h ⊢
  simp only at h ⊢
  cases hg : m.cache.get? k with
  | some b' => rw [hg] at h; simp only [Except.ok.injEq] at h; rw [← h]; exact hg
  | none =>
      rw [hg] at h
      simp only at h ⊢
      rcases hf : f w a with ⟨r, w'⟩
      rw [hf] at h
      cases r with
      | error e => simp at h
      | ok b' =>
          simp only [Except.ok.injEq] at h
          rw [← h]
          exact Dict.get?_set_self _ _ _

theorem memo_run_cached (key : A → Option K) (f : σ → A → Py B × σ) (l : List A) (w : σ) (m : Memo K B)
    (k : K) (b : B) (h : m.cache.get? k = some b) (i : Nat) (a : A) (hi : l[i]? = some a)
    (hk : key a = some k) : (Memo.run key f w m l).1[i]? = some (.ok b) := by
  induction l generalizing w m i with
  | nil => simp at hi
  | cons x t ih =>
      cases i with
      | zero =>
          simp only [List.getElem?_cons_zero, Option.some.injEq] at hi
          subst hi
          simp [Memo.run, Memo.call, hk, h]
      | succ j =>
          simp only [List.getElem?_cons_succ] at hi
          simp only [Memo.run, List.getElem?_cons_succ]
          exact ih _ _ (memo_call_mono key f w m x k b h) j hi

/-- **C40** (first value). In any sequence of calls of a memoized function, even one that reads and
changes a state: once a call has returned a value, all later calls with equal arguments return this
value. -/
theorem C40_first_value (key : A → Option K) (f : σ → A → Py B × σ) (w : σ) (m : Memo K B) (l : List A)
    (i j : Nat) (hij : i ≤ j) (a a' : A) (k : K) (b : B) (hi : l[i]? = some a) (hj : l[j]? = some a')
    (ha : key a = some k) (ha' : key a' = some k) (h : (Memo.run key f w m l).1[i]? = some (.ok b)) :
    (Memo.run key f w m l).1[j]? = some (.ok b) := by
  induction l generalizing w m i j with
  | nil => simp at hi
  | cons x t ih =>
      cases i with
      | succ i' =>
          obtain ⟨j', rfl⟩ : ∃ j', j = j' + 1 := ⟨j - 1, by omega⟩
          simp only [List.getElem?_cons_succ] at hi hj
          simp only [Memo.run, List.getElem?_cons_succ] at h ⊢
          exact ih _ _ i' j' (by omega) hi hj h
      | zero =>
          simp only [List.getElem?_cons_zero, Option.some.injEq] at hi
          subst hi
          simp only [Memo.run, List.getElem?_cons_zero, Option.some.injEq] at h
          cases j with
          | zero => simp [Memo.run, h]
          | succ j' =>
              simp only [List.getElem?_cons_succ] at hj
              simp only [Memo.run, List.getElem?_cons_succ]
              exact memo_run_cached key f t _ _ k b (memo_call_value key f w m x k b ha h) j' a' hj ha'

/-- What the caller of the plain function sees: TypeError for unhashable arguments. -/
def plain (key : A → Option K) (g : A → Py B) (a : A) : Py B :=
  if (key a).isSome then g a else .error .type

/-- **C40** (transparency). When the function depends on its arguments only, and gives the same result
for arguments that Python considers equal, the memoized function returns in every sequence of calls what
the function returns (or raises) for these arguments. -/
theorem C40_transparent (key : A → Option K) (g : A → Py B)
    (hg : ∀ a a', key a ≠ none → key a = key a' → g a = g a') (l : List A) :
    (Memo.run key (fun (_ : Unit) a => (g a, ())) () Memo.empty l).1 = l.map (plain key g) := by
  have key' : ∀ (l : List A) (m : Memo K B),
      (∀ k b, m.cache.get? k = some b → ∀ a, key a = some k → g a = .ok b) →
      (Memo.run key (fun (_ : Unit) a => (g a, ())) () m l).1 = l.map (plain key g) := by
    intro l
    induction l with
    | nil => intro m _; rfl
    | cons a t ih =>
        intro m hm
        simp only [Memo.run, List.map_cons]
        refine congrArg₂ List.cons ?_ ?_
        · unfold Memo.call plain
          cases hk : key a with
          | none => simp
          | some k =>
              simp only [Option.isSome_some, if_true]
              cases hc : m.cache.get? k with
              | some b => exact (hm k b hc a hk).symm
              | none =>
                  simp only
                  cases hga : g a <;> rfl
        · apply ih
          intro k b hkb a' ha'
          unfold Memo.call at hkb
          cases hk : key a with
          | none => rw [hk] at hkb; exact hm k b hkb a' ha'
          | some k' =>
              rw [hk] at hkb
              simp only at hkb
              cases hc : m.cache.get? k' with
              | some b' => rw [hc] at hkb; exact hm k b hkb a' ha'
              | none =>
                  rw [hc] at hkb
                  simp only at hkb
                  cases hga : g a with
                  | error e => rw [hga] at hkb; exact hm k b hkb a' ha'
                  | ok b' =>
                      rw [hga] at hkb
                      simp only at hkb
                      by_cases hkk : k = k'
                      · subst hkk
                        rw [Dict.get?_set_self] at hkb
                        simp only [Option.some.injEq] at hkb
                        subst hkb
                        rw [← hga]
                        exact hg a' a (by rw [ha']; simp) (by rw [ha', hk])
                      · rw [Dict.get?_set_ne _ _ hkk] at hkb
                        exact hm k b hkb a' ha'
  exact key' l Memo.empty (by intro k b h; simp [Memo.empty, Dict.get?] at h)

/-- The function raises for 0 and its argument 7 is unhashable. -/
private def inv (n : Nat) : Py Nat := if n = 0 then .error .zeroDiv else .ok (100 / n)
private def hashable (n : Nat) : Option Nat := if n = 7 then none else some n

/-- Cases of the theorems of C40. -/
example := C40_first_value hashable (fun (w : Nat) (a : Nat) => (inv (a + w), w + 1)) 0 Memo.empty [5, 0, 5, 2] 0 2
  (by decide) 5 5 5 20 (by decide) (by decide) (by decide) (by decide) (by decide)

example : (Memo.run hashable (fun (_ : Unit) a => (inv a, ())) () Memo.empty [5, 0, 7, 5, 0, 2]) =
    ([.ok 20, .error .zeroDiv, .error .type, .ok 20, .error .zeroDiv, .ok 50], (),
     ⟨[(5, 20), (2, 50)], 1, 4⟩) := by decide

example : ∀ a a', hashable a ≠ none → hashable a = hashable a' → inv a = inv a' := by
  intro a a' h1 h2
  unfold hashable at h1 h2
  split at h1
  · simp at h1
  · split at h2 <;> simp_all

/-- Arguments `1` and `True`, which are equal in Python. -/
inductive OneOrTrue where
  | one | true
  deriving DecidableEq, Repr

/-- **C40** fails for functions that distinguish equal arguments: `f(1)`, then `f(True)` (or `f(1.0)`)
returns the value of `f(1)`. -/
theorem C40_equal_arguments_refuted :
    ∃ (key : OneOrTrue → Option Nat) (g : OneOrTrue → Py Nat) (l : List OneOrTrue),
      key .one = key .true ∧
      (Memo.run key (fun (_ : Unit) a => (g a, ())) () Memo.empty l).1 ≠ l.map (plain key g) :=
  ⟨fun _ => some 1, fun a => if a = .one then .ok 10 else .ok 20, [.one, .true], by decide⟩

/-- The function `g` which also records the arguments it is evaluated for. -/
def logged (g : A → Py B) (log : List A) (a : A) : Py B × List A := (g a, log ++ [a])

/-- Successful evaluations recorded for the arguments equal to `k`. -/
def successes (key : A → Option K) (g : A → Py B) (log : List A) (k : K) : List A :=
  log.filter fun a => decide (key a = some k) && (g a).isOk

theorem memo_inv (key : A → Option K) (g : A → Py B) (l : List A) :
    let r := Memo.run key (logged g) [] Memo.empty l
    (∀ k, (successes key g r.2.1 k).length = if k ∈ r.2.2.cache.keys then 1 else 0) ∧
    r.2.2.cache.keys.Nodup ∧
    r.2.2.hits + r.2.2.misses = (l.filter fun a => (key a).isSome).length ∧
    r.2.1.length = r.2.2.misses := by
  have key' : ∀ (l : List A) (log : List A) (m : Memo K B),
      (∀ k, (successes key g log k).length = if k ∈ m.cache.keys then 1 else 0) →
      m.cache.keys.Nodup → log.length = m.misses →
      let r := Memo.run key (logged g) log m l
      (∀ k, (successes key g r.2.1 k).length = if k ∈ r.2.2.cache.keys then 1 else 0) ∧
      r.2.2.cache.keys.Nodup ∧
      r.2.2.hits + r.2.2.misses = m.hits + m.misses + (l.filter fun a => (key a).isSome).length ∧
      r.2.1.length = r.2.2.misses := by
    intro l
    induction l with
    | nil => intro log m h1 h2 h3; exact ⟨h1, h2, rfl, h3⟩
    | cons a t ih =>
        intro log m h1 h2 h3
        simp only [Memo.run]
        cases hk : key a with
        | none =>
            have e : m.call key (logged g) log a = (.error .type, log, m) := by simp [Memo.call, hk]
            simp only [e, List.filter, hk, Option.isSome_none]
            exact ih log m h1 h2 h3
        | some k =>
            simp only [List.filter, hk, Option.isSome_some, List.length_cons]
            cases hc : m.cache.get? k with
            | some b =>
                have e : m.call key (logged g) log a = (.ok b, log, { m with hits := m.hits + 1 }) := by
                  simp [Memo.call, hk, hc]
                simp only [e]
                obtain ⟨i1, i2, i3, i4⟩ := ih log { m with hits := m.hits + 1 } h1 h2 h3
                exact ⟨i1, i2, by rw [i3]; simp only; omega, i4⟩
            | none =>
                have hnk : k ∉ m.cache.keys := fun h => by
                  obtain ⟨v, hv⟩ := Dict.mem_keys_iff.1 h
                  rw [hc] at hv
                  simp at hv
                cases hga : g a with
                | error x =>
                    have e : m.call key (logged g) log a =
                        (.error x, log ++ [a], { m with misses := m.misses + 1 }) := by
                      simp [Memo.call, hk, hc, logged, hga]
                    simp only [e]
                    obtain ⟨i1, i2, i3, i4⟩ := ih (log ++ [a]) { m with misses := m.misses + 1 }
                      (fun k' => by
                        rw [← h1 k']
                        simp [successes, List.filter_append, List.filter_cons, hga, Except.isOk, Except.toBool])
                      h2 (by simp [h3])
                    exact ⟨i1, i2, by rw [i3]; simp only; omega, i4⟩
                | ok b =>
                    have e : m.call key (logged g) log a =
                        (.ok b, log ++ [a], { m with misses := m.misses + 1, cache := m.cache.set k b }) := by
                      simp [Memo.call, hk, hc, logged, hga]
                    simp only [e]
                    obtain ⟨i1, i2, i3, i4⟩ := ih (log ++ [a])
                      { m with misses := m.misses + 1, cache := m.cache.set k b }
                      (fun k' => by
                        have e := h1 k'
                        simp only [successes, List.filter_append, List.length_append] at e ⊢
                        rw [e]
                        by_cases hkk : k' = k
                        · subst hkk
                          have hks : k' ∈ (m.cache.set k' b).keys :=
                            Dict.mem_keys_iff.2 ⟨b, Dict.get?_set_self _ _ _⟩
                          simp [hnk, hk, hga, Except.isOk, Except.toBool, hks]
                        · have : ¬ k = k' := fun h => hkk h.symm
                          have hks : (k' ∈ (m.cache.set k b).keys) ↔ k' ∈ m.cache.keys := by
                            rw [Dict.mem_keys_iff, Dict.mem_keys_iff, Dict.get?_set_ne _ _ hkk]
                          simp [hk, hks, this])
                      (Dict.nodup_keys_set h2 _ _) (by simp [h3])
                    exact ⟨i1, i2, by rw [i3]; simp only; omega, i4⟩
  have := key' l [] Memo.empty (by intro k; simp [successes, Memo.empty, Dict.keys])
    (by simp [Memo.empty, Dict.keys]) rfl
  simpa [Memo.empty] using this

/-- **C40** (evaluations and statistics). In every sequence of calls, the function is evaluated
successfully at most once for equal arguments, `hits + misses` is the number of calls with hashable
arguments, `misses` is the number of evaluations, and `currsize` is the number of classes of equal
arguments evaluated successfully. -/
theorem C40_evaluations (key : A → Option K) (g : A → Py B) (l : List A) :
    let r := Memo.run key (logged g) [] Memo.empty l
    (∀ k, (successes key g r.2.1 k).length ≤ 1) ∧
    r.2.2.hits + r.2.2.misses = (l.filter fun a => (key a).isSome).length ∧
    r.2.2.misses = r.2.1.length ∧
    ∃ ks : List K, ks.Nodup ∧ ks.length = r.2.2.currsize ∧
      ∀ k, k ∈ ks ↔ ∃ a ∈ r.2.1, key a = some k ∧ ∃ b, g a = .ok b := by
  intro r
  obtain ⟨h1, h2, h3, h4⟩ := memo_inv key g l
  refine ⟨fun k => ?_, h3, h4.symm, r.2.2.cache.keys, h2, by simp [Memo.currsize, Dict.keys], fun k => ?_⟩
  · rw [h1 k]; split <;> omega
  · have hk := h1 k
    constructor
    · intro hm
      rw [if_pos hm] at hk
      obtain ⟨a, ha⟩ := List.exists_mem_of_length_pos (by rw [hk]; decide : 0 < (successes key g _ k).length)
      simp only [successes, List.mem_filter, Bool.and_eq_true, decide_eq_true_eq] at ha
      refine ⟨a, ha.1, ha.2.1, ?_⟩
      cases hga : g a with
      | ok b => exact ⟨b, rfl⟩
      | error e => have := ha.2.2; rw [hga] at this; simp [Except.isOk, Except.toBool] at this
    · rintro ⟨a, ha, hka, b, hb⟩
      by_contra hno
      rw [if_neg hno] at hk
      have : a ∈ successes key g _ k := List.mem_filter.2 ⟨ha, by simp [hka, hb, Except.isOk, Except.toBool]⟩
      rw [List.length_eq_zero_iff.1 hk] at this
      simp at this

end

/-! ## C58 -/

section
variable {σ Obj V : Type} [DecidableEq Obj]

theorem lazy_mono (fn : String → σ → Obj → Py V × σ) (w : σ) (h : Heap Obj V) (o : Obj) (n : String)
    (q : Obj × String) (v : V) (hq : h.get? q = some v) :
    (lazyAccess fn w h o n).2.2.get? q = some v := by
  unfold lazyAccess
  simp only
  cases hg : h.get? (o, "_cache_" ++ n) with
  | some v' => exact hq
  | none =>
      simp only
      rcases hf : fn n w o with ⟨r, w'⟩
      cases r with
      | error e => exact hq
      | ok v' =>
          have : q ≠ (o, "_cache_" ++ n) := fun e => by rw [e, hg] at hq; simp at hq
          simp only [Dict.get?_set_ne _ _ this]
          exact hq

theorem lazy_value (fn : String → σ → Obj → Py V × σ) (w : σ) (h : Heap Obj V) (o : Obj) (n : String)
    (v : V) (hv : (lazyAccess fn w h o n).1 = .ok v) :
    (lazyAccess fn w h o n).2.2.get? (o, "_cache_" ++ n) = some v := by
  unfold lazyAccess at hv ⊢
  simp only at hv ⊢
  cases hg : h.get? (o, "_cache_" ++ n) with
  | some v' => rw [hg] at hv; simp only [Except.ok.injEq] at hv; rw [← hv]; exact hg
  | none =>
      rw [hg] at hv
      simp only at hv ⊢
      rcases hf : fn n w o with ⟨r, w'⟩
      rw [hf] at hv
      cases r with
      | error e => simp at hv
      | ok v' =>
          simp only [Except.ok.injEq] at hv
          rw [← hv]
          exact Dict.get?_set_self _ _ _

theorem lazyRun_cached (fn : String → σ → Obj → Py V × σ) (l : List (Obj × String)) (w : σ)
    (h : Heap Obj V) (o : Obj) (n : String) (v : V) (hq : h.get? (o, "_cache_" ++ n) = some v) (i : Nat)
    (hi : l[i]? = some (o, n)) : (lazyRun fn w h l).1[i]? = some (.ok v) := by
  induction l generalizing w h i with
  | nil => simp at hi
  | cons x t ih =>
      cases i with
      | zero =>
          simp only [List.getElem?_cons_zero, Option.some.injEq] at hi
          subst hi
          simp [lazyRun, lazyAccess, hq]
      | succ j =>
          simp only [List.getElem?_cons_succ] at hi
          simp only [lazyRun, List.getElem?_cons_succ]
          exact ih _ _ (lazy_mono fn w h x.1 x.2 _ v hq) j hi

/-- **C58** (first value). In any sequence of accesses to lazy properties of several objects, once an
access to a property of an object has returned a value, all later accesses to this property of this
object return this value, even if the object has changed in the meantime. -/
theorem C58_first_value (fn : String → σ → Obj → Py V × σ) (w : σ) (h : Heap Obj V)
    (l : List (Obj × String)) (i j : Nat) (hij : i ≤ j) (o : Obj) (n : String) (v : V)
    (hi : l[i]? = some (o, n)) (hj : l[j]? = some (o, n))
    (hv : (lazyRun fn w h l).1[i]? = some (.ok v)) : (lazyRun fn w h l).1[j]? = some (.ok v) := by
  induction l generalizing w h i j with
  | nil => simp at hi
  | cons x t ih =>
      cases i with
      | succ i' =>
          obtain ⟨j', rfl⟩ : ∃ j', j = j' + 1 := ⟨j - 1, by omega⟩
          simp only [List.getElem?_cons_succ] at hi hj
          simp only [lazyRun, List.getElem?_cons_succ] at hv ⊢
          exact ih _ _ i' j' (by omega) hi hj hv
      | zero =>
          simp only [List.getElem?_cons_zero, Option.some.injEq] at hi
          subst hi
          simp only [lazyRun, List.getElem?_cons_zero, Option.some.injEq] at hv
          cases j with
          | zero => simp [lazyRun, hv]
          | succ j' =>
              simp only [List.getElem?_cons_succ] at hj
              simp only [lazyRun, List.getElem?_cons_succ]
              exact lazyRun_cached fn t _ _ o n v (lazy_value fn w h o n v hv) j' hj

/-- The values depend on a counter of evaluations: 10, then 11, ...; the property `b` raises at its first
evaluation. -/
private def counterFn (n : String) (w : Nat) (_ : Nat) : Py Nat × Nat :=
  (if n = "b" ∧ w = 1 then .error .value else .ok (10 + w), w + 1)

example := C58_first_value counterFn 0 [] [(1, "a"), (1, "b"), (2, "a"), (1, "a")] 0 3 (by decide) 1 "a" 10 (by decide)
  (by decide) (by decide)

example : (lazyRun counterFn 0 [] [(1, "a"), (1, "b"), (2, "a"), (1, "a"), (1, "b"), (2, "a")]).1 =
    [.ok 10, .error .value, .ok 12, .ok 10, .ok 13, .ok 12] := by decide

/-- **C58** (no sharing). When the values depend on the object and the property only, every access
returns (or raises) what the property of this object gives: values are shared neither by objects nor by
properties. -/
theorem C58_not_shared (g : String → Obj → Py V) (l : List (Obj × String)) :
    (lazyRun (fun n (_ : Unit) o => (g n o, ())) () [] l).1 = l.map fun a => g a.2 a.1 := by
  have key' : ∀ (l : List (Obj × String)) (h : Heap Obj V),
      (∀ o n v, h.get? (o, "_cache_" ++ n) = some v → g n o = .ok v) →
      (lazyRun (fun n (_ : Unit) o => (g n o, ())) () h l).1 = l.map fun a => g a.2 a.1 := by
    intro l
    induction l with
    | nil => intro h _; rfl
    | cons a t ih =>
        intro h hh
        simp only [lazyRun, List.map_cons]
        refine congrArg₂ List.cons ?_ ?_
        · unfold lazyAccess
          simp only
          cases hc : h.get? (a.1, "_cache_" ++ a.2) with
          | some v => exact (hh _ _ v hc).symm
          | none =>
              simp only
              cases hga : g a.2 a.1 <;> rfl
        · apply ih
          intro o n v hv
          unfold lazyAccess at hv
          simp only at hv
          cases hc : h.get? (a.1, "_cache_" ++ a.2) with
          | some v' => rw [hc] at hv; exact hh o n v hv
          | none =>
              rw [hc] at hv
              simp only at hv
              cases hga : g a.2 a.1 with
              | error e => rw [hga] at hv; exact hh o n v hv
              | ok v' =>
                  rw [hga] at hv
                  simp only at hv
                  by_cases he : (o, "_cache_" ++ n) = (a.1, "_cache_" ++ a.2)
                  · rw [he, Dict.get?_set_self] at hv
                    simp only [Option.some.injEq] at hv
                    subst hv
                    simp only [Prod.mk.injEq] at he
                    have hn : n = a.2 := by
                      have h2 := congrArg String.toList he.2
                      simp only [String.toList_append] at h2
                      exact String.toList_inj.1 (List.append_cancel_left h2)
                    rw [he.1, hn, hga]
                  · rw [Dict.get?_set_ne _ _ he] at hv
                    exact hh o n v hv
  exact key' l [] (by intro o n v h; simp [Dict.get?] at h)

/-- The property which also records its evaluations. -/
def loggedProp (g : String → Obj → Py V) (n : String) (log : List (Obj × String)) (o : Obj) :
    Py V × List (Obj × String) := (g n o, log ++ [(o, n)])

/-- **C58** (once). In any sequence of accesses, a property is evaluated successfully at most once per
object. -/
theorem C58_evaluated_once (g : String → Obj → Py V) (l : List (Obj × String)) (o : Obj) (n : String)
    (v : V) (hv : g n o = .ok v) : (lazyRun (loggedProp g) [] [] l).2.1.count (o, n) ≤ 1 := by
  have key' : ∀ (l log : List (Obj × String)) (h : Heap Obj V),
      (log.count (o, n) = if (h.get? (o, "_cache_" ++ n)).isSome then 1 else 0) →
      (lazyRun (loggedProp g) log h l).2.1.count (o, n) ≤ 1 := by
    intro l
    induction l with
    | nil => intro log h hh; simp only [lazyRun]; rw [hh]; split <;> omega
    | cons a t ih =>
        intro log h hh
        simp only [lazyRun]
        cases hc : h.get? (a.1, "_cache_" ++ a.2) with
        | some v' =>
            have e : lazyAccess (loggedProp g) log h a.1 a.2 = (.ok v', log, h) := by
              simp [lazyAccess, hc]
            simp only [e]
            exact ih log h hh
        | none =>
            by_cases ha : a = (o, n)
            · subst ha
              have e : lazyAccess (loggedProp g) log h o n =
                  (.ok v, log ++ [(o, n)], h.set (o, "_cache_" ++ n) v) := by
                simp [lazyAccess, hc, loggedProp, hv]
              simp only [e]
              apply ih
              rw [Dict.get?_set_self, List.count_append, hh, hc]
              simp
            · have hcount : (log ++ [(a.1, a.2)]).count (o, n) = log.count (o, n) := by
                rw [List.count_append, List.count_singleton]
                have : ¬ ((a.1, a.2) = (o, n)) := ha
                simp [this]
              cases hga : g a.2 a.1 with
              | error x =>
                  have e : lazyAccess (loggedProp g) log h a.1 a.2 = (.error x, log ++ [(a.1, a.2)], h) := by
                    simp [lazyAccess, hc, loggedProp, hga]
                  simp only [e]
                  exact ih _ h (by rw [hcount]; exact hh)
              | ok v' =>
                  have e : lazyAccess (loggedProp g) log h a.1 a.2 =
                      (.ok v', log ++ [(a.1, a.2)], h.set (a.1, "_cache_" ++ a.2) v') := by
                    simp [lazyAccess, hc, loggedProp, hga]
                  simp only [e]
                  apply ih
                  rw [hcount, hh, Dict.get?_set_ne]
                  intro he
                  simp only [Prod.mk.injEq] at he
                  apply ha
                  have h2 := congrArg String.toList he.2
                  simp only [String.toList_append] at h2
                  have hn := String.toList_inj.1 (List.append_cancel_left h2)
                  exact Prod.ext he.1.symm hn.symm
  exact key' l [] [] (by simp [Dict.get?])

end

example := C58_evaluated_once (fun n (o : Nat) => if n = "b" then .error .value else .ok (10 * o))
  [(1, "a"), (1, "b"), (2, "a"), (1, "a")] 1 "a" 10 (by decide)

/-- Numbers that agree modulo 3 are equal keys, negative ones cannot be keys. -/
example := C40_transparent (fun a : Int => if a < 0 then none else some (a % 3))
  (fun a => if a % 3 = 2 then (.error .value : Py Int) else .ok (a % 3))
  (by
    intro a a' h1 h2
    have : a % 3 = a' % 3 := by grind
    simp [this]) [1, 4, -1, 2, 7]

end Cfd
