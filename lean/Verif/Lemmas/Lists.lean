import Verif.Lemmas.Basic
import Verif.Spec.Basic
import Mathlib.Data.List.Perm.Subperm

/-! Helper lemmas on lists. -/

namespace Cfd
open Spec

theorem mem_firstUse {α : Type} [DecidableEq α] {l : List α} {a : α} : a ∈ firstUse l ↔ a ∈ l := by
  induction l with
  | nil => simp [firstUse]
  | cons b t ih =>
    simp only [firstUse, List.mem_cons, List.mem_filter, ih, decide_eq_true_eq]
    by_cases h : a = b <;> simp [h]

theorem nodup_firstUse {α : Type} [DecidableEq α] (l : List α) : (firstUse l).Nodup := by
  induction l with
  | nil => simp [firstUse]
  | cons b t ih =>
    simp only [firstUse, List.nodup_cons, List.mem_filter]
    exact ⟨by simp, ih.filter _⟩

theorem firstUse_append_singleton {α : Type} [DecidableEq α] (l : List α) (a : α) :
    firstUse (l ++ [a]) = if a ∈ l then firstUse l else firstUse l ++ [a] := by
  induction l with
  | nil => simp [firstUse]
  | cons b t ih =>
    simp only [List.cons_append, firstUse, ih, List.mem_cons]
    by_cases h : a ∈ t
    · simp [h]
    · by_cases hab : a = b
      · subst hab; simp [h, List.filter_append]
      · simp [h, hab, List.filter_append]

/-- A strictly increasing list of integers filling `[a, a + length)` is the range. -/
theorem eq_pyRange_of_pairwise {l : List Int} {a : Int} (h : l.Pairwise (· < ·))
    (hb : ∀ x ∈ l, a ≤ x ∧ x < a + l.length) : l = pyRange a (a + l.length) := by
  have hnd : l.Nodup := h.imp (fun h => by omega)
  have hsub : l ⊆ pyRange a (a + l.length) := fun x hx => mem_pyRange.2 (hb x hx)
  have hp : l.Perm (pyRange a (a + l.length)) :=
    (hnd.subperm hsub).perm_of_length_le (by simp; omega)
  exact hp.eq_of_pairwise (le := (· < ·)) (fun a b _ _ h1 h2 => by omega) h (pairwise_pyRange _ _)

theorem perm_pyRange_of_valid {l : List Int} (h : ValidNumbering l) :
    l.Perm (pyRange 0 l.length) := by
  rw [List.perm_ext_iff_of_nodup h.1 (nodup_pyRange _ _)]
  intro i; rw [h.2, mem_pyRange]

theorem valid_of_perm_pyRange {l : List Int} {n : Nat} (h : l.Perm (pyRange 0 n)) :
    ValidNumbering l := by
  have hl : l.length = n := by rw [h.length_eq]; simp
  refine ⟨h.nodup_iff.2 (nodup_pyRange _ _), fun i => ?_⟩
  rw [h.mem_iff, mem_pyRange, hl]

theorem pairwise_sortInts (l : List Int) : (sortInts l).Pairwise (· ≤ ·) :=
  List.pairwise_insertionSort _ l

theorem perm_sortInts (l : List Int) : (sortInts l).Perm l := List.perm_insertionSort _ l

theorem sortInts_eq_of_perm {l m : List Int} (h : l.Perm m) : sortInts l = sortInts m :=
  (((perm_sortInts l).trans h).trans (perm_sortInts m).symm).eq_of_pairwise
    (le := (· ≤ ·)) (fun a b _ _ h1 h2 => by omega) (pairwise_sortInts l) (pairwise_sortInts m)

theorem sortInts_eq_iff {l m : List Int} : sortInts l = sortInts m ↔ l.Perm m :=
  ⟨fun h => (perm_sortInts l).symm.trans (h ▸ perm_sortInts m), sortInts_eq_of_perm⟩

theorem sortInts_of_pairwise {l : List Int} (h : l.Pairwise (· ≤ ·)) : sortInts l = l :=
  h.insertionSort_eq

end Cfd
