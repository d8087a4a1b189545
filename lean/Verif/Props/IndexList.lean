import Verif.Spec.IndexList
import Verif.Lemmas.Basic

/-! C01, C02: index lists. -/

namespace Cfd
open Spec

/-- C01: `list()` of a range enumerates increasingly exactly the integers between both ends
(included). -/
theorem C01_range_list (a b : Int) :
    ∃ l, (IndexList.range a b).toList = .ok l ∧ l.Pairwise (· < ·) ∧
      ∀ i, i ∈ l ↔ a ≤ i ∧ i ≤ b :=
  ⟨_, rfl, pairwise_pyRange _ _, fun i => by rw [mem_pyRange]; omega⟩

example : (IndexList.range 3 6).toList = .ok [3, 4, 5, 6] := by decide
example : (IndexList.range 3 2).toList = .ok [] := by decide

/-- C01: a list object enumerates what was put in it. -/
theorem C01_list_list (l : List Int) : (IndexList.list l).toList = .ok l := rfl

/-- C01: `size` is the number of enumerated indices, unless a range is reversed by more than one. -/
theorem C01_size (s : IndexList) (l : List Int) (h : s.toList = .ok l)
    (hr : ∀ a b, s = .range a b → a ≤ b + 1) : s.size = .ok (l.length : Int) := by
  cases s with
  | unset => simp [IndexList.toList] at h
  | range a b =>
    have := hr a b rfl
    simp only [IndexList.toList, Except.ok.injEq] at h
    subst h
    simp only [IndexList.size, length_pyRange, Except.ok.injEq]
    omega
  | list l' =>
    simp only [IndexList.toList, Except.ok.injEq] at h
    simp [IndexList.size, h]

/-- A case of `C01_size`. -/
example : (IndexList.list [7, 3, 7]).size = .ok 3 := C01_size _ [7, 3, 7] rfl (by intro a b h; cases h)

example : (IndexList.range 3 6).size = .ok 4 ∧ (IndexList.range 3 2).size = .ok 0 := by decide

/-- C01: the hypothesis on reversed ranges is needed: `size` is then negative while `list()` is
empty. -/
theorem C01_size_reversed_refuted :
    ∃ (s : IndexList) (l : List Int), s.toList = .ok l ∧ s.size ≠ .ok (l.length : Int) :=
  ⟨.range 5 2, [], by decide, by decide⟩

/-- C01: `append` puts the new indices after the current ones. -/
theorem C01_append (s : IndexList) (l m : List Int) (h : s.toList = .ok l) :
    ∃ t, s.append m = .ok t ∧ t.toList = .ok (l ++ m) := by
  exact ⟨_, by rw [IndexList.append, h]; rfl, rfl⟩

example := C01_append (.range 3 4) [3, 4] [9, 9] (by decide)

example : (IndexList.range 3 4).append [9, 9] = .ok (.list [3, 4, 9, 9]) := by decide

/-- C01: `shift` adds the same number to every index and keeps the representation. -/
theorem C01_shift (s : IndexList) (l : List Int) (n : Int) (h : s.toList = .ok l) :
    (s.shift n).toList = .ok (l.map (· + n)) ∧
      ((∃ a b, s = .range a b) ↔ ∃ a b, s.shift n = .range a b) := by
  cases s with
  | unset => simp [IndexList.toList] at h
  | range a b =>
    simp only [IndexList.toList, Except.ok.injEq] at h
    subst h
    constructor
    · simp only [IndexList.shift, IndexList.toList, pyRange_shift]
      rw [show b + n + 1 = b + 1 + n by omega]
    · simp [IndexList.shift]
  | list l' =>
    simp only [IndexList.toList, Except.ok.injEq] at h
    subst h
    simp [IndexList.shift, IndexList.toList]

example := C01_shift (.list [3, 1]) [3, 1] (-2) rfl

example : (IndexList.range 3 4).shift 10 = .range 13 14 := by decide

/-- C01: `a + b` enumerates `a` then `b`. -/
theorem C01_add (s t : IndexList) (l m : List Int) (hs : s.toList = .ok l) (ht : t.toList = .ok m) :
    ∃ u, s.add t = .ok u ∧ u.toList = .ok (l ++ m) := by
  exact ⟨_, by rw [IndexList.add, hs, ht]; rfl, rfl⟩

example := C01_add (.range 3 4) (.list [7]) [3, 4] [7] (by decide) rfl

example : (IndexList.range 3 4).add (.list [7]) = .ok (.list [3, 4, 7]) := by decide

/-- C01: an index that was never set raises on `list()`, on `append` and in sums. -/
theorem C01_unset (t : IndexList) (l : List Int) :
    IndexList.unset.toList = .error .runtime ∧ IndexList.unset.append l = .error .runtime ∧
      IndexList.unset.add t = .error .runtime := by
  simp [IndexList.toList, IndexList.append, IndexList.add]

/-- C01: `obj[i]` is the i-th enumerated index, from the end when negative. -/
theorem C01_getitem (s : IndexList) (l : List Int) (h : s.toList = .ok l) (k : Nat)
    (hk : k < l.length) :
    s.getItem k = .ok l[k] ∧ s.getItem ((k : Int) - l.length) = .ok l[k] := by
  simp only [IndexList.getItem, h, Except_bind_ok]
  refine ⟨npGet_of_lt hk, ?_⟩
  unfold npGet
  have h1 : (k : Int) - l.length < 0 := by omega
  have h2 : ¬ (k : Int) - l.length + l.length < 0 := by omega
  have h3 : ((k : Int) - l.length + l.length).toNat = k := by omega
  simp [h1, hk]

example := C01_getitem (.range 3 6) [3, 4, 5, 6] (by decide) 2 (by decide)

example : (IndexList.range 3 6).getItem (-1) = .ok 6 := by decide

private theorem pyRange_eq_of_consecutive (x : Int) (t : List Int) (h : Consecutive (x :: t)) :
    x :: t = pyRange x (x + ((x :: t).length : Int)) := by
  induction t generalizing x with
  | nil =>
    rw [show x + (([x] : List Int).length : Int) = x + 1 by simp, pyRange_cons (by omega),
      pyRange_eq_nil (by omega)]
  | cons y t ih =>
    have hy : y = x + 1 := by simpa using h 0 (by simp)
    have ht : Consecutive (y :: t) := by
      intro i hi
      have := h (i + 1) (by simpa using hi)
      simpa using this
    rw [pyRange_cons (by simp; omega)]
    have := ih y ht
    subst hy
    rw [List.cons.injEq]
    refine ⟨rfl, ?_⟩
    rw [this]
    congr 1
    simp; omega

private theorem consecutive_pyRange (a b : Int) : Consecutive (pyRange a b) := by
  intro i h
  rw [getElem_pyRange, getElem_pyRange]; omega

/-- C02: `compress()` never changes the enumerated indices; it raises only on an empty list. -/
theorem C02_compress_same_indices (s : IndexList) (l : List Int) (h : s.toList = .ok l) :
    (s = .list [] ∧ s.compress = .error .index) ∨
      ∃ t, s.compress = .ok t ∧ t.toList = .ok l := by
  match s with
  | .unset => simp [IndexList.toList] at h
  | .range a b => right; exact ⟨_, rfl, h⟩
  | .list [] => left; exact ⟨rfl, rfl⟩
  | .list (x :: t) =>
    right
    simp only [IndexList.toList, Except.ok.injEq] at h
    subst h
    simp only [IndexList.compress]
    split
    · rename_i heq
      refine ⟨_, rfl, ?_⟩
      have hlast : (x :: t).getLast (List.cons_ne_nil x t) = x + t.length := by
        rw [List.getLast_eq_getElem]
        have : (x :: t)[(x :: t).length - 1]? =
            (pyRange x (x + ((x :: t).length : Int)))[(x :: t).length - 1]? := by rw [← heq]
        rw [List.getElem?_eq_getElem (by simp), List.getElem?_eq_getElem (by simp; omega),
          getElem_pyRange] at this
        simpa using this
      rw [hlast]
      simp only [IndexList.toList]
      rw [show x + (t.length : Int) + 1 = x + ((x :: t).length : Int) by simp; omega, ← heq]
    · exact ⟨_, rfl, rfl⟩

example := C02_compress_same_indices (.list [4, 6, 5]) [4, 6, 5] rfl

/-- C02: after `compress()` the representation is a range exactly when the indices were consecutive
or it was a range already. -/
theorem C02_compress_range_iff (s t : IndexList) (l : List Int) (h : s.toList = .ok l)
    (hc : s.compress = .ok t) :
    (∃ a b, t = .range a b) ↔ (Consecutive l ∨ ∃ a b, s = .range a b) := by
  match s with
  | .unset => simp [IndexList.toList] at h
  | .range a b =>
    simp only [IndexList.compress, Except.ok.injEq] at hc
    subst hc; simp
  | .list [] => simp [IndexList.compress] at hc
  | .list (x :: u) =>
    simp only [IndexList.toList, Except.ok.injEq] at h
    subst h
    simp only [IndexList.compress] at hc
    split at hc
    · rename_i heq
      simp only [Except.ok.injEq] at hc
      subst hc
      constructor
      · intro _
        left
        rw [heq]; exact consecutive_pyRange _ _
      · intro _; exact ⟨_, _, rfl⟩
    · rename_i hne
      simp only [Except.ok.injEq] at hc
      subst hc
      constructor
      · rintro ⟨a, b, hab⟩; simp at hab
      · rintro (hcons | ⟨a, b, hab⟩)
        · exact absurd (pyRange_eq_of_consecutive x u hcons) hne
        · simp at hab

example := C02_compress_range_iff (.list [4, 5, 6]) (.range 4 6) [4, 5, 6] rfl (by decide)

example : (IndexList.list [4, 5, 6]).compress = .ok (.range 4 6) ∧
    (IndexList.list [4, 6, 5]).compress = .ok (.list [4, 6, 5]) ∧
    (IndexList.list []).compress = .error .index := by decide

/-- C01 (histories): whatever the sequence of operations, the object enumerates what the same
operations give on plain lists; the only possible failure is compressing an empty list. -/
theorem C01_history (ops : List IdxOp) (s : IndexList) (l : List Int) (h : s.toList = .ok l) :
    (∃ t, ops.foldlM (fun s op => op.onObj s) s = .ok t ∧
        t.toList = .ok (ops.foldl (fun l op => op.onList l) l)) ∨
      (ops.foldlM (fun s op => op.onObj s) s = .error .index ∧
        ∃ k, ops[k]? = some .compress ∧ (ops.take k).foldl (fun l op => op.onList l) l = []) := by
  induction ops generalizing s l with
  | nil => left; exact ⟨s, rfl, h⟩
  | cons op ops ih =>
    have step : (∃ t, op.onObj s = .ok t ∧ t.toList = .ok (op.onList l)) ∨
        (op.onObj s = .error .index ∧ op = .compress ∧ l = []) := by
      cases op with
      | append m => left; exact C01_append s l m h
      | shift n => left; exact ⟨_, rfl, (C01_shift s l n h).1⟩
      | addRange a b => left; exact C01_add s (.range a b) l _ h rfl
      | compress =>
        rcases C02_compress_same_indices s l h with ⟨h1, h2⟩ | h1
        · right
          refine ⟨h2, rfl, ?_⟩
          subst h1
          simpa [IndexList.toList, eq_comm] using h
        · left; exact h1
    rcases step with ⟨t, ht, htl⟩ | ⟨he, hop, hl⟩
    · rcases ih t _ htl with ⟨u, hu, hul⟩ | ⟨he, k, hk, hk'⟩
      · left; exact ⟨u, by simp [List.foldlM_cons, ht, hu], by simpa using hul⟩
      · right
        refine ⟨by simp [List.foldlM_cons, ht, he], k + 1, by simpa using hk, by simpa using hk'⟩
    · right
      refine ⟨by simp [List.foldlM_cons, he], 0, by simp [hop], by simp [hl]⟩

example := C01_history [.append [7], .shift 2, .compress] (.range 3 4) [3, 4] (by decide)

example : [IdxOp.append [5], .compress, .shift 2, .addRange 0 1].foldlM (fun s op => op.onObj s)
    (IndexList.range 3 4) = .ok (.list [5, 6, 7, 0, 1]) := by decide

end Cfd
