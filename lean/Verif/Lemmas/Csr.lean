import Verif.Lemmas.Lists
import Verif.Spec.Csr

/-! Helper lemmas for compressed connectivities. -/

namespace Cfd
open Spec ElemConn

/-! ### Order on tuples -/

theorem lexLe_refl (a : List Int) : lexLe a a = true := by
  induction a with
  | nil => rfl
  | cons x t ih => simp [lexLe, ih]

theorem lexLe_total (a b : List Int) : lexLe a b = true ∨ lexLe b a = true := by
  induction a generalizing b with
  | nil => simp [lexLe]
  | cons x s ih =>
    cases b with
    | nil => simp [lexLe]
    | cons y t =>
      simp only [lexLe]
      rcases lt_trichotomy x y with h | h | h
      · simp [h]
      · subst h; simpa using ih t
      · simp [h]

theorem lexLe_trans {a b c : List Int} (h1 : lexLe a b = true) (h2 : lexLe b c = true) :
    lexLe a c = true := by
  induction a generalizing b c with
  | nil => simp [lexLe]
  | cons x s ih =>
    cases b with
    | nil => simp [lexLe] at h1
    | cons y t =>
      cases c with
      | nil => simp [lexLe] at h2
      | cons z u =>
        simp only [lexLe] at h1 h2 ⊢
        split at h1
        · split at h2
          · simp [show x < z by omega]
          · split at h2
            · simp at h2
            · simp [show x < z by omega]
        · split at h1
          · simp at h1
          · have hxy : x = y := by omega
            subst hxy
            split at h2
            · simp [*]
            · split at h2
              · simp at h2
              · have : x = z := by omega
                subst this
                simpa using ih h1 h2

theorem lexLe_antisymm {a b : List Int} (h1 : lexLe a b = true) (h2 : lexLe b a = true) : a = b := by
  induction a generalizing b with
  | nil => cases b <;> simp_all [lexLe]
  | cons x s ih =>
    cases b with
    | nil => simp [lexLe] at h1
    | cons y t =>
      simp only [lexLe] at h1 h2
      rcases lt_trichotomy x y with h | h | h
      · have : ¬ y < x := by omega
        simp [h, this] at h2
      · subst h
        simp only [lt_self_iff_false, if_false] at h1 h2
        rw [ih h1 h2]
      · have : ¬ x < y := by omega
        simp [h, this] at h1

theorem tupLe_iff {p q : Int × List Int} :
    tupLe p q = true ↔ p.1 < q.1 ∨ (p.1 = q.1 ∧ lexLe p.2 q.2 = true) := by
  unfold tupLe
  split
  · simp [*]
  · split
    · simp only [Bool.false_eq_true, false_iff, not_or, not_and]
      exact ⟨by omega, fun h => by omega⟩
    · have : p.1 = q.1 := by omega
      simp [*]

instance tupLe_total : Std.Total (fun p q : Int × List Int => tupLe p q = true) where
  total p q := by
    rw [tupLe_iff, tupLe_iff]
    rcases lt_trichotomy p.1 q.1 with h | h | h
    · exact .inl (.inl h)
    · rcases lexLe_total p.2 q.2 with h' | h'
      · exact .inl (.inr ⟨h, h'⟩)
      · exact .inr (.inr ⟨h.symm, h'⟩)
    · exact .inr (.inl h)

instance tupLe_trans : IsTrans (Int × List Int) (fun p q => tupLe p q = true) where
  trans p q r h1 h2 := by
    rw [tupLe_iff] at *
    rcases h1 with h1 | ⟨h1, h1'⟩ <;> rcases h2 with h2 | ⟨h2, h2'⟩
    · left; omega
    · left; omega
    · left; omega
    · right; exact ⟨by omega, lexLe_trans h1' h2'⟩

theorem tupLe_antisymm {p q : Int × List Int} (h1 : tupLe p q = true) (h2 : tupLe q p = true) :
    p = q := by
  rw [tupLe_iff] at *
  rcases h1 with h1 | ⟨h1, h1'⟩ <;> rcases h2 with h2 | ⟨h2, h2'⟩
  · omega
  · omega
  · omega
  · exact Prod.ext h1 (lexLe_antisymm h1' h2')

/-- Sorting tuples is determined by any sorted permutation. -/
theorem sort_tuples_eq {l m : List (Int × List Int)} (hp : l.Perm m)
    (hm : m.Pairwise (fun p q => tupLe p q = true)) :
    l.insertionSort (fun p q => tupLe p q = true) = m :=
  ((List.perm_insertionSort _ l).trans hp).eq_of_pairwise
    (le := fun p q => tupLe p q = true) (fun _ _ _ _ h1 h2 => tupLe_antisymm h1 h2)
    (List.pairwise_insertionSort _ l) hm

/-! ### Enumerated faces -/

/-- `(k, faces[k])` for all k. -/
def enumFaces (faces : List (List Int)) : List (Int × List Int) :=
  faces.zipIdx.map fun p => ((p.2 : Int), p.1)

theorem enumFaces_length (faces : List (List Int)) : (enumFaces faces).length = faces.length := by
  simp [enumFaces]

theorem enumFaces_getElem (faces : List (List Int)) (k : Nat) (h : k < (enumFaces faces).length) :
    (enumFaces faces)[k] = ((k : Int), faces[k]'(by simpa [enumFaces] using h)) := by
  simp [enumFaces]

theorem mem_enumFaces {faces : List (List Int)} {p : Int × List Int} :
    p ∈ enumFaces faces ↔ ∃ k : Nat, p.1 = k ∧ faces[k]? = some p.2 := by
  simp only [enumFaces, List.mem_map, Prod.exists]
  constructor
  · rintro ⟨f, k, hm, rfl⟩
    exact ⟨k, rfl, by simpa [List.mem_zipIdx_iff_getElem?] using hm⟩
  · rintro ⟨k, hk, hf⟩
    refine ⟨p.2, k, by simpa [List.mem_zipIdx_iff_getElem?] using hf, ?_⟩
    rw [← hk]

theorem enumFaces_pairwise (faces : List (List Int)) :
    (enumFaces faces).Pairwise (fun p q => tupLe p q = true) := by
  rw [List.pairwise_iff_getElem]
  intro i j hi hj hij
  rw [enumFaces_getElem, enumFaces_getElem, tupLe_iff]
  left; simp; omega

theorem enumFaces_map_snd (faces : List (List Int)) : (enumFaces faces).map (·.2) = faces := by
  apply List.ext_getElem
  · simp [enumFaces]
  · intro i h1 h2
    simp [enumFaces]

theorem enumFaces_map_fst (faces : List (List Int)) :
    (enumFaces faces).map (·.1) = pyRange 0 faces.length := by
  apply List.ext_getElem
  · simp [enumFaces]
  · intro i h1 h2
    rw [getElem_pyRange]; simp [enumFaces]

/-- Tuples with a valid numbering are the enumeration of some face list, up to order. -/
theorem exists_enumFaces {tups : List (Int × List Int)} (h : ValidNumbering (tups.map (·.1))) :
    ∃ faces, tups.Perm (enumFaces faces) := by
  -- sort the tuples: first components become 0..n-1
  let s := tups.insertionSort (fun p q => tupLe p q = true)
  have hs : s.Perm tups := List.perm_insertionSort _ _
  have hpw : s.Pairwise (fun p q => tupLe p q = true) := List.pairwise_insertionSort _ _
  have hnd : (s.map (·.1)).Nodup := (hs.map _).nodup_iff.2 h.1
  have hlt : (s.map (·.1)).Pairwise (· < ·) := by
    rw [List.pairwise_map]
    have hne : s.Pairwise (fun p q => p.1 ≠ q.1) := by
      rw [List.Nodup, List.pairwise_map] at hnd; exact hnd
    refine (hpw.and hne).imp ?_
    rintro p q ⟨h1, h2⟩
    rw [tupLe_iff] at h1
    omega
  have heq : s.map (·.1) = pyRange 0 (0 + (s.map (·.1)).length) := by
    apply eq_pyRange_of_pairwise hlt
    intro x hx
    have : x ∈ tups.map (·.1) := (hs.map _).mem_iff.1 hx
    have := (h.2 x).1 this
    simp only [List.length_map] at this ⊢
    rw [hs.length_eq]; omega
  refine ⟨s.map (·.2), hs.symm.trans ?_⟩
  rw [show enumFaces (s.map (·.2)) = s from ?_]
  apply List.ext_getElem
  · simp [enumFaces]
  · intro i h1 h2
    rw [enumFaces_getElem]
    have hi : (s.map (·.1))[i]'(by simpa using h2) = (i : Int) := by
      have := List.getElem_of_eq heq (by simpa using h2 : i < (s.map (·.1)).length)
      rw [this, getElem_pyRange]; omega
    simp only [List.getElem_map] at hi ⊢
    exact Prod.ext hi.symm rfl

/-! ### Offsets -/

theorem offsets_length (s : Int) (l : List Int) : (offsets s l).length = l.length + 1 := by
  induction l generalizing s with
  | nil => rfl
  | cons a t ih => simp [offsets, ih]

theorem offsets_getElem? (s : Int) (l : List Int) (k : Nat) (h : k ≤ l.length) :
    (offsets s l)[k]? = some (s + (l.take k).sum) := by
  induction l generalizing s k with
  | nil => have : k = 0 := by simpa using h
           subst this; simp [offsets]
  | cons a t ih =>
    cases k with
    | zero => simp [offsets]
    | succ k =>
      simp only [offsets, List.getElem?_cons_succ, List.take_succ_cons, List.sum_cons]
      rw [ih _ _ (by simpa using h)]
      simp; omega

theorem offsets_getD (s : Int) (l : List Int) (k : Nat) (h : k ≤ l.length) :
    (offsets s l).getD k 0 = s + (l.take k).sum := by
  rw [List.getD_eq_getElem?_getD, offsets_getElem? s l k h]; rfl

theorem diffs_offsets (s : Int) (l : List Int) : diffs (offsets s l) = l := by
  induction l generalizing s with
  | nil => rfl
  | cons a t ih =>
    cases t with
    | nil => simp [offsets, diffs]; omega
    | cons b u =>
      have := ih (s + a)
      simp only [offsets, diffs] at this ⊢
      rw [this]; simp; omega

/-- Encoding of a list of faces. -/
def csrOf (faces : List (List Int)) : Csr :=
  ⟨offsets 0 (faces.map fun f => (f.length : Int)), faces.flatten⟩

theorem sum_map_length_take (faces : List (List Int)) (k : Nat) :
    (((faces.map fun f => (f.length : Int)).take k).sum) = (((faces.take k).flatten.length : Nat) : Int) := by
  induction faces generalizing k with
  | nil => simp
  | cons f t ih =>
    cases k with
    | zero => simp
    | succ k => simp [ih]

theorem drop_take_flatten (faces : List (List Int)) (k : Nat) (h : k < faces.length) :
    (faces.flatten.drop (faces.take k).flatten.length).take faces[k].length = faces[k] := by
  have : faces.flatten = (faces.take k).flatten ++ (faces[k] ++ (faces.drop (k + 1)).flatten) := by
    rw [← List.flatten_cons, ← List.drop_eq_getElem_cons h, ← List.flatten_append,
      List.take_append_drop]
  rw [this, List.drop_left, List.take_left]

theorem csrOf_offset (faces : List (List Int)) (k : Nat) (h : k ≤ faces.length) :
    (csrOf faces).index[k]? = some (((faces.take k).flatten.length : Nat) : Int) := by
  unfold csrOf
  rw [offsets_getElem? _ _ _ (by simpa using h), sum_map_length_take]; simp

theorem csrOf_offset_getD (faces : List (List Int)) (k : Nat) (h : k ≤ faces.length) :
    (csrOf faces).index.getD k 0 = (((faces.take k).flatten.length : Nat) : Int) := by
  rw [List.getD_eq_getElem?_getD, csrOf_offset faces k h]; rfl

theorem take_succ_flatten_length (faces : List (List Int)) (k : Nat) (h : k < faces.length) :
    (faces.take (k + 1)).flatten.length = (faces.take k).flatten.length + faces[k].length := by
  rw [List.take_succ_eq_append_getElem h, List.flatten_append, List.length_append]; simp

theorem csrSlice_csrOf (faces : List (List Int)) (k : Nat) (h : k < faces.length) :
    csrSlice (csrOf faces) k = faces[k] := by
  unfold csrSlice
  rw [csrOf_offset_getD _ _ (by omega), csrOf_offset_getD _ _ (by omega),
    take_succ_flatten_length _ _ h]
  rw [show ((((faces.take k).flatten.length + faces[k].length : Nat) : Int) -
    (((faces.take k).flatten.length : Nat) : Int)).toNat = faces[k].length by omega]
  exact drop_take_flatten faces k h

theorem csrOf_wf (faces : List (List Int)) : CsrWF (csrOf faces) faces.length where
  length := by simp [csrOf, offsets_length]
  first := by rw [csrOf_offset_getD _ _ (by omega)]; simp
  mono k hk := by
    rw [csrOf_offset_getD _ _ (by omega), csrOf_offset_getD _ _ (by omega),
      take_succ_flatten_length _ _ hk]; omega
  last := by rw [csrOf_offset_getD _ _ (by omega)]; simp [csrOf]

/-- Every well-formed compressed connectivity encodes the list of its slices. -/
theorem csrOf_slices {z : Csr} {n : Nat} (h : CsrWF z n) :
    csrOf ((List.range n).map (csrSlice z)) = z := by
  -- offset k = total length of the first k slices
  have hnn : ∀ k, k ≤ n → 0 ≤ z.index.getD k 0 := by
    intro k
    induction k with
    | zero => intro _; rw [h.first]
    | succ k ih => intro hk; have := h.mono k (by omega); have := ih (by omega); omega
  have hle : ∀ j, j ≤ n → z.index.getD (n - j) 0 ≤ z.value.length := by
    intro j
    induction j with
    | zero => intro _; rw [Nat.sub_zero, h.last]
    | succ j ih =>
      intro hj
      have h1 := h.mono (n - (j + 1)) (by omega)
      rw [show n - (j + 1) + 1 = n - j by omega] at h1
      have := ih (by omega); omega
  have hle' : ∀ k, k ≤ n → z.index.getD k 0 ≤ z.value.length := by
    intro k hk
    have := hle (n - k) (by omega)
    rwa [show n - (n - k) = k by omega] at this
  have hlen : ∀ k, k < n → ((csrSlice z k).length : Int) = z.index.getD (k + 1) 0 - z.index.getD k 0 := by
    intro k hk
    unfold csrSlice
    have h1 := h.mono k hk
    have h2 := hle' (k + 1) (by omega)
    have h3 := hnn k (by omega)
    rw [List.length_take, List.length_drop]
    omega
  have hsum : ∀ k, k ≤ n → ((((List.range n).map (csrSlice z)).take k).flatten.length : Int) =
      z.index.getD k 0 ∧ (((List.range n).map (csrSlice z)).take k).flatten =
      z.value.take (z.index.getD k 0).toNat := by
    intro k
    induction k with
    | zero => intro _; rw [h.first]; simp
    | succ k ih =>
      intro hk
      obtain ⟨h1, h2⟩ := ih (by omega)
      have hk' : k < ((List.range n).map (csrSlice z)).length := by simp; omega
      rw [take_succ_flatten_length _ _ hk']
      have hl := hlen k (by omega)
      constructor
      · simp only [List.getElem_map, List.getElem_range]; push_cast; omega
      · rw [List.take_succ_eq_append_getElem hk', List.flatten_append, h2]
        simp only [List.getElem_map, List.getElem_range, List.flatten_cons, List.flatten_nil,
          List.append_nil, csrSlice]
        have h3 := hnn k (by omega)
        have h4 := h.mono k (by omega)
        rw [← List.take_add]
        congr 1; omega
  cases z with
  | mk index value =>
  unfold csrOf
  congr 1
  · apply List.ext_getElem?
    intro k
    by_cases hk : k ≤ n
    · have h1 := csrOf_offset ((List.range n).map (csrSlice ⟨index, value⟩)) k (by simpa using hk)
      unfold csrOf at h1
      rw [h1, (hsum k hk).1]
      have : k < index.length := by have := h.length; simp at this; omega
      rw [List.getD_eq_getElem?_getD]
      simp [this]
    · rw [List.getElem?_eq_none, List.getElem?_eq_none]
      · have := h.length; simp at this; omega
      · rw [offsets_length]; simp; omega
  · have h1 := (hsum n le_rfl).2
    rw [List.take_of_length_le (by simp)] at h1
    rw [h1, h.last]; simp

end Cfd
