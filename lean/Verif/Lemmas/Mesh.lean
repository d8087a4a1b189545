import Verif.Spec.Mesh
import Verif.Lemmas.Conn

/-! Helper lemmas for the mesh methods. -/

namespace Cfd
open Spec ElemConn

theorem npSet_ok {α : Type} {a : List α} {i : Int} (v : α) (h0 : 0 ≤ i) (h1 : i < a.length) :
    npSet a i v = .ok (a.set i.toNat v) := by
  unfold npSet
  have : ¬ i < 0 := by omega
  simp only [this, if_false, false_or]
  rw [if_neg (by omega)]

theorem npScatter_ok {α : Type} (ps : List (Int × α)) (a : List α)
    (hb : ∀ p ∈ ps, 0 ≤ p.1 ∧ p.1 < (a.length : Int)) (hnd : (ps.map (·.1)).Nodup) :
    ∃ r, npScatter a ps = .ok r ∧ r.length = a.length ∧
      (∀ p ∈ ps, r[p.1.toNat]? = some p.2) ∧
      (∀ j : Nat, (j : Int) ∉ ps.map (·.1) → r[j]? = a[j]?) := by
  induction ps generalizing a with
  | nil => exact ⟨a, rfl, rfl, by simp, by simp⟩
  | cons p t ih =>
    have hp := hb p (by simp)
    simp only [List.map_cons, List.nodup_cons] at hnd
    obtain ⟨r, h1, h2, h3, h4⟩ := ih (a.set p.1.toNat p.2)
      (by intro q hq; rw [List.length_set]; exact hb q (by simp [hq])) hnd.2
    refine ⟨r, ?_, by simpa using h2, ?_, ?_⟩
    · obtain ⟨i, v⟩ := p
      simp only [npScatter, npSet_ok v hp.1 hp.2, Except_bind_ok, h1]
    · intro q hq
      rcases List.mem_cons.1 hq with rfl | hq
      · rw [h4 _ (by rw [Int.toNat_of_nonneg hp.1]; exact hnd.1), List.getElem?_set_self (by omega)]
      · exact h3 q hq
    · intro j hj
      simp only [List.map_cons, List.mem_cons, not_or] at hj
      rw [h4 j hj.2, List.getElem?_set_ne (by intro h; apply hj.1; omega)]

/-- Inverse permutation computed by scattering `arange`. -/
theorem scatter_inverse {old : List Int} (hp : old.Perm (pyRange 0 old.length)) :
    npScatter (List.replicate old.length (-1 : Int)) (old.zip (pyRange 0 old.length)) =
      .ok ((pyRange 0 old.length).map fun i => (old.idxOf i : Int)) := by
  have hnd : old.Nodup := hp.nodup_iff.2 (nodup_pyRange _ _)
  have hlen : old.length = (pyRange 0 (old.length : Int)).length := by simp
  have hfst : (old.zip (pyRange 0 (old.length : Int))).map (·.1) = old := by
    rw [List.map_fst_zip (by omega)]
  obtain ⟨r, h1, h2, h3, h4⟩ := npScatter_ok (old.zip (pyRange 0 (old.length : Int)))
    (List.replicate old.length (-1 : Int))
    (by
      intro p hp'
      have := (hp.mem_iff.1 (List.of_mem_zip hp').1)
      rw [mem_pyRange] at this
      simpa using this) (by rw [hfst]; exact hnd)
  rw [h1]
  congr 1
  apply List.ext_getElem?
  intro j
  by_cases hj : j < old.length
  · have hjm : (j : Int) ∈ old := by rw [hp.mem_iff, mem_pyRange]; omega
    have hk : old.idxOf (j : Int) < old.length := List.idxOf_lt_length_of_mem hjm
    have hmem : ((j : Int), (old.idxOf (j : Int) : Int)) ∈ old.zip (pyRange 0 (old.length : Int)) := by
      rw [List.mem_iff_getElem]
      refine ⟨old.idxOf (j : Int), by simpa using hk, ?_⟩
      rw [List.getElem_zip, getElem_pyRange]
      simp [List.getElem_idxOf hk]
    have := h3 _ hmem
    simp only [Int.toNat_natCast] at this
    rw [this, List.getElem?_map, List.getElem?_eq_getElem (by simpa using hj), getElem_pyRange]
    simp
  · rw [List.getElem?_eq_none (by simp at h2; omega), List.getElem?_eq_none (by simp; omega)]

theorem npGather_ok_of {α : Type} {a : List α} {l : List Int} {g : Int → α}
    (h : ∀ i ∈ l, 0 ≤ i ∧ a[i.toNat]? = some (g i)) : npGather a l = .ok (l.map g) := by
  unfold npGather
  apply mapM_ok_of_forall
  intro i hi
  rw [npGet_nonneg (h i hi).1]
  exact (h i hi).2

theorem gather_map_range {n : Nat} {f : Int → Int} {l : List Int}
    (h : ∀ i ∈ l, 0 ≤ i ∧ i < (n : Int)) :
    npGather ((pyRange 0 n).map f) l = .ok (l.map f) := by
  apply npGather_ok_of
  intro i hi
  have := h i hi
  refine ⟨this.1, ?_⟩
  rw [List.getElem?_map, List.getElem?_eq_getElem (by simp; omega), getElem_pyRange]
  simp [Int.toNat_of_nonneg this.1]

/-- Positions of a contiguous block. -/
theorem idxOf_block {pre l post : List Int} (hnd : (pre ++ l ++ post).Nodup) :
    (l.map fun i => ((pre ++ l ++ post).idxOf i : Int)) =
      pyRange pre.length (pre.length + l.length) := by
  apply List.ext_getElem
  · simp; omega
  · intro j h1 h2
    rw [List.getElem_map, getElem_pyRange]
    have hj : j < l.length := by simpa using h1
    have hg : (pre ++ l ++ post)[pre.length + j]'(by simp; omega) = l[j] := by
      rw [List.getElem_append_left (by simp; omega), List.getElem_append_right (by omega)]
      simp
    have := hnd.idxOf_getElem (pre.length + j) (by simp; omega)
    rw [hg] at this
    rw [this]; push_cast; rfl

theorem compress_range {a : Int} {n : Nat} (h : 0 < n) :
    (IndexList.list (pyRange a (a + n))).compress = .ok (.range a (a + n - 1)) := by
  have hc : pyRange a (a + n) = a :: pyRange (a + 1) (a + n) := pyRange_cons (by omega)
  have hl : pyRange a (a + n) = pyRange a (a + n - 1) ++ [a + n - 1] := by
    have := pyRange_succ_right (a := a) (b := a + n - 1) (by omega)
    rw [← this]; congr 1; omega
  have hlen : ((pyRange a (a + n)).length : Int) = n := by simp; omega
  rw [hc]
  simp only [IndexList.compress]
  rw [if_pos]
  · congr 2
    have : ∀ (l : List Int) (h : l ≠ []), l = pyRange a (a + n) → l.getLast h = a + n - 1 := by
      intro l h e
      subst e
      simp only [hl, List.getLast_append_singleton]
    exact this _ _ hc.symm
  · rw [← hc, hlen]

theorem markItems_eq {b : Mark} {l : List Int} (h : b.index.toList = .ok l) : markItems b = l := by
  simp [markItems, h]

theorem toList_of_ne_unset {i : IndexList} (h : i ≠ .unset) : ∃ l, i.toList = .ok l := by
  cases i with
  | unset => exact absurd rfl h
  | range a b => exact ⟨_, rfl⟩
  | list l => exact ⟨_, rfl⟩

theorem toList_markItems {b : Mark} (h : b.index ≠ .unset) : b.index.toList = .ok (markItems b) := by
  obtain ⟨l, hl⟩ := toList_of_ne_unset h
  rw [hl, markItems_eq hl]

theorem listBocoIndex_ok {R : Type} {m : Mesh R} (h : MarksSet m) :
    m.listBocoIndex = .ok (marked m) := by
  unfold Mesh.listBocoIndex
  rw [mapM_ok_of_forall (g := fun p => markItems p.2) (fun p hp => toList_markItems (h p hp))]
  simp [marked, List.flatMap]

theorem onFaces_all {R : Type} {m : Mesh R} (h : MarksOnFaces m) :
    (m.bocos.all fun p => p.2.onFaces) = true := by
  rw [List.all_eq_true]
  intro p hp
  rcases h p hp with h | h <;> simp [Mark.onFaces, h]

theorem allIndex_ok {c : ElemConn} (h : ∀ p ∈ c.tbl, EntryWF p.2) :
    c.allIndex = .ok (allIndices c) := by
  unfold allIndex
  rw [indexLists_of_wf h, Except_bind_ok, Except_pure, allIndices_eq_flatten h]

theorem npScatter_untouched {α : Type} {ps : List (Int × α)} {a r : List α}
    (h : npScatter a ps = .ok r) (hb : ∀ p ∈ ps, 0 ≤ p.1) :
    r.length = a.length ∧ ∀ j : Nat, (j : Int) ∉ ps.map (·.1) → r[j]? = a[j]? := by
  induction ps generalizing a with
  | nil =>
    simp only [npScatter, Except.ok.injEq] at h
    subst h; simp
  | cons p t ih =>
    obtain ⟨i, v⟩ := p
    simp only [npScatter, bind_eq_ok] at h
    obtain ⟨a', h1, h2⟩ := h
    have hi := hb (i, v) (by simp)
    simp only at hi
    have ha' : a' = a.set i.toNat v := by
      unfold npSet at h1
      have : ¬ i < 0 := by omega
      simp only [this, if_false, false_or] at h1
      split at h1
      · simp at h1
      · simpa using h1.symm
    obtain ⟨h3, h4⟩ := ih h2 (fun p hp => hb p (by simp [hp]))
    subst ha'
    refine ⟨by simpa using h3, ?_⟩
    intro j hj
    simp only [List.map_cons, List.mem_cons, not_or] at hj
    rw [h4 j hj.2, List.getElem?_set_ne (by intro h; apply hj.1; omega)]

theorem mapM_mem_ok {ε α β : Type} {f : α → Except ε β} {l : List α} {r : List β}
    (h : l.mapM f = .ok r) {a : α} (ha : a ∈ l) : ∃ b, b ∈ r ∧ f a = .ok b := by
  induction l generalizing r with
  | nil => simp at ha
  | cons x t ih =>
    rw [List.mapM_cons] at h
    simp only [bind_eq_ok] at h
    obtain ⟨b, hb, r', hr', h⟩ := h
    simp only [Except_pure, Except.ok.injEq] at h
    subst h
    rcases List.mem_cons.1 ha with rfl | ha
    · exact ⟨b, by simp, hb⟩
    · obtain ⟨c, hc, hfc⟩ := ih hr' ha
      exact ⟨c, by simp [hc], hfc⟩

end Cfd
