import Verif.Lemmas.Vtk

/-!
# Extraction of cells from a VTK grid (C44)
-/

namespace Cfd.Vtk
open Cfd.Spec.Vtk

variable {P : Type}

/-- **C44.** The `k`-th cell of the extracted grid has the type of cell `ids[k]` and the same points in the same
order; its points are those of the selected cells, each once. -/
theorem C44_extract (so : List Int → List Int) (junk : Nat → Int) (g : Grid P) (ids : List Int)
    (hso : ∀ l, (so l).Perm l) (hg : GridWF g) (hne : ids ≠ [])
    (hid : ∀ id ∈ ids, 0 ≤ id ∧ id < g.items.length) (hsz : ∀ c ∈ g.items, c.2.length < 255) :
    ∃ g', extractCells so junk g ids = .ok g' ∧ GridWF g' ∧ g'.items.length = ids.length ∧
      (∀ k id, ids[k]? = some id → shownCell g' k = shownCell g id.toNat) ∧
      ∃ used : List Int, used.Nodup ∧ g'.points.map some = used.map (pointAt g) ∧
        ∀ q, q ∈ used ↔ ∃ id ∈ ids, ∃ c, g.items[id.toNat]? = some c ∧ q ∈ c.2 := by
  obtain ⟨cs, hcs⟩ : ∃ cs : List (Int × List Int),
      List.Forall₂ (fun id c => 0 ≤ id ∧ g.items[id.toNat]? = some c) ids cs := by
    clear hne
    induction ids with
    | nil => exact ⟨[], .nil⟩
    | cons a t ih =>
      obtain ⟨cs, h⟩ := ih fun id h => hid id (List.mem_cons_of_mem _ h)
      have ha := hid a (by simp)
      exact ⟨g.items[a.toNat]'(by omega) :: cs, .cons ⟨ha.1, List.getElem?_eq_getElem _⟩ h⟩
  have hget : ∀ (k : Nat) id, ids[k]? = some id → ∃ c, cs[k]? = some c ∧ g.items[id.toNat]? = some c := by
    intro k id hk
    obtain ⟨hk', rfl⟩ := List.getElem?_eq_some_iff.1 hk
    have hk2 : k < cs.length := by rw [← hcs.length_eq]; exact hk'
    exact ⟨cs[k], List.getElem?_eq_getElem hk2, ((List.forall₂_iff_get.1 hcs).2 k hk' hk2).2⟩
  have hback : ∀ c ∈ cs, ∃ id ∈ ids, g.items[id.toNat]? = some c := by
    intro c hc
    obtain ⟨k, hk, rfl⟩ := List.mem_iff_getElem.1 hc
    have hk1 : k < ids.length := by rw [hcs.length_eq]; exact hk
    exact ⟨ids[k], List.getElem_mem _, ((List.forall₂_iff_get.1 hcs).2 k hk1 hk).2⟩
  have hmem : ∀ c ∈ cs, c ∈ g.items := fun c hc => by
    obtain ⟨id, _, h⟩ := hback c hc
    exact List.mem_of_getElem? h
  have hused : ∀ q, q ∈ setList so (cs.flatMap (·.2)) ↔ ∃ c ∈ cs, q ∈ c.2 := by
    intro q
    unfold setList
    rw [(hso _).mem_iff, List.mem_dedup, List.mem_flatMap]
  have hrange : ∀ q ∈ setList so (cs.flatMap (·.2)), 0 ≤ q ∧ q < g.points.length := by
    intro q hq
    obtain ⟨c, hc, hq⟩ := (hused q).1 hq
    exact (hg c (hmem c hc)).2 q hq
  have hnd : (setList so (cs.flatMap (·.2))).Nodup := (hso _).nodup_iff.2 (List.nodup_dedup _)
  obtain ⟨pts, hpts⟩ : ∃ pts : List P,
      List.Forall₂ (fun q p => pointAt g q = some p) (setList so (cs.flatMap (·.2))) pts := by
    clear hnd hused
    revert hrange
    generalize setList so (cs.flatMap (·.2)) = l
    intro hrange
    induction l with
    | nil => exact ⟨[], .nil⟩
    | cons a t ih =>
      obtain ⟨pts, h⟩ := ih fun q h => hrange q (List.mem_cons_of_mem _ h)
      have ha := hrange a (by simp)
      refine ⟨g.points[a.toNat]'(by omega) :: pts, .cons ?_ h⟩
      rw [pointAt, if_pos ha.1]; exact List.getElem?_eq_getElem _
  have hok := extract_ok so junk g ids cs hso hg hcs hne (fun c hc => hsz c (hmem c hc)) pts hpts
  generalize hu : setList so (cs.flatMap (·.2)) = used at *
  have hptsAt : ∀ q ∈ used, pts[used.idxOf q]? = pointAt g q := by
    intro q hq
    have hlt := List.idxOf_lt_length_iff.2 hq
    have hlt2 : used.idxOf q < pts.length := by rw [← hpts.length_eq]; exact hlt
    have := (List.forall₂_iff_get.1 hpts).2 _ hlt hlt2
    simp only [List.get_eq_getElem, List.getElem_idxOf] at this
    rw [this, List.getElem?_eq_getElem hlt2]
  refine ⟨_, hok, ?_, ?_, ?_, used, hnd, ?_, ?_⟩
  · intro c hc
    obtain ⟨c0, hc0, rfl⟩ := List.mem_map.1 hc
    refine ⟨(hg c0 (hmem c0 hc0)).1, fun q hq => ?_⟩
    obtain ⟨q0, hq0, rfl⟩ := List.mem_map.1 hq
    have hlt := List.idxOf_lt_length_iff.2 ((hused q0).2 ⟨c0, hc0, hq0⟩)
    have hl := hpts.length_eq
    simp only
    omega
  · simp [hcs.length_eq]
  · intro k id hk
    obtain ⟨c, h1, h2⟩ := hget k id hk
    unfold shownCell
    rw [h2, List.getElem?_map, h1]
    simp only [Option.map_some, List.map_map]
    congr 2
    apply List.map_congr_left
    intro q hq
    have hqu := (hused q).2 ⟨c, List.mem_of_getElem? h1, hq⟩
    simp only [Function.comp_apply]
    rw [← hptsAt q hqu, pointAt, if_pos (by omega), Int.toNat_natCast]
  · rw [← List.forall₂_eq_eq_eq, List.forall₂_map_left_iff, List.forall₂_map_right_iff]
    exact hpts.flip.imp fun p q h => h.symm
  · intro q
    rw [hused]
    constructor
    · rintro ⟨c, hc, hq⟩
      obtain ⟨id, hi, h⟩ := hback c hc
      exact ⟨id, hi, c, h, hq⟩
    · rintro ⟨id, hi, c, h, hq⟩
      obtain ⟨k, hk⟩ := List.getElem?_of_mem hi
      obtain ⟨c', h1, h2⟩ := hget k id hk
      rw [h] at h2
      obtain rfl := Option.some.inj h2
      exact ⟨c, List.mem_of_getElem? h1, hq⟩

/-- No cell selected: the code raises. -/
theorem C44_empty (so : List Int → List Int) (junk : Nat → Int) (g : Grid P) :
    extractCells so junk g [] = .error .value := rfl

/-- A cell number too large is refused. -/
theorem C44_out_of_range (so : List Int → List Int) (junk : Nat → Int) (g : Grid P) (ids : List Int)
    (h : ∃ id ∈ ids, (g.items.length : Int) ≤ id) : ∀ g', extractCells so junk g ids ≠ .ok g' := by
  intro g' hok
  unfold extractCells at hok
  obtain ⟨types, h1, -⟩ := bind_eq_ok.1 hok
  obtain ⟨id, hid, hlt⟩ := h
  obtain ⟨y, -, hy⟩ := mapM_mem_ok h1 hid
  rw [npGet_nonneg (by omega)] at hy
  obtain ⟨hlt', -⟩ := List.getElem?_eq_some_iff.1 hy
  simp only [Grid.celltypes, List.length_map] at hlt'
  omega

/-- Two quadrangles and a triangle between them. -/
def threeCells : Grid Nat := ⟨[(9, [0, 1, 4, 3]), (5, [1, 2, 4]), (9, [4, 2, 6, 5])], [10, 11, 12, 13, 14, 15, 16]⟩

theorem threeCells_wf : GridWF threeCells ∧ ∀ c ∈ threeCells.items, c.2.length < 255 := by unfold GridWF; decide

/-- The order of the selection is kept, points are renumbered. -/
example : extractCells id (fun _ => 77) threeCells [2, 1] =
    .ok ⟨[(9, [4, 3, 0, 1]), (5, [2, 3, 4])], [16, 15, 11, 12, 14]⟩ := by decide +kernel

example := C44_extract id (fun _ => 77) threeCells [2, 1] (fun l => List.Perm.refl l) threeCells_wf.1 (by decide) (by decide)
  threeCells_wf.2
example := C44_out_of_range id (fun _ => 77) threeCells [2, 3] ⟨3, by decide, by decide⟩

/-- Four triangles. -/
def fourTriangles : Grid Nat := ⟨[(5, [0, 1, 2]), (5, [1, 2, 3]), (5, [4, 5, 6]), (5, [5, 6, 7])], [10, 11, 12, 13, 14, 15, 16, 17]⟩

/-- **C44, negative numbers.** A negative number does not count from the end, as it does for Python lists: here -2 is accepted and gives a
triangle that no cell of the grid has. -/
theorem C44_negative_accepted : GridWF fourTriangles ∧ ∃ g', extractCells id (fun _ => 77) fourTriangles [-2] = .ok g' ∧
    shownCell g' 0 = some (5, [some 13, some 14, some 15]) ∧ shownCell fourTriangles 2 = some (5, [some 14, some 15, some 16]) ∧
    ∀ k, k < 4 → shownCell fourTriangles k ≠ shownCell g' 0 := by
  exact ⟨by unfold GridWF; decide, ⟨[(5, [0, 1, 2])], [13, 14, 15]⟩, by decide +kernel⟩

end Cfd.Vtk
