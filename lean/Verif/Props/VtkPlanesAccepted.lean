import Verif.Props.VtkAccepted
import Verif.Props.VtkConv

/-!
# Planes whose cells have been put in columns (C46)

`C46_columns` says what the columns are for planes known to be above each other. Here nothing is known but that the columns have been
built.
-/

namespace Cfd.Vtk
open Cfd.Spec Cfd.Spec.Vtk

variable {P K V : Type} [LinearOrder K]

/-- A row is built only if every cell of the plane is close to a cell of the first plane. -/
theorem planeRow_close {dist : P → P → K} {nn : P → Nat} {tol : K} {xy : List P} {first chunk r : List Nat}
    (hf : ∀ i ∈ first, i < xy.length) (hc : ∀ i ∈ chunk, i < xy.length) (h : planeRow dist nn tol xy first chunk = .ok r) :
    ∀ p ∈ positions xy chunk, ∃ q ∈ positions xy first, dist q p ≤ tol := by
  unfold planeRow at h
  rw [gather_positions xy chunk hc, gather_positions xy first hf] at h
  simp only [Except_bind_ok] at h
  obtain ⟨near, hnear, h⟩ := bind_eq_ok.1 h
  obtain ⟨dmax, hmax, h⟩ := bind_eq_ok.1 h
  split at h
  · cases h
  rename_i hle
  intro p hp
  rw [mapM_ok_iff] at hnear
  obtain ⟨i, hi, rfl⟩ := List.mem_iff_getElem.1 hp
  have hi' : i < near.length := by rw [← hnear.length_eq]; exact hi
  have h1 := (List.forall₂_iff_get.1 hnear).2 i hi hi'
  simp only [List.get_eq_getElem] at h1
  obtain ⟨q, hq, h2⟩ := bind_eq_ok.1 h1
  rw [npGet_nat] at hq
  refine ⟨q, List.mem_of_getElem? hq, ?_⟩
  have h3 : dist q (positions xy chunk)[i] = near[i] := by simpa using h2
  rw [h3]
  exact ((npMax_ok hmax).2 _ (List.getElem_mem hi')).trans (not_lt.1 hle)

/-- **C46, columns that have been built.** Planes with as many cells (as the detection of the planes ensures), the cells of each plane
more than twice the tolerance apart: the columns are built if and only if the cells of every plane are above those of the first one, up
to the tolerance, and then every row lists the cells of its plane once, each at the place of the cell of the first plane it is above.
The hypothesis `hstd` is a property of the standard deviation: it is at most the largest distance to any given position. -/
theorem C46_columns_iff [Add K] [AddLeftMono K] [AddRightMono K] (N : ZNum P K V) {dist : P → P → K} (hd : IsDist dist)
    {tol : K} {nn : List P → P → Nat} (xy : List P) (first : List Nat) (rest : List (List Nat))
    (hr : ∀ c ∈ first :: rest, ∀ i ∈ c, i < xy.length) (hne : first ≠ []) (hnd : ∀ c ∈ rest, c.Nodup)
    (hlen : ∀ c ∈ rest, c.length = first.length) (hself : ∀ p ∈ xy, dist p p ≤ tol)
    (hnn : IsNearest dist (positions xy first) (nn (positions xy first)))
    (hsep : ∀ c ∈ first :: rest, Separated dist tol (positions xy c))
    (hstd : ∀ (c : List P) (p : P), (∀ q ∈ c, dist p q ≤ tol) → N.posStd c ≤ tol) :
    ((∃ ik, locate N dist nn tol xy (first :: rest) = .ok ik) ↔
      ∀ c ∈ rest, ∃ σ, SameCenters dist tol (positions xy first) (positions xy c) σ) ∧
    ∀ ik, locate N dist nn tol xy (first :: rest) = .ok ik → Located dist tol xy (first :: rest) ik := by
  have hf := hr first (by simp)
  have key : ∀ ik, locate N dist nn tol xy (first :: rest) = .ok ik →
      ∀ c ∈ rest, ∃ σ, SameCenters dist tol (positions xy first) (positions xy c) σ := by
    intro ik h c hc
    unfold locate at h
    simp only at h
    rw [gather_positions xy first hf] at h
    simp only [Except_bind_ok] at h
    obtain ⟨rows, hrows, -⟩ := bind_eq_ok.1 h
    rw [mapM_ok_iff] at hrows
    obtain ⟨i, hi, rfl⟩ := List.mem_iff_getElem.1 hc
    have h1 := (List.forall₂_iff_get.1 hrows).2 i hi (by rw [← hrows.length_eq]; exact hi)
    have hcr := hr _ (List.mem_cons_of_mem _ hc)
    refine near_centers hd ?_ (hsep _ (List.mem_cons_of_mem _ hc)) (planeRow_close hf hcr h1)
    rw [positions_length xy _ hcr, positions_length xy _ hf, hlen _ hc]
  have hcols := fun hs => C46_columns N hd xy first rest hr hne hnd hself hnn (hsep first (by simp)) hstd hs
  refine ⟨⟨fun ⟨ik, h⟩ => key ik h, fun hs => ?_⟩, fun ik h => ?_⟩
  · obtain ⟨ik, e, -⟩ := hcols hs
    exact ⟨ik, e⟩
  · obtain ⟨ik', e, hl⟩ := hcols (key ik h)
    rw [h] at e
    obtain rfl := Except.ok.inj e
    exact hl

/-- The hypotheses hold for two planes of two cells. -/
example := C46_columns_iff intNum intDist_isDist (tol := 2) (nn := closest) fourXY [1, 2] [[0, 3]] (by decide) (by decide) (by decide)
  (by decide) (by decide) (closest_isNearest _ (by decide))
  (by
    have h2 : ∀ (l : List Int) (i : Nat) (a : Int), l.length = 2 → l[i]? = some a → i = 0 ∨ i = 1 := by
      intro l i a hl h
      obtain ⟨h, -⟩ := List.getElem?_eq_some_iff.1 h
      omega
    intro c hc i j a b ha hb hij
    simp only [List.mem_cons, List.not_mem_nil, or_false] at hc
    rcases hc with rfl | rfl <;> rcases h2 _ i a rfl ha with rfl | rfl <;> rcases h2 _ j b rfl hb with rfl | rfl <;>
      simp [positions, fourXY] at ha hb hij <;> subst ha hb <;> decide)
  (fun c p h => intNum_posStd c p 2 h (by decide))

-- the columns are built
example : locate intNum intDist closest 2 fourXY [[1, 2], [0, 3]] = .ok [[1, 2], [3, 0]] := by decide +kernel

end Cfd.Vtk
