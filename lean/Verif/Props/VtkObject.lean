import Verif.Spec.VtkObject

/-!
# Cell volumes of a `vtkMesh` (C77)
-/

namespace Cfd.VtkObject
open Vtk Spec.VtkObject

variable {R V : Type} [Zero V] [DecidableEq V]

/-- The grid is the current one; the stored volumes are its volumes, and are stored when they were asked. -/
theorem after_inv (strict : Bool) (sizes : Grid (R × R × R) → List V) (h : List (Op R)) :
    (after strict sizes h).grid = current h ∧
    (after strict sizes h).volume = if asked h then (current h).map sizes else none := by
  induction h with
  | nil => exact ⟨rfl, rfl⟩
  | cons op t ih =>
    cases op with
    | setMesh m =>
      simp only [after, step, current, asked]
      cases Vtk.setMesh m <;> exact ⟨rfl, rfl⟩
    | setPvmesh g => exact ⟨rfl, rfl⟩
    | read f =>
      simp only [after, step, current, asked]
      cases f <;> exact ⟨rfl, rfl⟩
    | volumes =>
      obtain ⟨hg, hv⟩ := ih
      simp only [after, step, current, asked, if_true]
      generalize after strict sizes t = o at hg hv ⊢
      rcases o with ⟨g, v⟩
      simp only at hg hv
      subst hg
      unfold volumes
      cases hc : current t with
      | none =>
        have : v = none := by rw [hv, hc]; simp
        subst this
        simp [compute]
      | some g =>
        rw [hc] at hv
        split at hv
        · subst hv
          simp only [Option.map_some]
          generalize hs : sizes g = l
          match l with
          | [] => simp only; split <;> simp [compute, hs]
          | [x] => simp only; split <;> simp [compute, hs]
          | x :: y :: l => simp
        · subst hv
          simp [compute]

/-- C77: after every history, volumes that are returned are those of the cells of the current grid, never those of an earlier one;
without grid, AttributeError. -/
theorem C77_never_stale (strict : Bool) (sizes : Grid (R × R × R) → List V) (h : List (Op R)) :
    (∀ v, (volumes strict sizes (after strict sizes h)).1 = .ok v → ∃ g, current h = some g ∧ v = sizes g) ∧
    (current h = none → (volumes strict sizes (after strict sizes h)).1 = .error .attribute) := by
  obtain ⟨hg, hv⟩ := after_inv strict sizes h
  generalize after strict sizes h = o at hg hv
  rcases o with ⟨g, v⟩
  simp only at hg hv
  subst hg
  unfold volumes
  cases hc : current h with
  | none =>
    have : v = none := by rw [hv, hc]; simp
    subst this
    simp [compute]
  | some g =>
    rw [hc] at hv
    refine ⟨fun w hw => ⟨g, rfl, ?_⟩, fun h => by cases h⟩
    split at hv
    · subst hv
      simp only [Option.map_some] at hw
      generalize hs : sizes g = l at hw
      match l with
      | [] =>
        simp only [compute, hs] at hw
        split at hw
        · cases hw
        · cases hw; rfl
      | [x] =>
        simp only [compute, hs] at hw
        split at hw <;> (cases hw; rfl)
      | x :: y :: l => cases hw
    · subst hv
      simp only [compute] at hw
      cases hw; rfl

/-- C77: the first time volumes are asked after a grid was given, they are returned. -/
theorem C77_first (strict : Bool) (sizes : Grid (R × R × R) → List V) (h : List (Op R)) (g : Grid (R × R × R))
    (hg : current h = some g) (hfirst : asked h = false) :
    (volumes strict sizes (after strict sizes h)).1 = .ok (sizes g) := by
  obtain ⟨h1, h2⟩ := after_inv strict sizes h
  rw [hfirst, if_neg (by decide)] at h2
  unfold volumes
  rw [h2]
  simp only [compute, h1, hg]

/-- C77: asking again answers exactly for grids of one cell (and for empty grids, with the numpy versions that have a truth value for
empty arrays); otherwise ValueError. Missing: asking again should return the volumes of every grid. -/
theorem C77_again_partial (strict : Bool) (sizes : Grid (R × R × R) → List V) (hs : ∀ g, (sizes g).length = g.items.length)
    (h : List (Op R)) (g : Grid (R × R × R)) (hg : current h = some g) (hagain : asked h = true) :
    (volumes strict sizes (after strict sizes h)).1 =
      if g.items.length = 1 ∨ (g.items.length = 0 ∧ strict = false) then .ok (sizes g) else .error .value := by
  obtain ⟨h1, h2⟩ := after_inv strict sizes h
  rw [hagain, if_pos rfl, hg, Option.map_some] at h2
  rw [← hs g]
  unfold volumes
  rw [h2]
  generalize hl : sizes g = l
  match l with
  | [] => cases strict <;> simp [compute, h1, hg, hl]
  | [x] => by_cases hx : x = 0 <;> simp [compute, h1, hg, hl, hx]
  | x :: y :: l => simp

/-- Two tetrahedra. -/
def twoCells : Grid (Int × Int × Int) :=
  ⟨[(10, [0, 1, 2, 3]), (10, [1, 2, 3, 4])], [(0, 0, 0), (1, 0, 0), (0, 1, 0), (0, 0, 1), (1, 1, 1)]⟩

/-- Twice the number of points of each cell, in place of its volume. -/
def someSizes (g : Grid (Int × Int × Int)) : List Int := g.items.map fun c => 2 * c.2.length

example : (volumes true someSizes (after true someSizes [.setPvmesh twoCells, .volumes, .read (.error .os)])).1 = .ok [8, 8] :=
  C77_first true someSizes _ twoCells rfl rfl

example := C77_again_partial true someSizes (fun g => by simp [someSizes]) [.volumes, .setPvmesh twoCells] twoCells rfl rfl

/-- C77: the volumes of two cells cannot be asked twice. -/
theorem C77_again_refuted :
    ¬ ∀ (strict : Bool) (h : List (Op Int)) (g : Grid (Int × Int × Int)), current h = some g →
      (volumes strict someSizes (after strict someSizes h)).1 = .ok (someSizes g) := by
  intro h
  have := h false [.volumes, .setPvmesh twoCells] twoCells rfl
  revert this
  decide

/-- A mesh that cannot be converted leaves the object without grid, and without the volumes of the former one. -/
example : current [.setMesh (⟨1, 3, 0, none, [], none, []⟩ : Mesh Int), .volumes, .setPvmesh twoCells] = none := rfl
example := (C77_never_stale true someSizes
  [.setMesh (⟨1, 3, 0, none, [], none, []⟩ : Mesh Int), .volumes, .setPvmesh twoCells]).2 rfl

end Cfd.VtkObject
