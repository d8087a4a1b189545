import Verif.Model.Vtk

/-!
# Life of a `vtkMesh` object: setting grids and asking for cell volumes (C77)

vtk/_vtk.py. The object keeps the volumes it computed in `_volume`; `_reset` forgets them.

Assumed
* `compute_cell_sizes().cell_data["Volume"]` is a function `sizes` of the grid, with one value per cell;
* `not array` of numpy: False or True as the value of an array of one element, ValueError for two elements or more. For an empty
  array, numpy answers True up to version 2.1 and raises ValueError since (parameter `strict`);
* `pv.read(filename)` returns a grid or raises (parameter of the operation).

The grid handed out by `pyvista_grid` is not changed by the user.
-/

namespace Cfd.VtkObject
open Vtk

variable {R V : Type}

/-- The attributes `_grid` and `_volume` (_vtk.py:66-69). -/
structure Obj (R V : Type) where
  grid : Option (Grid (R × R × R))
  volume : Option (List V)

/-- `_reset()` (_vtk.py:66-69), also the object `vtkMesh()` (_vtk.py:60). -/
def Obj.reset : Obj R V := ⟨none, none⟩

/-- What is done with the object: `set_mesh` (_vtk.py:71-78), `set_pvmesh` (_vtk.py:80-82), `read` (_vtk.py:87-90),
`volumes` (_vtk.py:171-174). -/
inductive Op (R : Type) where
  | setMesh (m : Mesh R)
  | setPvmesh (g : Grid (R × R × R))
  | read (file : Py (Grid (R × R × R)))
  | volumes

/-- `self._volume = ...; return self._volume` (_vtk.py:173-174); without grid, `None` has no method. -/
def compute (sizes : Grid (R × R × R) → List V) (o : Obj R V) : Py (List V) × Obj R V :=
  match o.grid with
  | none => (.error .attribute, o)
  | some g => (.ok (sizes g), { o with volume := some (sizes g) })

/-- `volumes()` (_vtk.py:171-174). -/
def volumes [Zero V] [DecidableEq V] (strict : Bool) (sizes : Grid (R × R × R) → List V) (o : Obj R V) :
    Py (List V) × Obj R V :=
  match o.volume with
  | none => compute sizes o
  | some [] => if strict then (.error .value, o) else compute sizes o
  | some [v] => if v = 0 then compute sizes o else (.ok [v], o)
  | some (_ :: _ :: _) => (.error .value, o)

/-- A grid, or the exception that left the object reset. -/
def Obj.ofGrid : Py (Grid (R × R × R)) → Obj R V
  | .ok g => ⟨some g, none⟩
  | .error _ => Obj.reset

/-- The object after an operation. Each setter resets it first. -/
def step [Zero V] [DecidableEq V] (strict : Bool) (sizes : Grid (R × R × R) → List V) (o : Obj R V) : Op R → Obj R V
  | .setMesh m => Obj.ofGrid (Vtk.setMesh m)
  | .setPvmesh g => Obj.ofGrid (.ok g)
  | .read file => Obj.ofGrid file
  | .volumes => (volumes strict sizes o).2

/-- The object after a history, latest operation first. -/
def after [Zero V] [DecidableEq V] (strict : Bool) (sizes : Grid (R × R × R) → List V) : List (Op R) → Obj R V
  | [] => Obj.reset
  | op :: earlier => step strict sizes (after strict sizes earlier) op

end Cfd.VtkObject
