import Verif.Lemmas.VtkMesh

/-!
# Conversions between meshes and VTK grids (C61)
-/

namespace Cfd.Vtk
open Cfd.Spec Cfd.Spec.Vtk ElemConn

variable {P : Type}

/-- A mesh VTK can hold: coordinates of all nodes, known cell types, right numbers of nodes, existing nodes. -/
structure Convertible {R : Type} (m : Mesh R) (c : ElemConn) (x y z : List R) : Prop where
  cells : m.cell2node = some c
  coords : m.coords = some (x, y, z)
  ylen : x.length = y.length
  zlen : x.length = z.length
  wf : ConnWF c
  types : ∀ t ∈ c.tbl.keys, ∃ y ∈ vtkTypes, y.1 = t
  nodes : ∀ e ∈ elements c, (∃ y ∈ vtkTypes, e.1 = y.1 ∧ e.2.2.length = y.2.2) ∧ ∀ q ∈ e.2.2, 0 ≤ q ∧ q < x.length

/-- **C61, from a mesh to VTK.** The grid has the nodes of the mesh and, type by type, its cells in order. -/
theorem C61_to_vtk {R : Type} (m : Mesh R) (c : ElemConn) (x y z : List R) (h : Convertible m c x y z) :
    ∃ g, setMesh m = .ok g ∧ KnownCells g ∧ SameCells g c ∧ g.points = x.zip (y.zip z) := by
  refine ⟨_, setMesh_ok m c x y z h.cells h.coords h.ylen h.zlen h.wf h.types h.nodes, ?_,
    sameCells_items c _ h.wf h.types, rfl⟩
  intro e0 he0
  obtain ⟨e, he, rfl⟩ := List.mem_map.1 he0
  obtain ⟨⟨w, hw, e1, e2⟩, h3⟩ := h.nodes e he
  have := h.ylen
  have := h.zlen
  refine ⟨⟨w, hw, by simp only [e1, codeOf_name hw], e2⟩, fun q hq => ?_⟩
  have := h3 q hq
  simp
  omega

/-- **C61, from VTK to a mesh.** The mesh has the points of the grid and, type by type, its cells in order, numbered
from 0; there is no mark. -/
theorem C61_from_vtk {R : Type} (g : Grid (R × R × R)) (hg : KnownCells g) :
    ∃ m c, exportMesh g = .ok m ∧
      Convertible m c (g.points.map (·.1)) (g.points.map (·.2.1)) (g.points.map (·.2.2)) ∧ SameCells g c ∧
      allIndices c = pyRange 0 g.items.length ∧ m.ncell = g.items.length ∧ m.nnode = g.points.length ∧
      m.bocos = [] := by
  obtain ⟨m, c, e, hc, w, s, k, al, nc, nn, co, bo, -⟩ := exportMesh_ok hg
  refine ⟨m, c, e, ⟨hc, co, by simp, by simp, w, k, ?_⟩, s, al, nc, nn, bo⟩
  intro e he
  obtain ⟨y, hy, hye⟩ : ∃ y ∈ vtkTypes, y.1 = e.1 := by
    apply k
    unfold elements at he
    obtain ⟨p, hp, he⟩ := List.mem_flatMap.1 he
    obtain ⟨q, -, rfl⟩ := List.mem_map.1 he
    exact List.mem_map.2 ⟨p, hp, rfl⟩
  have hrow : e.2.2 ∈ cellsOfType g y.2.1 := by
    rw [s.1 y hy]
    unfold rowsOfType
    rw [List.mem_map]
    refine ⟨e.2, ?_, rfl⟩
    rw [← mem_elements w.keys, hye]
    exact he
  unfold cellsOfType at hrow
  obtain ⟨c', hc', e1⟩ := List.mem_map.1 hrow
  rw [List.mem_filter] at hc'
  obtain ⟨⟨v, hv, e2, e3⟩, h4⟩ := hg c' hc'.1
  have e4 : c'.1 = y.2.1 := by simpa using hc'.2
  have : y = v := (codes_inj y hy v hv).2 (by rw [← e4, e2])
  subst this
  rw [← e1]
  refine ⟨⟨y, hy, hye.symm, e3⟩, fun q hq => ?_⟩
  have := h4 q hq
  simpa using this

/-- **C61, round trip.** A mesh converted to VTK and back has the same coordinates and, type by type, the same cells
in the same order. -/
theorem C61_round_trip {R : Type} (m : Mesh R) (c : ElemConn) (x y z : List R) (h : Convertible m c x y z) :
    ∃ g m' c', setMesh m = .ok g ∧ exportMesh g = .ok m' ∧ m'.cell2node = some c' ∧ m'.coords = m.coords ∧
      (∀ t, rowsOfType c' t = rowsOfType c t) ∧ m'.ncell = c.nelem ∧ allIndices c' = pyRange 0 c.nelem := by
  obtain ⟨g, e1, k1, s1, p1⟩ := C61_to_vtk m c x y z h
  obtain ⟨m', c', e2, v2, s2, a2, n2, -, -⟩ := C61_from_vtk g k1
  have hn : g.items.length = c.nelem := by rw [s1.2, h.wf.nelem]
  refine ⟨g, m', c', e1, e2, v2.cells, ?_, ?_, by rw [n2, hn], by rw [a2, hn]⟩
  · have hy := h.ylen
    have hz := h.zlen
    rw [v2.coords, h.coords, p1, ← List.unzip_fst, List.unzip_zip (by simp; omega)]
    congr 2
    have hs : (x.zip (y.zip z)).map (fun q : R × R × R => q.2) = y.zip z := by
      exact List.map_snd_zip (by simp; omega)
    have e5 : (x.zip (y.zip z)).map (fun q : R × R × R => q.2.1) = y := by
      have : (x.zip (y.zip z)).map (fun q : R × R × R => q.2.1) =
        ((x.zip (y.zip z)).map (fun q : R × R × R => q.2)).map (·.1) := by rw [List.map_map]; rfl
      rw [this, hs]; exact List.map_fst_zip (by omega)
    have e6 : (x.zip (y.zip z)).map (fun q : R × R × R => q.2.2) = z := by
      have : (x.zip (y.zip z)).map (fun q : R × R × R => q.2.2) =
        ((x.zip (y.zip z)).map (fun q : R × R × R => q.2)).map (·.2) := by rw [List.map_map]; rfl
      rw [this, hs]; exact List.map_snd_zip (by omega)
    rw [e5, e6]
  · intro t
    by_cases ht : ∃ w ∈ vtkTypes, w.1 = t
    · obtain ⟨w, hw, rfl⟩ := ht
      rw [← s1.1 w hw, ← s2.1 w hw]
    · have key : ∀ d : ElemConn, (∀ t ∈ d.tbl.keys, ∃ y ∈ vtkTypes, y.1 = t) → rowsOfType d t = [] := by
        intro d hd
        have : d.tbl.get? t = none := Dict.get?_eq_none_iff.2 fun hm => ht (hd t hm)
        simp [rowsOfType, elementsOf, this]
      rw [key c h.types, key c' v2.types]

/-- **C61, through an HDF5 file.** Whatever the order in which h5py lists the types, the grid read has the points of
the grid dumped and, type by type, its cells in order. -/
theorem C61_hdf (order : Dict String Arr2 → Dict String Arr2) (horder : ∀ d, List.Perm (order d) d) (g : Grid P)
    (hg : KnownCells g) :
    ∃ h g', dumpMesh g = .ok h ∧ importMesh order h = .ok g' ∧ g'.points = g.points ∧
      ∀ k, cellsOfType g' k = cellsOfType g k := by
  obtain ⟨D, hD, hd, hi, hcn, -⟩ := hdf_items order horder g hg
  refine ⟨_, _, hd, hi, rfl, fun k => ?_⟩
  rw [cellsOfType_dict _ _ (by simpa [Dict.keys, Function.comp_def] using hcn)]
  have hperm : List.Perm ((order D).map fun p => (codeOf p.1, p.2)) (cellsDict g) := by
    refine ((horder D).map _).trans ?_
    rw [hD, List.map_map]
    have : (cellsDict g).map ((fun p : String × Arr2 => (codeOf p.1, p.2)) ∘ fun p => (nameOf p.1, p.2)) = cellsDict g := by
      conv_rhs => rw [← List.map_id (cellsDict g)]
      apply List.map_congr_left
      intro q hq
      obtain ⟨y, hy, e, -⟩ := cellsDict_known hg q hq
      obtain ⟨k, a⟩ := q
      simp only at e
      simp only [Function.comp_apply, e, nameOf_code hy, codeOf_name hy, id]
    rw [this]
  rw [get?_perm' hperm (by rw [cellsDict_keys]; exact nodup_npUnique _), ← cellsDict_get? g k]

/-- A cell type VTK has no name for here (as the prisms made by extruding triangles, called `penta6`) is refused. -/
theorem C61_unknown_type {R : Type} (m : Mesh R) (c : ElemConn) (x y z : List R) (hm : m.cell2node = some c)
    (hco : m.coords = some (x, y, z)) (hxy : x.length = y.length) (hxz : x.length = z.length)
    (h : ∃ t ∈ c.tbl.keys, vtktypeEle.get? t = none) : setMesh m = .error .key := by
  unfold setMesh nodesNd
  rw [hco, hm]
  simp only
  rw [if_pos ⟨hxy, hxz⟩]
  simp only [Except_bind_ok]
  have key : ∀ (l : Dict String Entry) (d : Dict Int Arr2), (∃ t ∈ l.keys, vtktypeEle.get? t = none) →
      l.foldlM (fun (d : Dict Int Arr2) p => do
        let t ← vtktypeEle.getE p.1
        return d.set t p.2.e2n) d = .error .key := by
    intro l
    induction l with
    | nil => rintro d ⟨t, ht, -⟩; simp [Dict.keys] at ht
    | cons p l ih =>
      rintro d ⟨t, ht, hn⟩
      rw [List.foldlM_cons]
      cases hp : vtktypeEle.get? p.1 with
      | none => simp only [Dict.getE, hp]; rfl
      | some k =>
        rw [Dict.getE_eq_ok.2 hp]
        simp only [Except_bind_ok]
        apply ih
        refine ⟨t, ?_, hn⟩
        simp only [Dict.keys, List.map_cons, List.mem_cons] at ht
        rcases ht with rfl | ht
        · rw [hp] at hn; cases hn
        · exact ht
  rw [key c.tbl [] h]; rfl

/-- A mesh with two triangles and a quadrangle, the quadrangle numbered first. -/
def mixedCells : ElemConn :=
  ⟨3, [("quad4", ⟨.list [0], ⟨some 4, [[0, 1, 4, 3]]⟩⟩), ("tri3", ⟨.list [2, 1], ⟨some 3, [[1, 2, 4], [4, 2, 5]]⟩⟩)]⟩

def mixedMesh : Mesh Nat :=
  ⟨3, 6, 0, some mixedCells, [], some ([0, 1, 2, 0, 1, 2], [0, 0, 0, 1, 1, 1], [7, 7, 7, 7, 7, 7]), []⟩

theorem mixedMesh_convertible : Convertible mixedMesh mixedCells [0, 1, 2, 0, 1, 2] [0, 0, 0, 1, 1, 1] [7, 7, 7, 7, 7, 7] where
  cells := rfl
  coords := rfl
  ylen := rfl
  zlen := rfl
  wf := by
    refine ⟨by decide, ?_, by decide⟩
    intro p hp
    simp only [mixedCells, List.mem_cons, List.not_mem_nil, or_false] at hp
    rcases hp with rfl | rfl
    · exact ⟨⟨[0], rfl, rfl⟩, by unfold Arr2.WF; decide⟩
    · exact ⟨⟨[2, 1], rfl, rfl⟩, by unfold Arr2.WF; decide⟩
  types := by decide
  nodes := by decide

/-- The VTK codes give another order of the types; the numbers of the cells change accordingly. -/
example : (setMesh mixedMesh).bind (fun g => (exportMesh g).map fun m => m.cell2node) =
    .ok (some ⟨3, [("tri3", ⟨.range 0 1, ⟨some 3, [[1, 2, 4], [4, 2, 5]]⟩⟩),
      ("quad4", ⟨.range 2 2, ⟨some 4, [[0, 1, 4, 3]]⟩⟩)]⟩) := by decide

/-- The grid used in the examples. -/
def sixPoints : Grid Nat := ⟨[(9, [0, 1, 4, 3]), (5, [1, 2, 4]), (5, [4, 2, 5])], [0, 1, 2, 3, 4, 5]⟩

theorem sixPoints_known : KnownCells sixPoints := by unfold KnownCells; decide

example : (dumpMesh sixPoints).bind (importMesh List.reverse) =
    .ok ⟨[(9, [0, 1, 4, 3]), (5, [1, 2, 4]), (5, [4, 2, 5])], [0, 1, 2, 3, 4, 5]⟩ := by decide

example : vtktypeEle.get? "penta6" = none := by decide

/-- C61 applied to this mesh and this grid. -/
example := C61_to_vtk _ _ _ _ _ mixedMesh_convertible
example := C61_round_trip _ _ _ _ _ mixedMesh_convertible
example := C61_hdf List.reverse (fun d => List.reverse_perm d) sixPoints sixPoints_known
example := C61_from_vtk (⟨[(9, [0, 1, 4, 3]), (5, [1, 2, 4]), (5, [4, 2, 5])], (List.range 6).map fun k => (k, 0, 1)⟩ :
  Grid (Nat × Nat × Nat)) (by unfold KnownCells; decide)
example := C61_unknown_type { mixedMesh with cell2node := some ⟨1, [("penta6", ⟨.range 0 0, ⟨some 6, [[0, 1, 2, 3, 4, 5]]⟩⟩)]⟩ }
  _ _ _ _ rfl rfl rfl rfl ⟨"penta6", by decide, by decide⟩

end Cfd.Vtk
