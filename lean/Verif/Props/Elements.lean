import Mathlib.Tactic.Ring
import Mathlib.Tactic.Linarith
import Verif.Spec.Elements
import Verif.Spec.Faces
import Verif.Lemmas.Basic

/-! C11-C13, C57: element tables. -/

namespace Cfd
open Spec

/-- The tables the readers may select. -/
def faceTables : List FaceTable := [cgnsElem2faces, gmshElem2faces]

/-! ## C11 -/

/-- C11: in both tables, the listed faces of each linear volume element are exactly the faces of the
convex hull of its nodes, each listed once. -/
theorem C11_faces_of_hull : ∀ tbl ∈ faceTables, ∀ et ∈ volumeTypes,
    (∀ S ∈ (List.range (refNodes et).length).sublists,
      ((facesOf tbl et).countP fun f => f.isPerm S) = if isHullFace et S then 1 else 0) ∧
    (∀ f ∈ facesOf tbl et, f.Nodup ∧ ∀ i ∈ f, i < (refNodes et).length) := by decide +kernel

/-- C11: the faces are grouped under the face type having their number of nodes, in the plane elements also. -/
theorem C11_faces_grouped : ∀ tbl ∈ faceTables, ∀ et ∈ "tri3" :: "quad4" :: volumeTypes,
    ∀ q ∈ (tbl.get? et).getD [], ∀ f ∈ q.2, nnodeElem.get? q.1 = some f.length := by decide +kernel

/-- C11: every edge is traversed once in each direction by the faces: the surface is closed and
consistently oriented. -/
theorem C11_closed : ∀ tbl ∈ faceTables, ∀ et ∈ volumeTypes,
    ((facesOf tbl et).flatMap dirEdges).Nodup ∧
    ∀ e ∈ (facesOf tbl et).flatMap dirEdges, (e.2, e.1) ∈ (facesOf tbl et).flatMap dirEdges := by
  decide +kernel

/-- C11: same for the plane elements: their edges form a closed contour. -/
theorem C11_closed_plane : ∀ tbl ∈ faceTables, ∀ et ∈ ["tri3", "quad4"],
    ((facesOf tbl et).map (·.headD 0)).Perm ((facesOf tbl et).map (·.getLastD 0)) := by
  decide +kernel

/-- C11: on the reference element, the normal of each listed face points to all the other nodes. -/
theorem C11_inward_reference : ∀ tbl ∈ faceTables, ∀ et ∈ volumeTypes, ∀ f ∈ facesOf tbl et,
    ∀ p ∈ List.range (refNodes et).length, p ∉ f →
      0 < side (refNode et (f.getD 0 0)) (refNode et (f.getD 1 0)) (refNode et (f.getD 2 0))
        (refNode et p) := by decide +kernel

/-- C11: reversed (as generated faces are), it points away from all the other nodes; the first three
nodes of the reversed list are used. -/
theorem outward_reference : ∀ tbl ∈ faceTables, ∀ et ∈ volumeTypes, ∀ f ∈ facesOf tbl et,
    ∀ p ∈ List.range (refNodes et).length, p ∉ f →
      side (refNode et (f.reverse.getD 0 0)) (refNode et (f.reverse.getD 1 0))
        (refNode et (f.reverse.getD 2 0)) (refNode et p) < 0 := by decide +kernel

theorem side_affine {R : Type} [CommRing R] (A : Affine R) (a b c p : Vec Int) :
    side (A.img a) (A.img b) (A.img c) (A.img p) = A.det * (side a b c p : Int) := by
  simp only [side, det3, vsub, Affine.img, Affine.det]
  push_cast
  ring

/-- C11: for every affine image with positive determinant of a reference element, over any ordered
ring, and both tables, each face as generated (reversed table order) has all the other nodes of the
cell strictly on the negative side: its normal points outward. -/
theorem C11_generated_outward {R : Type} [CommRing R] [LinearOrder R] [IsStrictOrderedRing R]
    (A : Affine R) (hA : 0 < A.det) (tbl : FaceTable) (ht : tbl ∈ faceTables) (et : String)
    (het : et ∈ volumeTypes) (f : List Nat) (hf : f ∈ facesOf tbl et) (p : Nat)
    (hp : p < (refNodes et).length) (hpf : p ∉ f) :
    side (A.img (refNode et (f.reverse.getD 0 0))) (A.img (refNode et (f.reverse.getD 1 0)))
      (A.img (refNode et (f.reverse.getD 2 0))) (A.img (refNode et p)) < 0 := by
  rw [side_affine]
  have h := outward_reference tbl ht et het f hf p (List.mem_range.2 hp) hpf
  have h' : ((side (refNode et (f.reverse.getD 0 0)) (refNode et (f.reverse.getD 1 0))
        (refNode et (f.reverse.getD 2 0)) (refNode et p) : Int) : R) < 0 := by exact_mod_cast h
  exact mul_neg_of_pos_of_neg hA h'

/-- A sheared and stretched hexahedron over the integers, its first face and the node opposite to 0. -/
example := C11_generated_outward (Affine.mk (2, 0, 0) (1, 3, 0) (0, 5, 1) (7, 7, 7) : Affine Int) (by decide)
  cgnsElem2faces (by decide) "hexa8" (by decide) [0, 1, 2, 3] (by decide) 6 (by decide) (by decide)

/-- A sheared and stretched box has positive determinant. -/
example : 0 < (Affine.mk (2, 0, 0) (1, 3, 0) (0, 5, 1) (7, 7, 7) : Affine Int).det := by decide

/-- C11, higher order: in the 27 node hexahedron table, corner positions are made inward but the
mid-edge nodes are left in the outward order, so a listed mid-edge node is not between the two corners
it is listed for. -/
theorem C11_hexa27_midedges_refuted :
    ∃ f ∈ facesOf cgnsElem2faces "hexa27",
      hexa27Cgns.getD (f.getD 4 0) (0, 0, 0) ≠
        mid (hexa27Cgns.getD (f.getD 0 0) (0, 0, 0)) (hexa27Cgns.getD (f.getD 1 0) (0, 0, 0)) := by
  decide +kernel

/-- C11, 27 node hexahedron: in both numberings, the six listed faces are 9 node quadrangles and start with the corners of the faces of the
8 node hexahedron; each lists exactly the nodes lying in the plane of these corners; the middle of the face comes
last and the four middles of edges follow the contour from the last corner backwards. -/
theorem C11_hexa27_faces : ∀ t ∈ [(cgnsElem2faces, hexa27Cgns), (gmshElem2faces, hexa27Gmsh)],
    ((t.1.get? "hexa27").getD []).map (·.1) = ["quad9"] ∧
    ((facesOf t.1 "hexa27").map (·.take 4)).Perm (facesOf t.1 "hexa8") ∧
    ∀ f ∈ facesOf t.1 "hexa27", f.Nodup ∧
      (∀ i < 27, (i ∈ f ↔ side (t.2.getD (f.getD 0 0) (0, 0, 0)) (t.2.getD (f.getD 1 0) (0, 0, 0))
        (t.2.getD (f.getD 2 0) (0, 0, 0)) (t.2.getD i (0, 0, 0)) = 0)) ∧
      (∀ k < 4, t.2.getD (f.getD (4 + k) 0) (0, 0, 0) =
        mid (t.2.getD (f.getD (3 - k) 0) (0, 0, 0)) (t.2.getD (f.getD ((4 - k) % 4) 0) (0, 0, 0))) ∧
      t.2.getD (f.getD 8 0) (0, 0, 0) = mid (t.2.getD (f.getD 0 0) (0, 0, 0)) (t.2.getD (f.getD 2 0) (0, 0, 0)) ∧
      f.length = 9 := by decide +kernel

/-! ## C12 -/

/-- C12: for every element type of both conversions, reordering a row one way and back gives the same
row. -/
theorem C12_reorder_roundtrip (et : String) (p q : List Nat) (hp : cgns2gmshPerms.get? et = some p)
    (hq : gmsh2cgnsPerms.get? et = some q) (row : List Int) (hrow : row.length = p.length) :
    reorder q (reorder p row) = row ∧ reorder p (reorder q row) = row := by
  have key : ∀ x ∈ cgns2gmshPerms, ∀ y ∈ gmsh2cgnsPerms, x.1 = y.1 →
      x.2.length = y.2.length ∧
      (∀ i < x.2.length, x.2.getD (y.2.getD i 0 - 1) 0 = i + 1 ∧ y.2.getD (x.2.getD i 0 - 1) 0 = i + 1 ∧
        x.2.getD i 0 - 1 < x.2.length ∧ y.2.getD i 0 - 1 < x.2.length) := by decide +kernel
  obtain ⟨hlen, hinv⟩ := key _ (Dict.mem_of_get? hp) _ (Dict.mem_of_get? hq) rfl
  simp only at hlen hinv
  constructor
  · apply List.ext_getElem
    · simp [reorder, ← hlen, hrow]
    · intro i h1 h2
      have h3 : i < p.length := by omega
      have h := (hinv i h3).1
      have hb := (hinv i h3).2.2.2
      have hi : i < q.length := by omega
      simp only [List.getD_eq_getElem?_getD, List.getElem?_eq_getElem hi, Option.getD_some] at h hb
      rw [List.getElem?_eq_getElem (by omega)] at h
      simp only [Option.getD_some] at h
      simp only [reorder, List.getElem_map, List.getD_eq_getElem?_getD]
      rw [List.getElem?_map, List.getElem?_eq_getElem (by omega)]
      simp only [Option.map_some, Option.getD_some, h]
      rw [Nat.add_sub_cancel, List.getElem?_eq_getElem h2]
      rfl
  · apply List.ext_getElem
    · simp [reorder, hrow]
    · intro i h1 h2
      have h3 : i < p.length := by omega
      have h := (hinv i h3).2.1
      have hb := (hinv i h3).2.2.1
      simp only [List.getD_eq_getElem?_getD, List.getElem?_eq_getElem h3, Option.getD_some] at h hb
      rw [List.getElem?_eq_getElem (by omega)] at h
      simp only [Option.getD_some] at h
      simp only [reorder, List.getElem_map, List.getD_eq_getElem?_getD]
      rw [List.getElem?_map, List.getElem?_eq_getElem (by omega)]
      simp only [Option.map_some, Option.getD_some, h]
      rw [Nat.add_sub_cancel, List.getElem?_eq_getElem h2]
      rfl

example := C12_reorder_roundtrip "hexa27" (cgns2gmshOf "hexa27") _ (by decide +kernel) rfl
  ((List.range 27).map fun i : Nat => (i : Int)) (by decide +kernel)

/-- C12: every stored ordering is a permutation of 1..n, with n the number of nodes of the type when
this number is declared. -/
theorem C12_permutations : ∀ x ∈ cgns2gmshPerms ++ gmsh2cgnsPerms,
    x.2.Perm ((List.range x.2.length).map (· + 1)) ∧
    ∀ n, nnodeElem.get? x.1 = some n → n = x.2.length := by
  have h : ∀ x ∈ cgns2gmshPerms ++ gmsh2cgnsPerms,
    x.2.Perm ((List.range x.2.length).map (· + 1)) ∧
    (nnodeElem.get? x.1 = none ∨ nnodeElem.get? x.1 = some x.2.length) := by decide +kernel
  intro x hx
  refine ⟨(h x hx).1, ?_⟩
  intro n hn
  rcases (h x hx).2 with h1 | h1
  · rw [h1] at hn; simp at hn
  · rw [h1] at hn; exact (Option.some.inj hn).symm

/-- C12: the only non trivial table is right: node i of the CGNS hexahedron is the Gmsh node announced
by the table, at the same place of the reference element. -/
theorem C12_hexa27_same_place : ∀ i < 27,
    hexa27Gmsh.getD ((cgns2gmshOf "hexa27").getD i 0 - 1) (0, 0, 0) = hexa27Cgns.getD i (0, 0, 0) := by
  decide +kernel

/-- A row that is really permuted. -/
example : reorder (cgns2gmshOf "hexa27") ((List.range 27).map fun i => (i : Int)) ≠
    (List.range 27).map (fun i => (i : Int)) := by decide +kernel

/-! ## C13 -/

/-- C13: extruding a bar or a quadrangle gives a type with twice as many nodes, of one more dimension,
for which both tables give faces. -/
theorem C13_extruded_supported_partial : ∀ et ∈ ["bar2", "quad4"], ∃ x, extrudedFace.get? et = some x ∧
    (∃ n, nnodeElem.get? et = some n ∧ nnodeElem.get? x = some (2 * n)) ∧
    (∃ d, dimElem.get? et = some d ∧ dimElem.get? x = some (d + 1)) ∧
    ∀ tbl ∈ faceTables, tbl.get? x ≠ none := by
  intro et het
  simp only [List.mem_cons, List.not_mem_nil, or_false] at het
  rcases het with rfl | rfl
  · exact ⟨"quad4", by decide, ⟨2, by decide⟩, ⟨1, by decide⟩, by decide +kernel⟩
  · exact ⟨"hexa8", by decide, ⟨4, by decide⟩, ⟨2, by decide⟩, by decide +kernel⟩

/-- C13 refuted for triangles: 'penta6' has no declared number of nodes and no faces in any table. -/
theorem C13_extruded_tri3_refuted : ∃ x, extrudedFace.get? "tri3" = some x ∧
    nnodeElem.get? x = none ∧ ∀ tbl ∈ faceTables, tbl.get? x = none :=
  ⟨"penta6", by decide, by decide, by decide +kernel⟩

/-! ## C57 -/

/-- Files that can be read; only the Gmsh reader changes the module-level table
(gmsh/reader.py:42). -/
inductive ReadKind where
  | gmsh
  | other

/-- Table in force after a history of reads (initially the CGNS one, _elements.py:228). -/
def tableAfter (h : List ReadKind) : FaceTable :=
  h.foldl (fun t k => match k with
    | .gmsh => gmshElem2faces
    | .other => t) cgnsElem2faces

theorem tableAfter_cases (h : List ReadKind) :
    tableAfter h = cgnsElem2faces ∨ tableAfter h = gmshElem2faces := by
  unfold tableAfter
  generalize hT : cgnsElem2faces = T
  have key : ∀ (h : List ReadKind) (t : FaceTable), t = T ∨ t = gmshElem2faces →
      h.foldl (fun t k => match k with
        | .gmsh => gmshElem2faces
        | .other => t) t = T ∨
      h.foldl (fun t k => match k with
        | .gmsh => gmshElem2faces
        | .other => t) t = gmshElem2faces := by
    intro h
    induction h with
    | nil => intro t ht; exact ht
    | cons k h ih =>
      intro t ht
      cases k with
      | gmsh => exact ih _ (Or.inr rfl)
      | other => exact ih _ ht
  exact key h T (Or.inl rfl)

theorem buildFaces_congr {t1 t2 : FaceTable} {c : ElemConn}
    (h : ∀ et ∈ c.tbl.keys, t1.get? et = t2.get? et) : createFaces t1 c = createFaces t2 c := by
  unfold createFaces
  congr 1
  unfold buildFaces
  generalize ([] : Dict String (List FaceOcc)) = d0
  unfold Dict.keys at h
  generalize c.tbl = T at h
  induction T generalizing d0 with
  | nil => rfl
  | cons p T ih =>
    rw [List.foldlM_cons, List.foldlM_cons]
    have hp : t1.getE p.1 = t2.getE p.1 := by
      unfold Dict.getE; rw [h p.1 (by simp)]
    rw [hp]
    congr 1
    funext d
    exact ih _ (fun et het => h et (by simp [het]))

/-- C57: for meshes of linear quadrangles, hexahedra, prisms, tetrahedra and pyramids, generated faces
do not depend on the history of reads. -/
theorem C57_history_independent_partial (h1 h2 : List ReadKind) (c : ElemConn)
    (hc : ∀ et ∈ c.tbl.keys, et ∈ ["quad4", "hexa8", "prism6", "tetra4", "pyra5"]) :
    createFaces (tableAfter h1) c = createFaces (tableAfter h2) c := by
  have key : ∀ et ∈ ["quad4", "hexa8", "prism6", "tetra4", "pyra5"],
      cgnsElem2faces.get? et = gmshElem2faces.get? et := by decide +kernel
  have h : ∀ h, createFaces (tableAfter h) c = createFaces cgnsElem2faces c := by
    intro h
    rcases tableAfter_cases h with e | e <;> rw [e]
    exact buildFaces_congr fun et het => (key et (hc et het)).symm
  rw [h h1, h h2]

/-- Two hexahedra, with or without a Gmsh file read before. -/
example := C57_history_independent_partial [.other] [.gmsh, .other, .gmsh]
  ⟨2, [("hexa8", ⟨.range 0 1, ⟨some 8, [[0, 1, 2, 3, 4, 5, 6, 7], [4, 5, 6, 7, 8, 9, 10, 11]]⟩⟩)]⟩ (by decide)

/-- C57 refuted: the faces of two triangles can be generated only after a Gmsh file was read. -/
theorem C57_triangles_refuted :
    ∃ c : ElemConn, createFaces (tableAfter []) c = .error .key ∧
      (createFaces (tableAfter [.gmsh]) c).map (fun r => r.i2c) = .ok (some [(0, 1)]) :=
  ⟨⟨2, [("tri3", ⟨.range 0 1, ⟨some 3, [[0, 1, 2], [1, 3, 2]]⟩⟩)]⟩, by decide +kernel, by decide +kernel⟩

end Cfd
