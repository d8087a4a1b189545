import Verif.Props.Ic3Writes

/-! C63: the structured cubes are written to IC3 files and read back. -/

namespace Cfd.Ic3
open Spec Spec.Ic3 ElemConn

/-- The faces of the cells of a cube. -/
theorem cube_face {c : Cube} {o : List Int × Int} (h : o ∈ facesOfCells cgnsElem2faces (cubeConn c)) :
    o ∈ cellFaces cgnsElem2faces (cubeConn c) "quad4" ∧ ∃ F, LabelOk c F ∧ o.1.Perm (faceNodes c F) ∧
      o.1.length = 4 := by
  obtain ⟨ft, hft⟩ := mem_cellFaces_of h
  have hq : ft = "quad4" := by
    by_contra hne
    rw [cellFaces_cube_other c ft hne] at hft
    simp at hft
  subst hq
  obtain ⟨F, h1, h2⟩ := label_of_cellFace hft
  refine ⟨hft, F, h1, h2, ?_⟩
  rw [h2.length_eq]
  unfold faceNodes
  rw [List.length_map]
  cases F.1 <;> rfl

theorem cube_facesOn {c : Cube} {o : List Int × Int} (h : o ∈ facesOfCells cgnsElem2faces (cubeConn c))
    {n : List Int} (hp : o.1.Perm n) {F : Label} (hF : LabelOk c F) (hn : n.Perm (faceNodes c F)) :
    ((facesOn cgnsElem2faces (cubeConn c) n).map (·.2)).Perm ((adjacent c F).map fun p => (c.elemIndex p : Int)) := by
  rw [facesOn_eq cgnsTable_widths (cube_face h).1 hp.length_eq]
  exact cells_beside hF hn

/-- Every grid face is a face of a cell. -/
theorem cube_face_of_label {c : Cube} {F : Label} (hF : LabelOk c F) {k : Nat} (hk : (adjacent c F).length = k + 1) :
    ∃ o ∈ facesOfCells cgnsElem2faces (cubeConn c), o.1.Perm (faceNodes c F) ∧ o.1.length = 4 ∧
      (facesOn cgnsElem2faces (cubeConn c) o.1).length = k + 1 := by
  have hocc := occurrences_cube c F hF
  rw [hk] at hocc
  have hpos : 0 < occurrences cgnsElem2faces (cubeConn c) "quad4" (faceNodes c F) := by omega
  unfold occurrences at hpos
  rw [List.countP_pos_iff] at hpos
  obtain ⟨o, ho, hp⟩ := hpos
  rw [List.isPerm_iff] at hp
  have hmem := mem_facesOfCells_of ho
  obtain ⟨_, _, _, _, h4⟩ := cube_face hmem
  refine ⟨o, hmem, hp, h4, ?_⟩
  have := (cube_facesOn hmem (List.Perm.refl _) hF hp).length_eq
  rw [List.length_map, List.length_map, hk] at this
  exact this

theorem cube_conforming (c : Cube) : Conforming cgnsElem2faces (cubeConn c) := by
  intro o ho
  obtain ⟨_, F, hF, hp, _⟩ := cube_face ho
  have := (cube_facesOn ho (List.Perm.refl _) hF hp).length_eq
  rw [List.length_map, List.length_map] at this
  rw [this]
  exact adjacent_length_le c F

theorem cube_faceCount {c : Cube} (hx : 1 ≤ c.nx) (hy : 1 ≤ c.ny) (hz : 1 ≤ c.nz) (h2 : 2 ≤ c.nx * c.ny * c.nz) :
    faceCount cgnsElem2faces (cubeConn c) = cubeFaces c := by
  obtain ⟨r, hr, h3, h4⟩ := faces_ok hx hy hz h2
  have := facesOf_generated cgnsTable_wf cgnsTable_widths (cubeConn_wf c) (cube_conforming c) hr
    (List.Perm.refl _) (List.Perm.refl _)
  rw [← faceCount_eq this]
  unfold storedFaces
  rw [List.length_append, List.length_map, List.length_map, h3]
  unfold cubeFaces
  have e1 : (c.nx + 1) * c.ny * c.nz = c.nx * c.ny * c.nz + c.ny * c.nz := by rw [Nat.add_mul, Nat.add_mul, Nat.one_mul]
  have e2 : c.nx * (c.ny + 1) * c.nz = c.nx * c.ny * c.nz + c.nx * c.nz := by
    rw [Nat.mul_add, Nat.add_mul, Nat.mul_one]
  have e3 : c.nx * c.ny * (c.nz + 1) = c.nx * c.ny * c.nz + c.nx * c.ny := by rw [Nat.mul_add, Nat.mul_one]
  rw [e1, e2, e3]
  simp only at h4 ⊢
  omega

variable {R : Type} [Div R] [NatCast R]

theorem nodesIjk_length (c : Cube) : c.nodesIjk.length = c.nnode := by
  have := congrArg List.length (nodes_numbers c)
  simpa using this

theorem cube_cells (bits : R → F64) {c : Cube} (hx : 1 ≤ c.nx) (hy : 1 ≤ c.ny) (hz : 1 ≤ c.nz) :
    CellMesh (storedMesh bits (cubeMesh c)) (cubeConn c) where
  cells := rfl
  conn := cubeConn_wf c
  some := by
    rw [cubeConn_elements]
    simpa using elemIjk_ne_nil hx hy hz
  numbering := by
    refine valid_of_perm_pyRange (n := c.ncell) ?_
    have : allIndices (cubeConn c) = pyRange 0 c.ncell := by
      unfold allIndices
      rw [cubeConn_elements, List.map_map]
      have h := congrArg (List.map fun n : Nat => (n : Int)) (elems_numbers c)
      rw [List.map_map] at h
      rw [show ((fun x : String × Int × List Int => x.2.1) ∘ fun p => ("hexa8", (c.elemIndex p : Int), c.hexaNodes p)) =
        ((fun n : Nat => (n : Int)) ∘ c.elemIndex) from rfl, h]
      simp [pyRange]
    rw [this]
  ncell := rfl
  noFaces := rfl
  coords := by
    intro x y z h
    simp only [storedMesh, cubeMesh, Option.map_some, Option.some.injEq, Prod.mk.injEq] at h
    obtain ⟨rfl, rfl, rfl⟩ := h
    simp [storedMesh, cubeMesh, nodesIjk_length]
  markKeys := by
    show ["imin", "imax", "jmin", "jmax", "kmin", "kmax"].Nodup
    decide
  onNodes := by
    intro p hp
    obtain ⟨q, _, rfl⟩ := List.mem_map.1 hp
    simp
  marksSet := by
    intro p hp
    obtain ⟨q, _, rfl⟩ := List.mem_map.1 hp
    simp
  notInternal := by
    intro p hp
    obtain ⟨q, _, rfl⟩ := List.mem_map.1 hp
    simp
  notReserved := by
    show "unmarked" ∉ ["imin", "imax", "jmin", "jmax", "kmin", "kmax"] ∧
      "internal-domain" ∉ ["imin", "imax", "jmin", "jmax", "kmin", "kmax"]
    decide

/-- A face of a cell is in the mark of a side when it lies in its plane. -/
theorem cube_onMark {c : Cube} {name : String} {b : Mark} (hb : (name, b) ∈ cubeMarks c) :
    ∃ q ∈ cubeSides c, q.1 = name ∧ q.2.2 ≤ cellsAlong c q.2.1 ∧ (q.2.2 = 0 ∨ q.2.2 = cellsAlong c q.2.1) ∧
      ∀ (F : Label), LabelOk c F → ∀ n : List Int, n.Perm (faceNodes c F) →
        ((∀ k ∈ n, k ∈ markItems b) ↔ F.1 = q.2.1 ∧ F.1.coord F.2 = q.2.2) := by
  obtain ⟨k, hk⟩ := List.mem_iff_getElem?.1 hb
  obtain ⟨ax, v, hs, _, hv, hitems⟩ := mem_cubeMarks hk
  have hmem := List.mem_of_getElem? hs
  refine ⟨(name, ax, v), hmem, rfl, hv, ?_, ?_⟩
  · simp only [cubeSides, List.mem_cons, Prod.mk.injEq, List.not_mem_nil, or_false] at hmem
    rcases hmem with ⟨_, rfl, rfl⟩ | ⟨_, rfl, rfl⟩ | ⟨_, rfl, rfl⟩ | ⟨_, rfl, rfl⟩ | ⟨_, rfl, rfl⟩ | ⟨_, rfl, rfl⟩ <;>
      simp [cellsAlong]
  · intro F hF n hn
    rw [← all_in_side hF ax v]
    constructor
    · intro h k hk
      exact (hitems k).1 (h k (hn.mem_iff.2 hk))
    · intro h k hk
      exact (hitems k).2 (h k (hn.mem_iff.1 hk))

theorem cubeSides_inj {c : Cube} (hx : 1 ≤ c.nx) (hy : 1 ≤ c.ny) (hz : 1 ≤ c.nz) {q q' : String × Axis × Nat}
    (h : q ∈ cubeSides c) (h' : q' ∈ cubeSides c) (he : q.2 = q'.2) : q = q' := by
  have hnd : ((cubeSides c).map (·.2)).Nodup := by
    simp only [cubeSides, List.map_cons, List.map_nil, List.nodup_cons, List.mem_cons, Prod.mk.injEq,
      reduceCtorEq, false_and, true_and, or_false, false_or, List.not_mem_nil, not_false_eq_true, List.nodup_nil,
      and_true, not_true_eq_false]
    omega
  exact List.inj_on_of_nodup_map hnd h h' he

/-- The grid face of a side above the first cells. -/
def sideLabel (ax : Axis) (v : Nat) : Label :=
  match ax with
  | .x => (.x, (v, 0, 0))
  | .y => (.y, (0, v, 0))
  | .z => (.z, (0, 0, v))

theorem sideLabel_spec {c : Cube} (hx : 1 ≤ c.nx) (hy : 1 ≤ c.ny) (hz : 1 ≤ c.nz) {ax : Axis} {v : Nat}
    (hv : v ≤ cellsAlong c ax) : LabelOk c (sideLabel ax v) ∧ (sideLabel ax v).1 = ax ∧
      ax.coord (sideLabel ax v).2 = v := by
  refine ⟨labelOk_iff.2 ⟨?_, ?_⟩, ?_, ?_⟩
  · cases ax <;> simpa [sideLabel, Axis.coord] using hv
  · intro ax' h'
    cases ax <;> cases ax' <;> simp_all [sideLabel, Axis.coord, cellsAlong] <;> omega
  · cases ax <;> rfl
  · cases ax <;> rfl

theorem cube_fits (bits : R → F64) {c : Cube} (hx : 1 ≤ c.nx) (hy : 1 ≤ c.ny) (hz : 1 ≤ c.nz)
    (h2 : 2 ≤ c.nx * c.ny * c.nz) (hn : Small ((c.nx + 1) * (c.ny + 1) * (c.nz + 1))) (hf : Small (cubeFaces c)) :
    CellsFit cgnsElem2faces (storedMesh bits (cubeMesh c)) (cubeConn c) where
  types := by
    intro t ht
    have : t = "hexa8" := by simpa [cubeConn, Dict.keys] using ht
    subst this
    intro h
    have hne := elemIjk_ne_nil hx hy hz
    obtain ⟨p, hp⟩ := List.exists_mem_of_ne_nil _ hne
    have : ("hexa8", (c.elemIndex p : Int), c.hexaNodes p) ∈ elements (cubeConn c) := by
      rw [cubeConn_elements]
      exact List.mem_map.2 ⟨p, hp, rfl⟩
    rw [mem_elements (cubeConn_wf c).keys, h] at this
    simp at this
  conforming := cube_conforming c
  width := by
    intro o ho
    obtain ⟨_, _, _, _, h4⟩ := cube_face ho
    omega
  outer := by
    intro o ho
    obtain ⟨h1, h3, h4⟩ := sideLabel_spec hx hy hz (ax := .x) (v := 0) (Nat.zero_le _)
    obtain ⟨o', k1, _, k3, k4⟩ := cube_face_of_label (k := 0) h1 (by
      rw [adjacent_length h1, h3, h4, if_pos (by simp [cellsAlong]; omega), if_neg (by omega)])
    obtain ⟨_, _, _, _, h4⟩ := cube_face ho
    exact ⟨o', k1, by omega, k4⟩
  inner := by
    intro o ho
    have hex : ∃ ax, 2 ≤ cellsAlong c ax := by
      by_contra hn
      push Not at hn
      have h1 := hn .x
      have h3 := hn .y
      have h4 := hn .z
      simp only [cellsAlong] at h1 h3 h4
      have h1 : c.nx = 1 := by omega
      have h3 : c.ny = 1 := by omega
      have h4 : c.nz = 1 := by omega
      rw [h1, h3, h4] at h2
      omega
    obtain ⟨ax, hax⟩ := hex
    obtain ⟨h1, h3, h4⟩ := sideLabel_spec hx hy hz (ax := ax) (v := 1) (by omega)
    obtain ⟨o', k1, _, k3, k4⟩ := cube_face_of_label (k := 1) h1 (by
      rw [adjacent_length h1, h3, h4, if_pos (by omega), if_pos (by omega)])
    obtain ⟨_, _, _, _, h4⟩ := cube_face ho
    exact ⟨o', k1, by omega, k4⟩
  markSome := by
    rintro ⟨name, b⟩ hp
    obtain ⟨q, hq, _, hv, hv2, hiff⟩ := cube_onMark hp
    obtain ⟨h1, h3, h4⟩ := sideLabel_spec hx hy hz hv
    have hpos : 1 ≤ cellsAlong c q.2.1 := by cases q.2.1 <;> simpa [cellsAlong]
    obtain ⟨o, k1, k2, _, k4⟩ := cube_face_of_label (k := 0) h1 (by
      rw [adjacent_length h1, h3, h4]
      split <;> split <;> omega)
    refine ⟨o, k1, k4, ?_⟩
    rw [hiff _ h1 _ k2, h3]
    exact ⟨rfl, h4⟩
  markApart := by
    rintro ⟨name, b⟩ hp ⟨name', b'⟩ hp' hne o ⟨⟨ho, _, h1⟩, _, _, h1'⟩
    obtain ⟨q, hq, hqn, _, _, hiff⟩ := cube_onMark hp
    obtain ⟨q', hq', hqn', _, _, hiff'⟩ := cube_onMark hp'
    obtain ⟨_, F, hF, hFp, _⟩ := cube_face ho
    have e := (hiff F hF _ hFp).1 h1
    have e' := (hiff' F hF _ hFp).1 h1'
    apply hne
    have : q = q' := cubeSides_inj hx hy hz hq hq' (Prod.ext (by rw [← e.1, e'.1]) (by rw [← e.2, e'.2]))
    show name = name'
    rw [← hqn, ← hqn', this]
  markKnown := by
    intro p hp
    obtain ⟨q, _, rfl⟩ := List.mem_map.1 hp
    exact ⟨rfl, by show "boundary" ∈ type2zonekind.keys; decide, by simp⟩
  counts := by
    refine ⟨hn, ?_, ?_⟩
    · show Small c.elemIjk.length
      rw [length_elemIjk]
      unfold Small at hn ⊢
      have : c.nx * c.ny * c.nz ≤ (c.nx + 1) * (c.ny + 1) * (c.nz + 1) :=
        Nat.mul_le_mul (Nat.mul_le_mul (by omega) (by omega)) (by omega)
      omega
    · rw [cube_faceCount hx hy hz h2]; exact hf
  numbers := by
    intro x hx1 n hn1
    rw [cubeConn_elements] at hx1
    obtain ⟨p, hp, rfl⟩ := List.mem_map.1 hx1
    rw [mem_elemIjk] at hp
    have hlt : ∀ q, InGrid (c.nx + 1, c.ny + 1, c.nz + 1) q → FitsInt 4 (c.nodeIndex q : Int) := by
      intro q hq
      have := (C23_numbering c).1.1 q hq
      unfold Small at hn
      unfold FitsInt
      omega
    obtain ⟨i, j, k⟩ := p
    simp only [InGrid, cellDims] at hp
    simp only [Cube.hexaNodes, List.mem_cons, List.not_mem_nil, or_false] at hn1
    rcases hn1 with rfl | rfl | rfl | rfl | rfl | rfl | rfl | rfl <;> apply hlt <;> simp only [InGrid] <;> omega
  coords := ⟨_, _, _, rfl⟩

theorem cube_outer {c : Cube} {F : Label} (hF : LabelOk c F) {cell : Int}
    (h : [cell].Perm ((adjacent c F).map fun p => (c.elemIndex p : Int))) :
    ∃ q, InGrid (c.nx, c.ny, c.nz) q ∧ cell = (c.elemIndex q : Int) ∧
      (F.1.coord F.2 = 0 ∧ q = F.2 ∨ F.1.coord F.2 = cellsAlong c F.1 ∧ F.1.next q = F.2) := by
  have h1 : (adjacent c F).length = 1 := by simpa using h.length_eq.symm
  obtain ⟨q, hq1⟩ := List.length_eq_one_iff.1 h1
  rw [hq1] at h
  simp only [List.map_cons, List.map_nil, List.perm_singleton, List.singleton_perm_singleton] at h
  have hqm : q ∈ adjacent c F := by rw [hq1]; simp
  refine ⟨q, ?_, by simpa using h, ?_⟩
  · unfold adjacent at hqm
    rw [List.mem_append] at hqm
    rcases hqm with h | h
    · split at h
      · rename_i hin; simp at h; rw [h]; exact hin
      · simp at h
    · split at h
      · rename_i hin; simp at h; rw [h]; exact hin.2
      · simp at h
  · rw [adjacent_length hF] at h1
    unfold adjacent at hqm
    rw [List.mem_append] at hqm
    rcases hqm with h | h
    · split at h
      · rename_i hin
        simp at h
        left
        refine ⟨?_, h⟩
        have : F.1.coord F.2 < cellsAlong c F.1 := by
          obtain ⟨ax, i, j, k⟩ := F
          cases ax <;> simp only [InGrid, cellDims, Axis.coord, cellsAlong] at hin ⊢ <;> omega
        rw [if_pos this] at h1
        split at h1 <;> omega
      · simp at h
    · split at h
      · rename_i hin
        simp at h
        right
        rw [if_pos hin.1] at h1
        refine ⟨?_, by rw [h, next_prev hin.1]⟩
        have := (labelOk_iff.1 hF).1
        split at h1 <;> omega
      · simp at h

/-- What is read of the cells and marks of a cube is the cube. -/
theorem cubeRead_of {c : Cube} (hx : 1 ≤ c.nx) (hy : 1 ≤ c.ny) (hz : 1 ≤ c.nz) (h2 : 2 ≤ c.nx * c.ny * c.nz)
    {bits : R → F64} {m0 : Mesh F64} (hf : m0 = storedMesh bits (cubeMesh c)) {lb li : List Face} {g : Mesh F64}
    (hfc : FromCells cgnsElem2faces (cubeConn c) m0 lb li g) : CubeRead c m0.coords lb li g := by
  have hbocos : m0.bocos = cubeMarks c := by rw [hf]; rfl
  have hcount : (lb ++ li).length = cubeFaces c := by
    rw [faceCount_eq hfc.facesOf, cube_faceCount hx hy hz h2]
  -- labels
  have hlb : ∀ f1 ∈ lb, ∃ F, LabelOk c F ∧ f1.1.Perm (faceNodes c F) ∧ ∃ a, f1.2 = (a, -1) ∧
      [a].Perm ((adjacent c F).map fun p => (c.elemIndex p : Int)) := by
    intro f1 hf1
    obtain ⟨a, h1, h3⟩ := hfc.facesOf.boundary f1 hf1
    have hmem : (f1.1, a) ∈ facesOn cgnsElem2faces (cubeConn c) f1.1 := by rw [h3]; simp
    have hmem := (mem_facesOn.1 hmem).1
    obtain ⟨_, F, hF, hp, _⟩ := cube_face hmem
    have := cube_facesOn hmem (List.Perm.refl _) hF hp
    rw [h3] at this
    exact ⟨F, hF, hp, a, h1, this⟩
  have hside : ∀ f1 ∈ lb, ∃ F, LabelOk c F ∧ f1.1.Perm (faceNodes c F) ∧
      (F.1.coord F.2 = 0 ∨ F.1.coord F.2 = cellsAlong c F.1) := by
    intro f1 hf1
    obtain ⟨F, hF, hp, a, _, ha⟩ := hlb f1 hf1
    obtain ⟨q, _, _, h3⟩ := cube_outer hF ha
    refine ⟨F, hF, hp, ?_⟩
    rcases h3 with h3 | h3
    · exact .inl h3.1
    · exact .inr h3.1
  have hmarkOf : ∀ q ∈ cubeSides c, ∃ b, (cubeMarks c).get? q.1 = some b := by
    intro q hq
    have hk : q.1 ∈ (cubeMarks c).keys := by
      have : (cubeMarks c).keys = (cubeSides c).map (·.1) := rfl
      rw [this]
      exact List.mem_map_of_mem hq
    exact Dict.mem_keys_iff.1 hk
  have hnames : ∀ q ∈ cubeSides c, ∀ q' ∈ cubeSides c, q.1 = q'.1 → q = q' := by
    intro q hq q' hq' h
    have hnd : ((cubeSides c).map (·.1)).Nodup := by
      show ["imin", "imax", "jmin", "jmax", "kmin", "kmax"].Nodup
      decide
    exact List.inj_on_of_nodup_map hnd hq hq' h
  constructor
  · rw [hfc.ncell, hf]; exact length_elemIjk c
  · rw [hfc.nnode, hf]; rfl
  · rw [hfc.coords]
  · exact hfc.faces
  · exact hcount
  · intro f1 hf1
    obtain ⟨F, hF, hp, a, h1, ha⟩ := hlb f1 hf1
    obtain ⟨q, h3, h4, h5⟩ := cube_outer hF ha
    exact ⟨F.1, F.2, q, h3, ⟨hF, hp⟩, h5, by rw [h1, h4]⟩
  · intro f1 hf1
    obtain ⟨n, h1⟩ := hfc.facesOf.internal f1 hf1
    have hmem : (f1.1, f1.2.1) ∈ facesOn cgnsElem2faces (cubeConn c) f1.1 := by rw [h1.mem_iff]; simp
    have hmem := (mem_facesOn.1 hmem).1
    obtain ⟨_, F, hF, hp, _⟩ := cube_face hmem
    have h3 := cube_facesOn hmem (List.Perm.refl _) hF hp
    have h4 := (h1.map (·.2)).symm.trans h3
    simp only [List.map_cons, List.map_nil] at h4
    have hl := h4.length_eq
    rw [List.length_map] at hl
    unfold adjacent at hl h4
    split at hl
    · split at hl
      · rename_i ha hb'
        refine ⟨F.1, prev F.1 F.2, hb'.2, ?_, ?_, ?_⟩
        · rw [next_prev hb'.1]; exact ha
        · rw [next_prev hb'.1]; exact ⟨hF, hp⟩
        · rw [if_pos ha, if_pos hb'] at h4
          simp only [List.map_cons, List.map_nil, List.cons_append, List.nil_append] at h4
          rw [next_prev hb'.1]
          rcases perm_pair h4 with h | h
          · right; exact Prod.ext h.1 h.2
          · left; exact Prod.ext h.1 h.2
      · simp at hl
    · split at hl <;> simp at hl
  · intro q hq
    obtain ⟨b0, hb0⟩ := hmarkOf q hq
    obtain ⟨b', k1, k2, k3, k4⟩ := hfc.marks q.1 b0 (by rw [hbocos]; exact hb0)
    obtain ⟨q', hq', hqn, _, _, hiff⟩ := cube_onMark (Dict.mem_of_get? hb0)
    have hqq := hnames _ hq' _ hq hqn
    subst hqq
    have htype : b0.type = "boundary" := by
      obtain ⟨x, _, hx⟩ := List.mem_map.1 (Dict.mem_of_get? hb0)
      rw [← (Prod.mk.inj hx).2]
    refine ⟨b', k1, k2, by rw [k3, htype], ?_⟩
    intro i
    rw [k4]
    refine and_congr_right fun _ => exists_congr fun f1 => ?_
    constructor
    · rintro ⟨h1, h3⟩
      obtain ⟨F, hF, hp, _⟩ := hside f1 (List.mem_of_getElem? h1)
      have h5 := (hiff F hF _ hp).1 h3
      refine ⟨F.2, h1, ?_, ?_⟩
      · rw [← h5.1]; exact ⟨hF, hp⟩
      · rw [← h5.1]; exact h5.2
    · rintro ⟨p, h1, h3, h5⟩
      exact ⟨h1, (hiff (q'.2.1, p) h3.1 _ h3.2).2 ⟨rfl, h5⟩⟩
  · intro name hname
    rcases hfc.others name hname with h | h | h
    · left
      rw [hbocos] at h
      exact h
    · exfalso
      subst h
      obtain ⟨b', hb'⟩ := Dict.mem_keys_iff.1 hname
      obtain ⟨_, hne, hit⟩ := hfc.unmarked b' hb'
      obtain ⟨i, hi⟩ := List.exists_mem_of_ne_nil _ hne
      obtain ⟨_, f1, hf1, hno⟩ := (hit i).1 hi
      obtain ⟨F, hF, hp, h3⟩ := hside f1 (List.mem_of_getElem? hf1)
      obtain ⟨q, hq, hqe⟩ : ∃ q ∈ cubeSides c, q.2 = (F.1, F.1.coord F.2) := by
        rcases h3 with h3 | h3 <;> rw [h3] <;> cases F.1 <;> simp [cubeSides, cellsAlong]
      obtain ⟨b0, hb0⟩ := hmarkOf q hq
      obtain ⟨q', hq', hqn, _, _, hiff⟩ := cube_onMark (Dict.mem_of_get? hb0)
      have hqq := hnames _ hq' _ hq hqn
      subst hqq
      refine hno (q'.1, b0) (by rw [hbocos]; exact Dict.mem_of_get? hb0) ?_
      have := (hiff F hF _ hp).2 ⟨by rw [hqe], by rw [hqe]⟩
      exact this
    · exact .inr h
  · rw [← hcount]
    apply hfc.tiles
    intro hnil
    obtain ⟨h1, h3, h4⟩ := sideLabel_spec hx hy hz (ax := .x) (v := 0) (Nat.zero_le _)
    obtain ⟨o, k1, _, _, k4⟩ := cube_face_of_label (k := 0) h1 (by
      rw [adjacent_length h1, h3, h4, if_pos (by simp [cellsAlong]; omega), if_neg (by omega)])
    have honce := hfc.facesOf.once o k1
    rw [hnil, List.nil_append] at honce
    have hpos : 0 < li.countP fun f => f.1.isPerm o.1 := by omega
    rw [List.countP_pos_iff] at hpos
    obtain ⟨f1, hf1, hp⟩ := hpos
    rw [List.isPerm_iff] at hp
    obtain ⟨n, hn2⟩ := hfc.facesOf.internal f1 hf1
    have e1 : facesOn cgnsElem2faces (cubeConn c) f1.1 = facesOn cgnsElem2faces (cubeConn c) o.1 := by
      unfold facesOn
      apply List.filter_congr
      intro x _
      rw [Bool.eq_iff_iff, List.isPerm_iff, List.isPerm_iff]
      exact ⟨fun h => h.trans hp, fun h => h.trans hp.symm⟩
    have := hn2.length_eq
    rw [e1, k4] at this
    simp at this

/-- C63: a structured cube of two cells or more, within the limits of 32-bit numbers, is written by both
versions in both byte orders, with any data of the right sizes; the file is read as the same cube, whose
zones are the six sides and the internal faces. -/
theorem C63_cube (c : Cube) (hx : 1 ≤ c.nx) (hy : 1 ≤ c.ny) (hz : 1 ≤ c.nz) (h2 : 2 ≤ c.nx * c.ny * c.nz)
    (hnode : Small ((c.nx + 1) * (c.ny + 1) * (c.nz + 1))) (hface : Small (cubeFaces c))
    (m : Mesh R) (hm : c.exportMesh = .ok m) (bits : R → F64)
    (so : List Int → List Int) (hso : Reorders so) (host : Order) (e : Endian) (v : Ver) (cv : Conv)
    (f : FullMesh) (hf : f.mesh = storedMesh bits m) (hn : NamesFit f)
    (hd : DataStorable v f { f.mesh with nface := cubeFaces c }) (df : DataFits v cv f f.mesh.ncell) (integ : Bool) :
    ∃ b g lb li, writeIc3 cgnsElem2faces so host e v cv f = (some b, .ok ()) ∧ readIc3 integ b = .ok g ∧
      CubeRead c f.mesh.coords lb li g.mesh := by
  have hm' : m = cubeMesh c := by
    rw [exportMesh_eq c (elemIjk_ne_nil hx hy hz)] at hm
    simpa using hm.symm
  subst hm'
  have hcm : CellMesh f.mesh (cubeConn c) := hf ▸ cube_cells bits hx hy hz
  have hfit : CellsFit cgnsElem2faces f.mesh (cubeConn c) := hf ▸ cube_fits bits hx hy hz h2 hnode hface
  obtain ⟨b, g, lb, li, hw, hr, hfc⟩ := C63_cells cgnsElem2faces cgnsTable_wf cgnsTable_widths so hso host e v cv f
    (cubeConn c) hcm (cubeConn_known c) hfit hn (by rw [cube_faceCount hx hy hz h2]; exact hd) df integ
  exact ⟨b, g, lb, li, hw, hr, cubeRead_of hx hy hz h2 hf hfc⟩

/-- C63: a cube of one cell is refused, whatever is written. -/
theorem C63_one_cell (m : Mesh R) (hm : (Cube.mk 1 1 1).exportMesh = .ok m) (bits : R → F64)
    (so : List Int → List Int) (host : Order) (e : Endian) (v : Ver) (cv : Conv) (f : FullMesh)
    (hf : f.mesh = storedMesh bits m) :
    writeIc3 cgnsElem2faces so host e v cv f = (none, .error .assertion) := by
  rw [exportMesh_eq _ (by decide)] at hm
  simp only [Except.ok.injEq] at hm
  subst hm
  have hcreate : createFaces cgnsElem2faces (cubeConn ⟨1, 1, 1⟩) = .error .assertion := by decide +kernel
  have : completeMesh cgnsElem2faces so f.mesh = .error .assertion := by
    unfold completeMesh needFaces Mesh.makeFaces
    rw [hf]
    simp only [storedMesh, cubeMesh, hcreate]
    rfl
  unfold writeIc3
  rw [this]
  rfl

/-- A cube of 2 x 1 x 3 cells, with a cell field; coordinates are indices here. -/
def cube213 : FullMesh where
  mesh := storedMesh UInt64.ofNat (cubeMesh ⟨2, 1, 3⟩ : Mesh Nat)
  cells := ⟨some ⟨.dataSet, "cellaverage", 1, "instant"⟩, [("P", ⟨[6], .f64 [1, 2, 3, 4, 5, 6]⟩)]⟩
  nodes := []
  params := []
  partition := none

-- the hypotheses of C63 are met
example : (Cube.mk 2 1 3).exportMesh = .ok (cubeMesh ⟨2, 1, 3⟩ : Mesh Nat) := exportMesh_eq _ (by decide)
example : cubeFaces ⟨2, 1, 3⟩ = 29 ∧ Small (cubeFaces ⟨2, 1, 3⟩) ∧ Small ((2 + 1) * (1 + 1) * (3 + 1)) := by decide
theorem cube213_names : NamesFit cube213 where
  marks := by decide
  weights := by intro d hd; simp [cube213, Dict.get?] at hd
  nodes := by decide
  cells := by decide
theorem cube213_data : ∀ v, DataStorable v cube213 { cube213.mesh with nface := cubeFaces ⟨2, 1, 3⟩ } := by
  intro v
  have e : dofOf v cube213.cells = 1 := by cases v <;> rfl
  constructor
  · decide
  · decide
  · intro p hp; simp [cube213] at hp
  · intro p hp
    simp only [cube213, List.mem_singleton] at hp
    subst hp
    rw [e]
    exact ⟨.inl (by decide), by decide⟩
  · intro h; simp [cube213] at h
  · intro _
    rw [e]
    decide
theorem cube213_fits (v : Ver) (cv : Conv) : DataFits v cv cube213 cube213.mesh.ncell where
  part := .inl rfl
  step := by intro s h; simp [cube213, Dict.get?] at h
  dt := by intro s h; simp [cube213, Dict.get?] at h
  time := by intro s h; simp [cube213, Dict.get?] at h
  wgt := by intro s h; simp [cube213, Dict.get?] at h
  nodes := by intro p hp; simp [cube213] at hp
  cells := by
    intro p hp
    simp only [cube213, List.mem_singleton] at hp
    subst hp
    intro _ _
    trivial
  attrs := fun _ _ => ⟨_, rfl, by decide, by decide⟩
/-- What is read: the six sides, then the seven internal faces. -/
example : (reread .v3 cube213).map (fun g => g.mesh.bocos.map fun p => (p.1, p.2.index)) =
    some [("imin", .range 0 2), ("imax", .range 3 5), ("jmin", .range 6 11), ("jmax", .range 12 17),
      ("kmin", .range 18 19), ("kmax", .range 20 21), ("internal-domain", .range 22 28)] := by
  decide +kernel

/-- C63 applied to this cube, and the refusal of one cell. -/
example (e : Endian) (v : Ver) (cv : Conv) (integ : Bool) := C63_cube ⟨2, 1, 3⟩ (by decide) (by decide) (by decide) (by decide)
  (by decide) (by decide) (cubeMesh ⟨2, 1, 3⟩ : Mesh Nat) (exportMesh_eq _ (by decide)) UInt64.ofNat id
  (fun l => List.Perm.refl l) .little e v cv cube213 rfl cube213_names (cube213_data v) (cube213_fits v cv) integ
example (e : Endian) (v : Ver) (cv : Conv) := C63_one_cell (cubeMesh ⟨1, 1, 1⟩ : Mesh Nat) (exportMesh_eq _ (by decide))
  UInt64.ofNat id .little e v cv { cube213 with mesh := storedMesh UInt64.ofNat (cubeMesh ⟨1, 1, 1⟩ : Mesh Nat) } rfl

end Cfd.Ic3
