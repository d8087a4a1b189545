import Verif.Props.Closure
import Verif.Props.Convert

/-! # C83, Gmsh files converted to IC3 files -/

namespace Cfd.Spec.Convert
open Cfd.Spec.Gmsh

/-- The cells of a Gmsh file are consistently oriented: two cells that share a face list its nodes in opposite
directions. -/
def OrientedElts (elts : List Elt) : Prop := ∀ n₁ n₂,
  (((cellsOf elts).flatMap eltFaces).filter fun f => f.isPerm n₁).Perm [n₁, n₂] → n₂.IsRotated n₁.reverse

end Cfd.Spec.Convert

namespace Cfd.Convert
open Cfd.Spec Cfd.Spec.Ic3 Cfd.Spec.Gmsh Cfd.Spec.Convert Cfd.Ic3 Cfd.Gmsh ElemConn

theorem succ_inj : Function.Injective fun l : List Int => l.map (· + 1) :=
  List.map_injective_iff.2 fun a b h => by simpa using h

theorem oriented_elts {elts : List Elt} {c : ElemConn} (h : IsCells (cellsOf elts) c)
    (hs : ∀ e ∈ cellsOf elts, e.Supported) (ho : OrientedElts elts) : Oriented gmshElem2faces c := by
  intro o₁ o₂ hp
  have h1 : (((cellsOf elts).flatMap eltFaces).filter fun f => f.isPerm (o₁.1.map (· + 1))).Perm
      [o₁.1.map (· + 1), o₂.1.map (· + 1)] := by
    refine ((faces_perm h hs).symm.filter _).trans ?_
    rw [List.filter_map]
    have := hp.map fun o => o.1.map (· + 1)
    refine List.Perm.trans (List.Perm.of_eq ?_) this
    unfold facesOn
    congr 1
    apply List.filter_congr
    intro o _
    simp only [Function.comp_apply]
    rw [Bool.eq_iff_iff, List.isPerm_iff, List.isPerm_iff, succ_perm]
  obtain ⟨k, hk⟩ := ho _ _ h1
  refine ⟨k, succ_inj ?_⟩
  simp only [List.map_rotate, List.map_reverse]
  exact hk

theorem cell_elt {elts : List Elt} {c : ElemConn} (h : IsCells (cellsOf elts) c) {x : String × Int × List Int}
    (hx : x ∈ elements c) : ∃ e ∈ cellsOf elts, e.name = x.1 ∧ x.2.2 = e.nodes.map (· - 1) := by
  have hm : x.2.2 ∈ (elementsOf c x.1).map (·.2) := by
    unfold elements at hx
    obtain ⟨p, hp, hx⟩ := List.mem_flatMap.1 hx
    obtain ⟨q, hq, rfl⟩ := List.mem_map.1 hx
    unfold elementsOf
    rw [Dict.get?_of_mem h.wf.keys hp]
    exact List.mem_map_of_mem (f := Prod.snd) hq
  rw [h.rows] at hm
  obtain ⟨e, he, hr⟩ := List.mem_map.1 hm
  obtain ⟨h1, h2⟩ := List.mem_filter.1 he
  exact ⟨e, h1, by simpa using h2, hr.symm⟩

theorem getD_lt {l : List Int} {k : Nat} (h : k < l.length) : l.getD k 0 = l[k] := by
  rw [List.getD_eq_getElem?_getD, List.getElem?_eq_getElem h, Option.getD_some]

/-- A node of a cell of the mesh, with the number it has in the file. -/
theorem node_elt {e : Elt} {row : List Int} (h : row = e.nodes.map (· - 1)) {k : Nat} (hk : k < e.nodes.length) :
    row.getD k 0 + 1 = e.nodes.getD k 0 := by
  subst h
  rw [getD_lt (by simpa using hk), getD_lt hk, List.getElem_map]
  omega

theorem volume_elt {elts : List Elt} (hs : ∀ e ∈ cellsOf elts, e.Supported) (h3 : topDim elts = 3) {e : Elt}
    (he : e ∈ cellsOf elts) : e.name ∈ volumeTypes ∧ e.nodes.length = (refNodes e.name).length := by
  have hd := (List.mem_filter.1 he).2
  simp only [h3, decide_eq_true_eq] at hd
  obtain ⟨t, d, hg⟩ := hs e he
  unfold Elt.dim at hd
  unfold Elt.name
  rw [hg] at hd ⊢
  simp only [Option.getD_some] at hd ⊢
  have key : ∀ q ∈ documented, q.2.2.1 = 3 → q.2.1 ∈ volumeTypes ∧ q.2.2.2 = (refNodes q.2.1).length := by decide
  exact key _ (Dict.mem_of_get? hg) hd

variable {R : Type} {store : Option R → F64} {pts : List (Option (R × R × R))} {names : Option (List PhysName)}
  {elts : List Elt} {c : ElemConn} {lb li : List Face} {g : Mesh F64}

/-- C83: the faces of the IC3 mesh of a Gmsh file of consistently oriented volume cells are conservative. -/
theorem C83_gmsh (hc : Converted store pts names elts c lb li g) (hsup : ∀ e ∈ elts, e.Supported)
    (h3 : topDim elts = 3) (ho : OrientedElts elts) : Conservative g.ncell lb li := by
  have hs : ∀ e ∈ cellsOf elts, e.Supported := fun e he => hsup e (List.mem_of_mem_filter he)
  refine conservative_numbered (tbl := gmshElem2faces) (by decide) (c := c) ?_ ?_ (oriented_elts hc.cells hs ho) hc.facesOf
  · rw [hc.cells.indices, hc.ncell]
  · intro x hx
    obtain ⟨e, he, hn, _⟩ := cell_elt hc.cells hx
    rw [← hn]
    exact (volume_elt hs h3 he).1

/-- C83: when moreover the cells of the Gmsh file have a positive volume (affine images of the reference elements of
positive determinant: any tetrahedron of positive volume), the normal of each face of the IC3 mesh leaves its first
cell and enters its second one. -/
theorem C83_gmsh_directed (hc : Converted store pts names elts c lb li g) (hsup : ∀ e ∈ elts, e.Supported)
    (h3 : topDim elts = 3) (ho : OrientedElts elts)
    {K : Type} [CommRing K] [LinearOrder K] [IsStrictOrderedRing K] (X : Int → Vec K)
    (hA : ∀ e ∈ cellsOf elts, ∃ A : Affine K, 0 < A.det ∧
      ∀ k < e.nodes.length, X (e.nodes.getD k 0) = A.img (refNode e.name k))
    (f : Face) (hf : f ∈ lb ++ li) :
    (∃ e ∈ cellsOf elts, fileNodes f ∈ eltFaces e ∧
      ∀ n ∈ e.nodes, n ∉ fileNodes f → sideOfFace X (fileNodes f) n < 0) ∧
    (f ∈ li → ∃ e ∈ cellsOf elts, (∃ n ∈ eltFaces e, n.IsRotated (fileNodes f).reverse) ∧
      ∀ n ∈ e.nodes, n ∉ fileNodes f → 0 < sideOfFace X (fileNodes f) n) := by
  have hs : ∀ e ∈ cellsOf elts, e.Supported := fun e he => hsup e (List.mem_of_mem_filter he)
  have hn : ValidNumbering (allIndices c) :=
    valid_of_perm_pyRange (n := (cellsOf elts).length) (by rw [hc.cells.indices])
  have hv : ∀ x ∈ elements c, x.1 ∈ volumeTypes := by
    intro x hx
    obtain ⟨e, he, hn, _⟩ := cell_elt hc.cells hx
    rw [← hn]
    exact (volume_elt hs h3 he).1
  have hor := oriented_elts hc.cells hs ho
  have hX : ∀ x ∈ elements c, ∃ A : Affine K, 0 < A.det ∧
      ∀ k < (refNodes x.1).length, X (x.2.2.getD k 0 + 1) = A.img (refNode x.1 k) := by
    intro x hx
    obtain ⟨e, he, hne, hrow⟩ := cell_elt hc.cells hx
    obtain ⟨A, h1, h2⟩ := hA e he
    have hl := (volume_elt hs h3 he).2
    refine ⟨A, h1, fun k hk => ?_⟩
    rw [← hne] at hk ⊢
    rw [← h2 k (by omega), node_elt hrow (by omega)]
  have hdir := C83_directed (fun n => X (n + 1)) gmshElem2faces (by decide) c hv hn hor hX lb li hc.facesOf f hf
  -- positions of nodes of the face
  have hface : ∀ o ∈ facesOfCells gmshElem2faces c, ∀ x ∈ elements c, x.2.1 = o.2 → ∃ e ∈ cellsOf elts, e.name = x.1 ∧
      x.2.2 = e.nodes.map (· - 1) ∧ o.1.map (· + 1) ∈ eltFaces e := by
    intro o ho x hx hxo
    obtain ⟨y, hy, hyo, t, ht, hot⟩ := cell_of_face ho
    have hxy : y = x := by
      have hnd := hn.1
      unfold allIndices at hnd
      exact List.inj_on_of_nodup_map hnd hy hx (hyo.trans hxo.symm)
    subst hxy
    obtain ⟨e, he, hne, hrow⟩ := cell_elt hc.cells hx
    refine ⟨e, he, hne, hrow, ?_⟩
    obtain ⟨q, hq, htq⟩ := List.mem_flatMap.1 ht
    unfold eltFaces
    rw [hne]
    refine List.mem_flatMap.2 ⟨q, hq, List.mem_map.2 ⟨t, htq, ?_⟩⟩
    rw [hot, List.map_map]
    apply List.map_congr_left
    intro k hk
    have hk := (faces_lengths gmshElem2faces (by decide) y.1 (hv y hy) t ht).2 k (List.mem_reverse.1 hk)
    have hl := (volume_elt hs h3 he).2
    rw [hne] at hl
    exact (node_elt hrow (by omega)).symm
  have hlen : 3 ≤ f.1.length := by
    obtain ⟨y, hy, _, t, ht, hot⟩ := cell_of_face ((faces_cells hc.facesOf).1 f hf)
    have := (faces_lengths gmshElem2faces (by decide) y.1 (hv y hy) t ht).1
    simp only at hot
    rw [hot]
    simpa using this
  have hside : ∀ n, sideOfFace (fun n => X (n + 1)) f.1 (n - 1) = sideOfFace X (fileNodes f) n := by
    intro n
    unfold sideOfFace fileNodes
    have hg : ∀ k < 3, (f.1.map (· + 1)).getD k 0 = f.1.getD k 0 + 1 := by
      intro k hk
      rw [getD_lt (by simp; omega), getD_lt (by omega), List.getElem_map]
    rw [hg 0 (by omega), hg 1 (by omega), hg 2 (by omega)]
    simp only [sub_add_cancel]
  have hnode : ∀ (e : Elt) (row : List Int), e ∈ cellsOf elts → row = e.nodes.map (· - 1) → ∀ n ∈ e.nodes,
      n ∉ fileNodes f → ∃ k < (refNodes e.name).length, row.getD k 0 = n - 1 ∧ row.getD k 0 ∉ f.1 := by
    intro e row he hrow n hne hnf
    obtain ⟨k, hk, hkn⟩ := List.mem_iff_getElem.1 hne
    have h1 := node_elt hrow hk
    rw [getD_lt hk, hkn] at h1
    refine ⟨k, by rw [← (volume_elt hs h3 he).2]; exact hk, by omega, fun h => hnf ?_⟩
    exact List.mem_map.2 ⟨_, h, h1⟩
  constructor
  · have ho := (faces_cells hc.facesOf).1 f hf
    obtain ⟨x, hx, hxo, _⟩ := cell_of_face ho
    obtain ⟨e, he, hne, hrow, hfe⟩ := hface _ ho x hx hxo
    refine ⟨e, he, hfe, fun n hne' hnf => ?_⟩
    obtain ⟨k, hk, h1, h2⟩ := hnode e _ he hrow n hne' hnf
    rw [← hside, ← h1]
    rw [hne] at hk
    exact (hdir x.1 x.2.1 x.2.2 hx k hk h2).1 hxo.symm
  · intro hfi
    obtain ⟨nodes, ho, hp⟩ := (faces_cells hc.facesOf).2 f hfi
    obtain ⟨x, hx, hxo, _⟩ := cell_of_face ho
    obtain ⟨e, he, hne, hrow, hfe⟩ := hface _ ho x hx hxo
    refine ⟨e, he, ⟨_, hfe, ?_⟩, fun n hne' hnf => ?_⟩
    · obtain ⟨k, hk⟩ := hor (f.1, f.2.1) (nodes, f.2.2) hp
      refine ⟨k, ?_⟩
      simp only at hk ⊢
      rw [← List.map_rotate, hk]
      simp [fileNodes]
    · obtain ⟨k, hk, h1, h2⟩ := hnode e _ he hrow n hne' hnf
      rw [← hside, ← h1]
      rw [hne] at hk
      exact (hdir x.1 x.2.1 x.2.2 hx k hk h2).2 hxo.symm

/-! ## A case -/

/-- Two tetrahedra sharing a face, on its two sides. -/
theorem pair_oriented : OrientedElts pairElts := by
  intro n₁ n₂ h
  have hm : n₁ ∈ (cellsOf pairElts).flatMap eltFaces := by
    have : n₁ ∈ ((cellsOf pairElts).flatMap eltFaces).filter fun f => f.isPerm n₁ := by rw [h.mem_iff]; simp
    exact List.mem_of_mem_filter this
  have hm2 : n₂ ∈ (cellsOf pairElts).flatMap eltFaces := by
    have : n₂ ∈ ((cellsOf pairElts).flatMap eltFaces).filter fun f => f.isPerm n₁ := by rw [h.mem_iff]; simp
    exact List.mem_of_mem_filter this
  have key : ∀ n₁ ∈ (cellsOf pairElts).flatMap eltFaces, ∀ n₂ ∈ (cellsOf pairElts).flatMap eltFaces,
      (((cellsOf pairElts).flatMap eltFaces).filter fun f => f.isPerm n₁).isPerm [n₁, n₂] = true →
      ∃ k < 3, n₂.rotate k = n₁.reverse := by decide +kernel
  obtain ⟨k, _, hk⟩ := key n₁ hm n₂ hm2 (List.isPerm_iff.2 h)
  exact ⟨k, hk⟩

example (store : Option Int → F64) (e : Endian) (v : Ver) (cv : Conv) (integ : Bool) : ∃ m b g lb li,
    Gmsh.read intNum pairMsh = .ok m ∧
    writeIc3 gmshElem2faces id .little e v cv (imported (stored store m)) = (some b, .ok ()) ∧ readIc3 integ b = .ok g ∧
    MeshFaces g.mesh (lb ++ li) ∧ Conservative g.mesh.ncell lb li := by
  obtain ⟨-, h2, -, -, h5, h6, h7, h8, h9, -⟩ := pair_meets
  obtain ⟨m, hm, hi⟩ := pair_read
  have ht : 2 ≤ topDim pairElts := by rw [h2]; decide
  obtain ⟨b, hb⟩ := C64_converts hm hi pair_supported ht h5 h6 h7 h8 h9 store id (fun l => List.Perm.refl l) .little e v cv
  obtain ⟨c, g, lb, li, hg, hc⟩ := C64_mesh hm hi pair_supported ht h5 h6 store id (fun l => List.Perm.refl l) .little e v cv b hb integ
  exact ⟨m, b, g, lb, li, hm, hb, hg, hc.faces, C83_gmsh hc pair_supported h2 pair_oriented⟩

/-- Positions of the nodes of the file, in half units. -/
def pairPlace (n : Int) : Vec Int :=
  if n = 2 then (10, 0, 0) else if n = 3 then (0, 12, 0) else if n = 4 then (0, 0, 14) else
    if n = 5 then (16, 16, 16) else (0, 0, 0)

theorem pair_positive : ∀ e ∈ cellsOf pairElts, ∃ A : Affine Int, 0 < A.det ∧
    ∀ k < e.nodes.length, pairPlace (e.nodes.getD k 0) = A.img (refNode e.name k) := by
  have key : ∀ e ∈ cellsOf pairElts, ∃ A ∈ [Affine.mk (5, 0, 0) (0, 6, 0) (0, 0, 7) (0, 0, 0),
      Affine.mk (-3, -8, -8) (-8, -8, -1) (-8, -2, -8) (16, 16, 16)], 0 < A.det ∧
      ∀ k < e.nodes.length, pairPlace (e.nodes.getD k 0) = A.img (refNode e.name k) := by decide +kernel
  intro e he
  obtain ⟨A, _, h⟩ := key e he
  exact ⟨A, h⟩

example {store : Option Int → F64} {c : ElemConn} {lb li : List Face} {g : Mesh F64}
    (hc : Converted store (pairNodes.map fun q => some q.2) (some tetraNames) pairElts c lb li g) (f : Face)
    (hf : f ∈ lb ++ li) := C83_gmsh_directed hc pair_supported pair_meets.2.1 pair_oriented pairPlace pair_positive f hf

end Cfd.Convert
