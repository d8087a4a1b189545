import Verif.Props.Ic3V4
import Verif.Props.Ic3Cube
import Verif.Lemmas.Ic3V4Cells

/-! C86: what the IC3 V4 writer accepts, and the V4 files of meshes of cells and node marks. -/

namespace Cfd.Ic3
open Spec Spec.Ic3 ElemConn

/-- **C86, acceptance**: a mesh that can be completed and exported is written exactly when each of its zones fits the
file and, if the solution is asked for, when the solution does. -/
theorem C86_accepts (tbl : FaceTable) (so : List Int → List Int) (h5 : H5) (cv : Conv) (f : FullMesh) (sol : Bool)
    (m : Mesh F64) (l : List Face) (hk : Keeps32 h5) (hc : completeMesh tbl so f.mesh = .ok m)
    (hs : Storable m l) (hf : FitsV4 m l) (hxyz : ∃ x y z, m.coords = some (x, y, z))
    (hx : m.faces.get? "mixed" = none → ∃ r, m.exportMixed = .ok r) :
    (∃ r, writeV4 tbl so h5 cv f sol = .ok r) ↔
      (∀ p ∈ m.bocos, p.2.type ≠ "internal" → ZoneFits p.1 p.2) ∧ (sol = true → SolFits f) := by
  obtain ⟨w, hw⟩ := setMesh_of (f := f) hs hxyz hx
  rw [← meshFile_iff hk hw hs hf, ← solFile_iff (cv := cv)]
  unfold writeV4
  rw [hc, Except_bind_ok, hw, Except_bind_ok]
  constructor
  · rintro ⟨r, h⟩
    obtain ⟨x, h1, h⟩ := bind_eq_ok.1 h
    refine ⟨⟨x, h1⟩, fun hsol => ?_⟩
    rw [if_pos hsol] at h
    obtain ⟨s, h2, -⟩ := bind_eq_ok.1 h
    exact ⟨s, h2⟩
  · rintro ⟨⟨x, h1⟩, h2⟩
    rw [h1, Except_bind_ok]
    cases sol with
    | false => exact ⟨_, rfl⟩
    | true =>
      obtain ⟨s, h2⟩ := h2 rfl
      rw [if_pos rfl, h2]
      exact ⟨_, rfl⟩

/-- The marks read make a partition of the faces. -/
theorem v4_tiles {m : Mesh F64} {l : List Face} {k : Int} {g : FullMesh} (hkeys : m.bocos.keys.Nodup)
    (hnames : ∀ p ∈ m.bocos, p.2.type ≠ "internal" → p.1 ≠ "internal-domain")
    (hg : g.mesh.bocos.keys.Nodup) (hsame : SameMarks m k l.length g) (hk : 0 ≤ k) (hkl : k ≤ l.length)
    (hz : (zoneItems m).Perm (pyRange 0 k)) : (marked g.mesh).Perm (pyRange 0 l.length) := by
  let T : List (String × Mark) := (m.bocos.filter fun p => decide (p.2.type ≠ "internal")).map (fun p =>
      (p.1, (⟨p.1, .bdface, p.2.type, p.2.index, p.2.perio.map (List.take 3)⟩ : Mark))) ++
    [("internal-domain", ⟨"internal-domain", .intface, "internal", .range k ((l.length : Int) - 1), none⟩)]
  have hT : (T.map (·.1)).Nodup := by
    show (List.map _ (_ ++ _)).Nodup
    rw [List.map_append, List.map_map, List.nodup_append]
    refine ⟨(List.Sublist.map _ List.filter_sublist).nodup hkeys, by simp, ?_⟩
    intro a ha b hb
    simp only [List.map_cons, List.map_nil, List.mem_singleton] at hb
    obtain ⟨p, hp, rfl⟩ := List.mem_map.1 ha
    obtain ⟨h1, h2⟩ := List.mem_filter.1 hp
    rw [hb]
    exact hnames p h1 (by simpa using h2)
  have hperm : g.mesh.bocos.Perm T := by
    rw [List.perm_ext_iff_of_nodup (List.Nodup.of_map _ hg) (List.Nodup.of_map _ hT)]
    intro q
    constructor
    · intro hq
      have hget := Dict.get?_of_mem hg (show (q.1, q.2) ∈ g.mesh.bocos from hq)
      rcases hsame.others q.1 (List.mem_map_of_mem hq) with h | ⟨b, hb, ht⟩
      · rw [h, hsame.internal, Option.some.injEq] at hget
        refine List.mem_append_right _ (List.mem_singleton.2 ?_)
        exact Prod.ext h hget.symm
      · rw [hsame.marks q.1 b hb ht, Option.some.injEq] at hget
        refine List.mem_append_left _ (List.mem_map.2 ⟨(q.1, b), List.mem_filter.2 ⟨Dict.mem_of_get? hb, by simpa using ht⟩, ?_⟩)
        exact Prod.ext rfl hget
    · intro hq
      rcases List.mem_append.1 hq with hq | hq
      · obtain ⟨p, hp, rfl⟩ := List.mem_map.1 hq
        obtain ⟨h1, h2⟩ := List.mem_filter.1 hp
        exact Dict.mem_of_get? (hsame.marks p.1 p.2 (Dict.get?_of_mem hkeys h1) (by simpa using h2))
      · rw [List.mem_singleton.1 hq]
        exact Dict.mem_of_get? hsame.internal
  have h1 : (marked g.mesh).Perm (T.flatMap fun p => markItems p.2) := hperm.flatMap_right _
  have h2 : (T.flatMap fun p => markItems p.2) = zoneItems m ++ pyRange k l.length := by
    show List.flatMap _ (_ ++ _) = _
    rw [List.flatMap_append, List.flatMap_map]
    unfold zoneItems
    congr 1
    simp only [List.flatMap_cons, List.flatMap_nil, List.append_nil]
    show pyRange k ((l.length : Int) - 1 + 1) = _
    congr 1
    omega
  rw [h2] at h1
  refine h1.trans ((List.Perm.append_right _ hz).trans ?_)
  rw [pyRange_append hk hkl]

theorem zipMark_names (zs : List Zone) (L : List Int) (h : zs.length ≤ L.length) :
    (List.zipWith Zone.mark zs L).map (·.name) = zs.map (·.name) := by
  induction zs generalizing L with
  | nil => rfl
  | cons z t ih =>
    cases L with
    | nil => simp at h
    | cons a L => simp only [List.zipWith_cons_cons, List.map_cons, ih L (by simpa using h)]; rfl

/-- The labels of the zones of a completed mesh. -/
theorem completed_labels {so : List Int → List Int} {m m' : Mesh F64} {r : FacesResult} {lb li : List Face}
    {σ : Int → Int} (hcomp : Completed so m r m' lb li σ)
    (hl : ∀ p ∈ m.bocos, p.1.length ≤ 128 ∧ p.1.toList.getLast? ≠ some '\x00') :
    ∀ p ∈ m'.bocos, p.2.type ≠ "internal" → p.1.length ≤ 128 ∧ p.1.toList.getLast? ≠ some '\x00' := by
  intro p hp _
  obtain ⟨b, x, y, hb, -⟩ := completed_mark hcomp hp
  rcases faceMarks_cases hb with ⟨q, hq, he⟩ | ⟨_, he⟩
  · have : p.1 = q.1 := (Prod.mk.inj he).1
    rw [this]
    exact hl q hq
  · have : p.1 = "unmarked" := (Prod.mk.inj he).1
    rw [this]
    decide

/-- **C86, content**: the V4 file of a mesh of cells and node marks with numbers on 32 bits and short names is read back as
the mesh whose faces are those of the cells, with the marks of C62. -/
theorem C86_from_cells (tbl : FaceTable) (ht : TableWF tbl) (hdw : DistinctWidths tbl)
    (so : List Int → List Int) (hso : Reorders so) (h5 : H5) (hk : Keeps32 h5) (cv : Conv)
    (f : FullMesh) (c : ElemConn) (hm : CellMesh f.mesh c) (hcf : Conforming tbl c)
    (hw : ∀ o ∈ facesOfCells tbl c, 1 ≤ o.1.length ∧ o.1.length ≤ 4)
    (hnum : ∀ x ∈ elements c, ∀ n ∈ x.2.2, FitsInt 4 n) (hsm : Small f.mesh.ncell ∧ Small (faceCount tbl c))
    (hl : ∀ p ∈ f.mesh.bocos, p.1.length ≤ 128 ∧ p.1.toList.getLast? ≠ some '\x00')
    (sol : Bool) (x : MeshFile) (s : Option SolFile) (h : writeV4 tbl so h5 cv f sol = .ok (x, s)) :
    ∃ g lb li, readV4 x none = .ok g ∧ FromCells tbl c f.mesh lb li g.mesh := by
  obtain ⟨m', hc⟩ : ∃ m', completeMesh tbl so f.mesh = .ok m' := by
    unfold writeV4 at h
    obtain ⟨m', hc, -⟩ := bind_eq_ok.1 h
    exact ⟨m', hc⟩
  obtain ⟨r, hr⟩ : ∃ r, createFaces tbl c = .ok r := by
    unfold completeMesh needFaces at hc
    rw [hm.noFaces, bind_eq_ok] at hc
    obtain ⟨m1, h1, _⟩ := hc
    obtain ⟨r, hr, _⟩ := makeFaces_ok hm.cells h1
    exact ⟨r, hr⟩
  obtain ⟨lb, li, σ, hcomp⟩ := completed_of_ok ht hso hm.toNodeCells hr hc
  have hs := completed_storable ht hdw hm hcf hw hr hcomp
  have hfo := facesOf_generated ht hdw hm.conn hcf hr hcomp.pb hcomp.pi
  have hlen : (lb ++ li).length = (elements r.boundary).length + (elements r.internal).length := by
    rw [List.length_append, hcomp.pb.length_eq, hcomp.pi.length_eq]
    simp [storedFaces]
  have hfit : FitsV4 m' (lb ++ li) := by
    refine ⟨by rw [completed_nface ht hm hr hc, hlen], ?_, ?_, completed_labels hcomp hl⟩
    · rw [faceCount_eq hfo]
      have := hsm.2
      unfold Small at this
      unfold FitsInt
      omega
    · intro x hx
      obtain ⟨k1, k2, k3⟩ := cellFace_fits hm hnum hsm.1 hfo x hx
      exact ⟨k2, k3, k1⟩
  obtain ⟨g, hg, hgeo⟩ := C34_geometry tbl so h5 cv f sol m' _ x s hk hc h hs hfit
  obtain ⟨g1, zs, first, hg1, hzs, -, hbo, -⟩ := C33_zones tbl so h5 cv f sol m' _ x s hk hc h hs hfit
  rw [hg, Except.ok.injEq] at hg1
  subst hg1
  have htype : ∀ p ∈ m'.bocos, p.2.type ≠ "internal" := by
    intro p hp
    obtain ⟨b, x, y, hb, h2, _⟩ := completed_mark hcomp hp
    rw [h2]
    rcases faceMarks_cases hb with ⟨q, hq, he⟩ | ⟨_, he⟩
    · have : b = toFaces r.boundary q.2 := congrArg Prod.snd he
      rw [this]
      exact hm.notInternal q hq
    · have : b = restMark _ := congrArg Prod.snd he
      rw [this]
      simp [restMark]
  have hnames : g.mesh.bocos.keys = zs.map (·.name) := by
    rw [hbo, Dict.keys, List.map_map]
    show (List.zipWith Zone.mark zs _).map (·.name) = _
    exact zipMark_names _ _ (by simp; omega)
  have hz : zoneItems m' = marked m' := by
    unfold zoneItems marked
    rw [List.filter_eq_self.2]
    intro p hp
    simpa using htype p hp
  have hrange : ∀ p ∈ m'.bocos, p.2.type ≠ "internal" → ∀ x y, p.2.index = .range x y → x ≤ y := by
    intro p hp _ x y hxy
    obtain ⟨b, x', y', _, h2, h3, _⟩ := completed_mark hcomp hp
    rw [h2] at hxy
    simp only [IndexList.range.injEq] at hxy
    omega
  refine ⟨g, lb, li, hg, fromCells_read ht hdw hso hm hcf hr hc hcomp hs ?_⟩
  by_cases hlb : lb = []
  · have hbn : m'.bocos = [] := by
      cases hb : m'.bocos with
      | nil => rfl
      | cons p t =>
        obtain ⟨b, x, y, _, _, h3, h4, h5', _⟩ := completed_mark hcomp (p := p) (by rw [hb]; simp)
        rw [hlb] at h5'
        simp at h5'
        omega
    refine ⟨hgeo.ncell, hgeo.nnode, hgeo.coords, hgeo.faces, ?_, ?_, ?_⟩
    · intro name b hb
      rw [hbn] at hb
      cases hb
    · intro name hname
      left
      rw [hnames, (hzs.map _).mem_iff] at hname
      unfold zonesOf at hname
      rw [hbn] at hname
      simpa using hname
    · intro k hk1 hperm
      rw [hz, marked, hbn] at hperm
      have := hperm.length_eq
      rw [List.flatMap_nil, length_pyRange] at this
      simp at this
      omega
  · have hpos := List.length_pos_iff.2 hlb
    have htile : (zoneItems m').Perm (pyRange 0 (lb.length : Int)) := hz ▸ hcomp.tile
    obtain ⟨g2, hg2, hsame⟩ := C33_round_trip tbl so h5 cv f sol m' _ x s hk hc h hs hfit (lb.length : Int) (by omega) htile hrange
    rw [hg, Except.ok.injEq] at hg2
    subst hg2
    have hnd : g.mesh.bocos.keys.Nodup := by
      rw [hnames, (hzs.map _).nodup_iff, List.map_append, List.nodup_append]
      refine ⟨?_, by simp, ?_⟩
      · unfold zonesOf
        rw [List.map_map]
        exact (List.Sublist.map _ List.filter_sublist).nodup hs.markKeys
      · intro a ha b hb
        simp only [List.map_cons, List.map_nil, List.mem_singleton] at hb
        obtain ⟨z, hz', rfl⟩ := List.mem_map.1 ha
        obtain ⟨p, hp, rfl⟩ := List.mem_map.1 hz'
        rw [hb]
        have hp1 := (List.mem_filter.1 hp).1
        exact hs.markNames p hp1 (htype p hp1)
    refine ⟨hgeo.ncell, hgeo.nnode, hgeo.coords, hgeo.faces, fun name b h1 h2 => ⟨_, hsame.marks name b h1 h2⟩, hsame.others, ?_⟩
    intro _ _ _ _
    exact v4_tiles hs.markKeys hs.markNames hnd hsame (by omega) (by simp) htile

/-- **C86**: a mesh of cells and node marks within the limits of the format is written to a V4 file, with or without its
solution, and read back as in C62. -/
theorem C86_cells (tbl : FaceTable) (ht : TableWF tbl) (hdw : DistinctWidths tbl)
    (so : List Int → List Int) (hso : Reorders so) (h5 : H5) (hk : Keeps32 h5) (cv : Conv)
    (f : FullMesh) (c : ElemConn) (hm : CellMesh f.mesh c) (hkn : CellsKnown tbl c) (hfit : CellsFit tbl f.mesh c)
    (hv : MarksV4 f.mesh) (sol : Bool) (hsol : sol = true → SolFits f) :
    ∃ x s g lb li, writeV4 tbl so h5 cv f sol = .ok (x, s) ∧ readV4 x none = .ok g ∧ FromCells tbl c f.mesh lb li g.mesh := by
  obtain ⟨r, m', lb, li, σ, hr, hc, hcomp, hs, mf, hx, hnface⟩ := cells_ready ht hdw hso hm hkn hfit
  have hl : ∀ p ∈ f.mesh.bocos, p.1.length ≤ 128 ∧ p.1.toList.getLast? ≠ some '\x00' := fun p hp => ⟨(hv p hp).1, (hv p hp).2.1⟩
  have hsmall : Small (lb ++ li).length := by rw [← mf.count]; exact mf.counts.2.2
  have hf4 : FitsV4 m' (lb ++ li) := by
    refine ⟨mf.count, ?_, fun x hx => ⟨(mf.numbers x hx).2.1, (mf.numbers x hx).2.2, (mf.numbers x hx).1⟩, completed_labels hcomp hl⟩
    unfold Small at hsmall
    unfold FitsInt
    omega
  obtain ⟨⟨x, s⟩, hwr⟩ := (C86_accepts tbl so h5 cv f sol m' _ hk hc hs hf4 mf.coords (fun _ => hx)).2 ⟨by
    intro p hp ht'
    obtain ⟨k1, k2, k3, -⟩ := mf.marks p hp ht'
    refine ⟨k1, k2, k3, fun pt hpt => ?_⟩
    obtain ⟨b, x, y, hb, h2, -⟩ := completed_mark hcomp hp
    rcases faceMarks_cases hb with ⟨q, hq, he⟩ | ⟨_, he⟩
    · have e1 : p.1 = q.1 := (Prod.mk.inj he).1
      have e2 : b = toFaces r.boundary q.2 := (Prod.mk.inj he).2
      rw [e1]
      refine (hv q hq).2.2 pt ?_
      rw [h2, e2] at hpt
      exact hpt
    · have e2 : b = restMark _ := (Prod.mk.inj he).2
      rw [h2, e2] at hpt
      exact absurd hpt (by simp [restMark]), hsol⟩
  obtain ⟨g, lb', li', h1, h2⟩ := C86_from_cells tbl ht hdw so hso h5 hk cv f c hm hfit.conforming hfit.width hfit.numbers
    ⟨hfit.counts.2.1, hfit.counts.2.2⟩ hl sol x s hwr
  exact ⟨x, s, g, lb', li', hwr, h1, h2⟩

/-- **C86, cubes**: every cube of two cells or more with less than 2³¹ nodes and faces is written to a V4 file and read back
as the cube. -/
theorem C86_cube {R : Type} [Div R] [NatCast R] (c : Cube) (hx : 1 ≤ c.nx) (hy : 1 ≤ c.ny) (hz : 1 ≤ c.nz) (h2 : 2 ≤ c.nx * c.ny * c.nz)
    (hnode : Small ((c.nx + 1) * (c.ny + 1) * (c.nz + 1))) (hface : Small (cubeFaces c))
    (m : Mesh R) (hm : c.exportMesh = .ok m) (bits : R → F64)
    (so : List Int → List Int) (hso : Reorders so) (h5 : H5) (hk : Keeps32 h5) (cv : Conv)
    (f : FullMesh) (hf : f.mesh = storedMesh bits m) (sol : Bool) (hsol : sol = true → SolFits f) :
    ∃ x s g lb li, writeV4 cgnsElem2faces so h5 cv f sol = .ok (x, s) ∧ readV4 x none = .ok g ∧
      CubeRead c f.mesh.coords lb li g.mesh := by
  have hm' : m = cubeMesh c := by
    rw [exportMesh_eq c (elemIjk_ne_nil hx hy hz)] at hm
    simpa using hm.symm
  subst hm'
  have hcm : CellMesh f.mesh (cubeConn c) := hf ▸ cube_cells bits hx hy hz
  have hfit : CellsFit cgnsElem2faces f.mesh (cubeConn c) := hf ▸ cube_fits bits hx hy hz h2 hnode hface
  have hv : MarksV4 f.mesh := by
    rw [hf]
    intro p hp
    obtain ⟨q, hq, rfl⟩ := List.mem_map.1 (show p ∈ cubeMarks c from hp)
    have : ∀ n ∈ ["imin", "imax", "jmin", "jmax", "kmin", "kmax"], n.length ≤ 128 ∧ n.toList.getLast? ≠ some '\x00' := by decide
    obtain ⟨k1, k2⟩ := this q.1 (List.mem_map_of_mem hq)
    exact ⟨k1, k2, fun pt hpt => by cases hpt⟩
  obtain ⟨x, s, g, lb, li, hw, hr, hfc⟩ := C86_cells cgnsElem2faces cgnsTable_wf cgnsTable_widths so hso h5 hk cv f
    (cubeConn c) hcm (cubeConn_known c) hfit hv sol hsol
  exact ⟨x, s, g, lb, li, hw, hr, cubeRead_of hx hy hz h2 hf hfc⟩

/-- One cell is refused. -/
theorem C86_one_cell {R : Type} [Div R] [NatCast R] (m : Mesh R) (hm : (Cube.mk 1 1 1).exportMesh = .ok m) (bits : R → F64)
    (so : List Int → List Int) (h5 : H5) (cv : Conv) (f : FullMesh) (hf : f.mesh = storedMesh bits m) (sol : Bool) :
    writeV4 cgnsElem2faces so h5 cv f sol = .error .assertion := by
  rw [exportMesh_eq _ (by decide)] at hm
  simp only [Except.ok.injEq] at hm
  subst hm
  have hcreate : createFaces cgnsElem2faces (cubeConn ⟨1, 1, 1⟩) = .error .assertion := by decide +kernel
  have : completeMesh cgnsElem2faces so f.mesh = .error .assertion := by
    unfold completeMesh needFaces Mesh.makeFaces
    rw [hf]
    simp only [storedMesh, cubeMesh, hcreate]
    rfl
  unfold writeV4
  rw [this]
  rfl

/-! ## Examples -/

theorem tetPair_marksV4 : MarksV4 tetPair.mesh := by
  intro p hp
  simp only [tetPair, List.mem_cons, List.not_mem_nil, or_false] at hp
  rcases hp with rfl | rfl <;> exact ⟨by decide, by decide, fun pt h => by cases h⟩

theorem tetPair_sol : SolFits tetPair where
  step := by intro s h; cases h
  time := by intro s h; cases h
  weights := by intro _ p hp; cases hp
  stats := List.pairwise_singleton _ _

/-- C86 applied to the two tetrahedra of C62, with their solution. -/
example (cv : Conv) := C86_cells _ cgnsTable_wf cgnsTable_widths id (fun l => List.Perm.refl l) strictH5 strictH5_keeps cv tetPair _
  tetPair_cells exTetras_known tetPair_fit tetPair_marksV4 true (fun _ => tetPair_sol)

/-- What is read: three faces in `wall`, one in `top`, two in `unmarked`, one internal. -/
example : ((writeV4 cgnsElem2faces id strictH5 noConv tetPair true).bind fun r => readV4 r.1 none).toOption.map (fun g => g.mesh.bocos.map fun p => (p.1, p.2.index)) =
    some [("wall", .range 0 2), ("top", .range 3 3), ("unmarked", .range 4 5), ("internal-domain", .range 6 6)] := by
  decide +kernel

example (sol : Bool) (x : MeshFile) (s : Option SolFile) (h : writeV4 cgnsElem2faces id strictH5 noConv tetPair sol = .ok (x, s)) :=
  C86_from_cells _ cgnsTable_wf cgnsTable_widths id (fun l => List.Perm.refl l) strictH5 strictH5_keeps noConv tetPair _
    tetPair_cells exTetras_conforming tetPair_fit.width tetPair_fit.numbers ⟨tetPair_fit.counts.2.1, tetPair_fit.counts.2.2⟩
    (fun p hp => ⟨(tetPair_marksV4 p hp).1, (tetPair_marksV4 p hp).2.1⟩) sol x s h

/-- C86 applied to a cube of six cells, and the refusal of one cell. -/
example (cv : Conv) := C86_cube ⟨2, 1, 3⟩ (by decide) (by decide) (by decide) (by decide)
  (by decide) (by decide) (cubeMesh ⟨2, 1, 3⟩ : Mesh Nat) (exportMesh_eq _ (by decide)) UInt64.ofNat id
  (fun l => List.Perm.refl l) strictH5 strictH5_keeps cv cube213 rfl false (by simp)
example (cv : Conv) := C86_one_cell (cubeMesh ⟨1, 1, 1⟩ : Mesh Nat) (exportMesh_eq _ (by decide))
  UInt64.ofNat id strictH5 cv { cube213 with mesh := storedMesh UInt64.ofNat (cubeMesh ⟨1, 1, 1⟩ : Mesh Nat) } rfl

/-- The acceptance of the two tetrahedra of C34, one of whose marks has periodic data. -/
example (sol : Bool) := C86_accepts _ _ strictH5 noConv twoTetraSol sol _ _ strictH5_keeps twoTetraSol_complete twoTetra_storable twoTetra_fits
  ⟨_, _, _, rfl⟩ (fun _ => exists_of_isOk (by decide +kernel))
/-- Names of statistics that differ by their case only: the mesh alone is written, not the solution. -/
example : ∀ sol, (writeV4 cgnsElem2faces id strictH5 noConv { twoTetraSol with
    cells := ⟨none, [("P_AVG", ⟨[2], .f64 [7, 8]⟩), ("p_AVG", ⟨[2], .f64 [7, 8]⟩)]⟩ } sol).isOk = !sol := by decide +kernel

end Cfd.Ic3
