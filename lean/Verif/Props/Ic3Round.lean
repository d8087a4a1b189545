import Verif.Lemmas.Ic3Again

/-! C28, C29, C31, C32: what is written to an IC3 file is read back. -/

namespace Cfd.Ic3
open Spec Spec.Ic3

/-- The common part of the round trip theorems: the state of the writer and the mesh read. -/
theorem round_trip {tbl : FaceTable} {so : List Int → List Int} {host : Order} {e : Endian} {v : Ver} {cv : Conv}
    {f : FullMesh} {b : Bytes} {m : Mesh F64} {l : List Face} (hn : NamesFit f)
    (hc : completeMesh tbl so f.mesh = .ok m) (h : writeIc3 tbl so host e v cv f = (some b, .ok ()))
    (hs : Storable m l) (hd : DataStorable v f m) (integ : Bool) :
    ∃ w c, setMesh f m = .ok w ∧ runChunks (fileChunks host e v cv w) = (b, .ok ()) ∧
      IsFaces ⟨c, some (some (l.map (·.2)))⟩ l ∧ c.nelem = l.length ∧ m.nface = l.length ∧
      MeshOK w ∧ WState.rows w = l.map (·.2) ∧ readIc3 integ b = .ok (exported v cv w c) := by
  unfold writeIc3 at h
  rw [hc, Except_bind_ok] at h
  split at h
  · simp at h
  · rename_i w hw
    simp only [Prod.mk.injEq, Option.some.injEq] at h
    have hrun : runChunks (fileChunks host e v cv w) = (b, .ok ()) := Prod.ext h.1 h.2
    obtain ⟨c, hr⟩ := readIc3_ok hw (namesOK_of_fit hn hc hw) hrun hs hd integ
    exact ⟨w, c, hw, hrun, hr⟩

/-- C28. A mesh written without exception by either writer, in either byte order, is read back (with or
without the integrity check) as the same mesh. `m` is the mesh as the writer completes it in place (faces
generated, marks on faces): the mesh the user holds after writing. -/
theorem C28_mesh_round_trip (tbl : FaceTable) (so : List Int → List Int) (host : Order) (e : Endian) (v : Ver)
    (cv : Conv) (f : FullMesh) (b : Bytes) (m : Mesh F64) (l : List Face) (hn : NamesFit f)
    (hc : completeMesh tbl so f.mesh = .ok m) (h : writeIc3 tbl so host e v cv f = (some b, .ok ()))
    (hs : Storable m l) (hd : DataStorable v f m) (integ : Bool) :
    ∃ g, readIc3 integ b = .ok g ∧ SameMesh f m l g := by
  obtain ⟨w, c, h1, h2, h3, h4, h5, h6, h7, h8⟩ := round_trip hn hc h hs hd integ
  exact ⟨_, h8, sameMesh_exported h1 (written_of_ok h2) hs h6 h7 h3 h4 h5⟩

/-- C29. The data and parameters of a mesh written without exception are read back. -/
theorem C29_data_round_trip (tbl : FaceTable) (so : List Int → List Int) (host : Order) (e : Endian) (v : Ver)
    (cv : Conv) (f : FullMesh) (b : Bytes) (m : Mesh F64) (l : List Face) (hn : NamesFit f)
    (hc : completeMesh tbl so f.mesh = .ok m) (h : writeIc3 tbl so host e v cv f = (some b, .ok ()))
    (hs : Storable m l) (hd : DataStorable v f m) (integ : Bool) :
    ∃ g, readIc3 integ b = .ok g ∧ SameData v cv f g := by
  obtain ⟨w, c, h1, h2, h3, h4, h5, h6, h7, h8⟩ := round_trip hn hc h hs hd integ
  have hdo := dataOK_of_storable h1 hd
  obtain ⟨p1, p2, p3, p4⟩ := exported_params v cv w c
  obtain ⟨co, zf, _, _, _, hw2⟩ := setMesh_ok h1
  have hcells : w.cells = f.cells := by rw [hw2]
  have hnodes : w.nodes = f.nodes := by rw [hw2]
  have hsim : w.sim = setSimstate f.params := by rw [hw2]
  refine ⟨_, h8, ?_⟩
  constructor
  · intro name; rw [exported_cells c hdo name, hcells]
  · intro name; rw [exported_nodes c hdo name, hnodes]
  · intro hne
    have hdof : WState.dof v w = dofOf v f.cells := by rw [← hcells]; cases v <;> rfl
    refine ⟨attrsDof vars0.attrs (WState.dof v w), ?_, ?_, ?_⟩
    · show some (if w.cells.data = [] then _ else _) = _
      rw [hcells, if_neg hne]
    · have := (hd.someCell hne).2.1
      rw [hdof]
      unfold attrsDof
      split
      · rfl
      · show (1 : Int) = _
        omega
    · rw [hdof]
      unfold attrsDof
      split <;> rfl
  · intro n hget
    rw [p1, hsim]
    simp [setSimstate, hget, simIntD, simInt]
  · intro n hget
    rw [p2, hsim]
    simp [setSimstate, hget, simF64D, simF64]
  · intro n hget
    rw [p3, hsim]
    simp [setSimstate, hget, simF64D, simF64]

/-- C29. Arrays of doubles are kept bit for bit by both versions. -/
theorem C29_doubles_exact (v : Ver) (cv : Conv) (shape : List Nat) (l : List F64) :
    stored v cv ⟨shape, .f64 l⟩ = ⟨shape, .f64 l⟩ := by
  unfold stored
  split <;> rfl

/-- C29. Integer scalars are kept by V3. -/
theorem C29_integers_exact (cv : Conv) (n : Nat) (l : List Int) :
    stored .v3 cv ⟨[n], .i64 l⟩ = ⟨[n], .i64 l⟩ := rfl

/-- C31, from one version to the other. A mesh is written in version `v` and read back. Writing what was read in version
`v'`, in any byte order, gives the bytes that the mesh itself gives in version `v'`: always when `v'` is V2 or `v` is V3;
when a V3 file is made from a V2 file, for real values with one degree of freedom per cell. (No averaging weight, no node
vector: the reader drops them.) -/
theorem C31_other_version (tbl tbl' : FaceTable) (so so' : List Int → List Int) (host host' : Order) (e e' : Endian)
    (v v' : Ver) (cv : Conv) (f g : FullMesh) (b b' : Bytes) (m : Mesh F64) (l : List Face) (hn : NamesFit f)
    (hc : completeMesh tbl so f.mesh = .ok m) (h : writeIc3 tbl so host e v cv f = (some b, .ok ()))
    (h' : writeIc3 tbl so host' e' v' cv f = (some b', .ok ()))
    (hs : Storable m l) (hd : DataStorable v f m)
    (hw : f.params.get? "wgt" = none ∨ f.params.get? "wgt" = some (.wgts []))
    (hv : ∀ p ∈ f.nodes, p.2.shape.length ≠ 2)
    (hvv : v' = .v3 → v = .v2 → (∀ p ∈ f.nodes, ∃ l, p.2.data = .f64 l) ∧ (∀ p ∈ f.cells.data, ∃ l, p.2.data = .f64 l) ∧
      ∀ a, f.cells.attrs = some a → a.ndof = 1)
    (integ : Bool) (hg : readIc3 integ b = .ok g) :
    writeIc3 tbl' so' host' e' v' cv g = (some b', .ok ()) := by
  obtain ⟨w, c, h1, h2, h3, h4, h5, h6, h7, h8⟩ := round_trip hn hc h hs hd integ
  rw [h8] at hg
  simp only [Except.ok.injEq] at hg
  subst hg
  have h2' : runChunks (fileChunks host' e' v' cv w) = (b', .ok ()) := by
    unfold writeIc3 at h'
    simpa [hc, h1, Prod.ext_iff] using h'
  have hwr := written_of_ok h2'
  obtain ⟨k1, k2, k3, k4, k5, k6⟩ := setMesh_faces h1 hs.faces
  obtain ⟨co, zf, _, _, _, hw2⟩ := setMesh_ok h1
  have hcells : w.cells = f.cells := by rw [hw2]
  have hnodes : w.nodes = f.nodes := by rw [hw2]
  have hsim : w.sim = setSimstate f.params := by rw [hw2]
  have hr := ready_of_ok h2'
  have hset := setMesh_exported (v := v) (cv := cv) hwr.coordsLen h6 h3 (by rw [h4, k5, h5]) h7 k1 k2
  have hcomp := complete_exported (v := v) (cv := cv) (c := c) tbl' so' (fun p hp => (hwr.zones p hp).2.2.2.1)
  have hpart : ∀ x ∈ partChunks host' e' w, ∃ y, x = .ok y := fun x hx =>
    chunk_ok h2' (by simp [fileChunks, bodyChunks, connChunks, hx])
  have hwg : wgtsOf w.sim.wgt = [] := by
    rw [hsim]
    unfold setSimstate
    rcases hw with hw | hw <;> rw [hw] <;> rfl
  have hat : v' = .v3 → w.cells.data ≠ [] → w.cells.attrs ≠ none := by
    intro hv3 hne hnone
    subst hv3
    have hne' : w.cells.data.isEmpty = false := by
      cases hdd : w.cells.data with
      | nil => exact absurd hdd hne
      | cons _ _ => rfl
    obtain ⟨x, hx⟩ := chunk_ok h2' (c := .error .attribute)
      (by simp [fileChunks, bodyChunks, varChunks, varChunksV3, cellChunksV3, hnone, hne'])
    simp at hx
  have hfile : fileChunks host' e' v' cv (again v cv w c) = fileChunks host' e' v' cv w := by
    unfold fileChunks bodyChunks
    rw [conn_again host' e' hwr hpart, info_again host' e' hwr hwg,
      var_again host' e' (dataOK_of_storable h1 hd) hr.1 hr.2 (by rw [hnodes]; exact hv) hat
        (by rw [hnodes, hcells]; exact hvv)]
  unfold writeIc3
  rw [hcomp, Except_bind_ok, hset]
  simp only [hfile, h2']

/-- C31. Reading a written file and writing the result with the same writer and byte order gives the same
bytes, when there is no averaging weight and no node vector (which the reader drops). -/
theorem C31_rewrite_identical (tbl tbl' : FaceTable) (so so' : List Int → List Int) (host : Order) (e : Endian)
    (v : Ver) (cv : Conv) (f g : FullMesh) (b : Bytes) (m : Mesh F64) (l : List Face) (hn : NamesFit f)
    (hc : completeMesh tbl so f.mesh = .ok m) (h : writeIc3 tbl so host e v cv f = (some b, .ok ()))
    (hs : Storable m l) (hd : DataStorable v f m)
    (hw : f.params.get? "wgt" = none ∨ f.params.get? "wgt" = some (.wgts []))
    (hv : ∀ p ∈ f.nodes, p.2.shape.length ≠ 2) (integ : Bool) (hg : readIc3 integ b = .ok g) :
    writeIc3 tbl' so' host e v cv g = (some b, .ok ()) :=
  C31_other_version tbl tbl' so so' host host e e v v cv f g b b m l hn hc h h hs hd hw hv
    (fun h1 h2 => by rw [h1] at h2; simp at h2) integ hg

theorem lastBoco_ge {l : Dict String Mark} {p : String × Mark} (hp : p ∈ l) {a b : Int}
    (hi : p.2.index = .range a b) : b ≤ lastBoco l := by
  unfold lastBoco
  have mono : ∀ (l : Dict String Mark) (x : Int),
      x ≤ l.foldl (fun a p => match p.2.index.getRange with | .ok r => max a r.2 | .error _ => a) x := by
    intro l
    induction l with
    | nil => exact fun x => le_refl x
    | cons y t ih =>
      intro x
      rw [List.foldl_cons]
      refine le_trans ?_ (ih _)
      split
      · exact le_max_left _ _
      · exact le_refl x
  have main : ∀ (l : Dict String Mark) (x : Int), p ∈ l →
      b ≤ l.foldl (fun a p => match p.2.index.getRange with | .ok r => max a r.2 | .error _ => a) x := by
    intro l
    induction l with
    | nil => intro x h; simp at h
    | cons y t ih =>
      intro x h
      rw [List.foldl_cons]
      rcases List.mem_cons.1 h with rfl | h
      · refine le_trans ?_ (mono t _)
        rw [hi]
        exact le_max_right _ _
      · exact ih _ h
  exact main l 0 hp

/-- C32. When the marks designate the faces `0 .. k-1` (`k ≥ 1`), each once, by non-empty ranges, the zones
of the file designate every face exactly once. -/
theorem C32_zones_tile (tbl : FaceTable) (so : List Int → List Int) (host : Order) (e : Endian) (v : Ver)
    (cv : Conv) (f g : FullMesh) (b : Bytes) (m : Mesh F64) (l : List Face) (hn : NamesFit f)
    (hc : completeMesh tbl so f.mesh = .ok m) (h : writeIc3 tbl so host e v cv f = (some b, .ok ()))
    (hs : Storable m l) (hd : DataStorable v f m) (integ : Bool) (hg : readIc3 integ b = .ok g)
    (k : Int) (hk : 1 ≤ k) (hz : (zoneItems m).Perm (pyRange 0 k))
    (hne : ∀ p ∈ m.bocos, p.2.type ≠ "internal" → ∀ x y, p.2.index = .range x y → x ≤ y) :
    (marked g.mesh).Perm (pyRange 0 g.mesh.nface) := by
  obtain ⟨w, c, h1, h2, h3, h4, h5, h6, h7, h8⟩ := round_trip hn hc h hs hd integ
  rw [h8] at hg
  simp only [Except.ok.injEq] at hg
  subst hg
  have hwr := written_of_ok h2
  obtain ⟨_, _, _, k4, k5, k6⟩ := setMesh_faces h1 hs.faces
  obtain ⟨co, zf, _, _, _, hw2⟩ := setMesh_ok h1
  have hb : w.bocos = m.bocos.filter fun p => decide (p.2.type ≠ "internal") := by rw [hw2]
  have hbm : ∀ p ∈ w.bocos, p ∈ m.bocos ∧ p.2.type ≠ "internal" := by
    intro p hp
    rw [hb] at hp
    have := List.mem_filter.1 hp
    simpa using this
  have hitems : zoneItems m = w.bocos.flatMap fun p => markItems p.2 := by rw [zoneItems, hb]
  have hin : ∀ p ∈ w.bocos, ∀ x, x ∈ markItems p.2 → x < k := by
    intro p hp x hx
    have : x ∈ zoneItems m := by rw [hitems, List.mem_flatMap]; exact ⟨p, hp, hx⟩
    exact (mem_pyRange.1 (hz.mem_iff.1 this)).2
  have hitem : ∀ p ∈ w.bocos, markItems p.2 = pyRange (markRange p.2).1 ((markRange p.2).2 + 1) := by
    intro p hp
    have := (hwr.zones p hp).2.2.2.1
    unfold markItems
    rw [this]
    rfl
  have hlast : lastBoco w.bocos = k - 1 := by
    have hub : lastBoco w.bocos < k := by
      refine (lastBoco_bounds (by omega) fun p hp => ⟨(hwr.zones p hp).2.2.2.1, ?_⟩).2
      obtain ⟨q1, q2⟩ := hbm p hp
      have hle := hne p q1 q2 _ _ (hwr.zones p hp).2.2.2.1
      refine hin p hp _ ?_
      rw [hitem p hp, mem_pyRange]
      omega
    have hmem : k - 1 ∈ zoneItems m := hz.mem_iff.2 (mem_pyRange.2 (by omega))
    rw [hitems, List.mem_flatMap] at hmem
    obtain ⟨p, hp, hx⟩ := hmem
    rw [hitem p hp, mem_pyRange] at hx
    have := lastBoco_ge hp (hwr.zones p hp).2.2.2.1
    omega
  have hkn : k ≤ (w.nfa : Int) := by
    have hmem : k - 1 ∈ zoneItems m := hz.mem_iff.2 (mem_pyRange.2 (by omega))
    rw [hitems, List.mem_flatMap] at hmem
    obtain ⟨p, hp, hx⟩ := hmem
    rw [hitem p hp, mem_pyRange] at hx
    have := (h6.markRanges p hp).2.2
    omega
  have hm : marked (exported v cv w c).mesh = zoneItems m ++ pyRange k w.nfa := by
    unfold marked
    show (List.map _ (w.bocos.map readMark ++ [internalMark w])).flatMap _ = _
    rw [List.flatMap_map, List.flatMap_append, List.flatMap_map, hitems]
    congr 1
    simp only [List.flatMap_cons, List.flatMap_nil, List.append_nil]
    show pyRange (lastBoco w.bocos + 1) ((w.nfa : Int) - 1 + 1) = _
    rw [hlast]
    congr 1 <;> omega
  rw [hm, show (exported v cv w c).mesh.nface = c.nelem from rfl, h4, ← h5, ← k5]
  refine (hz.append_right _).trans ?_
  rw [pyRange_append (by omega) hkn]

/-! ## Refuted cases and non-vacuity -/

/-- The faces of `tetra`. -/
def tetraFaces : List Face := [([0, 2, 1], (0, -1)), ([0, 1, 3], (0, -1)), ([1, 2, 3], (0, -1)), ([0, 3, 2], (0, -1))]

/-- Two tetrahedra sharing a face: boundary faces of both, then the shared face; marks `a` and `b`,
scalar, vector and tensor data in the cells, a scalar at the nodes. -/
def twoTetra : FullMesh where
  mesh :=
    { ncell := 2, nnode := 5, nface := 7, cell2node := none,
      faces := [("internal", ⟨⟨1, [("tri3", ⟨.range 0 0, ⟨some 3, [[1, 2, 3]]⟩⟩)]⟩, some (some [(0, 1)])⟩),
        ("boundary", ⟨⟨6, [("tri3", ⟨.range 0 5, ⟨some 3,
          [[0, 2, 1], [0, 1, 3], [0, 3, 2], [1, 2, 4], [2, 3, 4], [3, 1, 4]]⟩⟩)]⟩,
          some (some [(0, -1), (0, -1), (0, -1), (1, -1), (1, -1), (1, -1)])⟩)],
      coords := some ([0, 1, 0, 0, 1], [0, 0, 1, 0, 1], [0, 0, 0, 1, 1]),
      bocos := [("b", ⟨"b", .bdface, "perio_cart", .range 3 5, some [1, 2, 3]⟩),
        ("a", ⟨"a", .bdface, "boundary", .range 0 2, none⟩)] }
  cells := ⟨some ⟨.dataSet, "cellaverage", 1, "instant"⟩,
    [("U", ⟨[2, 3], .f64 [1, 2, 3, 4, 5, 6]⟩), ("P", ⟨[2], .f64 [7, 8]⟩), ("I", ⟨[2], .i64 [-1, 4]⟩)]⟩
  nodes := [("X", ⟨[5], .f64 [1, 2, 3, 4, 5]⟩)]
  params := [("step", .int 3), ("time", .f64 5)]
  partition := some (some ⟨some 2, .arr [0, 1]⟩)

/-- Faces of `twoTetra`. -/
def twoTetraFaces : List Face :=
  [([0, 2, 1], (0, -1)), ([0, 1, 3], (0, -1)), ([0, 3, 2], (0, -1)), ([1, 2, 4], (1, -1)), ([2, 3, 4], (1, -1)),
   ([3, 1, 4], (1, -1)), ([1, 2, 3], (0, 1))]

theorem twoTetra_storable : Storable twoTetra.mesh twoTetraFaces where
  faces := by
    right
    refine ⟨rfl, _, _, twoTetraFaces.take 6, twoTetraFaces.drop 6, rfl, rfl, ⟨⟨by decide, ?_, by decide⟩, by decide, rfl⟩,
      ⟨⟨by decide, ?_, by decide⟩, by decide, rfl⟩, rfl⟩
    · intro p hp
      simp only [List.mem_cons, List.not_mem_nil, or_false] at hp
      subst hp
      exact ⟨⟨_, rfl, by decide⟩, by simp [Arr2.WF]⟩
    · intro p hp
      simp only [List.mem_cons, List.not_mem_nil, or_false] at hp
      subst hp
      exact ⟨⟨_, rfl, by decide⟩, by simp [Arr2.WF]⟩
  nodesPerFace := by decide
  cells := by decide
  lastCell := by decide
  coords := by
    intro x y z h
    simp only [twoTetra, Option.some.injEq, Prod.mk.injEq] at h
    obtain ⟨rfl, rfl, rfl⟩ := h
    decide
  markKeys := by decide
  markNames := by decide
  markRanges := by
    intro p hp _
    simp only [twoTetra, List.mem_cons, List.not_mem_nil, or_false] at hp
    rcases hp with rfl | rfl
    · exact ⟨3, 5, rfl, by decide⟩
    · exact ⟨0, 2, rfl, by decide⟩

theorem twoTetra_data (v : Ver) : DataStorable v twoTetra twoTetra.mesh := by
  cases v <;> exact ⟨by decide, by decide, by decide, by decide, by decide, by decide⟩

theorem twoTetra_names : NamesFit twoTetra where
  marks := by decide
  weights := by intro d hd; simp [twoTetra, Dict.get?] at hd
  nodes := by decide
  cells := by decide

-- all hypotheses of C28, C29, C31 and C32 are met by this mesh, with both writers and all byte orders
example : completeMesh cgnsElem2faces id twoTetra.mesh = .ok twoTetra.mesh := by decide +kernel
example : ∀ e ∈ [Endian.native, .little, .big], ∀ v ∈ [Ver.v2, .v3],
    (writeIc3 cgnsElem2faces id .little e v noConv twoTetra).2 = .ok () := by decide +kernel
example : (zoneItems twoTetra.mesh).Perm (pyRange 0 6) := by decide
example : ∀ p ∈ twoTetra.mesh.bocos, p.2.type ≠ "internal" → ∀ x y, p.2.index = .range x y → x ≤ y := by
  intro p hp _ x y h
  simp only [twoTetra, List.mem_cons, List.not_mem_nil, or_false] at hp
  rcases hp with rfl | rfl <;> simp only [IndexList.range.injEq] at h <;> omega

theorem twoTetra_complete : completeMesh cgnsElem2faces id twoTetra.mesh = .ok twoTetra.mesh := by decide +kernel

theorem twoTetra_written (e : Endian) (v : Ver) :
    ∃ b, writeIc3 cgnsElem2faces id .little e v noConv twoTetra = (some b, .ok ()) := by
  have h : (match writeIc3 cgnsElem2faces id .little e v noConv twoTetra with
    | (some _, .ok ()) => true
    | _ => false) = true := by cases e <;> cases v <;> decide +kernel
  split at h
  · exact ⟨_, by assumption⟩
  · cases h

/-- C28, C29, C31 and C32 applied to this mesh. -/
example (e : Endian) (v : Ver) : ∃ b g, writeIc3 cgnsElem2faces id .little e v noConv twoTetra = (some b, .ok ()) ∧
    readIc3 true b = .ok g ∧ SameMesh twoTetra twoTetra.mesh twoTetraFaces g ∧ SameData v noConv twoTetra g ∧
    writeIc3 gmshElem2faces id .little e v noConv g = (some b, .ok ()) ∧ (marked g.mesh).Perm (pyRange 0 g.mesh.nface) := by
  obtain ⟨b, hb⟩ := twoTetra_written e v
  obtain ⟨g, hg, h1⟩ := C28_mesh_round_trip _ _ _ e v _ _ b _ _ twoTetra_names twoTetra_complete hb twoTetra_storable
    (twoTetra_data v) true
  obtain ⟨g', hg', h2⟩ := C29_data_round_trip _ _ _ e v _ _ b _ _ twoTetra_names twoTetra_complete hb twoTetra_storable
    (twoTetra_data v) true
  have : g' = g := by rw [hg] at hg'; exact (Except.ok.inj hg').symm
  subst this
  refine ⟨b, g', hb, hg, h1, h2, ?_, ?_⟩
  · exact C31_rewrite_identical _ _ _ _ _ e v _ _ _ b _ _ twoTetra_names twoTetra_complete hb twoTetra_storable
      (twoTetra_data v) (.inl (by decide)) (by decide) true hg
  · refine C32_zones_tile _ _ _ e v _ _ _ b _ _ twoTetra_names twoTetra_complete hb twoTetra_storable
      (twoTetra_data v) true hg 6 (by decide) (by decide) ?_
    intro p hp _ x y h
    simp only [twoTetra, List.mem_cons, List.not_mem_nil, or_false] at hp
    rcases hp with rfl | rfl <;> simp only [IndexList.range.injEq] at h <;> omega

/-- `C31_other_version` from version 3 to version 2 in the other byte order. -/
example : ∃ b b' g, writeIc3 cgnsElem2faces id .little .native .v3 noConv twoTetra = (some b, .ok ()) ∧
    readIc3 true b = .ok g ∧ writeIc3 cgnsElem2faces id .little .big .v2 noConv g = (some b', .ok ()) := by
  obtain ⟨b, hb⟩ := twoTetra_written .native .v3
  obtain ⟨b', hb'⟩ := twoTetra_written .big .v2
  obtain ⟨g, hg, -⟩ := C28_mesh_round_trip _ _ _ _ .v3 _ _ b _ _ twoTetra_names twoTetra_complete hb twoTetra_storable
    (twoTetra_data .v3) true
  exact ⟨b, b', g, hb, hg, C31_other_version _ _ _ _ _ _ _ _ .v3 .v2 _ _ _ b b' _ _ twoTetra_names twoTetra_complete hb hb'
    twoTetra_storable (twoTetra_data .v3) (.inl (by decide)) (by decide) (by intro h; cases h) true hg⟩

/-- What is read in the file written for `f`. -/
def reread (v : Ver) (f : FullMesh) : Option FullMesh :=
  match writeIc3 cgnsElem2faces id .little .native v noConv f with
  | (some b, .ok ()) => (readIc3 true b).toOption
  | _ => none

/-- C32 fails without any mark: the internal zone begins at face 1, face 0 belongs to no zone. -/
theorem C32_no_mark_refuted :
    (reread .v2 { tetra with mesh := { tetra.mesh with bocos := [] } }).map (fun g => (g.mesh.nface, marked g.mesh)) =
      some (4, [1, 2, 3]) := by decide +kernel

/-- C29 fails for node vectors: they are written, but the mesh read has no such data. -/
theorem C29_node_vector_refuted :
    (reread .v3 { tetra with nodes := [("V", ⟨[4, 3], .f64 [1, 2, 3, 4, 5, 6, 7, 8, 9, 10, 11, 12]⟩)] }).map (·.nodes) =
      some [] := by decide +kernel

/-- C29 fails for averaging weights: `wgt` is empty after reading (the weight is in a parameter
`rms_wgt`). -/
theorem C29_weights_refuted :
    (reread .v2 { tetra with params := [("wgt", .wgts [("rms", 5)])] }).map
      (fun g => (g.params.get? "wgt", g.params.get? "rms_wgt")) =
      some (some (.wgts []), some (.f64 5)) := by decide +kernel

/-- C29 fails when there are as many cells as nodes: the cell data are read as node data. -/
theorem C29_count_clash_refuted :
    (reread .v2 { tetra with
      mesh := { tetra.mesh with
        ncell := 4
        faces := [("mixed", ⟨⟨4, [("tri3", ⟨.range 0 3, ⟨some 3, [[0, 2, 1], [0, 1, 3], [1, 2, 3], [0, 3, 2]]⟩⟩)]⟩,
          some (some [(0, -1), (1, -1), (2, -1), (3, -1)])⟩)] }
      cells := ⟨none, [("P", ⟨[4], .f64 [5, 6, 7, 8]⟩)]⟩ }).map (fun g => (g.cells.data, g.nodes)) =
      some ([], [("P", ⟨[4], .f64 [5, 6, 7, 8]⟩)]) := by decide +kernel

/-- C31 fails for node vectors: rewriting the mesh read gives a shorter file. -/
theorem C31_node_vector_refuted :
    (reread .v2 { tetra with nodes := [("V", ⟨[4, 3], .f64 [1, 2, 3, 4, 5, 6, 7, 8, 9, 10, 11, 12]⟩)] }).bind
      (fun g => (writeIc3 cgnsElem2faces id .little .native .v2 noConv g).1.map (·.length)) ≠
    (writeIc3 cgnsElem2faces id .little .native .v2 noConv
      { tetra with nodes := [("V", ⟨[4, 3], .f64 [1, 2, 3, 4, 5, 6, 7, 8, 9, 10, 11, 12]⟩)] }).1.map (·.length) := by
  decide +kernel

end Cfd.Ic3
