import Verif.Spec.Ic3Options
import Verif.Model.Ic3Options
import Verif.Props.CgnsConvert
import Verif.Props.Data
import Verif.Props.Ic3Copy
import Verif.Props.Ic3Layers
import Verif.Props.VtkConvert

/-! # C72: IC3 files written with `--remove-cell-data`, `--extrude` and `--scale` -/

namespace Cfd.Ic3Options
open Cfd.Spec Cfd.Spec.Commands Cfd.Spec.Gmsh Cfd.Spec.Ic3 Cfd.Spec.VtkConvert Cfd.Spec.Ic3Options Cfd.Ic3 Cfd.Commands
  Cfd.VtkConvert
open Cfd.Convert (ic3Output imported)

variable {R Loc : Type}

/-! ## Runs -/

section
variable [DecidableEq Loc] {M : Type} {reader : Fs Loc → Name → Py M} {prepare transform : M → Py M}
  {tbl : FaceTable} {so : List Int → List Int} {host : Order} {e : Endian} {v : Ver} {cv : Conv} {full : M → FullMesh}
  {s : Fs Loc} {filename : Name} {outpath : Option Name}

theorem output_of {f : FullMesh} {b : Bytes} (h : writeIc3 tbl so host e v cv f = (some b, .ok ())) :
    ic3Output tbl so host e v cv f = .inr (b, .ok ()) := by
  unfold ic3Output
  rw [h]

theorem written_of {f : FullMesh} {b : Bytes} (h : ic3Output tbl so host e v cv f = .inr (b, .ok ())) :
    writeIc3 tbl so host e v cv f = (some b, .ok ()) := by
  unfold ic3Output at h
  split at h
  · cases h
  · rename_i hx
    simp only [Sum.inr.injEq, Prod.mk.injEq] at h
    rw [hx, h.1, h.2]
  · cases h

theorem writes (hfin : ∀ folder : PyPath, FiniteFolder s.has folder) (hf : (PyPath.parse filename).name ≠ []) {i i' j : M}
    (h0 : reader s (PyPath.parse filename).str = .ok i) (h1 : prepare i = .ok i') (h2 : transform i' = .ok j) {b : Bytes}
    (h3 : writeIc3 tbl so host e v cv (full j) = (some b, .ok ())) {P : Bytes → Prop} (hP : P b) :
    WrittenAs (fun fuel => writeGeneric reader prepare transform (fun i => ic3Output tbl so host e v cv (full i)) ".ic3".toList
      s fuel filename outpath) s P := by
  obtain ⟨n, s', name, hrun⟩ := C36_conversion_succeeds reader prepare transform
    (fun i => ic3Output tbl so host e v cv (full i)) "ic3".toList (by decide)
    (by decide) s filename hf outpath hfin i i' j b h0 h1 h2 (output_of h3)
  have hn := hrun n (Nat.le_refl _)
  obtain ⟨q1, ⟨m0, m1, m2, b', r0, r1, r2, r3, r4⟩, q2⟩ := C36_conversion_writes_new_file _ _ _ _ _ (by decide) _ _ _ _ _ _ hn
  rw [h0] at r0; cases r0
  rw [h1] at r1; cases r1
  rw [h2] at r2; cases r2
  have := written_of r3
  rw [h3] at this
  cases this
  exact ⟨n, s', name, b, hrun, q1, r4, q2, hP⟩

theorem only_writes {P : Bytes → Prop} (h : ∀ i i' j b, reader s (PyPath.parse filename).str = .ok i → prepare i = .ok i' →
      transform i' = .ok j → writeIc3 tbl so host e v cv (full j) = (some b, .ok ()) → P b) :
    OnlyWrites (fun fuel => writeGeneric reader prepare transform (fun i => ic3Output tbl so host e v cv (full i)) ".ic3".toList
      s fuel filename outpath) s P := by
  intro fuel s' name hrun
  obtain ⟨q1, ⟨m0, m1, m2, b, r0, r1, r2, r3, r4⟩, q2⟩ := C36_conversion_writes_new_file _ _ _ _ _ (by decide) _ _ _ _ _ _ hrun
  exact ⟨q1, q2, b, r4, h _ _ _ _ r0 r1 r2 (written_of r3)⟩

theorem refuses (h : ∀ i i' j, reader s (PyPath.parse filename).str = .ok i → prepare i = .ok i' →
      transform i' = .ok j → ∃ er, writeIc3 tbl so host e v cv (full j) = (none, .error er)) :
    Refused (fun fuel => writeGeneric reader prepare transform (fun i => ic3Output tbl so host e v cv (full i)) ".ic3".toList
      s fuel filename outpath) s := by
  intro fuel s' r hr
  simp only [writeGeneric] at hr
  split at hr
  · simp only [Option.some.injEq, Prod.mk.injEq] at hr
    exact ⟨hr.1.symm, _, hr.2.symm⟩
  · rename_i i' hi
    obtain ⟨i, h0, h1⟩ := bind_eq_ok.1 hi
    split at hr
    · cases hr
    · simp only [Option.some.injEq, Prod.mk.injEq] at hr
      exact ⟨hr.1.symm, _, hr.2.symm⟩
    · split at hr
      · simp only [Option.some.injEq, Prod.mk.injEq] at hr
        exact ⟨hr.1.symm, _, hr.2.symm⟩
      · rename_i j hj
        obtain ⟨er, her⟩ := h i i' j h0 h1 hj
        unfold runWriter ic3Output at hr
        simp only [her, Option.some.injEq, Prod.mk.injEq] at hr
        exact ⟨hr.1.symm, _, hr.2.symm⟩

end

section
variable [DecidableEq Loc] [Add R] [Mul R] [Zero R] [One R] (env : Ic3Env R) (v : Ver) (fmt : Option String) (o : Options R)
  (s : Fs Loc) (filename : Name) (outpath : Option Name)

theorem with_gmsh (hu : Uses fmt filename "GMSH" ".msh") :
    (fun fuel => cfdwriteIc3With env v fmt o s fuel filename outpath) =
      fun fuel => fromMesh (gmshIn env.toVtkEnv) gmshElem2faces env v o s fuel filename outpath := by
  funext fuel
  unfold cfdwriteIc3With
  rw [(C70_select fmt filename).2.1 hu]

theorem with_cgns (hu : Uses fmt filename "CGNS" ".cgns") :
    (fun fuel => cfdwriteIc3With env v fmt o s fuel filename outpath) =
      fun fuel => fromMesh (cgnsIn env.toVtkEnv) cgnsElem2faces env v o s fuel filename outpath := by
  funext fuel
  unfold cfdwriteIc3With
  rw [(C70_select fmt filename).2.2.1 hu]

theorem with_ic3 (hu : Uses fmt filename "IC3" ".ic3") :
    (fun fuel => cfdwriteIc3With env v fmt o s fuel filename outpath) =
      fun fuel => fromIc3 env v o s fuel filename outpath := by
  funext fuel
  unfold cfdwriteIc3With
  rw [(C70_select fmt filename).1 hu]

end

/-! ## Layers -/

section
variable [Add R] [Mul R] [Zero R] [One R] (env : Ic3Env R)

/-- The mesh of one layer, scaled. -/
theorem layer_transform {i : PyMesh R} {m : Mesh R} {c : ElemConn} {q : Quads} (hi : i.numbers = .ok m) (h : QuadMesh m c q)
    (hf : LayerFits m q "fluid") (hlin : (env.linspace 2).length = 2) (sc : Option (R × R × R)) {pts : List (R × R × R)}
    (hpts : m.coords = some (pts.map (·.1), pts.map (·.2.1), pts.map (·.2.2))) :
    transform env.toVtkEnv ⟨1, sc⟩ i = .ok (.arrays ⟨(layerConn m.nnode c).nelem, m.nnode * 2, 0, some (layerConn m.nnode c), [],
      (let P := scaled sc (lifted (env.linspace 2) pts)
       some (P.map (·.1), P.map (·.2.1), P.map (·.2.2))), layerMarks env.so m c "fluid"⟩) := by
  obtain ⟨s0, s1, hs⟩ : ∃ s0 s1, env.linspace 2 = [s0, s1] := by
    match hl : env.linspace 2 with
    | [s0, s1] => exact ⟨s0, s1, rfl⟩
    | [] => rw [hl] at hlin; cases hlin
    | [_] => rw [hl] at hlin; cases hlin
    | _ :: _ :: _ :: _ => rw [hl] at hlin; simp at hlin
  have hx := layer_mesh env.so h hf hpts (0, 0, 1) s0 s1
  rw [zip3] at hx
  have hl : pts.length = m.nnode := by
    obtain ⟨x, y, z, e1, e2, _⟩ := h.mesh.coords
    rw [hpts] at e1
    simp only [Option.some.injEq, Prod.mk.injEq] at e1
    rw [← e2, ← e1.1, List.length_map]
  unfold transform extrudeStep
  rw [if_neg (show ¬ (1 : Int) = 0 by decide), if_neg (show ¬ (1 : Int) + 1 < 0 by decide), hi, Except_bind_ok, show ((1 : Int) + 1).toNat = 2 by decide, hs, hx]
  cases sc with
  | none => rfl
  | some k =>
    simp only [Except_bind_ok, Except_pure, scaleStep, Mesh.scale, Mesh.setCoords, pyAssert]
    have hlen : ([s0, s1].flatMap fun s => pts.map fun p => translate p (0, 0, 1) s).length = m.nnode * 2 := by
      simp [hl]; omega
    simp only [List.length_map, hlen, decide_true, if_true, Except_bind_ok, scaled, lifted, List.map_map]
    rfl

/-- A file of one layer. -/
theorem layer_file {tbl : FaceTable} (htbl : tbl = cgnsElem2faces ∨ tbl = gmshElem2faces) (hso : Reorders env.so) (v : Ver)
    {i : PyMesh R} {m : Mesh R} {c : ElemConn} {q : Quads} (hi : i.numbers = .ok m) (h : QuadMesh m c q)
    (hf : LayerFits m q "fluid") (hlin : (env.linspace 2).length = 2) (sc : Option (R × R × R)) {pts : List (R × R × R)}
    (hpts : m.coords = some (pts.map (·.1), pts.map (·.2.1), pts.map (·.2.2))) (integ : Bool) :
    ∃ j b, transform env.toVtkEnv ⟨1, sc⟩ i = .ok j ∧
      writeIc3 tbl env.so env.host env.endian v env.conv (full env j) = (some b, .ok ()) ∧
      LayerFile env.store m.nnode q m.bocos (scaled sc (lifted (env.linspace 2) pts)) integ b := by
  have ht := layer_transform env hi h hf hlin sc hpts
  have hl : pts.length = m.nnode := by
    obtain ⟨x, y, z, e1, e2, _⟩ := h.mesh.coords
    rw [hpts] at e1
    simp only [Option.some.injEq, Prod.mk.injEq] at e1
    rw [← e2, ← e1.1, List.length_map]
  have hpl : (scaled sc (lifted (env.linspace 2) pts)).length = m.nnode * 2 := by
    have : (lifted (env.linspace 2) pts).length = m.nnode * 2 := by
      unfold lifted
      rw [length_flatMap_const _ _ pts.length (by simp), hlin, hl, Nat.mul_comm]
    cases sc with
    | none => exact this
    | some k => simpa [scaled] using this
  obtain ⟨b, g, lb, li, hw, hr, hlr, hat⟩ := layer_written htbl env.so hso h hf env.store env.host env.endian v env.conv integ
    _ hpl
  exact ⟨_, b, ht, hw, g, lb, li, hr, hlr, hat⟩

omit [Add R] [Zero R] [One R] in
theorem scale_ok {m m' : Mesh R} {k : R × R × R} (h : m.scale k = .ok m') :
    ∃ x y z, m' = { m with coords := some (x, y, z) } ∧ x.length = m.nnode ∧ y.length = m.nnode ∧ z.length = m.nnode := by
  unfold Mesh.scale Mesh.setCoords at h
  split at h
  · cases h
  · simp only [bind_eq_ok, pyAssert_eq_ok, decide_eq_true_eq] at h
    obtain ⟨_, h1, _, h2, _, h3, h⟩ := h
    simp only [Except_pure, Except.ok.injEq] at h
    exact ⟨_, _, _, h.symm, h1, h2, h3⟩

/-- Several layers. -/
theorem layers_file {tbl : FaceTable} (htbl : tbl = cgnsElem2faces ∨ tbl = gmshElem2faces) (hso : Reorders env.so) (v : Ver)
    {i j : PyMesh R} {m : Mesh R} {c : ElemConn} {q : Quads} (hi : i.numbers = .ok m) (h : QuadMesh m c q)
    (hf : LayerFits m q "fluid") (hN : m.nnode ≠ q.length) (hlin : ∀ k, (env.linspace k).length = k) {n : Int} (hn : 2 ≤ n)
    (sc : Option (R × R × R)) (ht : transform env.toVtkEnv ⟨n, sc⟩ i = .ok j) {b : Bytes}
    (hw : writeIc3 tbl env.so env.host env.endian v env.conv (full env j) = (some b, .ok ())) : Unreadable b := by
  intro integ g
  unfold transform extrudeStep at ht
  rw [if_neg (show ¬ n = 0 by omega), if_neg (show ¬ n + 1 < 0 by omega), hi, Except_bind_ok, bind_eq_ok] at ht
  obtain ⟨i', hx, ht⟩ := ht
  obtain ⟨m1, hm1, hx⟩ := bind_eq_ok.1 hx
  simp only [Except_pure, Except.ok.injEq] at hx
  subst hx
  have hk : (env.linspace (n + 1).toNat).length - 1 = n.toNat := by rw [hlin]; omega
  obtain ⟨a1, a2, a3⟩ := stack_mesh env.store env.so h hf _ _ (by
    rw [hlin]
    show 2 ≤ (n + 1).toNat
    omega) hm1
  rw [hk] at a1 a3
  cases sc with
  | none =>
    simp only [scaleStep, Except.ok.injEq] at ht
    subst ht
    exact layers_unreadable htbl env.so hso h hf.apart hN n.toNat (by omega) env.host env.endian v env.conv integ a1 a2 a3 b hw g
  | some k =>
    simp only [scaleStep] at ht
    obtain ⟨m2, hm2, ht⟩ := bind_eq_ok.1 ht
    simp only [Except_pure, Except.ok.injEq] at ht
    subst ht
    obtain ⟨x, y, z, rfl, h1, h2, h3⟩ := scale_ok hm2
    refine layers_unreadable htbl env.so hso h hf.apart hN n.toNat (by omega) env.host env.endian v env.conv integ (f := full env (.arrays { m1 with coords := some (x, y, z) }))
      ?_ ?_ a3 b hw g
    · refine ⟨a1.cells, a1.conn, a1.some, a1.noFaces, ?_, a1.markKeys, a1.onNodes, a1.marksSet, a1.notInternal, a1.notReserved⟩
      intro x' y' z' hxyz
      simp only [full, imported, Convert.stored, Option.map_some, Option.some.injEq, Prod.mk.injEq] at hxyz
      obtain ⟨rfl, rfl, rfl⟩ := hxyz
      simp only [List.length_map]
      exact ⟨h1, h2, h3⟩
    · exact ⟨a2.marks, a2.weights, a2.nodes, a2.cells⟩

end

section
variable [Add R] [Mul R]

/-- An extruded mesh has no faces yet. -/
theorem extruded_faces {so : List Int → List Int} {m m' : Mesh R} {d : R × R × R} {planes : List R}
    {domain : String} (h : m.exportExtruded so d planes domain = .ok m') : m'.faces = [] := by
  unfold Mesh.exportExtruded at h
  simp only [bind_eq_ok] at h
  obtain ⟨_, _, nd, _, new, hnew, h⟩ := h
  have hn : new.faces = [] := by
    unfold Mesh.setCoordsNd at hnew
    obtain ⟨_, _, hnew⟩ := bind_eq_ok.1 hnew
    simp only [Except_pure, Except.ok.injEq] at hnew
    rw [← hnew]
    rfl
  split at h
  · cases h
  · simp only [bind_eq_ok] at h
    obtain ⟨c', _, m1, hm1, h⟩ := h
    simp only [Except_pure, Except.ok.injEq] at h
    rw [← h]
    show m1.faces = _
    have key : ∀ (l : List (String × Mark)) (a b : Mesh R), l.foldlM (fun (new : Mesh R) (p : String × Mark) => do
        let b ← Mesh.extrudeMark planes.length m.nnode p.2
        return new.addBoco b) a = .ok b → b.faces = a.faces := by
      intro l
      induction l with
      | nil =>
        intro a b hab
        simp only [List.foldlM_nil, Except_pure, Except.ok.injEq] at hab
        rw [hab]
      | cons p l ih =>
        intro a b hab
        rw [List.foldlM_cons, bind_eq_ok] at hab
        obtain ⟨a1, h1, h2⟩ := hab
        rw [bind_eq_ok] at h1
        obtain ⟨_, _, h1⟩ := h1
        simp only [Except_pure, Except.ok.injEq] at h1
        rw [ih _ _ h2, ← h1]
        rfl
    rw [key _ _ _ hm1]
    exact hn

/-- An extruded mesh with unknown cells is refused, scaled or not. -/
theorem extruded_unknown {tbl : FaceTable} (env : Ic3Env R) {m m1 : Mesh R} {d : R × R × R} {planes : List R} {domain : String}
    (hm1 : m.exportExtruded env.so d planes domain = .ok m1) {sc : Option (R × R × R)} {j : PyMesh R}
    (hj : scaleStep sc (.arrays m1) = .ok j) {c : ElemConn} (hc : m1.cell2node = some c) {t : String} (ht : t ∈ c.tbl.keys)
    (hno : tbl.get? t = none) (v : Ver) :
    ∃ er, writeIc3 tbl env.so env.host env.endian v env.conv (full env j) = (none, .error er) := by
  have hf := extruded_faces hm1
  obtain ⟨p, hp, rfl⟩ := List.mem_map.1 ht
  cases sc with
  | none =>
    simp only [scaleStep, Except.ok.injEq] at hj
    subst hj
    exact write_unknown hc hf hp hno env.so env.host env.endian v env.conv
  | some k =>
    simp only [scaleStep] at hj
    obtain ⟨m2, hm2, hj⟩ := bind_eq_ok.1 hj
    simp only [Except_pure, Except.ok.injEq] at hj
    subst hj
    obtain ⟨x, y, z, rfl, _⟩ := scale_ok hm2
    exact write_unknown (f := full env (.arrays { m1 with coords := some (x, y, z) })) hc hf hp hno env.so env.host env.endian v
      env.conv

end

/-! ## Gmsh -/

theorem quads_fst (elts : List Elt) : (gmshQuads elts).map (·.1) = pyRange 0 (cellsOf elts).length := by
  unfold gmshQuads pyRange
  rw [List.map_map]
  have : (gmshCells elts).zipIdx.map (fun x => (x.2 : Int)) = ((gmshCells elts).zipIdx.map (·.2)).map fun k : Nat => (k : Int) := by
    rw [List.map_map]; rfl
  show (gmshCells elts).zipIdx.map (fun x => (x.2 : Int)) = _
  rw [this, List.zipIdx_map_snd, ← List.range_eq_range']
  simp [gmshCells]

/-- Quadrangles of a Gmsh file, as the extrusion sees them. -/
theorem gmsh_quads {names : Option (List PhysName)} {elts : List Elt} {m : Mesh (Option R)} {pts : List (R × R × R)}
    (hm : IsMeshOf (pts.map some) names elts m) (hmk : ∀ p ∈ m.bocos, p.1 = p.2.name ∧ p.2.index ≠ .unset ∧
      p.2.geodim ∈ [GeoDim.node, GeoDim.intnode, GeoDim.bdnode]) (hsup : ∀ e ∈ elts, e.Supported)
    (hq : ∀ e ∈ cellsOf elts, e.name = "quad4") (hne : cellsOf elts ≠ [])
    (hn : ∀ c ∈ gmshCells elts, c.2.Nodup ∧ ∀ k ∈ c.2, 0 ≤ k ∧ k < (pts.length : Int)) :
    ∃ m' c, (PyMesh.lists m).numbers = .ok m' ∧ QuadMesh m' c (gmshQuads elts) ∧ m'.nnode = m.nnode ∧ m'.bocos = m.bocos ∧
      m'.coords = some (pts.map (·.1), pts.map (·.2.1), pts.map (·.2.2)) := by
  obtain ⟨m', c, h1, h2, h3, hbo⟩ := gmsh_shows hm
  have hkey : ∀ t ∈ c.tbl.keys, t = "quad4" := by
    intro t ht
    rw [h3.types, mem_firstUse] at ht
    obtain ⟨e, he, rfl⟩ := List.mem_map.1 ht
    exact hq e he
  have h4 : ∀ q ∈ gmshCells elts, q.2.length = 4 := by
    intro q hq'
    obtain ⟨e, he, rfl⟩ := List.mem_map.1 hq'
    obtain ⟨t, d, ht⟩ := hsup e (List.mem_of_mem_filter he)
    have hn : t = "quad4" := by
      rw [← hq e he]
      unfold Elt.name
      rw [ht]
      rfl
    have h0 : ∀ p ∈ documented, p.2.1 = "quad4" → p.2.2.2 = 4 := by decide
    have := h0 _ (Dict.mem_of_get? ht) hn
    simpa using this
  have hcn : gmshCells elts ≠ [] := by simpa [gmshCells] using hne
  obtain ⟨en, htbl, hcol⟩ := quads_tbl h2 hkey hcn h4
  have hall : elements c = (elementsOf c "quad4").map fun x => ("quad4", x) := by
    unfold elements elementsOf
    rw [htbl]
    simp [Dict.get?]
  have hfst : (elementsOf c "quad4").map (·.1) = (gmshQuads elts).map (·.1) := by
    have := h3.indices
    unfold allIndices at this
    rw [hall, List.map_map] at this
    rw [quads_fst, ← this]
    rfl
  have hsnd : (elementsOf c "quad4").map (·.2) = (gmshQuads elts).map (·.2) := by
    rw [h3.rows "quad4", List.filter_eq_self.2 (by intro e he; simp [hq e he])]
    unfold gmshQuads
    rw [List.map_map]
    show _ = (gmshCells elts).zipIdx.map ((·.2) ∘ (·.1))
    rw [← List.map_map, List.zipIdx_map_fst]
    simp [gmshCells]
  have hel : elementsOf c "quad4" = gmshQuads elts :=
    (List.zip_of_prod hfst hsnd).trans (List.zip_of_prod rfl rfl).symm
  refine ⟨m', c, h1, ⟨⟨⟨_, _, _, h2.coords, by simp [h2.nnode], by simp [h2.nnode], by simp [h2.nnode]⟩, h2.conn, h2.wf, ?_, ?_, ?_⟩,
    ?_, hel, ?_, ?_, ?_⟩, ?_, hbo, h2.coords⟩
  · rw [htbl]
    intro p hp
    rw [List.mem_singleton] at hp
    subst hp
    exact ⟨4, "hexa8", rfl, hcol⟩
  · rw [hbo]; exact hmk
  · rw [hbo]; exact hm.marks.distinct
  · rw [htbl]; rfl
  · rw [← List.length_pos_iff]
    unfold gmshQuads
    simpa using List.length_pos_iff.2 hcn
  · rw [quads_fst]
    exact valid_of_perm_pyRange (List.Perm.refl _)
  · intro p hp
    unfold gmshQuads at hp
    obtain ⟨x, hx, rfl⟩ := List.mem_map.1 hp
    have := hn x.1 (List.fst_mem_of_mem_zipIdx hx)
    rw [h2.nnode]
    exact this
  · rw [h2.nnode, hm.nnode, List.length_map]

/-- Conditions that depend on numbers of nodes and marks only. -/
theorem fits_of {A B : Type} {m : Mesh A} {m' : Mesh B} {q : Quads} {domain : String} (h1 : m'.nnode = m.nnode)
    (h2 : m'.bocos = m.bocos) (h : LayerFits m q domain) : LayerFits m' q domain := by
  obtain ⟨a1, a2, a3, a4, a5, a6, a7, a8, a9, a10, a11⟩ := h
  rw [← h2] at a4 a5 a6 a7 a8 a9
  rw [← h1] at a7 a11
  exact ⟨a1, a2, a3, a4, a5, a6, a7, a8, a9, a10, a11⟩

section
variable [DecidableEq Loc] [Add R] [Mul R] [Zero R] [One R] (env : Ic3Env R) (v : Ver) (fmt : Option String)
  (s : Fs Loc) (filename : Name) (outpath : Option Name)

/-- **C72, Gmsh, one layer.** A plane Gmsh file of quadrangles converted with `--extrude 1`, with or without `--scale`: a new
IC3 file (both versions) is read as the layer of hexahedra above the quadrangles, with the points of the file at the two
heights of `linspace`, multiplied by the scale; no other file changes. `--remove-cell-data` has no effect. -/
theorem C72_gmsh_one_layer (hfin : ∀ folder : PyPath, FiniteFolder s.has folder) (hf : (PyPath.parse filename).name ≠ [])
    (hso : Reorders env.so) (hu : Uses fmt filename "GMSH" ".msh") {b : Bytes}
    (hb : s.content (s.resolve (PyPath.parse filename).str) = some b) {m : Mesh (Option R)}
    (hread : Gmsh.readFile env.num (env.text b) = .ok m) {pts : List (R × R × R)} {names : Option (List PhysName)}
    {elts : List Elt} (hm : IsMeshOf (pts.map some) names elts m) (hsup : ∀ e ∈ elts, e.Supported)
    (hq : ∀ e ∈ cellsOf elts, e.name = "quad4") (hne : cellsOf elts ≠ [])
    (hn : ∀ c ∈ gmshCells elts, c.2.Nodup ∧ ∀ k ∈ c.2, 0 ≤ k ∧ k < (pts.length : Int))
    (hfit : LayerFits m (gmshQuads elts) "fluid") (hlin : (env.linspace 2).length = 2) (sc : Option (R × R × R))
    (remove : List String) (integ : Bool) :
    WrittenAs (fun fuel => cfdwriteIc3With env v fmt ⟨⟨1, sc⟩, remove⟩ s fuel filename outpath) s
      (LayerFile env.store pts.length (gmshQuads elts) m.bocos (scaled sc (lifted (env.linspace 2) pts)) integ) := by
  obtain ⟨m', c, h1, h2, h3, h4, h5⟩ := gmsh_quads hm (by
    intro p hp
    obtain ⟨l, hl⟩ := (Convert.read_shape hread).2 p hp
    rw [hl]; simp) hsup hq hne hn
  obtain ⟨j, b', e1, e2, e3⟩ := layer_file env (.inr rfl) hso v h1 h2 (fits_of h3 h4 hfit) hlin sc h5 integ
  rw [h3, h4, hm.nnode, List.length_map] at e3
  rw [with_gmsh env v fmt _ s filename outpath hu]
  refine writes hfin hf (i := .lists m) (i' := .lists m) ?_ rfl e1 e2 e3
  unfold gmshIn
  simp only [hb, hread, Except_bind_ok, Except_pure]

/-- **C72, Gmsh, several layers.** With `--extrude n`, `n` at least 2, the same file never gives a file that can be read
(unless it has as many cells as nodes): if the command succeeds, the new file is refused by the reader. -/
theorem C72_gmsh_more_layers (hso : Reorders env.so) (hu : Uses fmt filename "GMSH" ".msh") {b : Bytes}
    (hb : s.content (s.resolve (PyPath.parse filename).str) = some b) {m : Mesh (Option R)}
    (hread : Gmsh.readFile env.num (env.text b) = .ok m) {pts : List (R × R × R)} {names : Option (List PhysName)}
    {elts : List Elt} (hm : IsMeshOf (pts.map some) names elts m) (hsup : ∀ e ∈ elts, e.Supported)
    (hq : ∀ e ∈ cellsOf elts, e.name = "quad4") (hne : cellsOf elts ≠ [])
    (hn : ∀ c ∈ gmshCells elts, c.2.Nodup ∧ ∀ k ∈ c.2, 0 ≤ k ∧ k < (pts.length : Int))
    (hfit : LayerFits m (gmshQuads elts) "fluid") (hN : pts.length ≠ (cellsOf elts).length)
    (hlin : ∀ k, (env.linspace k).length = k) {n : Int} (hn2 : 2 ≤ n) (sc : Option (R × R × R)) (remove : List String) :
    OnlyWrites (fun fuel => cfdwriteIc3With env v fmt ⟨⟨n, sc⟩, remove⟩ s fuel filename outpath) s Unreadable := by
  obtain ⟨m', c, h1, h2, h3, h4, h5⟩ := gmsh_quads hm (by
    intro p hp
    obtain ⟨l, hl⟩ := (Convert.read_shape hread).2 p hp
    rw [hl]; simp) hsup hq hne hn
  rw [with_gmsh env v fmt _ s filename outpath hu]
  apply only_writes
  intro i i' j b' r0 r1 r2 r3
  cases r1
  unfold gmshIn at r0
  simp only [hb, hread, Except_bind_ok, Except_pure, Except.ok.injEq] at r0
  subst r0
  refine layers_file env (.inr rfl) hso v h1 h2 (fits_of h3 h4 hfit) ?_ hlin hn2 sc r2 r3
  rw [h3, hm.nnode, List.length_map]
  simpa [gmshQuads, gmshCells] using hN

/-- **C72, Gmsh, refusals.** A negative number of layers, layers over triangles or volumes, a scale without layers: the command
is refused and nothing changes. -/
theorem C72_gmsh_refused (hu : Uses fmt filename "GMSH" ".msh") {b : Bytes}
    (hb : s.content (s.resolve (PyPath.parse filename).str) = some b) {m : Mesh (Option R)}
    (hread : Gmsh.readFile env.num (env.text b) = .ok m) {pts : List (Option (R × R × R))} {names : Option (List PhysName)}
    {elts : List Elt} (hm : IsMeshOf pts names elts m) (hsup : ∀ e ∈ elts, e.Supported) (htop : 2 ≤ topDim elts)
    (o : Options R) (hlin : ∀ k, (env.linspace k).length = k)
    (hno : o.extrude < 0 ∨ (o.extrude ≠ 0 ∧ ∃ e ∈ cellsOf elts, e.name ≠ "quad4") ∨ (o.extrude = 0 ∧ o.scale ≠ none)) :
    Refused (fun fuel => cfdwriteIc3With env v fmt o s fuel filename outpath) s := by
  rw [with_gmsh env v fmt _ s filename outpath hu]
  apply refuses
  intro i i' j r0 r1 r2
  cases r1
  unfold gmshIn at r0
  simp only [hb, hread, Except_bind_ok, Except_pure, Except.ok.injEq] at r0
  subst r0
  obtain ⟨⟨n, sc⟩, rm⟩ := o
  unfold transform at r2
  obtain ⟨i1, hx, r2⟩ := bind_eq_ok.1 r2
  simp only at hx r2 hno
  unfold extrudeStep at hx
  split at hx
  · rename_i hn0
    simp only [Except.ok.injEq] at hx
    subst hx
    cases sc with
    | some q =>
      exfalso
      unfold scaleStep Mesh.scaleLists at r2
      simp only [hm.coords, Mesh.listTimes, bind_eq_ok] at r2
      obtain ⟨_, ⟨_, h, _⟩, _⟩ := r2
      cases h
    | none => exfalso; rcases hno with h | h | h <;> [omega; exact h.1 hn0; exact h.2 rfl]
  · rename_i hn0
    split at hx
    · cases hx
    obtain ⟨m0, hm0, hx⟩ := bind_eq_ok.1 hx
    obtain ⟨m1, hm1, hx⟩ := bind_eq_ok.1 hx
    simp only [Except_pure, Except.ok.injEq] at hx
    subst hx
    obtain ⟨P, rfl⟩ := numbers_ok hm hm0
    obtain ⟨m0', c, e1, e2, e3, ebo⟩ := gmsh_shows hm
    rw [hm0] at e1
    cases e1
    obtain ⟨hp, c0, c1, p1, p2, p3⟩ := extruded_parts hm1
    rw [hlin] at hp
    have hpos : 0 < n := by omega
    rw [e2.conn] at p1
    cases p1
    obtain ⟨e, he, hne⟩ : ∃ e ∈ cellsOf elts, e.name ≠ "quad4" := by
      rcases hno with h | h | h
      · omega
      · exact h.2
      · exact absurd h.1 hn0
    have hk : e.name ∈ c.tbl.keys := by
      rw [e3.types, mem_firstUse]
      exact List.mem_map_of_mem he
    obtain ⟨t', ht', hmem⟩ := extrude_types p2 _ hk
    refine extruded_unknown env hm1 r2 p3 hmem ?_ v
    have hd : e.dim = topDim elts := by simpa using (List.mem_filter.1 he).2
    obtain ⟨t, d, ht⟩ := hsup e (List.mem_of_mem_filter he)
    have hnd : e.name = t ∧ e.dim = d := by
      unfold Elt.name Elt.dim
      rw [ht]
      exact ⟨rfl, rfl⟩
    have h0 : ∀ p ∈ documented, 2 ≤ p.2.2.1 → p.2.1 ≠ "quad4" →
        ∀ t' ∈ extrudedFace.get? p.2.1, gmshElem2faces.get? t' = none := by decide +kernel
    exact h0 _ (Dict.mem_of_get? ht) (by simp only; omega) (by rw [← hnd.1]; exact hne) t' (by rw [← hnd.1]; exact ht')

end

/-! ## CGNS -/

section
open Cfd.Cgns Cfd.Spec.Cgns Cfd.Spec.CgnsConvert
variable {z : Zone R}

/-- Quadrangles of a CGNS zone, as the extrusion sees them. -/
theorem cgns_quads (so : List Int → List Int) (hso : Reorders so) (hz : ZoneOk z 2) (htri : ∀ p ∈ z.sections, p.2.cgtype ≠ 5)
    (hne : cgnsQuads z ≠ []) (hmk : ∀ p ∈ z.bcs, Whole z p.2 ∨ ¬ OnCells z p.2) (hnum : ValidNumbering ((cgnsQuads z).map (·.1)))
    (hn : ∀ c ∈ cgnsQuads z, c.2.Nodup ∧ ∀ k ∈ c.2, 0 ≤ k ∧ k < (z.nnode : Int)) {m : Mesh R}
    (hm : Cgns.exportMesh so 2 z = .ok m) :
    ∃ c, QuadMesh m c (cgnsQuads z) ∧ m.nnode = z.nnode ∧ m.coords = some (z.x, z.y, z.z) := by
  obtain ⟨m', c, h1, hel, h2, h3⟩ := cgns_shows so hso hz
  rw [hm] at h1
  cases h1
  obtain ⟨z1, z2, z3⟩ := zip3_map z.x z.y z.z (by rw [hz.lx, hz.ly]) (by rw [hz.ly, hz.lz])
  have hlen : (z.x.zip (z.y.zip z.z)).length = z.nnode := by simp [hz.lx, hz.ly, hz.lz]
  have hkey := quads_only hel h3 htri
  have h4 := quads_length hz h2 hkey
  obtain ⟨mk1, mk2⟩ := cgns_marks so hso hz hmk hm
  have hcells : elementsOf c "quad4" = cgnsQuads z := by
    obtain ⟨c', e, w, hk, el, hp⟩ := elemcon_ok z 2 hz.sections
    rw [hel] at e
    cases e
    exact el ⟨7, "quad4", 4, 2⟩ (by decide)
  have hcne : cgnsCells z 2 ≠ [] := by
    obtain ⟨q, hq⟩ := List.exists_mem_of_ne_nil _ hne
    exact List.ne_nil_of_mem (List.mem_flatMap.2 ⟨⟨7, "quad4", 4, 2⟩, by decide, List.mem_map.2 ⟨q, hq, rfl⟩⟩)
  obtain ⟨en, htbl, hcol⟩ := quads_tbl h2 hkey hcne h4
  have hco := h2.coords
  rw [z1, z2, z3] at hco
  have hnn : m.nnode = z.nnode := by rw [h2.nnode, hlen]
  refine ⟨c, ⟨⟨⟨_, _, _, hco, by rw [hnn, hz.lx], by rw [hnn, hz.ly], by rw [hnn, hz.lz]⟩, h2.conn, h2.wf, ?_, mk1, mk2⟩,
    ?_, hcells, hne, hnum, ?_⟩, hnn, hco⟩
  · rw [htbl]
    intro p hp
    rw [List.mem_singleton] at hp
    subst hp
    exact ⟨4, "hexa8", rfl, hcol⟩
  · rw [htbl]; rfl
  · intro p hp
    rw [hnn]
    exact hn p hp

section
variable [Mul R]

omit [Mul R] in
theorem addBC_coords (so : List Int → List Int) (dim : Int) (z : Zone R) (xyz : Option (List R × List R × List R))
    (l : List (String × Bc)) (m m' : Mesh R) (h : l.foldlM (addBC so dim z) m = .ok m') :
    l.foldlM (addBC so dim z) { m with coords := xyz } = .ok { m' with coords := xyz } ∧ m'.coords = m.coords ∧
      m'.nnode = m.nnode := by
  induction l generalizing m with
  | nil =>
    simp only [List.foldlM_nil, Except_pure, Except.ok.injEq] at h
    subst h
    exact ⟨rfl, rfl, rfl⟩
  | cons p l ih =>
    rw [List.foldlM_cons, bind_eq_ok] at h
    obtain ⟨m1, h1, h2⟩ := h
    unfold addBC at h1
    obtain ⟨b, hb, h1⟩ := bind_eq_ok.1 h1
    obtain ⟨k1, k2, k3⟩ := ih m1 h2
    have key : addBC so dim z { m with coords := xyz } p = .ok { m1 with coords := xyz } ∧ m1.coords = m.coords ∧
        m1.nnode = m.nnode := by
      unfold addBC
      rw [hb, Except_bind_ok]
      split at h1
      · rename_i ht
        cases h1
        rw [if_pos ht]
        exact ⟨rfl, rfl, rfl⟩
      · rename_i ht
        obtain ⟨u, hu, h1⟩ := bind_eq_ok.1 h1
        cases h1
        rw [if_neg ht, hu]
        exact ⟨rfl, rfl, rfl⟩
    refine ⟨?_, ?_, ?_⟩
    · rw [List.foldlM_cons, key.1, Except_bind_ok]
      exact k1
    · rw [k2, key.2.1]
    · rw [k3, key.2.2]

/-- The mesh of a scaled zone is the scaled mesh. -/
theorem scaled_export (so : List Int → List Int) (dim : Int) (k : R × R × R) {m : Mesh R}
    (hm : Cgns.exportMesh so dim z = .ok m) (hx : z.x.length = z.nnode) (hy : z.y.length = z.nnode) (hz : z.z.length = z.nnode) :
    ∃ m', m.scale k = .ok m' ∧ Cgns.exportMesh so dim (scaledZone (some k) z) = .ok m' := by
  unfold Cgns.exportMesh at hm
  obtain ⟨m1, h1, hm⟩ := bind_eq_ok.1 hm
  obtain ⟨c, hc, hm⟩ := bind_eq_ok.1 hm
  unfold Mesh.setCoords at h1
  simp only [bind_eq_ok, Except_pure, Except.ok.injEq] at h1
  obtain ⟨_, _, _, _, _, _, rfl⟩ := h1
  obtain ⟨k1, k2, k3⟩ := addBC_coords so dim z (some (z.x.map (· * k.1), z.y.map (· * k.2.1), z.z.map (· * k.2.2))) _ _ _ hm
  refine ⟨{ m with coords := some (z.x.map (· * k.1), z.y.map (· * k.2.1), z.z.map (· * k.2.2)) }, ?_, ?_⟩
  · unfold Mesh.scale Mesh.setCoords
    have e1 : m.coords = some (z.x, z.y, z.z) := k2
    have e2 : m.nnode = z.nnode := k3
    simp only [e1, e2, List.length_map, hx, hy, hz, pyAssert, decide_true, if_true, Except_bind_ok, Except_pure]
  · unfold Cgns.exportMesh
    have : elemcon (scaledZone (some k) z) dim = .ok c := hc
    unfold Mesh.setCoords
    simp only [scaledZone, Mesh.new, List.length_map, hx, hy, hz, pyAssert, decide_true, if_true, Except_bind_ok, Except_pure]
    exact this ▸ k1

end

section
variable [DecidableEq Loc] [Add R] [Mul R] [Zero R] [One R] (env : Ic3Env R) (v : Ver) (fmt : Option String)
  (s : Fs Loc) (filename : Name) (outpath : Option Name)

/-- **C72, CGNS, one layer.** As for Gmsh: a plane CGNS zone of quadrangles, numbered 1, 2, ... in the file, converted with
`--extrude 1`, with or without `--scale`. -/
theorem C72_cgns_one_layer (hfin : ∀ folder : PyPath, FiniteFolder s.has folder) (hf : (PyPath.parse filename).name ≠ [])
    (hso : Reorders env.so) (hu : Uses fmt filename "CGNS" ".cgns") {b : Bytes}
    (hb : s.content (s.resolve (PyPath.parse filename).str) = some b) {root : Cgns.Tree R}
    (htree : env.tree b = .ok root) (hun : Spec.Cgns.TellsFile root 2 z) (hnc : z.ncell ≠ 0) (hz : ZoneOk z 2)
    (htri : ∀ p ∈ z.sections, p.2.cgtype ≠ 5) (hne : cgnsQuads z ≠ []) (hmk : ∀ p ∈ z.bcs, Whole z p.2 ∨ ¬ OnCells z p.2)
    (hnum : ValidNumbering ((cgnsQuads z).map (·.1)))
    (hn : ∀ c ∈ cgnsQuads z, c.2.Nodup ∧ ∀ k ∈ c.2, 0 ≤ k ∧ k < (z.nnode : Int)) {m : Mesh R}
    (hm : Cgns.exportMesh env.so 2 z = .ok m) (hfit : LayerFits m (cgnsQuads z) "fluid")
    (hlin : (env.linspace 2).length = 2) (sc : Option (R × R × R)) (remove : List String) (integ : Bool) :
    WrittenAs (fun fuel => cfdwriteIc3With env v fmt ⟨⟨1, sc⟩, remove⟩ s fuel filename outpath) s
      (LayerFile env.store z.nnode (cgnsQuads z) m.bocos (scaled sc (lifted (env.linspace 2) (z.x.zip (z.y.zip z.z)))) integ) := by
  obtain ⟨c, h2, h3, h5⟩ := cgns_quads env.so hso hz htri hne hmk hnum hn hm
  obtain ⟨z1, z2, z3⟩ := zip3_map z.x z.y z.z (by rw [hz.lx, hz.ly]) (by rw [hz.ly, hz.lz])
  have h5 : m.coords = some ((z.x.zip (z.y.zip z.z)).map (·.1), (z.x.zip (z.y.zip z.z)).map (·.2.1),
      (z.x.zip (z.y.zip z.z)).map (·.2.2)) := by rw [z1, z2, z3]; exact h5
  obtain ⟨j, b', e1, e2, e3⟩ := layer_file env (.inl rfl) hso v (i := .arrays m) rfl h2 hfit hlin sc h5 integ
  rw [h3] at e3
  rw [with_cgns env v fmt _ s filename outpath hu]
  refine writes hfin hf (i := .arrays m) (i' := .arrays m) ?_ rfl e1 e2 e3
  rw [cgns_in env.toVtkEnv s filename hb htree hun hnc, hm, Except_bind_ok]

/-- **C72, CGNS, several layers.** As for Gmsh: never a file that can be read, unless there are as many cells as nodes. -/
theorem C72_cgns_more_layers (hso : Reorders env.so) (hu : Uses fmt filename "CGNS" ".cgns") {b : Bytes}
    (hb : s.content (s.resolve (PyPath.parse filename).str) = some b) {root : Cgns.Tree R}
    (htree : env.tree b = .ok root) (hun : Spec.Cgns.TellsFile root 2 z) (hnc : z.ncell ≠ 0) (hz : ZoneOk z 2)
    (htri : ∀ p ∈ z.sections, p.2.cgtype ≠ 5) (hne : cgnsQuads z ≠ []) (hmk : ∀ p ∈ z.bcs, Whole z p.2 ∨ ¬ OnCells z p.2)
    (hnum : ValidNumbering ((cgnsQuads z).map (·.1)))
    (hn : ∀ c ∈ cgnsQuads z, c.2.Nodup ∧ ∀ k ∈ c.2, 0 ≤ k ∧ k < (z.nnode : Int)) {m : Mesh R}
    (hm : Cgns.exportMesh env.so 2 z = .ok m) (hfit : LayerFits m (cgnsQuads z) "fluid") (hN : z.nnode ≠ (cgnsQuads z).length)
    (hlin : ∀ k, (env.linspace k).length = k) {n : Int} (hn2 : 2 ≤ n) (sc : Option (R × R × R)) (remove : List String) :
    OnlyWrites (fun fuel => cfdwriteIc3With env v fmt ⟨⟨n, sc⟩, remove⟩ s fuel filename outpath) s Unreadable := by
  obtain ⟨c, h2, h3, h5⟩ := cgns_quads env.so hso hz htri hne hmk hnum hn hm
  rw [with_cgns env v fmt _ s filename outpath hu]
  apply only_writes
  intro i i' j b' r0 r1 r2 r3
  cases r1
  rw [cgns_in env.toVtkEnv s filename hb htree hun hnc, hm, Except_bind_ok, Except.ok.injEq] at r0
  subst r0
  exact layers_file env (.inl rfl) hso v rfl h2 hfit (by rw [h3]; exact hN) hlin hn2 sc r2 r3

/-- **C72, CGNS, refusals.** A negative number of layers, layers over triangles or hexahedra: the command is refused and nothing
changes. -/
theorem C72_cgns_refused (hso : Reorders env.so) (hu : Uses fmt filename "CGNS" ".cgns") {b : Bytes}
    (hb : s.content (s.resolve (PyPath.parse filename).str) = some b) {root : Cgns.Tree R} {dim : Int}
    (htree : env.tree b = .ok root) (hun : Spec.Cgns.TellsFile root dim z) (hnc : z.ncell ≠ 0) (hz : ZoneOk z dim)
    (hdim : 2 ≤ dim) (o : Options R) (hlin : ∀ k, (env.linspace k).length = k)
    (hno : o.extrude < 0 ∨ (o.extrude ≠ 0 ∧ ∃ q ∈ cgnsCells z dim, q.1 ≠ "quad4")) :
    Refused (fun fuel => cfdwriteIc3With env v fmt o s fuel filename outpath) s := by
  rw [with_cgns env v fmt _ s filename outpath hu]
  apply refuses
  intro i i' j r0 r1 r2
  cases r1
  obtain ⟨m, c, e1, hel, e2, e3⟩ := cgns_shows env.so hso hz
  rw [cgns_in env.toVtkEnv s filename hb htree hun hnc, e1, Except_bind_ok, Except.ok.injEq] at r0
  subst r0
  obtain ⟨⟨n, sc⟩, rm⟩ := o
  unfold transform at r2
  obtain ⟨i1, hx, r2⟩ := bind_eq_ok.1 r2
  simp only at hx r2 hno
  unfold extrudeStep at hx
  split at hx
  · rename_i hn0
    exfalso
    rcases hno with h | h
    · omega
    · exact h.1 hn0
  · rename_i hn0
    split at hx
    · cases hx
    obtain ⟨m0, hm0, hx⟩ := bind_eq_ok.1 hx
    obtain ⟨m1, hm1, hx⟩ := bind_eq_ok.1 hx
    simp only [Except_pure, Except.ok.injEq] at hx
    subst hx
    simp only [PyMesh.numbers, Except.ok.injEq] at hm0
    subst hm0
    obtain ⟨hp, c0, c1, p1, p2, p3⟩ := extruded_parts hm1
    rw [hlin] at hp
    have hpos : 0 < n := by omega
    rw [e2.conn] at p1
    cases p1
    obtain ⟨q, hq, hne⟩ : ∃ q ∈ cgnsCells z dim, q.1 ≠ "quad4" := by
      rcases hno with h | h
      · omega
      · exact h.2
    have hk := names_of e2 hq
    obtain ⟨t', ht', hmem⟩ := extrude_types p2 _ hk
    refine extruded_unknown env hm1 r2 p3 hmem ?_ v
    obtain ⟨k, hkk, hd, hkn⟩ := e3 _ hk
    have h0 : ∀ k ∈ Spec.Cgns.kinds, 2 ≤ k.dim → k.name ≠ "quad4" →
        ∀ t' ∈ extrudedFace.get? k.name, cgnsElem2faces.get? t' = none := by decide +kernel
    exact h0 k hkk (by omega) (by rw [hkn]; exact hne) t' (by rw [hkn]; exact ht')

/-- **C72, CGNS, scale.** A CGNS zone of hexahedra converted with `--scale`: a new IC3 file is read as the zone with multiplied
coordinates; no other file changes. -/
theorem C72_cgns_scaled (hfin : ∀ folder : PyPath, FiniteFolder s.has folder) (hf : (PyPath.parse filename).name ≠ [])
    (hso : Reorders env.so) (hu : Uses fmt filename "CGNS" ".cgns") {b : Bytes}
    (hb : s.content (s.resolve (PyPath.parse filename).str) = some b) {root : Cgns.Tree R}
    (htree : env.tree b = .ok root) (hun : Spec.Cgns.TellsFile root 3 z) (hnc : z.ncell ≠ 0)
    (hz : HexaZone z) (hcf : CellsFirst z) (hg : GoodNames z) (h3 : NoTriple z) (hmix : Mixed z) (hsep : Separable z)
    (hfit : Fits z) (sc : Option (R × R × R)) (remove : List String) (integ : Bool) :
    WrittenAs (fun fuel => cfdwriteIc3With env v fmt ⟨⟨0, sc⟩, remove⟩ s fuel filename outpath) s
      (fun b => ∃ g lb li, readIc3 integ b = .ok g ∧ Converted env.store (scaledZone sc z) lb li g.mesh) := by
  obtain ⟨m, c, hm, _⟩ := CgnsConvert.import_ok env.so hso hz
  obtain ⟨m', ht, hm'⟩ : ∃ m', transform env.toVtkEnv ⟨0, sc⟩ (.arrays m) = .ok (.arrays m') ∧
      Cgns.exportMesh env.so 3 (scaledZone sc z) = .ok m' := by
    cases sc with
    | none => exact ⟨m, rfl, hm⟩
    | some k =>
      obtain ⟨m', h1, h2⟩ := scaled_export env.so 3 k hm hz.zone.lx hz.zone.ly hz.zone.lz
      refine ⟨m', ?_, h2⟩
      unfold transform extrudeStep scaleStep
      simp only [if_true, Except_bind_ok, h1, Except_pure]
  have hz' : HexaZone (scaledZone sc z) := by
    cases sc with
    | none => exact hz
    | some k =>
      have h := hz.zone
      exact ⟨⟨h.sections, by simpa [scaledZone] using h.lx, by simpa [scaledZone] using h.ly, by simpa [scaledZone] using h.lz,
        h.faces, h.names, h.bcs⟩, hz.some, hz.marks, hz.apart, hz.positive⟩
  have hcf' : CellsFirst (scaledZone sc z) := by cases sc <;> exact hcf
  have hg' : GoodNames (scaledZone sc z) := by cases sc <;> exact hg
  have h3' : NoTriple (scaledZone sc z) := by cases sc <;> exact h3
  have hmix' : Mixed (scaledZone sc z) := by cases sc <;> exact hmix
  have hsep' : Separable (scaledZone sc z) := by
    cases sc
    · exact hsep
    · exact ⟨hsep.some, hsep.apart⟩
  have hfit' : Fits (scaledZone sc z) := by cases sc <;> exact hfit
  obtain ⟨b', hw⟩ := CgnsConvert.C66_converts env.so hso hz' hcf' hg' h3' hmix' hsep' hfit' hm' env.store env.host env.endian v
    env.conv
  obtain ⟨g, lb, li, k1, k2⟩ := CgnsConvert.C66_mesh env.so hso hz' hcf' hg' h3' hm' env.store env.host env.endian v env.conv b'
    hw integ
  rw [with_cgns env v fmt _ s filename outpath hu]
  refine writes (full := full env) hfin hf (i := .arrays m) (i' := .arrays m) ?_ rfl ht hw ⟨g, lb, li, k1, k2⟩
  rw [cgns_in env.toVtkEnv s filename hb htree hun hnc, hm, Except_bind_ok]

end

end

/-! ## IC3 -/

/-- Removing known names changes nothing. -/
theorem remove_known {V : Type} (d : MeshData V) {data : Dict String V} (h : d.celldata = some data) (names : List String)
    (hn : ∀ n ∈ names, n ∈ data.keys) : d.removeCellData names = .ok d := by
  induction names with
  | nil => rfl
  | cons n t ih =>
    unfold MeshData.removeCellData MeshData.popCelldata
    obtain ⟨x, hx⟩ : ∃ x, data.get? n = some x := by
      have := hn n (by simp)
      cases hx : data.get? n with
      | some x => exact ⟨x, rfl⟩
      | none => exact absurd this (Dict.get?_eq_none_iff.1 hx)
    simp only [h, hx]
    exact ih fun k hk => hn k (by simp [hk])

/-- An unknown name is refused. -/
theorem remove_unknown {V : Type} (d d' : MeshData V) {data : Dict String V} (h : d.celldata = some data) (names : List String)
    (hn : ∃ n ∈ names, n ∉ data.keys) : d.removeCellData names ≠ .ok d' := by
  induction names with
  | nil => obtain ⟨n, hn, _⟩ := hn; cases hn
  | cons n t ih =>
    unfold MeshData.removeCellData MeshData.popCelldata
    cases hx : data.get? n with
    | none => simp only [h, hx]; exact fun h => by cases h
    | some x =>
      simp only [h, hx]
      apply ih
      obtain ⟨k, hk, hkn⟩ := hn
      rcases List.mem_cons.1 hk with rfl | hk
      · rw [← Dict.get?_eq_none_iff, hx] at hkn
        cases hkn
      · exact ⟨k, hk, hkn⟩

section
variable [DecidableEq Loc] [Add R] [Mul R] [Zero R] [One R] (env : Ic3Env R) (v : Ver) (fmt : Option String)
  (s : Fs Loc) (filename : Name) (outpath : Option Name)

/-- **C72, IC3, scale and removal.** An IC3 file with at least one cell converted with `--scale` and `--remove-cell-data`, the
names being those of cell data of the file: a new file has the same mesh with multiplied coordinates, and the same data: the
cell data to be removed are still there. No other file changes. -/
theorem C72_ic3 (hfin : ∀ folder : PyPath, FiniteFolder s.has folder) (hf : (PyPath.parse filename).name ≠ [])
    (hu : Uses fmt filename "IC3" ".ic3") {b : Bytes}
    (hb : s.content (s.resolve (PyPath.parse filename).str) = some b) {f : FullMesh} (hread : readIc3 false b = .ok f)
    (hcell : f.mesh.ncell ≠ 0) (hc : Copyable v f) (sc : Option (R × R × R)) (remove : List String)
    (hrem : ∀ n ∈ remove, n ∈ f.cells.data.keys) (integ : Bool) :
    WrittenAs (fun fuel => cfdwriteIc3With env v fmt ⟨⟨0, sc⟩, remove⟩ s fuel filename outpath) s
      (fun b => ∃ g, readIc3 integ b = .ok g ∧
        Kept v env.conv (scaledFull env.mul (sc.map fun k => (env.store k.1, env.store k.2.1, env.store k.2.2)) f) g) := by
  obtain ⟨l, ha⟩ := accepted hread
  obtain ⟨ver, at', hat, hv⟩ := ha.vars
  obtain ⟨x, y, z, hxyz, hx, hy, hz⟩ := ha.coords
  have h1 : removeStep remove f = .ok f := by
    unfold removeStep
    rw [remove_known (data := f.cells.data) _ (by rw [hat]; rfl) remove hrem]
    simp only [Except_bind_ok, Except_pure, hat, Option.map_some, Option.getD_some]
    rw [← hat]
  obtain ⟨f', hf', h2, ha', hc'⟩ : ∃ f', f' = scaledFull env.mul (sc.map fun k => (env.store k.1, env.store k.2.1, env.store k.2.2)) f ∧
      transformFull env ⟨⟨0, sc⟩, remove⟩ f = .ok f' ∧ Ic3.Accepted f' l ∧ Copyable v f' := by
    cases sc with
    | none => exact ⟨f, rfl, rfl, ha, hc⟩
    | some k =>
      refine ⟨_, rfl, ?_, ?_, ?_⟩
      · unfold transformFull extrudeFull scaleFull Mesh.scale Mesh.setCoords
        simp only [if_true, Except_bind_ok, hxyz, List.length_map, hx, hy, hz, pyAssert, decide_true, Except_pure, scaledFull,
          Option.map_some]
        rfl
      · exact ⟨ha.faces, ha.count, ha.widths, ha.cells, ha.last, ⟨x.map (env.mul · (env.store k.1)), y.map (env.mul · (env.store k.2.1)),
          z.map (env.mul · (env.store k.2.2)), by simp [scaledFull, hxyz], by simpa [scaledFull] using hx, by simpa [scaledFull] using hy,
          by simpa [scaledFull] using hz⟩, ha.markKeys, ha.numbers, ha.marks, ha.part, ha.params, ha.vars⟩
      · exact ⟨hc.counts, hc.zones, hc.part, hc.step, hc.wgt, hc.rows, hc.dof, hc.tensors⟩
  obtain ⟨b', g, hw, hg, hk, _⟩ := copy_of_accepted cgnsElem2faces cgnsElem2faces env.so env.so env.host env.endian v env.conv
    integ f' l ha' hc'
  rw [with_ic3 env v fmt _ s filename outpath hu]
  subst hf'
  exact writes (full := id) hfin hf (input_ok hb hread hcell) h1 h2 hw ⟨g, hg, hk⟩

/-- **C72, IC3, refusals.** With a number of layers (other than 0), or the name of no cell data, the conversion of an IC3 file is
refused and nothing changes. -/
theorem C72_ic3_refused (hu : Uses fmt filename "IC3" ".ic3") {b : Bytes}
    (hb : s.content (s.resolve (PyPath.parse filename).str) = some b) {f : FullMesh} (hread : readIc3 false b = .ok f)
    (o : Options R) (hno : o.extrude ≠ 0 ∨ ∃ n ∈ o.remove, n ∉ f.cells.data.keys) :
    Refused (fun fuel => cfdwriteIc3With env v fmt o s fuel filename outpath) s := by
  rw [with_ic3 env v fmt _ s filename outpath hu]
  apply refuses (full := id)
  intro i i' j r0 r1 r2
  exfalso
  have hif : i = f := by
    unfold Convert.ic3Input at r0
    rw [hb] at r0
    unfold readIc3 at hread
    obtain ⟨r, hr, hx⟩ := bind_eq_ok.1 hread
    simp only [hr, Except_bind_ok] at r0
    split at r0
    · cases r0
    · rw [hx] at r0; cases r0; rfl
  subst hif
  obtain ⟨l, ha⟩ := accepted hread
  obtain ⟨ver, at', hat, hv⟩ := ha.vars
  rcases hno with hno | hno
  · have hc : i.mesh.cell2node = none := by
      unfold readIc3 at hread
      obtain ⟨r, hr, hx⟩ := bind_eq_ok.1 hread
      exact export_conn hx
    have hm : i'.mesh = i.mesh := by
      unfold removeStep at r1
      obtain ⟨d, _, r1⟩ := bind_eq_ok.1 r1
      simp only [Except_pure, Except.ok.injEq] at r1
      rw [← r1]
    unfold transformFull at r2
    obtain ⟨f1, hx, _⟩ := bind_eq_ok.1 r2
    unfold extrudeFull at hx
    rw [if_neg hno] at hx
    split at hx
    · cases hx
    · obtain ⟨m1, hm1, _⟩ := bind_eq_ok.1 hx
      obtain ⟨_, c, _, hcc, _⟩ := @extruded_parts F64 ⟨env.add⟩ ⟨env.mul⟩ _ _ _ _ _ _ hm1
      rw [hm, hc] at hcc
      cases hcc
  · unfold removeStep at r1
    obtain ⟨d, hd, _⟩ := bind_eq_ok.1 r1
    exact remove_unknown (data := i.cells.data) _ d (by rw [hat]; rfl) _ hno hd

theorem generic_same {M M' : Type} {r : Fs Loc → Name → Py M} {r' : Fs Loc → Name → Py M'} (g : M → M')
    (h : ∀ name, r' s name = (r s name).map g) {p t : M → Py M} (hp : ∀ i, p i = .ok i) (ht : ∀ i, t i = .ok i)
    (w : M' → PyErr ⊕ (List UInt8 × Py Unit)) (ext : Name) (fuel : Nat) :
    writeGeneric r p t (fun i => w (g i)) ext s fuel filename outpath =
      writeGeneric r' .ok .ok w ext s fuel filename outpath := by
  unfold writeGeneric
  rw [h]
  cases r s (PyPath.parse filename).str with
  | error e => rfl
  | ok i =>
    simp only [Except_bind_ok, hp, ht, Except.map]
    rfl

/-- **C72, no option.** Without these options the commands are those of C70. -/
theorem C72_no_option (fuel : Nat) :
    cfdwriteIc3With env v fmt ⟨⟨0, none⟩, []⟩ s fuel filename outpath = cfdwriteIc3 env.toEnv v fmt s fuel filename outpath := by
  unfold cfdwriteIc3With cfdwriteIc3
  rcases select fmt filename with e | ⟨_ | c, d⟩
  · rfl
  · rfl
  · cases c
    case ic3Reader =>
      refine generic_same s filename outpath id (fun name => ?_) (fun i => ?_) (fun i => rfl) _ _ fuel
      · cases Convert.ic3Input s name <;> rfl
      · obtain ⟨m, ⟨at', d⟩, n, p, q⟩ := i
        cases at' <;> rfl
    case gmshReader =>
      refine generic_same s filename outpath (full env) (fun name => ?_) (fun i => rfl) (fun i => rfl) _ _ fuel
      unfold Convert.gmshInput gmshIn
      cases s.content (s.resolve name) with
      | none => rfl
      | some b => cases h : Gmsh.readFile env.num (env.text b) <;> simp only [h] <;> rfl
    case cgnsReader =>
      refine generic_same s filename outpath (full env) (fun name => ?_) (fun i => rfl) (fun i => rfl) _ _ fuel
      unfold Convert.cgnsInput cgnsIn
      cases s.content (s.resolve name) with
      | none => rfl
      | some b =>
        cases h : env.tree b with
        | error e => simp only [h]; rfl
        | ok l =>
          simp only [h, Except_bind_ok]
          cases h2 : Cgns.readTree l none with
          | error e => rfl
          | ok p =>
            simp only [Except_bind_ok]
            cases h4 : p.2.ncell with
            | error e => rfl
            | ok n =>
              simp only [Except_bind_ok]
              split
              · rfl
              · cases h3 : p.2.exportMesh env.so p.1 <;> rfl
    all_goals rfl

/-- **C72, no reader.** With another format or suffix the commands end with an exception and nothing changes. -/
theorem C72_no_reader (o : Options R) (fuel : Nat) (h1 : ¬ Uses fmt filename "IC3" ".ic3")
    (h2 : ¬ Uses fmt filename "GMSH" ".msh") (h3 : ¬ Uses fmt filename "CGNS" ".cgns") :
    ∃ e, cfdwriteIc3With env v fmt o s fuel filename outpath = some (s, .error e) := by
  obtain ⟨_, _, _, q4, q5, q6⟩ := C70_select fmt filename
  unfold cfdwriteIc3With
  cases fmt with
  | some f =>
    refine ⟨.exit, ?_⟩
    rw [q5 f rfl ?_]
    simp only [List.mem_cons, List.not_mem_nil, or_false, not_or]
    exact ⟨fun h => h1 (.inl (by rw [h])), fun h => h2 (.inl (by rw [h])), fun h => h3 (.inl (by rw [h]))⟩
  | none =>
    by_cases hv : (PyPath.parse filename).suffix = ".vtu".toList
    · exact ⟨.type, by rw [q4 rfl hv]⟩
    · refine ⟨.runtime, ?_⟩
      rw [q6 rfl ?_]
      simp only [List.mem_cons, List.not_mem_nil, or_false, not_or]
      exact ⟨fun h => h1 (.inr ⟨rfl, h⟩), fun h => h2 (.inr ⟨rfl, h⟩), fun h => h3 (.inr ⟨rfl, h⟩), hv⟩

end

/-! ## Examples -/

/-- Integers as coordinates, stored as the same integers. -/
def exEnv : Ic3Env Int := { demoVtk with
  store := fun i => UInt64.ofNat i.toNat
  add := (· + ·), mul := (· * ·) }

def exCgnsEnv : Ic3Env Int := { cgnsVtk with
  store := fun i => UInt64.ofNat i.toNat
  add := (· + ·), mul := (· * ·) }

/-- Two quadrangles with a mark on the lower side fit. -/
theorem ex_fits {R : Type} {m : Mesh R} {k : Mark} (hn : m.nnode = 6) (hb : m.bocos = [("wall", k)]) (ht : k.type = "boundary")
    (hl : markItems k = [0, 1] ∨ markItems k = [0, 1, 2]) :
    LayerFits m [(0, [0, 1, 4, 3]), (1, [1, 2, 5, 4])] "fluid" where
  apart := by decide
  conforming := by decide
  inner := ⟨((1, 4), 0), by decide, by decide⟩
  markSome := by
    intro p hp
    simp only [hb, List.mem_singleton] at hp
    subst hp
    refine ⟨((0, 1), 0), by decide, ?_⟩
    unfold EdgeOnMark
    rcases hl with hl | hl <;> simp only [hl] <;> decide
  markApart := by
    intro p hp p' hp' hne
    simp only [hb, List.mem_singleton] at hp hp'
    subst hp hp'
    exact absurd rfl hne
  markEdges := by
    intro p hp
    simp only [hb, List.mem_singleton] at hp
    subst hp
    rcases hl with hl | hl <;> simp only [hl] <;> decide
  markNodes := by
    rw [hn]
    intro p hp
    simp only [hb, List.mem_singleton] at hp
    subst hp
    rcases hl with hl | hl <;> simp only [hl] <;> decide
  markType := by
    intro p hp
    simp only [hb, List.mem_singleton] at hp
    subst hp
    simp only [ht]
    decide
  markName := by
    intro p hp
    simp only [hb, List.mem_singleton] at hp
    subst hp
    dsimp only
    decide +kernel
  names := by decide +kernel
  counts := by rw [hn]; decide

theorem ex_gmsh_bocos {m : Mesh (Option Int)} (h1 : Gmsh.readFile demoVtk.num (demoVtk.text []) = .ok m) :
    m.bocos = [("wall", ⟨"wall", .bdnode, "boundary", .list [0, 1], some (List.replicate 16 0)⟩)] := by
  have : (Gmsh.readFile demoVtk.num (demoVtk.text [])).toOption.map (·.bocos) =
    some [("wall", ⟨"wall", .bdnode, "boundary", .list [0, 1], some (List.replicate 16 0)⟩)] := by decide +kernel
  rw [h1] at this
  exact Option.some.inj this

example (v : Ver) (sc : Option (Int × Int × Int)) (remove : List String) :
    WrittenAs (fun fuel => cfdwriteIc3With exEnv v none ⟨⟨1, sc⟩, remove⟩ quadFs fuel "in/quad.msh".toList none) quadFs
      (LayerFile exEnv.store 6 [(0, [0, 1, 4, 3]), (1, [1, 2, 5, 4])]
        [("wall", ⟨"wall", .bdnode, "boundary", .list [0, 1], some (List.replicate 16 0)⟩)]
        (scaled sc (lifted [0, 1] quadPts)) true) := by
  obtain ⟨m, h1, h2⟩ := quad_read
  have hb := ex_gmsh_bocos h1
  rw [← hb]
  exact C72_gmsh_one_layer exEnv v none quadFs "in/quad.msh".toList none quadFs_finite (by decide)
    (fun _ => List.Perm.refl _) (.inr ⟨rfl, by decide⟩) (b := []) (by decide) h1 h2 quad_supported (by decide +kernel)
    (by decide +kernel) (by decide +kernel) (ex_fits h2.nnode hb rfl (.inl rfl)) (by decide) sc remove true

example (v : Ver) (sc : Option (Int × Int × Int)) (remove : List String) :
    OnlyWrites (fun fuel => cfdwriteIc3With exEnv v none ⟨⟨2, sc⟩, remove⟩ quadFs fuel "in/quad.msh".toList none) quadFs
      Unreadable := by
  obtain ⟨m, h1, h2⟩ := quad_read
  have hb := ex_gmsh_bocos h1
  exact C72_gmsh_more_layers exEnv v none quadFs "in/quad.msh".toList none
    (fun _ => List.Perm.refl _) (.inr ⟨rfl, by decide⟩) (b := []) (by decide) h1 h2 quad_supported (by decide +kernel)
    (by decide +kernel) (by decide +kernel) (ex_fits h2.nnode hb rfl (.inl rfl)) (by decide)
    (fun k => by simp [exEnv, demoVtk]) (by decide) sc remove

example (v : Ver) (remove : List String) : ∀ o ∈ ([⟨0, some (1, 1, 5)⟩, ⟨-2, none⟩] : List (VtkConvert.Options Int)),
    Refused (fun fuel => cfdwriteIc3With exEnv v none ⟨o, remove⟩ quadFs fuel "in/quad.msh".toList none) quadFs := by
  obtain ⟨m, h1, h2⟩ := quad_read
  intro o ho
  refine C72_gmsh_refused exEnv v none quadFs "in/quad.msh".toList none (.inr ⟨rfl, by decide⟩) (b := []) (by decide) h1 h2
    quad_supported (by decide +kernel) _ (fun k => by simp [exEnv, demoVtk]) ?_
  simp only [List.mem_cons, List.not_mem_nil, or_false] at ho
  rcases ho with rfl | rfl
  · exact .inr (.inr ⟨rfl, by simp⟩)
  · exact .inl (show (-2 : Int) < 0 by decide)

/-- The mesh of the plane CGNS zone. -/
def quadZoneMesh : Mesh Int :=
  { ncell := 2, nnode := 6, nface := 0
    cell2node := some ⟨2, [("quad4", ⟨.range 0 1, ⟨some 4, [[0, 1, 4, 3], [1, 2, 5, 4]]⟩⟩)]⟩
    faces := [], coords := some (quadZone.x, quadZone.y, quadZone.z)
    bocos := [("wall", ⟨"wall", .node, "boundary", .list [0, 1, 2], none⟩)] }

example (v : Ver) (sc : Option (Int × Int × Int)) (remove : List String) :
    WrittenAs (fun fuel => cfdwriteIc3With exCgnsEnv v (some "CGNS") ⟨⟨1, sc⟩, remove⟩ quadFs fuel "in/quad.msh".toList none)
      quadFs (LayerFile exEnv.store 6 [(0, [0, 1, 4, 3]), (1, [1, 2, 5, 4])] quadZoneMesh.bocos
        (scaled sc (lifted [0, 1] quadPts)) true) :=
  C72_cgns_one_layer exCgnsEnv v (some "CGNS") quadFs "in/quad.msh".toList none quadFs_finite (by decide)
    (fun _ => List.Perm.refl _) (.inl rfl) (b := []) (by decide) rfl quadZoneFile_tells (by decide) quadZone_ok (by decide) (by decide)
    quadZone_marks (valid_of_perm_pyRange (n := 2) (by decide)) (by decide) (m := quadZoneMesh) rfl (ex_fits rfl rfl rfl (.inr rfl)) (by decide) sc remove true

example (v : Ver) (sc : Option (Int × Int × Int)) (remove : List String) :
    OnlyWrites (fun fuel => cfdwriteIc3With exCgnsEnv v (some "CGNS") ⟨⟨3, sc⟩, remove⟩ quadFs fuel "in/quad.msh".toList none)
      quadFs Unreadable :=
  C72_cgns_more_layers exCgnsEnv v (some "CGNS") quadFs "in/quad.msh".toList none
    (fun _ => List.Perm.refl _) (.inl rfl) (b := []) (by decide) rfl quadZoneFile_tells (by decide) quadZone_ok (by decide) (by decide)
    quadZone_marks (valid_of_perm_pyRange (n := 2) (by decide)) (by decide) (m := quadZoneMesh) rfl (ex_fits rfl rfl rfl (.inr rfl)) (by decide)
    (fun k => by simp [exCgnsEnv, cgnsVtk, demoVtk]) (by decide) sc remove

-- layers over hexahedra
example (v : Ver) (remove : List String) (sc : Option (Int × Int × Int)) :
    Refused (fun fuel => cfdwriteIc3With { exCgnsEnv with tree := fun _ => .ok CgnsConvert.twoBoxesFile } v
      (some "CGNS") ⟨⟨1, sc⟩, remove⟩ quadFs fuel "in/quad.msh".toList none) quadFs :=
  C72_cgns_refused { exCgnsEnv with tree := fun _ => .ok CgnsConvert.twoBoxesFile } v (some "CGNS") quadFs
    "in/quad.msh".toList none (fun _ => List.Perm.refl _) (.inl rfl) (b := []) (by decide) rfl CgnsConvert.twoBoxesFile_tells (by decide)
    CgnsConvert.twoBoxes_hexa.zone (by decide) _ (fun k => by simp [exCgnsEnv, cgnsVtk, demoVtk])
    (.inr ⟨show (1 : Int) ≠ 0 by decide, ⟨_, .head _, by decide⟩⟩)

example (v : Ver) (remove : List String) (sc : Option (Int × Int × Int)) :
    WrittenAs (fun fuel => cfdwriteIc3With { exCgnsEnv with tree := fun _ => .ok CgnsConvert.twoBoxesFile } v
      (some "CGNS") ⟨⟨0, sc⟩, remove⟩ quadFs fuel "in/quad.msh".toList none) quadFs
      (fun b => ∃ g lb li, readIc3 true b = .ok g ∧
        Spec.CgnsConvert.Converted exEnv.store (scaledZone sc CgnsConvert.twoBoxes) lb li g.mesh) :=
  C72_cgns_scaled { exCgnsEnv with tree := fun _ => .ok CgnsConvert.twoBoxesFile } v (some "CGNS") quadFs
    "in/quad.msh".toList none quadFs_finite (by decide) (fun _ => List.Perm.refl _) (.inl rfl) (b := []) (by decide) rfl CgnsConvert.twoBoxesFile_tells
    (by decide) CgnsConvert.twoBoxes_hexa CgnsConvert.twoBoxes_first.1 CgnsConvert.twoBoxes_names CgnsConvert.twoBoxes_noTriple
    CgnsConvert.twoBoxes_mixed CgnsConvert.twoBoxes_separable CgnsConvert.twoBoxes_fits sc remove true

/-- A file system with one IC3 file. -/
def tetraFs : Fs Name := ⟨id, fun l => if l = "in/a.ic3".toList then some twoTetraFile else none⟩

theorem tetraFs_finite : ∀ folder : PyPath, FiniteFolder tetraFs.has folder := oneFile_finite _ _

theorem tetra_read : readIc3 false twoTetraFile = .ok twoTetraRead := by
  have h : (readIc3 false twoTetraFile).toOption = some twoTetraRead := by decide +kernel
  cases hr : readIc3 false twoTetraFile with
  | error e => rw [hr] at h; cases h
  | ok g => rw [hr] at h; simp only [Except.toOption, Option.some.injEq] at h; rw [h]

-- the variable P is to be removed: it is in the new file
example (v : Ver) (sc : Option (Int × Int × Int)) :
    WrittenAs (fun fuel => cfdwriteIc3With exEnv v none ⟨⟨0, sc⟩, ["P"]⟩ tetraFs fuel "in/a.ic3".toList none) tetraFs
      (fun b => ∃ g, readIc3 true b = .ok g ∧ Kept v exEnv.conv (scaledFull exEnv.mul
        (sc.map fun k => (exEnv.store k.1, exEnv.store k.2.1, exEnv.store k.2.2)) twoTetraRead) g) :=
  C72_ic3 exEnv v none tetraFs "in/a.ic3".toList none tetraFs_finite (by decide) (.inr ⟨rfl, by decide⟩) (b := twoTetraFile)
    (by rfl) tetra_read (by decide) (twoTetra_copyable v) sc ["P"] (by decide) true

example (v : Ver) : ∀ o ∈ ([⟨⟨1, none⟩, []⟩, ⟨⟨-1, none⟩, ["P"]⟩, ⟨⟨0, none⟩, ["P", "Q"]⟩] : List (Options Int)),
    Refused (fun fuel => cfdwriteIc3With exEnv v none o tetraFs fuel "in/a.ic3".toList none) tetraFs := by
  intro o ho
  refine C72_ic3_refused exEnv v none tetraFs "in/a.ic3".toList none (.inr ⟨rfl, by decide⟩) (b := twoTetraFile)
    (by rfl) tetra_read o ?_
  simp only [List.mem_cons, List.not_mem_nil, or_false] at ho
  rcases ho with rfl | rfl | rfl
  · exact .inl (by decide)
  · exact .inl (by decide)
  · exact .inr ⟨"Q", by decide, by decide⟩

/-- `C72_no_reader`. -/
example (v : Ver) (s : Fs Name) (fuel : Nat) :
    ∃ e, cfdwriteIc3With exEnv v none ⟨⟨0, none⟩, ["P"]⟩ s fuel "in/a.vtu".toList none = some (s, .error e) :=
  C72_no_reader exEnv v none s "in/a.vtu".toList none _ fuel (by rintro (h | ⟨-, h⟩); · simp at h
                                                                 · revert h; decide)
    (by rintro (h | ⟨-, h⟩); · simp at h
        · revert h; decide) (by rintro (h | ⟨-, h⟩); · simp at h
                                · revert h; decide)

end Cfd.Ic3Options
