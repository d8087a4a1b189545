import Verif.Lemmas.Ic3H5Write
import Verif.Props.Ic3V4

/-! C85: V4 (HDF5) files of any origin. -/

namespace Cfd.Ic3
open Spec Spec.Ic3

/-- C85. Exactly these files are read. -/
theorem C85_accepts (c : H5File) (s : Option H5File) : (∃ f, readH5 c s = .ok f) ↔ AcceptableH5 c s :=
  ⟨fun ⟨_, h⟩ => readH5_acceptable h, fun h => by
    obtain ⟨_, _, _, _, _, _, _, _, _, -, -, -, -, -, -, -, -, hr⟩ := readH5_value h
    exact ⟨_, hr⟩⟩

/-- C85. What is read is what the items tell. -/
theorem C85_content (c : H5File) (s : Option H5File) (f : FullMesh) (hs : ∀ s', s = some s' → Named s')
    (h : readH5 c s = .ok f) : ∃ no cv nodes cells points zones, TellsH5 c s f no cv nodes cells points zones := by
  obtain ⟨f', no, cv, nodes, cells, points, zones, hf, ht⟩ := readH5_can (readH5_acceptable h) hs
  rw [h] at hf
  cases hf
  exact ⟨no, cv, nodes, cells, points, zones, ht⟩

/-- C85. Nothing else in the files has an influence. -/
theorem C85_same (c c' : H5File) (s s' : Option H5File) (h : SameH5 c c') (hs : Option.Rel SameSolH5 s s') :
    readH5 c s = readH5 c' s' := readH5_same h hs

/-- C85. The mesh file of the writer, item by item. -/
theorem C85_layout (tbl : FaceTable) (so : List Int → List Int) (h5 : H5) (cv : Conv) (f : FullMesh) (sol : Bool)
    (m : Mesh F64) (l : List Face) (x : MeshFile) (s : Option SolFile) (hk : Keeps32 h5)
    (hc : completeMesh tbl so f.mesh = .ok m) (h : writeV4 tbl so h5 cv f sol = .ok (x, s))
    (hs : Storable m l) (hf : FitsV4 m l) :
    CountsH5 (meshH5 x) m.nnode l.length m.ncell ∧ FacesH5 (meshH5 x) (l.map (·.1)) (l.map (·.2)) ∧
    (∃ points, PointsH5 (meshH5 x) points ∧ m.coords = some (points.map (·.1), points.map (·.2.1), points.map (·.2.2))) ∧
    ∃ (zs : List Zone) (first : Int) (kinds : List Int),
      zs.Perm (zonesOf m ++ [⟨first, "internal-domain", "internal", none⟩]) ∧ zs.Pairwise (fun a b => a.start ≤ b.start) ∧
      item (meshH5 x) "/Boundaries" "labels" = some (.texts (zs.map (·.name))) ∧
      IsInts (item (meshH5 x) "/Boundaries" "kinds") kinds ∧ kinds.map zoneType = zs.map (fun z => some z.type) ∧
      IsInts (item (meshH5 x) "/Boundaries" "offsets") (zs.map (·.start) ++ [(l.length : Int)]) ∧
      ∀ z ∈ zs, transformH5 (meshH5 x) z.name = z.perio := by
  obtain ⟨w, hw, hx, _⟩ := writeV4_ok hc h
  obtain ⟨rfl, h4⟩ := meshFile_ok hk hw hs hf hx
  have hm := meshOK_of_count hw hs hf.count
  obtain ⟨k1, k2, k3, k4, k5, k6⟩ := setMesh_faces hw hs.faces
  obtain ⟨co, zf, hco, _, _, hw2⟩ := setMesh_ok hw
  have hb : w.bocos = m.bocos.filter fun p => decide (p.2.type ≠ "internal") := by rw [hw2]
  have hwc : w.coords = stackCoords co := by rw [hw2]
  obtain ⟨e1, e2, e3⟩ := hs.coords co.1 co.2.1 co.2.2 (by rw [hco])
  have hrows : WState.rows w = l.map (·.2) := by rw [WState.rows, k3]; rfl
  have hcnt := meshH5_counts (fileV4 m w)
  refine ⟨?_, ⟨⟨w.noofa.length, ?_⟩, ⟨w.noofaV.length, ?_⟩, ⟨[((WState.rows w).flatMap fun r => [r.1, r.2]).length], ?_⟩⟩, ⟨w.coords, ⟨_, rfl⟩, ?_⟩, specZones w, lastBoco w.bocos + 1,
    (sortedZones w).map (fun z => z.2.2), ?_, specZones_sorted w, ?_, ⟨_, rfl⟩, ?_, ⟨((sortedZones w).map (·.1) ++ [(w.nfa : Int)]).length, ?_⟩, ?_⟩
  · rw [← hf.count, ← k4, ← k5, ← k6]
    exact hcnt
  · show some (H5Data.ints [w.noofa.length] w.noofa) = _
    rw [List.map_map]
    exact congrArg (fun q => some (H5Data.ints [w.noofa.length] q)) k1
  · show some (H5Data.ints [w.noofaV.length] w.noofaV) = _
    exact congrArg (fun q => some (H5Data.ints [w.noofaV.length] q)) k2
  · show some (H5Data.ints _ ((WState.rows w).flatMap fun r => [r.1, r.2])) = _
    exact congrArg (fun q : List (Int × Int) => some (H5Data.ints [((WState.rows w).flatMap fun r => [r.1, r.2]).length]
      (q.flatMap fun r => [r.1, r.2]))) hrows
  · rw [hwc, stack_unstack e1 e2 e3, hco]
  · have := specZones_perm hm fun p hp => (h4 p hp).1
    rw [hb] at this ⊢
    exact this
  · show some (H5Data.texts ((sortedZones w).map fun z => z.2.1)) = _
    unfold specZones
    rw [List.map_map]; rfl
  · unfold specZones
    rw [List.map_map, List.map_map]
    refine List.map_congr_left fun z hz => ?_
    simp only [Function.comp_def, zoneSpec]
    rw [← kind_types]
    have : ∃ t, zonekind2type.get? z.2.2 = some t := by
      rw [sortedZones, (sortZones_perm _).mem_iff] at hz
      rcases List.mem_append.1 hz with hz | hz
      · obtain ⟨p, hp, rfl⟩ := List.mem_map.1 hz
        obtain ⟨k, hk'⟩ := (h4 p hp).1
        exact ⟨p.2.type, by simp only [zoneTriple, hk', Option.getD_some]; exact kind_type hk'⟩
      · simp only [List.mem_singleton] at hz
        subst hz
        exact ⟨"internal", (by decide : zonekind2type.get? 6 = some "internal")⟩
    obtain ⟨t, ht⟩ := this
    rw [ht]; rfl
  · have e : (sortedZones w).map (·.1) ++ [(w.nfa : Int)] = (specZones w).map (·.start) ++ [(l.length : Int)] := by
      rw [k5, hf.count]
      unfold specZones
      rw [List.map_map]; rfl
    exact congrArg (fun q => some (H5Data.ints [((sortedZones w).map (·.1) ++ [(w.nfa : Int)]).length] q)) e
  · intro z hz
    rw [meshH5_transform]
    unfold specZones at hz
    obtain ⟨t, -, rfl⟩ := List.mem_map.1 hz
    rfl

/-- C85. The solution file of the writer, item by item. -/
theorem C85_layout_solution (tbl : FaceTable) (so : List Int → List Int) (h5 : H5) (cv : Conv) (f : FullMesh) (x : MeshFile)
    (s : SolFile) (h : writeV4 tbl so h5 cv f true = .ok (x, some s)) (hpk : f.params.keys.Nodup) :
    attr (solH5 s) "/" "step" = some ((f.params.get? "step").getD (.int 0)) ∧
    attr (solH5 s) "/" "time" = some ((f.params.get? "time").getD (.int 0)) ∧
    (∀ r u e, f.cells.data.get? "RHO" = some r → f.cells.data.get? "RHOU" = some u → f.cells.data.get? "RHOE" = some e →
      item (solH5 s) "/" "rho" = some (.reals [r.size] (r.doubles cv)) ∧
      item (solH5 s) "/" "rhou" = some (.reals [u.size] (u.doubles cv)) ∧
      item (solH5 s) "/" "rhoe" = some (.reals [e.size] (e.doubles cv))) ∧
    (∀ p ∈ f.cells.data, StatName p.1 →
      item (solH5 s) "/VolumeStats" p.1.toLower = some (.reals [p.2.size] (p.2.doubles cv))) ∧
    ((∃ n ∈ f.cells.data.keys, StatName n) → ∀ n v, WgtName n → f.params.get? n = some v →
      attr (solH5 s) "/VolumeStats" n = some v) := by
  have hsf : solFile cv f = .ok s := by
    unfold writeV4 at h
    simp only [bind_eq_ok, if_true, Except_pure, Except.ok.injEq, Prod.mk.injEq, Option.some.injEq] at h
    obtain ⟨_, -, _, -, _, -, _, h, -, rfl⟩ := h
    exact h
  unfold solFile at hsf
  simp only [bind_eq_ok, Except_pure, Except.ok.injEq] at hsf
  obtain ⟨step, hstep, time, htime, data, hdata, stats, hstats, rfl⟩ := hsf
  have hval : ∀ v v', attrValue v = .ok v' → v' = v := by
    intro v v' h
    cases v <;> simp_all [attrValue]
  refine ⟨by rw [← hval _ _ hstep]; rfl, by rw [← hval _ _ htime]; rfl, ?_, ?_, ?_⟩
  · intro r u e hr hu he
    have := solVars_ok hr hu he hdata
    subst this
    rw [← doubles_length (cv := cv) r, ← doubles_length (cv := cv) u, ← doubles_length (cv := cv) e]
    exact ⟨rfl, rfl, rfl⟩
  · intro p hp hst
    rcases solStats_ok hstats with ⟨-, he⟩ | ⟨g, rfl, hg, hgn, -⟩
    · have : p ∈ f.cells.data.filter fun p => isStat p.1 := List.mem_filter.2 ⟨hp, (isStat_iff _).2 hst⟩
      rw [he] at this
      cases this
    · unfold item
      rw [show (solH5 ⟨step, time, data, some g⟩).groups.get? "/VolumeStats" = some ⟨g.wgts, h5Reals g.data⟩ from rfl,
        Option.bind_some]
      simp only
      have : (p.1.toLower, p.2.doubles cv) ∈ g.data := by
        rw [hg]
        exact List.mem_map_of_mem (f := fun p : String × NpArr => (p.1.toLower, p.2.doubles cv))
          (List.mem_filter.2 ⟨hp, (isStat_iff _).2 hst⟩)
      rw [h5Reals_get, Dict.get?_of_mem hgn this, ← doubles_length (cv := cv) p.2]
      rfl
  · rintro ⟨n, hn, hst⟩ k v hk hv
    rcases solStats_ok hstats with ⟨-, he⟩ | ⟨g, rfl, -, -, hw⟩
    · obtain ⟨a, ha⟩ := Dict.mem_keys_iff.1 hn
      have : (n, a) ∈ f.cells.data.filter fun p => isStat p.1 :=
        List.mem_filter.2 ⟨Dict.mem_of_get? ha, (isStat_iff _).2 hst⟩
      rw [he] at this
      cases this
    · unfold attr
      rw [show (solH5 ⟨step, time, data, some g⟩).groups.get? "/VolumeStats" = some ⟨g.wgts, h5Reals g.data⟩ from rfl,
        Option.bind_some]
      simp only
      rw [hw]
      refine Dict.get?_of_mem (List.Sublist.nodup (List.Sublist.map _ List.filter_sublist) hpk) (List.mem_filter.2 ⟨Dict.mem_of_get? hv, ?_⟩)
      obtain ⟨a, ha⟩ := hk
      simp only [decide_eq_true_eq]
      exact ⟨a, ha.symm⟩

/-- C85. A file of the writer in which another program added, moved or removed items that are not read is read as it
was written. -/
theorem C85_written (tbl : FaceTable) (so : List Int → List Int) (h5 : H5) (cv : Conv) (f : FullMesh) (sol : Bool)
    (x : MeshFile) (s : Option SolFile) (h : writeV4 tbl so h5 cv f sol = .ok (x, s)) (c : H5File) (t : Option H5File)
    (hc : SameH5 (meshH5 x) c) (ht : Option.Rel SameSolH5 (s.map solH5) t) : readH5 c t = readV4 x s := by
  rw [← C85_same _ _ _ _ hc ht]
  refine readH5_written x s ?_
  rintro s' rfl
  unfold writeV4 at h
  simp only [bind_eq_ok] at h
  obtain ⟨_, -, _, -, _, -, h⟩ := h
  cases sol with
  | false => simp only [Bool.false_eq_true, if_false, Except_pure, Except.ok.injEq, Prod.mk.injEq] at h; cases h.2
  | true =>
    simp only [if_true, bind_eq_ok, Except_pure, Except.ok.injEq, Prod.mk.injEq, Option.some.injEq] at h
    obtain ⟨sf, hsf, -, rfl⟩ := h
    exact solFile_names hsf

/-! ## Examples -/

/-- The mesh file of a tetrahedron made by another program: other items, shapes, orders and groups. -/
def otherMesh : H5File :=
  ⟨[("/Boundaries/inlet", ⟨[], [("area", .reals [1] [5]), ("periodic_transform", .reals [1, 3] [1, 2, 3])]⟩),
    ("/", ⟨[("author", .int 7), ("cv_count", .int 1), ("fa_count", .int 4), ("no_count", .int 4)],
      [("coordinates", .reals [4, 3] [0, 0, 0, 1, 0, 0, 0, 1, 0, 0, 0, 1])]⟩),
    ("/Connectivities/Face", ⟨[("sorted", .int 1)], [("cvofa", .ints [4, 2] [0, -1, 0, -1, 0, -1, 0, -1]),
      ("noofa_i", .ints [4] [3, 3, 3, 3]), ("noofa_v", .ints [12] [0, 2, 1, 0, 1, 3, 1, 2, 3, 0, 3, 2])]⟩),
    ("/Boundaries", ⟨[], [("kinds", .ints [2] [2, 1]), ("labels", .texts ["inlet", "wall"]), ("offsets", .ints [3] [0, 1, 4])]⟩)]⟩

/-- The solution file of another program. -/
def otherSol : H5File :=
  ⟨[("/VolumeStats", ⟨[("time", .f64 9), ("rho_wgt", .f64 6)], [("u_rey", .reals [1, 2, 3] [1, 2, 3, 4, 5, 6]), ("rho_avg", .reals [1] [3])]⟩),
    ("/", ⟨[("step", .int 12), ("fa_count", .int 99)],
      [("rho", .reals [1] [7]), ("pressure", .reals [1] [8]), ("rhoe", .reals [1, 1] [9]), ("rhou", .reals [3] [4, 5, 6])]⟩)]⟩

/-- `C85_accepts` and `C85_content`: what is read in these files. -/
example : AcceptableH5 otherMesh (some otherSol) ∧ ∃ f no cv nodes cells points zones, readH5 otherMesh (some otherSol) = .ok f ∧
    TellsH5 otherMesh (some otherSol) f no cv nodes cells points zones := by
  obtain ⟨f, hf⟩ := exists_of_isOk (x := readH5 otherMesh (some otherSol)) (by decide +kernel)
  refine ⟨(C85_accepts _ _).1 ⟨f, hf⟩, f, ?_⟩
  obtain ⟨no, cv, nodes, cells, points, zones, h⟩ := C85_content otherMesh (some otherSol) f (by
    intro s' e
    cases e
    unfold Named
    decide) hf
  exact ⟨no, cv, nodes, cells, points, zones, hf, h⟩
example : (readH5 otherMesh (some otherSol)).toOption.map (·.mesh.bocos) =
    some [("inlet", ⟨"inlet", .bdface, "perio_cart", .range 0 0, some [1, 2, 3]⟩),
      ("wall", ⟨"wall", .bdface, "boundary", .range 1 3, none⟩)] := by decide +kernel
example : (readH5 otherMesh (some otherSol)).toOption.map (·.cells.data) =
    some [("RHO", ⟨[1], .f64 [7]⟩), ("RHOU", ⟨[1, 3], .f64 [4, 5, 6]⟩), ("RHOE", ⟨[1, 1], .f64 [9]⟩),
      ("RHO_AVG", ⟨[1], .f64 [3]⟩), ("U_REY", ⟨[1, 6], .f64 [1, 2, 3, 4, 5, 6]⟩)] := by decide +kernel
-- attributes of the solution replace parameters of the mesh
example : (readH5 otherMesh (some otherSol)).toOption.map (fun f => (f.params.get? "fa_count", f.params.get? "time")) =
    some (some (.int 99), some (.f64 9)) := by decide +kernel

/-- `otherMesh` with another title and a cell connectivity. -/
def otherMesh' : H5File := ⟨("/Connectivities/Cell", ⟨[], [("tetra4", .ints [1, 4] [0, 1, 2, 3])]⟩) :: otherMesh.groups⟩

example : readH5 otherMesh' (some otherSol) = readH5 otherMesh (some otherSol) := by
  refine C85_same _ _ _ _ ⟨?_, ?_, ?_, ?_, ?_, ?_⟩ (.some ⟨fun _ _ => rfl, rfl, rfl, Iff.rfl⟩)
  · decide
  · decide
  · decide
  · decide
  · decide
  · intro l
    unfold item otherMesh'
    rw [Dict.get?, if_neg (boundaries_ne l _ (by simp)).symm]

/-- `C85_layout`, `C85_layout_solution` and `C85_written` for two tetrahedra and their solution. -/
example : ∃ x s, writeV4 cgnsElem2faces id strictH5 noConv twoTetraSol true = .ok (x, some s) ∧
    CountsH5 (meshH5 x) 5 7 2 ∧ FacesH5 (meshH5 x) (twoTetraFaces.map (·.1)) (twoTetraFaces.map (·.2)) ∧
    item (solH5 s) "/" "rhou" = some (.reals [6] [1, 2, 3, 4, 5, 6]) ∧ attr (solH5 s) "/VolumeStats" "rho_wgt" = some (.f64 6) ∧
    ∀ c, SameH5 (meshH5 x) c → readH5 c (some (solH5 s)) = readV4 x (some s) := by
  obtain ⟨x, s, h, hs⟩ := twoTetraSol_written true
  obtain ⟨s, rfl⟩ := Option.isSome_iff_exists.1 (hs rfl)
  obtain ⟨l1, l2, -⟩ := C85_layout _ _ _ _ twoTetraSol _ _ _ _ _ strictH5_keeps twoTetraSol_complete h twoTetra_storable twoTetra_fits
  obtain ⟨-, -, l3, -, l4⟩ := C85_layout_solution _ _ _ _ twoTetraSol _ _ h (by decide)
  refine ⟨x, s, h, l1, l2, (l3 _ _ _ rfl rfl rfl).2.1, l4 ⟨"RHO_AVG", by decide, "_AVG", by decide, "RHO".toList, [], rfl⟩ _ _
    ⟨"rho".toList, rfl⟩ rfl, fun c hc => C85_written _ _ _ _ _ _ _ _ h _ _ hc (.some ⟨fun _ _ => rfl, rfl, rfl, Iff.rfl⟩)⟩

/-- Three cells around a single face. -/
def oneFace : H5File :=
  ⟨[("/", ⟨[("cv_count", .int 3), ("fa_count", .int 1), ("no_count", .int 3)], [("coordinates", .reals [9] [0, 0, 0, 1, 0, 0, 0, 1, 0])]⟩),
    ("/Connectivities/Face", ⟨[], [("cvofa", .ints [2] [2, 1]), ("noofa_i", .ints [1] [3]), ("noofa_v", .ints [3] [0, 1, 2])]⟩)]⟩

/-- A solution with these densities. -/
def density (l : List F64) : H5File :=
  ⟨[("/", ⟨[], [("rho", .reals [l.length] l), ("rhou", .reals [9] [1, 2, 3, 4, 5, 6, 7, 8, 9]), ("rhoe", .reals [3] [1, 2, 3])]⟩)]⟩

/-- C85. It is not true that the fields read have one row per cell: eight densities for three cells make four rows, and two
densities are accepted as well. -/
theorem C85_rows_refuted :
    (readH5 oneFace (some (density [1, 2, 3, 4, 5, 6, 7, 8]))).toOption.map (fun f => (f.mesh.ncell, f.cells.data.get? "RHO")) =
      some (3, some ⟨[4, 2], .f64 [1, 2, 3, 4, 5, 6, 7, 8]⟩) ∧
    (readH5 oneFace (some (density [1, 2]))).toOption.map (fun f => (f.mesh.ncell, f.cells.data.get? "RHO")) =
      some (3, some ⟨[2], .f64 [1, 2]⟩) := by decide +kernel

end Cfd.Ic3
