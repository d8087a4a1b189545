import Verif.Lemmas.Ic3V4Zones
import Verif.Lemmas.Ic3V4Sol
import Verif.Props.Ic3Round

/-! C33, C34: what is written to IC3 V4 files is read back. -/

namespace Cfd.Ic3
open Spec Spec.Ic3

/-- The state of the writer behind written files. -/
theorem writeV4_ok {tbl : FaceTable} {so : List Int → List Int} {h5 : H5} {cv : Conv} {f : FullMesh} {sol : Bool}
    {m : Mesh F64} {x : MeshFile} {s : Option SolFile} (hc : completeMesh tbl so f.mesh = .ok m)
    (h : writeV4 tbl so h5 cv f sol = .ok (x, s)) :
    ∃ w, setMesh f m = .ok w ∧ meshFile h5 m w = .ok x ∧
      (match s with
       | none => sol = false
       | some s => sol = true ∧ solFile cv f = .ok s) := by
  unfold writeV4 at h
  rw [hc, Except_bind_ok] at h
  simp only [bind_eq_ok] at h
  obtain ⟨w, hw, x', hx, h⟩ := h
  refine ⟨w, hw, ?_⟩
  cases sol with
  | false =>
      simp only [Bool.false_eq_true, if_false, Except_pure, Except.ok.injEq, Prod.mk.injEq] at h
      obtain ⟨rfl, rfl⟩ := h
      exact ⟨hx, rfl⟩
  | true =>
      simp only [if_true, bind_eq_ok, Except_pure, Except.ok.injEq, Prod.mk.injEq] at h
      obtain ⟨sf, hsf, rfl, rfl⟩ := h
      exact ⟨hx, rfl, hsf⟩

/-- C34. Counts, coordinates and faces (nodes and cells) written to a V4 mesh file are read back. -/
theorem C34_geometry (tbl : FaceTable) (so : List Int → List Int) (h5 : H5) (cv : Conv) (f : FullMesh) (sol : Bool)
    (m : Mesh F64) (l : List Face) (x : MeshFile) (s : Option SolFile) (hk : Keeps32 h5)
    (hc : completeMesh tbl so f.mesh = .ok m) (h : writeV4 tbl so h5 cv f sol = .ok (x, s))
    (hs : Storable m l) (hf : FitsV4 m l) :
    ∃ g, readV4 x none = .ok g ∧ SameGeometry m l g := by
  obtain ⟨w, hw, hx, _⟩ := writeV4_ok hc h
  obtain ⟨c, h1, h2, h3, h4, h5⟩ := readV4_ok hk hw hs hf hx
  obtain ⟨_, _, k3, k4, k5, k6⟩ := setMesh_faces hw hs.faces
  obtain ⟨co, zf, hco, _, _, hw2⟩ := setMesh_ok hw
  refine ⟨_, h5 none, ?_⟩
  constructor
  · exact k6
  · exact k4
  · rw [hf.count]; exact h2
  · show some _ = _
    have hwc : w.coords = stackCoords co := by rw [hw2]
    obtain ⟨e1, e2, e3⟩ := hs.coords co.1 co.2.1 co.2.2 (by rw [hco])
    rw [hwc, stack_unstack e1 e2 e3, hco]
  · left
    refine ⟨⟨c, some (some (WState.rows w))⟩, rfl, ?_⟩
    rw [WState.rows, k3]
    exact h1

/-- C33. Whatever the marks, what is read is made of the zones of the marks and of the internal zone, which
starts after the last marked face (at face 1 if there is none), sorted by first face; each one is read
up to the start of the next one. -/
theorem C33_zones (tbl : FaceTable) (so : List Int → List Int) (h5 : H5) (cv : Conv) (f : FullMesh) (sol : Bool)
    (m : Mesh F64) (l : List Face) (x : MeshFile) (s : Option SolFile) (hk : Keeps32 h5)
    (hc : completeMesh tbl so f.mesh = .ok m) (h : writeV4 tbl so h5 cv f sol = .ok (x, s))
    (hs : Storable m l) (hf : FitsV4 m l) :
    ∃ g zs first, readV4 x none = .ok g ∧
      (zs : List Zone).Perm (zonesOf m ++ [⟨first, "internal-domain", "internal", none⟩]) ∧
      zs.Pairwise (fun a b => a.start ≤ b.start) ∧
      g.mesh.bocos = (marksOf zs l.length).map (fun b => (b.name, b)) ∧
      1 ≤ first ∧ ∀ p ∈ m.bocos, p.2.type ≠ "internal" → ∀ a b, p.2.index = .range a b → b < first := by
  obtain ⟨w, hw, hx, _⟩ := writeV4_ok hc h
  obtain ⟨c, h1, h2, h3, h4, h5⟩ := readV4_ok hk hw hs hf hx
  have hm := meshOK_of_count hw hs hf.count
  obtain ⟨_, _, k3, k4, k5, k6⟩ := setMesh_faces hw hs.faces
  obtain ⟨co, zf, hco, _, _, hw2⟩ := setMesh_ok hw
  have hb : w.bocos = m.bocos.filter fun p => decide (p.2.type ≠ "internal") := by rw [hw2]
  have hlast := lastBoco_bounds (l := w.bocos) (n := w.nfa) (by have := hm.faces; omega) (by
    intro p hp
    obtain ⟨_, _, a, b, hi⟩ := h4 p hp
    exact ⟨by rw [markRange, hi], (hm.markRanges p hp).2.2⟩)
  refine ⟨_, specZones w, lastBoco w.bocos + 1, h5 none, ?_, specZones_sorted w, ?_, by omega, ?_⟩
  · have := specZones_perm hm fun p hp => (h4 p hp).1
    rw [hb] at this ⊢
    exact this
  · show (marksRead w).map _ = _
    unfold marksRead
    rw [k5, hf.count]
  · intro p hp ht a b hi
    have : p ∈ w.bocos := by
      rw [hb, List.mem_filter]
      exact ⟨hp, by simpa using ht⟩
    have := lastBoco_ge this hi
    omega

/-- C33. When the marks designate the faces `0 .. k-1` (`k ≥ 1`), each once, by non-empty ranges, they are
read back with their names, types, face ranges and first three periodic values; the internal zone
holds the other faces. -/
theorem C33_round_trip (tbl : FaceTable) (so : List Int → List Int) (h5 : H5) (cv : Conv) (f : FullMesh) (sol : Bool)
    (m : Mesh F64) (l : List Face) (x : MeshFile) (s : Option SolFile) (hk : Keeps32 h5)
    (hc : completeMesh tbl so f.mesh = .ok m) (h : writeV4 tbl so h5 cv f sol = .ok (x, s))
    (hs : Storable m l) (hf : FitsV4 m l) (k : Int) (hk1 : 1 ≤ k) (hz : (zoneItems m).Perm (pyRange 0 k))
    (hne : ∀ p ∈ m.bocos, p.2.type ≠ "internal" → ∀ x y, p.2.index = .range x y → x ≤ y) :
    ∃ g, readV4 x none = .ok g ∧ SameMarks m k l.length g := by
  obtain ⟨g, zs, first, hg, hp, hsort, hbo, hf1, hf2⟩ := C33_zones tbl so h5 cv f sol m l x s hk hc h hs hf
  refine ⟨g, hg, ?_⟩
  obtain ⟨w, hw, hx, _⟩ := writeV4_ok hc h
  obtain ⟨c, h1, h2, h3, h4, h5⟩ := readV4_ok hk hw hs hf hx
  have hm := meshOK_of_count hw hs hf.count
  obtain ⟨_, _, k3, k4, k5, k6⟩ := setMesh_faces hw hs.faces
  obtain ⟨co, zf, hco, _, _, hw2⟩ := setMesh_ok hw
  have hb : w.bocos = m.bocos.filter fun p => decide (p.2.type ≠ "internal") := by rw [hw2]
  have hbm : ∀ p ∈ w.bocos, p ∈ m.bocos ∧ p.2.type ≠ "internal" := by
    intro p hp
    rw [hb] at hp
    have := List.mem_filter.1 hp
    simpa using this
  have hgm : g.mesh.bocos = (marksRead w).map fun b => (b.name, b) := by
    have := h5 none
    rw [hg] at this
    simp only [Except.ok.injEq] at this
    rw [this]
    rfl
  have hitems : zoneItems m = w.bocos.flatMap fun p => markItems p.2 := by rw [zoneItems, hb]
  rw [hitems] at hz
  have hrng : ∀ p ∈ w.bocos, ∃ a b, p.2.index = .range a b ∧ a ≤ b := by
    intro p hp
    obtain ⟨_, _, a, b, hi⟩ := h4 p hp
    obtain ⟨q1, q2⟩ := hbm p hp
    exact ⟨a, b, hi, hne p q1 q2 _ _ hi⟩
  have hlast : lastBoco w.bocos + 1 = k := by
    have hub : lastBoco w.bocos < k := by
      refine (lastBoco_bounds (by omega) fun p hp => ?_).2
      obtain ⟨a, b, hi, hab⟩ := hrng p hp
      have hr : markRange p.2 = (a, b) := by rw [markRange, hi]
      refine ⟨by rw [hr, hi], ?_⟩
      have : b ∈ pyRange 0 k := by
        refine hz.mem_iff.1 (List.mem_flatMap.2 ⟨p, hp, ?_⟩)
        rw [show markItems p.2 = pyRange a (b + 1) by unfold markItems; rw [hi]; rfl, mem_pyRange]
        omega
      rw [hr]
      exact (mem_pyRange.1 this).2
    have hmem := hz.mem_iff.2 (mem_pyRange.2 (⟨by omega, by omega⟩ : 0 ≤ k - 1 ∧ k - 1 < k))
    obtain ⟨p, hp, hx⟩ := List.mem_flatMap.1 hmem
    obtain ⟨a, b, hi, hab⟩ := hrng p hp
    rw [show markItems p.2 = pyRange a (b + 1) by unfold markItems; rw [hi]; rfl, mem_pyRange] at hx
    have := lastBoco_ge hp hi
    omega
  have hperm := specZones_perm hm fun p hp => (h4 p hp).1
  rw [hlast] at hperm
  obtain ⟨d', hd', hmk⟩ := marks_tile (n := (w.nfa : Int)) hk1 hperm (specZones_sorted w) hrng hz
  have hkeys := marksRead_names hm fun p hp => (h4 p hp).1
  have hnd : g.mesh.bocos.keys.Nodup := by
    rw [hgm, Dict.keys, List.map_map]
    exact hkeys
  have hmk' : marksRead w = d'.map (fun p => (⟨p.1, if p.2.type = "internal" then .intface else .bdface, p.2.type,
      p.2.index, p.2.perio.map (List.take 3)⟩ : Mark)) ++
      [⟨"internal-domain", .intface, "internal", .range k ((w.nfa : Int) - 1), none⟩] := hmk
  constructor
  · intro name b hget ht
    refine Dict.get?_of_mem hnd ?_
    rw [hgm]
    refine List.mem_map.2 ⟨⟨name, .bdface, b.type, b.index, b.perio.map (List.take 3)⟩, ?_, rfl⟩
    rw [hmk']
    refine List.mem_append_left _ (List.mem_map.2 ⟨(name, b), ?_, ?_⟩)
    · rw [hd'.mem_iff, hb, List.mem_filter]
      exact ⟨Dict.mem_of_get? hget, by simpa using ht⟩
    · simp only [if_neg ht]
  · refine Dict.get?_of_mem hnd ?_
    rw [hgm]
    refine List.mem_map.2 ⟨⟨"internal-domain", .intface, "internal", .range k ((l.length : Int) - 1), none⟩, ?_, rfl⟩
    rw [hmk', k5, hf.count]
    exact List.mem_append_right _ (List.mem_singleton.2 rfl)
  · intro name hname
    rw [hgm, Dict.keys, List.map_map, hmk', List.map_append, List.mem_append] at hname
    rcases hname with hname | hname
    · right
      obtain ⟨b, hb', rfl⟩ := List.mem_map.1 hname
      obtain ⟨p, hp, rfl⟩ := List.mem_map.1 hb'
      obtain ⟨q1, q2⟩ := hbm p (hd'.mem_iff.1 hp)
      exact ⟨p.2, Dict.get?_of_mem hs.markKeys q1, q2⟩
    · left
      simpa using hname

/-- C34. A solution written with its mesh is read back: the conserved variables and the statistics, one row
per cell (a tensor comes back with its 9 components in a row), iteration, time and weights. -/
theorem C34_solution (tbl : FaceTable) (so : List Int → List Int) (h5 : H5) (cv : Conv) (f : FullMesh)
    (m : Mesh F64) (l : List Face) (x : MeshFile) (s : SolFile) (hk : Keeps32 h5)
    (hc : completeMesh tbl so f.mesh = .ok m) (h : writeV4 tbl so h5 cv f true = .ok (x, some s))
    (hs : Storable m l) (hf : FitsV4 m l) (hn : 0 < m.ncell)
    (hkeys : f.cells.data.keys.Nodup) (hpk : f.params.keys.Nodup)
    (hsol : ∀ n ∈ ["RHO", "RHOU", "RHOE"], n ∈ f.cells.data.keys)
    (hcomp : ∀ p ∈ f.cells.data, SolName p.1 → ∃ c, Components m.ncell c p.2)
    (hup : ∀ p ∈ f.cells.data, StatName p.1 → UpperName p.1) :
    ∃ g, readV4 x (some s) = .ok g ∧ SameSolution cv f m.ncell g := by
  obtain ⟨w, hw, hx, _, hsf⟩ := writeV4_ok hc h
  obtain ⟨c, h1, h2, h3, h4, h5⟩ := readV4_ok hk hw hs hf hx
  unfold solFile at hsf
  simp only [bind_eq_ok, Except_pure, Except.ok.injEq] at hsf
  obtain ⟨step, hstep, time, htime, data, hdata, stats, hstats, rfl⟩ := hsf
  obtain ⟨r, hr⟩ := Dict.mem_keys_iff.1 (hsol "RHO" (by simp))
  obtain ⟨u, hu⟩ := Dict.mem_keys_iff.1 (hsol "RHOU" (by simp))
  obtain ⟨e, he⟩ := Dict.mem_keys_iff.1 (hsol "RHOE" (by simp))
  obtain ⟨d, hd, g1, g2⟩ := readVarsV4_ok (s := ⟨step, time, data, stats⟩) hn hkeys hr hu he hcomp hup hdata hstats
  obtain ⟨p1, p2, p3⟩ := readInfoV4_ok (s := ⟨step, time, data, stats⟩) hpk hstep htime hstats (paramsV4 (rmeshV4 w))
  have := h5 (some ⟨step, time, data, stats⟩)
  simp only [hd, Except.map] at this
  exact ⟨_, this, g1, g2, p1, p2, p3⟩

/-- C34. The geometry and the marks are read in the same way when a solution is read with them. -/
theorem C34_same_mesh (tbl : FaceTable) (so : List Int → List Int) (h5 : H5) (cv : Conv) (f : FullMesh) (sol : Bool)
    (m : Mesh F64) (l : List Face) (x : MeshFile) (s : Option SolFile) (hk : Keeps32 h5)
    (hc : completeMesh tbl so f.mesh = .ok m) (h : writeV4 tbl so h5 cv f sol = .ok (x, s))
    (hs : Storable m l) (hf : FitsV4 m l) (s' : SolFile) (g g' : FullMesh) (hg : readV4 x none = .ok g)
    (hg' : readV4 x (some s') = .ok g') : g'.mesh = g.mesh := by
  obtain ⟨w, hw, hx, _⟩ := writeV4_ok hc h
  obtain ⟨c, h1, h2, h3, h4, h5⟩ := readV4_ok hk hw hs hf hx
  rw [h5 none] at hg
  rw [h5 (some s')] at hg'
  simp only at hg'
  simp only [Except.ok.injEq] at hg
  subst hg
  cases hv : readVarsV4 m.ncell s' with
  | error e => rw [hv] at hg'; simp [Except.map] at hg'
  | ok cells =>
      rw [hv] at hg'
      simp only [Except.map, Except.ok.injEq] at hg'
      rw [← hg']
      rfl

/-- C34. A solution which lacks one of the conserved variables is written without them, and refused by
the reader. -/
theorem C34_missing_refused (tbl : FaceTable) (so : List Int → List Int) (h5 : H5) (cv : Conv) (f : FullMesh)
    (m : Mesh F64) (l : List Face) (x : MeshFile) (s : SolFile) (hk : Keeps32 h5)
    (hc : completeMesh tbl so f.mesh = .ok m) (h : writeV4 tbl so h5 cv f true = .ok (x, some s))
    (hs : Storable m l) (hf : FitsV4 m l) (n : String) (hn : n ∈ ["RHO", "RHOU", "RHOE"])
    (hmiss : n ∉ f.cells.data.keys) : readV4 x (some s) = .error .key := by
  obtain ⟨w, hw, hx, _, hsf⟩ := writeV4_ok hc h
  obtain ⟨c, h1, h2, h3, h4, h5⟩ := readV4_ok hk hw hs hf hx
  unfold solFile at hsf
  simp only [bind_eq_ok, Except_pure, Except.ok.injEq] at hsf
  obtain ⟨step, hstep, time, htime, data, hdata, stats, hstats, rfl⟩ := hsf
  have hd : data = [] := by
    unfold solVars at hdata
    rw [if_neg] at hdata
    · simpa using hdata.symm
    · intro hall
      rw [List.all_eq_true] at hall
      have := hall n hn
      rw [List.contains_iff_mem] at this
      exact hmiss this
  subst hd
  have : readVarsV4 m.ncell ⟨step, time, [], stats⟩ = .error .key := rfl
  have e := h5 (some ⟨step, time, [], stats⟩)
  simp only [this, Except.map] at e
  exact e

/-- C34. The file also holds the counts of the mesh and, when the mesh has a cell connectivity, one table per cell type: the
nodes of the cells of this type in the order of the mesh. (The numbers of these cells are not in the file.) -/
theorem C34_cells (tbl : FaceTable) (so : List Int → List Int) (h5 : H5) (cv : Conv) (f : FullMesh) (sol : Bool)
    (x : MeshFile) (s : Option SolFile) (h : writeV4 tbl so h5 cv f sol = .ok (x, s)) :
    x.no = f.mesh.nnode ∧ x.cv = f.mesh.ncell ∧ (f.mesh.cell2node = none → x.cells = []) ∧
    ∀ c, f.mesh.cell2node = some c → ConnWF c →
      x.cells.keys = c.tbl.keys ∧ ∀ t ∈ c.tbl.keys, x.cells.get? t = some ((elementsOf c t).map (·.2)) := by
  have hm : ∃ m, completeMesh tbl so f.mesh = .ok m := by
    unfold writeV4 at h
    rw [bind_eq_ok] at h
    obtain ⟨m, hm, -⟩ := h
    exact ⟨m, hm⟩
  obtain ⟨m, hm⟩ := hm
  obtain ⟨k1, -, k3, k4⟩ := completeMesh_cells hm
  obtain ⟨w, hw, hx, -⟩ := writeV4_ok hm h
  obtain ⟨_, _, _, _, _, rfl⟩ := setMesh_ok hw
  unfold meshFile at hx
  simp only [bind_eq_ok, Except_pure, Except.ok.injEq] at hx
  obtain ⟨_, -, _, -, _, -, _, -, _, -, _, -, rfl⟩ := hx
  refine ⟨k4, k3, fun hn => ?_, fun c hc hwf => ?_⟩
  · simp only [cellTables, k1, hn]
  · simp only [cellTables, k1, hc]
    refine ⟨by simp [Dict.keys], fun t ht => ?_⟩
    obtain ⟨e, he⟩ := Dict.mem_keys_iff.1 ht
    have h1 : elementsOf c t = (indicesOf e).zip e.e2n.rows := by
      unfold elementsOf; rw [he]
    obtain ⟨⟨l, hl, hlen⟩, -⟩ := hwf.entries _ (Dict.mem_of_get? he)
    rw [h1, List.map_snd_zip (by simp [indicesOf, hl, hlen])]
    exact Dict.get?_of_mem (by simpa [Dict.keys, Function.comp_def] using hwf.keys)
      (List.mem_map.2 ⟨(t, e), Dict.mem_of_get? he, rfl⟩)

/-! ## Refuted cases and non-vacuity -/

/-- A library which refuses integers of more than 32 bits. -/
def strictH5 : H5 := ⟨fun n => if -2 ^ 31 ≤ n ∧ n < 2 ^ 31 then .ok n else .error .value⟩

theorem strictH5_keeps : Keeps32 strictH5 := by
  intro n h
  unfold FitsInt at h
  unfold strictH5
  simp only
  rw [if_pos (by omega)]

/-- `twoTetra` with a solution: conserved variables, a scalar average, a tensor of second moments. -/
def twoTetraSol : FullMesh :=
  { twoTetra with
    cells := ⟨none, [("RHO_AVG", ⟨[2], .f64 [15, 16]⟩), ("RHOU", ⟨[2, 3], .f64 [1, 2, 3, 4, 5, 6]⟩),
      ("RHO", ⟨[2], .f64 [7, 8]⟩), ("RHOE", ⟨[2], .f64 [9, 10]⟩), ("U_REY", ⟨[2, 3, 3], .f64 ((List.range 18).map UInt64.ofNat)⟩),
      ("P", ⟨[2], .f64 [11, 12]⟩)]⟩
    params := [("step", .int 3), ("time", .f64 5), ("rho_wgt", .f64 6)] }

theorem twoTetra_fits : FitsV4 twoTetra.mesh twoTetraFaces where
  count := by decide
  faces := by unfold FitsInt; decide
  numbers := by unfold FitsInt; decide
  labels := by decide +kernel

-- hypotheses of C33 and C34
example : (writeV4 cgnsElem2faces id strictH5 noConv twoTetraSol true).toOption.isSome := by decide +kernel
example : ∀ n ∈ ["RHO", "RHOU", "RHOE"], n ∈ twoTetraSol.cells.data.keys := by decide
theorem twoTetraSol_components : ∀ p ∈ twoTetraSol.cells.data, SolName p.1 → ∃ c, Components twoTetra.mesh.ncell c p.2 := by
  intro p hp _
  simp only [twoTetraSol, List.mem_cons, List.not_mem_nil, or_false] at hp
  rcases hp with rfl | rfl | rfl | rfl | rfl | rfl
  · exact ⟨1, by decide, by decide⟩
  · exact ⟨3, by decide, by decide⟩
  · exact ⟨1, by decide, by decide⟩
  · exact ⟨1, by decide, by decide⟩
  · exact ⟨9, by decide, by decide⟩
  · exact ⟨1, by decide, by decide⟩
example : ∀ p ∈ twoTetraSol.cells.data, StatName p.1 → UpperName p.1 := by
  have : ∀ p ∈ twoTetraSol.cells.data, UpperName p.1 := by decide +kernel
  exact fun p hp _ => this p hp

theorem twoTetraSol_complete : completeMesh cgnsElem2faces id twoTetraSol.mesh = .ok twoTetra.mesh := twoTetra_complete

theorem twoTetraSol_written (sol : Bool) : ∃ x s, writeV4 cgnsElem2faces id strictH5 noConv twoTetraSol sol = .ok (x, s) ∧
    (sol = true → s.isSome = true) := by
  have h : (match writeV4 cgnsElem2faces id strictH5 noConv twoTetraSol sol with
    | .ok r => !sol || r.2.isSome
    | .error _ => false) = true := by cases sol <;> decide +kernel
  split at h
  · rename_i r hr
    exact ⟨r.1, r.2, hr, by rintro rfl; simpa using h⟩
  · cases h

/-- C33 and C34 applied to this mesh and its solution. -/
example : ∃ x s g g', writeV4 cgnsElem2faces id strictH5 noConv twoTetraSol true = .ok (x, some s) ∧
    readV4 x none = .ok g ∧ readV4 x (some s) = .ok g' ∧ SameGeometry twoTetra.mesh twoTetraFaces g ∧
    SameMarks twoTetra.mesh 6 7 g ∧ SameSolution noConv twoTetraSol 2 g' ∧ g'.mesh = g.mesh := by
  obtain ⟨x, s, h, hs⟩ := twoTetraSol_written true
  obtain ⟨s, rfl⟩ := Option.isSome_iff_exists.1 (hs rfl)
  obtain ⟨g, hg, h1⟩ := C34_geometry _ _ _ _ twoTetraSol _ _ _ _ _ strictH5_keeps twoTetraSol_complete h twoTetra_storable twoTetra_fits
  obtain ⟨g2, hg2, h2⟩ := C33_round_trip _ _ _ _ twoTetraSol _ _ _ _ _ strictH5_keeps twoTetraSol_complete h twoTetra_storable twoTetra_fits
    6 (by decide) (by decide) (by
      intro p hp _ x y h
      simp only [twoTetra, List.mem_cons, List.not_mem_nil, or_false] at hp
      rcases hp with rfl | rfl <;> simp only [IndexList.range.injEq] at h <;> omega)
  rw [hg, Except.ok.injEq] at hg2
  subst hg2
  obtain ⟨g', hg', h3⟩ := C34_solution _ _ _ _ twoTetraSol _ _ _ _ strictH5_keeps twoTetraSol_complete h twoTetra_storable twoTetra_fits
    (by decide) (by decide) (by decide) (by decide) twoTetraSol_components (fun p hp _ => by
      have : ∀ p ∈ twoTetraSol.cells.data, UpperName p.1 := by decide +kernel
      exact this p hp)
  exact ⟨x, s, g, g', h, hg, hg', h1, h2, h3, C34_same_mesh _ _ _ _ twoTetraSol _ _ _ _ _ strictH5_keeps twoTetraSol_complete h
    twoTetra_storable twoTetra_fits s g g' hg hg'⟩

/-- `C33_zones` without a solution. -/
example : ∃ x s g zs, writeV4 cgnsElem2faces id strictH5 noConv twoTetraSol false = .ok (x, s) ∧ readV4 x none = .ok g ∧
    g.mesh.bocos = (marksOf zs 7).map (fun b => (b.name, b)) := by
  obtain ⟨x, s, h, -⟩ := twoTetraSol_written false
  obtain ⟨g, zs, first, hg, -, -, h1, -⟩ := C33_zones _ _ _ _ twoTetraSol _ _ _ _ _ strictH5_keeps twoTetraSol_complete h twoTetra_storable
    twoTetra_fits
  exact ⟨x, s, g, zs, h, hg, h1⟩

/-- The solution without the momentum. -/
def noMomentum : FullMesh := { twoTetraSol with cells := ⟨none, [("RHO", ⟨[2], .f64 [7, 8]⟩)]⟩ }

theorem noMomentum_complete : completeMesh cgnsElem2faces id noMomentum.mesh = .ok twoTetra.mesh := twoTetra_complete

/-- `C34_missing_refused` without the momentum. -/
example : ∃ x s, writeV4 cgnsElem2faces id strictH5 noConv noMomentum true =
    .ok (x, some s) ∧ readV4 x (some s) = .error .key := by
  obtain ⟨x, s, h⟩ : ∃ x s, writeV4 cgnsElem2faces id strictH5 noConv
      noMomentum true = .ok (x, some s) := by
    have h : (match writeV4 cgnsElem2faces id strictH5 noConv
        noMomentum true with
      | .ok r => r.2.isSome
      | .error _ => false) = true := by decide +kernel
    split at h
    · rename_i r hr
      obtain ⟨s, hs⟩ := Option.isSome_iff_exists.1 h
      exact ⟨r.1, s, by rw [hr, ← hs]⟩
    · cases h
  exact ⟨x, s, h, C34_missing_refused _ _ _ _ noMomentum _ _ _ _ strictH5_keeps noMomentum_complete h twoTetra_storable twoTetra_fits
    "RHOU" (by decide) (by decide)⟩

/-- What is read in the files written for `f`. -/
def rereadV4 (f : FullMesh) : Py FullMesh := do
  let r ← writeV4 cgnsElem2faces id strictH5 noConv f true
  readV4 r.1 r.2

-- the marks of `twoTetra`, one with periodic data, and the internal zone
example : (rereadV4 twoTetraSol).toOption.map (·.mesh.bocos) =
    some [("a", ⟨"a", .bdface, "boundary", .range 0 2, none⟩),
      ("b", ⟨"b", .bdface, "perio_cart", .range 3 5, some [1, 2, 3]⟩),
      ("internal-domain", ⟨"internal-domain", .intface, "internal", .range 6 6, none⟩)] := by decide +kernel
example : (rereadV4 twoTetraSol).toOption.map (·.cells.data) =
    some [("RHO", ⟨[2], .f64 [7, 8]⟩), ("RHOU", ⟨[2, 3], .f64 [1, 2, 3, 4, 5, 6]⟩), ("RHOE", ⟨[2], .f64 [9, 10]⟩),
      ("RHO_AVG", ⟨[2], .f64 [15, 16]⟩), ("U_REY", ⟨[2, 9], .f64 ((List.range 18).map UInt64.ofNat)⟩)] := by decide +kernel
-- without the internal energy
example : rereadV4 noMomentum = .error .key := by
  decide +kernel

/-- `twoTetraSol` with other marks. -/
def withMarks (d : Dict String Mark) : FullMesh :=
  { twoTetraSol with mesh := { twoTetraSol.mesh with bocos := d } }

/-- `tetra`, whose faces are in a single set, with a solution and other marks. -/
def tetraMarks (d : Dict String Mark) : FullMesh :=
  { tetra with
    mesh := { tetra.mesh with bocos := d }
    cells := ⟨none, [("RHO", ⟨[1], .f64 [1]⟩), ("RHOU", ⟨[1, 3], .f64 [1, 2, 3]⟩), ("RHOE", ⟨[1], .f64 [1]⟩)]⟩ }

/-- C33 fails when faces between two marks belong to no mark: they are read in the mark before. -/
theorem C33_gap_refuted :
    (rereadV4 (tetraMarks [("a", ⟨"a", .bdface, "boundary", .range 0 0, none⟩),
        ("b", ⟨"b", .bdface, "boundary", .range 2 3, none⟩)])).toOption.map
      (fun g => (g.mesh.bocos.get? "a").map (·.index)) = some (some (.range 0 1)) := by decide +kernel

/-- C33 fails when faces before the first mark belong to no mark: they are in no zone read. Without any
mark at all the internal zone read lacks face 0. -/
theorem C33_no_mark_refuted :
    (rereadV4 (tetraMarks [])).toOption.map (fun g => (g.mesh.nface, marked g.mesh)) =
      some (4, [1, 2, 3]) := by decide +kernel

/-- C33 fails for a periodic mark called `labels`: the file cannot be written. -/
theorem C33_reserved_name_refuted :
    rereadV4 (withMarks [("labels", ⟨"labels", .bdface, "perio_cart", .range 0 5, some [1, 2, 3]⟩)]) =
      .error .value := by decide +kernel

/-- C33 fails for names of more than 128 characters: they are cut. -/
theorem C33_long_name_refuted :
    (rereadV4 (withMarks [(String.ofList (List.replicate 130 'a'),
        ⟨String.ofList (List.replicate 130 'a'), .bdface, "boundary", .range 0 5, none⟩)])).toOption.map
      (fun g => g.mesh.bocos.keys) =
      some [String.ofList (List.replicate 128 'a'), "internal-domain"] := by decide +kernel

/-- C34 fails for names with lower case letters: they come back in upper case. -/
theorem C34_lower_case_refuted :
    (rereadV4 { twoTetraSol with
        cells := ⟨none, twoTetraSol.cells.data ++ [("p_AVG", ⟨[2], .f64 [1, 2]⟩)]⟩ }).toOption.map
      (fun g => (g.cells.data.get? "p_AVG", g.cells.data.get? "P_AVG")) =
      some (none, some ⟨[2], .f64 [1, 2]⟩) := by decide +kernel

/-- Two triangles and a quadrangle: `C34_cells` and the tables written. -/
def threeCells : FullMesh :=
  { twoTetraSol with mesh := { ncell := 3, nnode := 6, nface := 0, faces := [], bocos := []
                               cell2node := some ⟨3, [("quad4", ⟨.list [1], ⟨some 4, [[0, 1, 2, 3]]⟩⟩),
                                 ("tri3", ⟨.list [2, 0], ⟨some 3, [[1, 4, 2], [1, 5, 4]]⟩⟩)]⟩
                               coords := some ([0, 1, 1, 0, 2, 2], [0, 0, 1, 1, 1, 0], [0, 0, 0, 0, 0, 0]) } }

example : ∃ x s, writeV4 gmshElem2faces id strictH5 noConv threeCells false = .ok (x, s) ∧
    x.cells.get? "tri3" = some [[1, 4, 2], [1, 5, 4]] := by
  obtain ⟨⟨x, s⟩, h⟩ := exists_of_isOk (x := writeV4 gmshElem2faces id strictH5 noConv threeCells false) (by decide +kernel)
  exact ⟨x, s, h, ((C34_cells _ _ _ _ _ _ _ _ h).2.2.2 _ rfl (connWF_of_ok (by decide))).2 "tri3" (by decide)⟩

end Cfd.Ic3
