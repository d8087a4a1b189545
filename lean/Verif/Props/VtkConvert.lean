import Verif.Spec.VtkConvert
import Verif.Spec.Commands
import Verif.Model.VtkConvert
import Verif.Lemmas.CgnsConvert
import Verif.Props.Commands
import Verif.Props.Convert
import Verif.Props.Extrude
import Verif.Props.VtkMesh

/-! # C71: Gmsh and CGNS files converted to VTK, with `--extrude` and `--scale` -/

namespace Cfd.VtkConvert
open Cfd.Spec Cfd.Spec.Commands Cfd.Spec.Gmsh Cfd.Spec.Vtk Cfd.Spec.VtkConvert Cfd.Ic3 Cfd.Commands

variable {R Loc : Type}

/-- A mesh with these points and cells. -/
structure Shows (m : Mesh R) (c : ElemConn) (pts : List (R × R × R)) (cells : List Cell) : Prop where
  coords : m.coords = some (pts.map (·.1), pts.map (·.2.1), pts.map (·.2.2))
  nnode : m.nnode = pts.length
  conn : m.cell2node = some c
  wf : ConnWF c
  rows : ∀ t, rowsOfType c t = (cells.filter fun q => q.1 = t).map (·.2)
  count : (elements c).length = cells.length

theorem zip3 (pts : List (R × R × R)) : (pts.map (·.1)).zip ((pts.map (·.2.1)).zip (pts.map (·.2.2))) = pts := by
  induction pts with
  | nil => rfl
  | cons p t ih => simp only [List.map_cons, List.zip_cons_cons, ih]

theorem Shows.mem {m : Mesh R} {c : ElemConn} {pts : List (R × R × R)} {cells : List Cell} (h : Shows m c pts cells)
    (t : String) (r : List Int) : (t, r) ∈ cells ↔ ∃ i, (t, i, r) ∈ elements c := by
  have h1 : r ∈ rowsOfType c t ↔ (t, r) ∈ cells := by
    rw [h.rows t, List.mem_map]
    constructor
    · rintro ⟨q, hq, rfl⟩
      rw [List.mem_filter, decide_eq_true_eq] at hq
      rw [← hq.2]; exact hq.1
    · intro hm
      exact ⟨(t, r), by simp [hm], rfl⟩
  rw [← h1]
  unfold rowsOfType
  rw [List.mem_map]
  constructor
  · rintro ⟨q, hq, rfl⟩
    exact ⟨q.1, (mem_elements h.wf.keys).2 hq⟩
  · rintro ⟨i, hi⟩
    exact ⟨(i, r), (mem_elements h.wf.keys).1 hi, rfl⟩

/-- The grid of a mesh. -/
theorem grid_of {m : Mesh R} {c : ElemConn} {pts : List (R × R × R)} {cells : List Cell} (h : Shows m c pts cells)
    (hk : ∀ t ∈ c.tbl.keys, ∃ y ∈ vtkTypes, y.1 = t)
    (hs : ∀ q ∈ cells, ∃ y ∈ vtkTypes, q.1 = y.1 ∧ q.2.length = y.2.2) (hn : NodesExist pts.length cells) :
    ∃ g, Vtk.setMesh m = .ok g ∧ IsGrid pts cells g := by
  obtain ⟨g, h1, _, h2, h3⟩ := Vtk.C61_to_vtk m c _ _ _
    ⟨h.conn, h.coords, by simp, by simp, h.wf, hk, fun e he => by
      have hm := (h.mem e.1 e.2.2).2 ⟨e.2.1, he⟩
      exact ⟨hs _ hm, fun q hq => by simpa using hn _ hm q hq⟩⟩
  refine ⟨g, h1, h3.trans (zip3 pts), fun t ht => ?_, ?_⟩
  · rw [h2.1 t ht, h.rows]
  · rw [h2.2, h.count]

/-! ## Options -/

theorem names_of {m : Mesh R} {c : ElemConn} {pts : List (R × R × R)} {cells : List Cell} (h : Shows m c pts cells)
    {q : Cell} (hq : q ∈ cells) : q.1 ∈ c.tbl.keys := by
  obtain ⟨i, hi⟩ := (h.mem q.1 q.2).1 hq
  unfold elements at hi
  obtain ⟨p, hp, hx⟩ := List.mem_flatMap.1 hi
  obtain ⟨y, _, e⟩ := List.mem_map.1 hx
  have : p.1 = q.1 := congrArg Prod.fst e
  rw [← this]
  exact List.mem_map_of_mem (f := Prod.fst) hp

/-- The table of a mesh of quadrangles. -/
theorem quads_tbl {m : Mesh R} {c : ElemConn} {pts : List (R × R × R)} {cells : List Cell} (h : Shows m c pts cells)
    (hk : ∀ t ∈ c.tbl.keys, t = "quad4") (hne : cells ≠ []) (hs : ∀ q ∈ cells, q.2.length = 4) :
    ∃ e, c.tbl = [("quad4", e)] ∧ e.e2n.ncol = some 4 := by
  obtain ⟨q, hq⟩ := List.exists_mem_of_ne_nil _ hne
  have hkq := names_of h hq
  have hnd := h.wf.keys
  obtain ⟨e, he⟩ : ∃ e, c.tbl = [("quad4", e)] := by
    unfold Dict.keys at hk hnd hkq
    match hc : c.tbl with
    | [] => rw [hc] at hkq; simp at hkq
    | [p] =>
      have := hk p.1 (by rw [hc]; simp)
      exact ⟨p.2, by rw [← this]⟩
    | p :: p' :: l =>
      rw [hc] at hnd
      have h1 := hk p.1 (by rw [hc]; simp)
      have h2 := hk p'.1 (by rw [hc]; simp)
      simp [h1, h2] at hnd
  refine ⟨e, he, ?_⟩
  have hw := (h.wf.entries ("quad4", e) (by rw [he]; simp))
  obtain ⟨i, hi⟩ := (h.mem q.1 q.2).1 hq
  have hr : q.2 ∈ e.e2n.rows := by
    unfold elements at hi
    rw [he] at hi
    simp only [List.flatMap_cons, List.flatMap_nil, List.append_nil, List.mem_map] at hi
    obtain ⟨y, hy, e1⟩ := hi
    have := (List.of_mem_zip hy).2
    have e2 : y = (i, q.2) := congrArg Prod.snd e1
    rw [e2] at this
    exact this
  have hwf := hw.2
  unfold Arr2.WF at hwf
  cases hn : e.e2n.ncol with
  | none => rw [hn] at hwf; simp only at hwf; rw [hwf] at hr; cases hr
  | some k =>
    rw [hn] at hwf
    have := hwf _ hr
    rw [hs q hq] at this
    rw [this]

/-- An extruded mesh. -/
theorem extruded_shows [Add R] [Mul R] [Zero R] [One R] (so : List Int → List Int) {m : Mesh R} {c : ElemConn}
    {pts : List (R × R × R)} {cells : List Cell} (h : Shows m c pts cells) (hk : ∀ t ∈ c.tbl.keys, t = "quad4")
    (hne : cells ≠ []) (hs : ∀ q ∈ cells, q.2.length = 4)
    (hmk : ∀ p ∈ m.bocos, p.1 = p.2.name ∧ p.2.index ≠ .unset ∧ p.2.geodim ∈ [GeoDim.node, GeoDim.intnode, GeoDim.bdnode])
    (hnd : m.bocos.keys.Nodup) (planes : List R) (hp : 2 ≤ planes.length) (domain : String) :
    ∃ m' c', m.exportExtruded so (0, 0, 1) planes domain = .ok m' ∧
      Shows m' c' (lifted planes pts) (layers pts.length (planes.length - 1) cells) ∧ c'.tbl.keys = ["hexa8"] := by
  obtain ⟨e, he, hcol⟩ := quads_tbl h hk hne hs
  have ht : ∀ p ∈ c.tbl, ∃ n x, swept p.1 = some (n, x) ∧ p.2.e2n.ncol = some n := by
    rw [he]
    intro p hp
    rw [List.mem_singleton] at hp
    subst hp
    exact ⟨4, "hexa8", rfl, hcol⟩
  have hx : Extrudable m c := ⟨⟨_, _, _, h.coords, by simp [h.nnode], by simp [h.nnode], by simp [h.nnode]⟩, h.conn, h.wf, ht,
    hmk, hnd⟩
  have heq := exportExtruded_eq so m c hx h.coords (0, 0, 1) planes hp domain
  have hwf := swept_wf (planes.length - 1) m.nnode c h.wf ht
  obtain ⟨he1, he2⟩ := swept_elementsOf (planes.length - 1) m.nnode ((planes.length - 1) * c.nelem) c h.wf ht
  refine ⟨_, ⟨(planes.length - 1) * c.nelem, c.tbl.map (sweptEntry (planes.length - 1) m.nnode)⟩, heq, ⟨?_, ?_, rfl, hwf, ?_, ?_⟩, ?_⟩
  · simp only [zip3]; rfl
  · show m.nnode * planes.length = _
    unfold lifted
    rw [length_flatMap_const _ _ pts.length (by simp), h.nnode, Nat.mul_comm]
  · intro t
    have hq : ∀ q ∈ cells, q.1 = "quad4" := fun q hq => hk _ (names_of h hq)
    have hrow := h.rows "quad4"
    rw [List.filter_eq_self.2 (by intro q hq'; simp [hq q hq'])] at hrow
    unfold layers
    by_cases hte : t = "hexa8"
    · subst hte
      have hf : ((List.range (planes.length - 1)).flatMap fun k => cells.map fun c => ("hexa8", sweptNodes pts.length k c.2)).filter
          (fun q => q.1 = "hexa8") = (List.range (planes.length - 1)).flatMap fun k => cells.map fun c => ("hexa8", sweptNodes pts.length k c.2) := by
        rw [List.filter_eq_self]
        intro q hq
        obtain ⟨k, _, hq⟩ := List.mem_flatMap.1 hq
        obtain ⟨c, _, rfl⟩ := List.mem_map.1 hq
        simp
      rw [hf]
      unfold rowsOfType
      rw [he1 "quad4" 4 "hexa8" rfl, List.map_flatMap, List.map_flatMap]
      congr 1
      funext k
      rw [List.map_map, List.map_map]
      have : (elementsOf c "quad4").map (fun q => sweptNodes m.nnode k q.2) = ((elementsOf c "quad4").map (·.2)).map (sweptNodes m.nnode k) := by
        rw [List.map_map]; rfl
      have h2 : (elementsOf c "quad4").map (·.2) = cells.map (·.2) := hrow
      show (elementsOf c "quad4").map (fun q => sweptNodes m.nnode k q.2) = _
      rw [this, h2, List.map_map, h.nnode]
      rfl
    · have hf : ((List.range (planes.length - 1)).flatMap fun k => cells.map fun c => ("hexa8", sweptNodes pts.length k c.2)).filter
          (fun q => q.1 = t) = [] := by
        rw [List.filter_eq_nil_iff]
        intro q hq
        obtain ⟨k, _, hq⟩ := List.mem_flatMap.1 hq
        obtain ⟨c, _, rfl⟩ := List.mem_map.1 hq
        simpa using fun h => hte h.symm
      rw [hf]
      unfold rowsOfType elementsOf
      rw [he]
      have : Dict.get? ([("quad4", e)].map (sweptEntry (planes.length - 1) m.nnode)) t = none := by
        simp only [List.map_cons, List.map_nil, sweptEntry, Dict.get?]
        rw [if_neg]
        simp only [swept, Option.getD_some]
        exact fun h => hte h.symm
      simp only [this, List.map_nil]
  · have : (planes.length - 1) * c.nelem = (elements ⟨(planes.length - 1) * c.nelem, c.tbl.map (sweptEntry (planes.length - 1) m.nnode)⟩).length := hwf.nelem
    rw [← this, h.wf.nelem, h.count]
    unfold layers
    rw [length_flatMap_const _ _ cells.length (by simp)]
    simp
  · rw [he]
    rfl

/-- A scaled mesh. -/
theorem scaled_shows [Mul R] {m : Mesh R} {c : ElemConn} {pts : List (R × R × R)} {cells : List Cell}
    (h : Shows m c pts cells) (s : R × R × R) : ∃ m', m.scale s = .ok m' ∧ Shows m' c (scaled (some s) pts) cells := by
  unfold Mesh.scale Mesh.setCoords
  rw [h.coords]
  simp only [List.length_map, h.nnode, pyAssert, decide_true, if_true, Except_bind_ok]
  refine ⟨_, rfl, ⟨?_, ?_, h.conn, h.wf, h.rows, h.count⟩⟩
  · simp [scaled]
  · simp [scaled, h.nnode]

/-! ## The command -/

section
variable [DecidableEq Loc] [Add R] [Mul R] [Zero R] [One R] {env : VtkEnv R} {o : Options R} {s : Fs Loc} {filename : Name}
  {outpath : Option Name}

theorem run_ok (reader : Fs Loc → Name → Py (PyMesh R)) (hfin : ∀ folder : PyPath, FiniteFolder s.has folder)
    (hf : (PyPath.parse filename).name ≠ []) {i j : PyMesh R} (h0 : reader s (PyPath.parse filename).str = .ok i)
    (h1 : transform env o i = .ok j) {m : Mesh R} (h2 : j.numbers = .ok m) {g : Vtk.Grid (R × R × R)} (h3 : Vtk.setMesh m = .ok g)
    {pts : List (R × R × R)} {cells : List Cell} (hg : IsGrid pts cells g) :
    Written env.enc (fun fuel => toVtk reader env o s fuel filename outpath) s pts cells := by
  have hw : vtkOutput env j = .inr (env.enc g, .ok ()) := by
    unfold vtkOutput
    rw [h2, Except_bind_ok, h3]
  obtain ⟨n, s', name, hrun⟩ := C36_conversion_succeeds reader .ok (transform env o) (vtkOutput env) "vtu".toList (by decide)
    (by decide) s filename hf outpath hfin i i j (env.enc g) h0 rfl h1 hw
  have hn := hrun n (Nat.le_refl _)
  obtain ⟨q1, ⟨m0, m1, m2, b, r0, r1, r2, r3, r4⟩, q2⟩ := C36_conversion_writes_new_file _ _ _ _ _ (by decide) _ _ _ _ _ _ hn
  rw [h0] at r0; cases r0; cases r1
  rw [h1] at r2; cases r2
  rw [hw] at r3; cases r3
  exact ⟨n, s', name, g, hrun, q1, r4, q2, hg⟩

theorem run_error (reader : Fs Loc → Name → Py (PyMesh R)) {fuel : Nat} {s' : Fs Loc} {e : PyErr}
    (h : toVtk reader env o s fuel filename outpath = some (s', .error e)) : s' = s := by
  unfold toVtk writeGeneric at h
  split at h
  · simp only [Option.some.injEq, Prod.mk.injEq] at h; exact h.1.symm
  · split at h
    · cases h
    · simp only [Option.some.injEq, Prod.mk.injEq] at h; exact h.1.symm
    · split at h
      · simp only [Option.some.injEq, Prod.mk.injEq] at h; exact h.1.symm
      · unfold runWriter vtkOutput at h
        simp only [Option.some.injEq] at h
        split at h
        · cases h; rfl
        · rename_i hx; split at hx <;> cases hx
        · cases h

/-- To be refused: no success. -/
theorem refused_of (reader : Fs Loc → Name → Py (PyMesh R))
    (h : ∀ i j m g, reader s (PyPath.parse filename).str = .ok i → transform env o i = .ok j → j.numbers = .ok m →
      Vtk.setMesh m = .ok g → False) : Refused (fun fuel => toVtk reader env o s fuel filename outpath) s := by
  intro fuel s' r hr
  cases r with
  | error e => exact ⟨run_error reader hr, e, rfl⟩
  | ok name =>
    exfalso
    obtain ⟨_, ⟨m0, m1, m2, b, r0, r1, r2, r3, _⟩, _⟩ := C36_conversion_writes_new_file _ _ _ _ _ (by decide) _ _ _ _ _ _ hr
    cases r1
    unfold vtkOutput at r3
    cases h2 : m2.numbers with
    | error e => rw [h2] at r3; cases r3
    | ok m =>
      rw [h2, Except_bind_ok] at r3
      cases h3 : Vtk.setMesh m with
      | error e => rw [h3] at r3; cases r3
      | ok g => exact h _ _ _ _ r0 r2 h2 h3

end

/-! ## Gmsh -/

theorem floats_some (l : List R) : floats (l.map some) = .ok l := by
  unfold floats
  rw [mapM_ok_iff]
  induction l with
  | nil => exact .nil
  | cons a t ih => exact .cons rfl ih

/-- The mesh of a Gmsh file whose points are all given. -/
theorem gmsh_shows {names : Option (List PhysName)} {elts : List Elt} {m : Mesh (Option R)} {pts : List (R × R × R)}
    (hm : IsMeshOf (pts.map some) names elts m) :
    ∃ m' c, (PyMesh.lists m).numbers = .ok m' ∧ Shows m' c pts (gmshCells elts) ∧ IsCells (cellsOf elts) c ∧ m'.bocos = m.bocos := by
  obtain ⟨c, hc, hcc⟩ := hm.cells
  have e1 : (pts.map some).map (Option.map fun q : R × R × R => q.1) = (pts.map (·.1)).map some := by simp
  have e2 : (pts.map some).map (Option.map fun q : R × R × R => q.2.1) = (pts.map (·.2.1)).map some := by simp
  have e3 : (pts.map some).map (Option.map fun q : R × R × R => q.2.2) = (pts.map (·.2.2)).map some := by simp
  have hco := hm.coords
  rw [e1, e2, e3] at hco
  refine ⟨⟨m.ncell, m.nnode, m.nface, m.cell2node, m.faces, some (pts.map (·.1), pts.map (·.2.1), pts.map (·.2.2)), m.bocos⟩, c,
    ?_, ⟨rfl, by rw [← List.length_map (f := some)]; exact hm.nnode, hc, hcc.wf, ?_, ?_⟩, hcc, rfl⟩
  · unfold PyMesh.numbers
    simp only [hco, floats_some, Except_bind_ok, Except_pure]
  · intro t
    unfold rowsOfType gmshCells
    rw [hcc.rows, List.filter_map, List.map_map]
    rfl
  · rw [← hcc.wf.nelem, hcc.count]
    simp [gmshCells]

theorem gmsh_kinds {elts : List Elt} (hsup : ∀ e ∈ elts, e.Supported) (htop : 2 ≤ topDim elts) :
    ∀ q ∈ gmshCells elts, ∃ y ∈ vtkTypes, q.1 = y.1 ∧ q.2.length = y.2.2 := by
  intro q hq
  obtain ⟨e, he, rfl⟩ := List.mem_map.1 hq
  have hd : e.dim = topDim elts := by simpa using (List.mem_filter.1 he).2
  obtain ⟨t, d, ht⟩ := hsup e (List.mem_of_mem_filter he)
  have hn : e.name = t ∧ e.dim = d := by
    unfold Elt.name Elt.dim
    rw [ht]
    exact ⟨rfl, rfl⟩
  have h0 : ∀ p ∈ documented, 2 ≤ p.2.2.1 → ∃ y ∈ vtkTypes, p.2.1 = y.1 ∧ p.2.2.2 = y.2.2 := by decide
  obtain ⟨y, hy, e1, e2⟩ := h0 _ (Dict.mem_of_get? ht) (by simp only; omega)
  exact ⟨y, hy, by simp only; rw [hn.1]; exact e1, by simp only [List.length_map]; exact e2⟩

section
variable [DecidableEq Loc] [Add R] [Mul R] [Zero R] [One R] (env : VtkEnv R) (s : Fs Loc)
  (hfin : ∀ folder : PyPath, FiniteFolder s.has folder) (filename : Name) (hf : (PyPath.parse filename).name ≠ [])
  (outpath : Option Name)
include hfin hf

/-- The command, once the mesh is extruded. -/
theorem extruded_run (reader : Fs Loc → Name → Py (PyMesh R)) {i : PyMesh R} (h0 : reader s (PyPath.parse filename).str = .ok i)
    {m : Mesh R} (h1 : i.numbers = .ok m) {pts : List (R × R × R)} {cells : List Cell} (hn : NodesExist pts.length cells)
    (h4 : ∀ q ∈ cells, q.2.length = 4) (n : Nat) (hpos : 0 < n) (hlin : (env.linspace (n + 1)).length = n + 1)
    (sc : Option (R × R × R)) {m1 : Mesh R} {c1 : ElemConn}
    (hx : m.exportExtruded env.so (0, 0, 1) (env.linspace (n + 1)) "fluid" = .ok m1)
    (hs1 : Shows m1 c1 (lifted (env.linspace (n + 1)) pts) (layers pts.length n cells)) (hk1 : c1.tbl.keys = ["hexa8"]) :
    Written env.enc (fun fuel => toVtk reader env ⟨n, sc⟩ s fuel filename outpath) s
      (scaled sc (lifted (env.linspace (n + 1)) pts)) (layers pts.length n cells) := by
  have hlen : (lifted (env.linspace (n + 1)) pts).length = (n + 1) * pts.length := by
    unfold lifted
    rw [length_flatMap_const _ _ pts.length (by simp), hlin]
  have hlen' : (scaled sc (lifted (env.linspace (n + 1)) pts)).length = (n + 1) * pts.length := by
    rw [← hlen]
    cases sc with
    | none => rfl
    | some q => simp [scaled]
  have hk : ∀ t ∈ c1.tbl.keys, ∃ y ∈ vtkTypes, y.1 = t := by
    rw [hk1]; decide
  have hkc : ∀ q ∈ layers pts.length n cells, ∃ y ∈ vtkTypes, q.1 = y.1 ∧ q.2.length = y.2.2 := by
    intro q hq
    obtain ⟨k, _, hq⟩ := List.mem_flatMap.1 hq
    obtain ⟨c, hc, rfl⟩ := List.mem_map.1 hq
    refine ⟨("hexa8", 12, 8), by decide, rfl, ?_⟩
    simp [sweptNodes, h4 c hc]
  have hne : NodesExist ((n + 1) * pts.length) (layers pts.length n cells) := by
    intro q hq
    obtain ⟨k, hk, hq⟩ := List.mem_flatMap.1 hq
    obtain ⟨c, hc, rfl⟩ := List.mem_map.1 hq
    rw [List.mem_range] at hk
    intro v hv
    have hb1 : ((k + 1 : Nat) : Int) * pts.length + pts.length ≤ ((n + 1 : Nat) : Int) * pts.length := by
      have : ((k + 2 : Nat) : Int) * pts.length ≤ ((n + 1 : Nat) : Int) * pts.length :=
        Int.mul_le_mul_of_nonneg_right (by omega) (by omega)
      have e : ((k + 2 : Nat) : Int) * pts.length = ((k + 1 : Nat) : Int) * pts.length + pts.length := by
        rw [show ((k + 2 : Nat) : Int) = ((k + 1 : Nat) : Int) + 1 by omega, Int.add_mul, Int.one_mul]
      omega
    have hb2 : (0 : Int) ≤ (k : Int) * pts.length := Int.mul_nonneg (by omega) (by omega)
    have hb3 : ((k + 1 : Nat) : Int) * pts.length = (k : Int) * pts.length + pts.length := by
      rw [show ((k + 1 : Nat) : Int) = (k : Int) + 1 by omega, Int.add_mul, Int.one_mul]
    have hb4 : (((n + 1) * pts.length : Nat) : Int) = ((n + 1 : Nat) : Int) * pts.length := by simp
    unfold sweptNodes at hv
    rw [List.mem_append, List.mem_map, List.mem_map] at hv
    rw [hb4]
    rcases hv with ⟨a, ha, rfl⟩ | ⟨a, ha, rfl⟩
    · have := hn c hc a ha
      omega
    · have := hn c hc a ha
      have hb5 : ((k : Int) + 1) * pts.length = (k : Int) * pts.length + pts.length := by rw [Int.add_mul, Int.one_mul]
      omega
  have ht : extrudeStep env (n : Int) i = .ok (.arrays m1) := by
    unfold extrudeStep
    rw [if_neg (by omega), if_neg (by omega), h1, Except_bind_ok, show ((n : Int) + 1).toNat = n + 1 by omega, hx]
    rfl
  cases sc with
  | none =>
    obtain ⟨g, hg1, hg2⟩ := grid_of hs1 hk hkc (by rw [hlen]; exact hne)
    refine run_ok reader hfin hf (i := i) (j := .arrays m1) h0 ?_ rfl hg1 hg2
    unfold transform
    rw [ht]
    rfl
  | some q =>
    obtain ⟨m2, he2, hs2⟩ := scaled_shows hs1 q
    obtain ⟨g, hg1, hg2⟩ := grid_of hs2 hk hkc (by rw [hlen']; exact hne)
    refine run_ok reader hfin hf (i := i) (j := .arrays m2) h0 ?_ rfl hg1 hg2
    unfold transform
    rw [ht, Except_bind_ok]
    unfold scaleStep
    simp only [he2, Except_bind_ok, Except_pure]

end

section
variable [DecidableEq Loc] [Add R] [Mul R] [Zero R] [One R] (env : VtkEnv R) (fmt : Option String) (s : Fs Loc)
  (hfin : ∀ folder : PyPath, FiniteFolder s.has folder) (filename : Name) (hf : (PyPath.parse filename).name ≠ [])
  (outpath : Option Name)

theorem vtk_gmsh (o : Options R) (hu : Uses fmt filename "GMSH" ".msh") :
    (fun fuel => cfdwriteVtk env fmt o s fuel filename outpath) = fun fuel => toVtk (gmshIn env) env o s fuel filename outpath := by
  funext fuel
  unfold cfdwriteVtk
  rw [(C70_select fmt filename).2.1 hu]

include hfin hf

/-- **C71, Gmsh.** A Gmsh file (format asked for, or suffix) with points `pts`, whose cells have known types and existing nodes,
is written by `cfdwrite_vtk` to a new file: the grid has the points and the cells of the file; no other file changes. -/
theorem C71_gmsh (hu : Uses fmt filename "GMSH" ".msh") {b : Bytes}
    (hb : s.content (s.resolve (PyPath.parse filename).str) = some b) {m : Mesh (Option R)}
    (hread : Gmsh.readFile env.num (env.text b) = .ok m) {pts : List (R × R × R)} {names : Option (List PhysName)}
    {elts : List Elt} (hm : IsMeshOf (pts.map some) names elts m) (hsup : ∀ e ∈ elts, e.Supported) (htop : 2 ≤ topDim elts)
    (hn : NodesExist pts.length (gmshCells elts)) :
    Written env.enc (fun fuel => cfdwriteVtk env fmt ⟨0, none⟩ s fuel filename outpath) s pts (gmshCells elts) := by
  obtain ⟨m', c, h1, h2, h3, _⟩ := gmsh_shows hm
  have hk := gmsh_kinds hsup htop
  obtain ⟨g, hg1, hg2⟩ := grid_of h2 (by
    intro t ht
    rw [h3.types, mem_firstUse] at ht
    obtain ⟨e, he, rfl⟩ := List.mem_map.1 ht
    obtain ⟨y, hy, e1, _⟩ := hk _ (List.mem_map.2 ⟨e, he, rfl⟩)
    exact ⟨y, hy, e1.symm⟩) hk hn
  rw [vtk_gmsh env fmt s filename outpath ⟨0, none⟩ hu]
  refine run_ok (gmshIn env) hfin hf (i := .lists m) (j := .lists m) ?_ rfl h1 hg1 hg2
  unfold gmshIn
  simp only [hb, hread, Except_bind_ok, Except_pure]

/-- **C71, Gmsh extruded.** With `--extrude n` (`n` positive) a Gmsh file of quadrangles gives the points at the `n + 1` heights
of `linspace`, and `n` layers of hexahedra; `--scale` multiplies the coordinates. -/
theorem C71_gmsh_extruded (hu : Uses fmt filename "GMSH" ".msh") {b : Bytes}
    (hb : s.content (s.resolve (PyPath.parse filename).str) = some b) {m : Mesh (Option R)}
    (hread : Gmsh.readFile env.num (env.text b) = .ok m) {pts : List (R × R × R)} {names : Option (List PhysName)}
    {elts : List Elt} (hm : IsMeshOf (pts.map some) names elts m) (hsup : ∀ e ∈ elts, e.Supported)
    (hq : ∀ e ∈ cellsOf elts, e.name = "quad4") (hne : cellsOf elts ≠ []) (hn : NodesExist pts.length (gmshCells elts))
    (n : Nat) (hpos : 0 < n) (hlin : (env.linspace (n + 1)).length = n + 1) (sc : Option (R × R × R)) :
    Written env.enc (fun fuel => cfdwriteVtk env fmt ⟨n, sc⟩ s fuel filename outpath) s
      (scaled sc (lifted (env.linspace (n + 1)) pts)) (layers pts.length n (gmshCells elts)) := by
  obtain ⟨m', c, h1, h2, h3, hbo⟩ := gmsh_shows hm
  have hkey : ∀ t ∈ c.tbl.keys, t = "quad4" := by
    intro t ht
    rw [h3.types, mem_firstUse] at ht
    obtain ⟨e, he, rfl⟩ := List.mem_map.1 ht
    exact hq e he
  have h4 : ∀ q ∈ gmshCells elts, q.2.length = 4 := by
    intro q hq'
    obtain ⟨e, he, rfl⟩ := List.mem_map.1 hq'
    obtain ⟨t, d, ht⟩ := hsup e (List.mem_of_mem_filter he)
    have hn : t = "quad4" := by
      rw [← hq e he]
      unfold Elt.name
      rw [ht]
      rfl
    have h0 : ∀ p ∈ documented, p.2.1 = "quad4" → p.2.2.2 = 4 := by decide
    have := h0 _ (Dict.mem_of_get? ht) hn
    simpa using this
  obtain ⟨m1, c1, hx, hs1, hk1⟩ := extruded_shows env.so h2 hkey (by simpa [gmshCells] using hne) h4 (by
    rw [hbo]
    intro p hp
    obtain ⟨l, hl⟩ := (Convert.read_shape hread).2 p hp
    rw [hl]; simp) (by rw [hbo]; exact hm.marks.distinct) (env.linspace (n + 1)) (by omega) "fluid"
  rw [hlin, Nat.add_sub_cancel] at hs1
  rw [vtk_gmsh env fmt s filename outpath ⟨n, sc⟩ hu]
  exact extruded_run env s hfin filename hf outpath (gmshIn env) (i := .lists m) (by
    unfold gmshIn
    simp only [hb, hread, Except_bind_ok, Except_pure]) h1 hn h4 n hpos hlin sc hx hs1 hk1

end

/-! ## Refusals -/

/-- The grid is made: all types are known. -/
theorem setMesh_types {m : Mesh R} {c : ElemConn} {g : Vtk.Grid (R × R × R)} (h : Vtk.setMesh m = .ok g)
    (hc : m.cell2node = some c) : ∀ t ∈ c.tbl.keys, ∃ y ∈ vtkTypes, y.1 = t := by
  unfold Vtk.setMesh at h
  rw [hc, bind_eq_ok] at h
  obtain ⟨_, _, h⟩ := h
  simp only at h
  rw [bind_eq_ok] at h
  obtain ⟨d, hd, _⟩ := h
  revert hd
  generalize ([] : Dict Int Arr2) = d0
  have h0 : ∀ p ∈ Vtk.vtktypeEle, ∃ y ∈ vtkTypes, y.1 = p.1 := by decide
  unfold Dict.keys
  generalize c.tbl = tbl
  intro hd
  induction tbl generalizing d0 with
  | nil => intro t ht; cases ht
  | cons p l ih =>
    rw [List.foldlM_cons, bind_eq_ok] at hd
    obtain ⟨d1, h1, h2⟩ := hd
    intro t ht
    rw [List.map_cons, List.mem_cons] at ht
    rcases ht with rfl | ht
    · rw [bind_eq_ok] at h1
      obtain ⟨k, hk, _⟩ := h1
      rw [Dict.getE_eq_ok] at hk
      exact h0 _ (Dict.mem_of_get? hk)
    · exact ih _ h2 t ht

/-- The grid is made: all nodes exist. -/
theorem setMesh_nodes {m : Mesh R} {c : ElemConn} {pts : List (R × R × R)} {cells : List Cell} (h : Shows m c pts cells)
    {g : Vtk.Grid (R × R × R)} (hg : Vtk.setMesh m = .ok g) : NodesExist pts.length cells := by
  have hk := setMesh_types hg h.conn
  unfold Vtk.setMesh Vtk.nodesNd at hg
  rw [h.coords, h.conn] at hg
  simp only at hg
  rw [if_pos (by simp)] at hg
  simp only [Except_bind_ok] at hg
  have hkn : (c.tbl.map fun p => Vtk.codeOf p.1).Nodup := by
    have := Vtk.codeOf_nodup hk h.wf.keys
    simpa [Dict.keys, Function.comp_def] using this
  rw [Vtk.foldlM_set_new (fun p : String × Entry => Vtk.vtktypeEle.getE p.1) (fun p => Vtk.codeOf p.1) (fun p => p.2.e2n) c.tbl
    (by
      intro p hp
      obtain ⟨w, hw, e⟩ := hk p.1 (List.mem_map.2 ⟨p, hp, rfl⟩)
      rw [← e]; exact Vtk.codeOf_getE hw)
    [] (by simpa [Dict.keys] using hkn)] at hg
  simp only [Except_bind_ok, List.nil_append, zip3] at hg
  unfold Vtk.Grid.ofDict at hg
  rw [bind_eq_ok] at hg
  obtain ⟨parts, hp, _⟩ := hg
  rw [mapM_ok_iff] at hp
  have hall : ∀ p ∈ c.tbl, ∀ r ∈ p.2.e2n.rows, ∀ q ∈ r, 0 ≤ q ∧ q < pts.length := by
    intro p hpm r hr q hq
    obtain ⟨part, _, h1⟩ := CgnsConvert.forall₂_mem_left hp (List.mem_map.2 ⟨p, hpm, rfl⟩)
    have fin : ∀ n, (if (p.2.e2n.rows.all fun r => decide (r.length = n ∧
          (r.all fun q => decide (0 ≤ q ∧ q < (pts.length : Int))) = true)) = true then
          pure (List.map (fun r => (Vtk.codeOf p.1, r)) p.2.e2n.rows) else Except.error PyErr.value) = Except.ok part →
        0 ≤ q ∧ q < (pts.length : Int) := by
      intro n h1
      split at h1
      · rename_i ha
        rw [List.all_eq_true] at ha
        have := ha r hr
        rw [decide_eq_true_eq, List.all_eq_true] at this
        have := this.2 q hq
        simpa using this
      · cases h1
    simp only at h1
    split at h1
    · exact fin _ h1
    · cases h1
  intro q hq v hv
  obtain ⟨i, hi⟩ := (h.mem q.1 q.2).1 hq
  unfold elements at hi
  obtain ⟨p, hpm, hx⟩ := List.mem_flatMap.1 hi
  obtain ⟨y, hy, e⟩ := List.mem_map.1 hx
  have hy2 := (List.of_mem_zip hy).2
  have : y = (i, q.2) := congrArg Prod.snd e
  rw [this] at hy2
  exact hall p hpm _ hy2 v hv

/-- The scaled mesh has the same cells. -/
theorem scaleStep_arrays [Mul R] {sc : Option (R × R × R)} {m1 : Mesh R} {j : PyMesh R} (h1 : scaleStep sc (.arrays m1) = .ok j) :
    ∃ m2 : Mesh R, j = .arrays m2 ∧ m2.cell2node = m1.cell2node ∧
      ∀ c P L, Shows m1 c P L → ∃ P', P'.length = P.length ∧ Shows m2 c P' L := by
  cases sc with
  | none =>
    simp only [scaleStep, Except.ok.injEq] at h1
    exact ⟨m1, h1.symm, rfl, fun c P L h => ⟨P, rfl, h⟩⟩
  | some q =>
    simp only [scaleStep, bind_eq_ok] at h1
    obtain ⟨m2, hm2, h1⟩ := h1
    simp only [Except_pure, Except.ok.injEq] at h1
    refine ⟨m2, h1.symm, ?_, ?_⟩
    · unfold Mesh.scale at hm2
      split at hm2
      · cases hm2
      · unfold Mesh.setCoords at hm2
        simp only [bind_eq_ok] at hm2
        obtain ⟨_, _, _, _, _, _, hm2⟩ := hm2
        simp only [Except_pure, Except.ok.injEq] at hm2
        rw [← hm2]
    · intro c P L h
      obtain ⟨m3, e, hs⟩ := scaled_shows h q
      rw [hm2] at e
      cases e
      exact ⟨_, by simp [scaled], hs⟩

section
variable [Add R] [Mul R] [Zero R] [One R] {so : List Int → List Int} {m m1 m2 : Mesh R} {c : ElemConn} {pts : List (R × R × R)}
  {cells : List Cell} {planes : List R} {domain : String} {sc : Option (R × R × R)} {j : PyMesh R}
  {g : Vtk.Grid (R × R × R)}

/-- Types of an extruded mesh that is written. -/
theorem extruded_types (h : Shows m c pts cells) (hx : m.exportExtruded so (0, 0, 1) planes domain = .ok m1)
    (h1 : scaleStep sc (.arrays m1) = .ok j) (h2 : j.numbers = .ok m2) (h3 : Vtk.setMesh m2 = .ok g) :
    1 < planes.length ∧ ∀ t ∈ c.tbl.keys, ∃ y ∈ vtkTypes, extrudedFace.get? t = some y.1 := by
  obtain ⟨hp, c', c1, q1, q2, q3⟩ := extruded_parts hx
  rw [h.conn] at q1
  cases q1
  obtain ⟨m2', rfl, hc2, _⟩ := scaleStep_arrays h1
  simp only [PyMesh.numbers, Except.ok.injEq] at h2
  subst h2
  have hty := setMesh_types h3 (by rw [hc2, q3])
  refine ⟨hp, fun t ht => ?_⟩
  obtain ⟨t', ht', hmem⟩ := extrude_types q2 _ ht
  obtain ⟨y, hy, hye⟩ := hty _ hmem
  exact ⟨y, hy, by rw [hye]; exact ht'⟩

/-- Nodes of an extruded mesh that is written. -/
theorem extruded_nodes (h : Shows m c pts cells) (hx : m.exportExtruded so (0, 0, 1) planes domain = .ok m1)
    (h1 : scaleStep sc (.arrays m1) = .ok j) (h2 : j.numbers = .ok m2) (h3 : Vtk.setMesh m2 = .ok g)
    (hkey : ∀ t ∈ c.tbl.keys, t = "quad4") (h4 : ∀ q ∈ cells, q.2.length = 4)
    (hmk : ∀ p ∈ m.bocos, p.1 = p.2.name ∧ p.2.index ≠ .unset ∧ p.2.geodim ∈ [GeoDim.node, GeoDim.intnode, GeoDim.bdnode])
    (hnd : m.bocos.keys.Nodup) : NodesExist pts.length cells := by
  by_cases hne : cells = []
  · rw [hne]
    intro c hc
    cases hc
  obtain ⟨m2', rfl, hc2, hsh⟩ := scaleStep_arrays h1
  simp only [PyMesh.numbers, Except.ok.injEq] at h2
  subst h2
  have hp := (extruded_parts hx).1
  obtain ⟨m1', c1', hx', hs1, hk1⟩ := extruded_shows so h hkey hne h4 hmk hnd planes hp domain
  rw [hx] at hx'
  cases hx'
  obtain ⟨P', hP', hs2⟩ := hsh _ _ _ hs1
  have hnodes := setMesh_nodes hs2 h3
  have hlen : (lifted planes pts).length = planes.length * pts.length := by
    unfold lifted
    rw [length_flatMap_const _ _ pts.length (by simp)]
  rw [hP', hlen] at hnodes
  obtain ⟨L, hL⟩ : ∃ L : Nat, planes.length = L + 2 := ⟨planes.length - 2, by omega⟩
  rw [hL] at hnodes
  intro c hc v hv
  have hmem : ∀ k, k < L + 1 → ("hexa8", sweptNodes pts.length k c.2) ∈ layers pts.length (L + 2 - 1) cells := by
    intro k hk
    unfold layers
    rw [List.mem_flatMap]
    exact ⟨k, by rw [List.mem_range]; omega, List.mem_map.2 ⟨c, hc, rfl⟩⟩
  have b1 := hnodes _ (hmem 0 (by omega)) v (by
    unfold sweptNodes
    rw [List.mem_append]
    exact .inl (List.mem_map.2 ⟨v, hv, by simp⟩))
  have b2 := hnodes _ (hmem L (by omega)) (v + ((L : Int) + 1) * pts.length) (by
    unfold sweptNodes
    rw [List.mem_append]
    exact .inr (List.mem_map.2 ⟨v, hv, rfl⟩))
  have b3 : (((L + 2) * pts.length : Nat) : Int) = ((L : Int) + 1) * pts.length + pts.length := by
    push_cast
    rw [show (L : Int) + 2 = (L : Int) + 1 + 1 by omega, Int.add_mul ((L : Int) + 1), Int.one_mul]
  have b4 := b2.2
  rw [b3] at b4
  omega

end

theorem floats_ok {α : Type} (f : α → R) (pts : List (Option α)) {l : List R} (h : floats (pts.map (Option.map f)) = .ok l) :
    ∃ P : List α, pts = P.map some := by
  unfold floats at h
  rw [mapM_ok_iff] at h
  induction pts generalizing l with
  | nil => exact ⟨[], rfl⟩
  | cons a t ih =>
    cases h with
    | cons h1 h2 =>
      obtain ⟨P, hP⟩ := ih h2
      cases a with
      | none => simp at h1
      | some a => exact ⟨a :: P, by rw [hP]; rfl⟩

theorem numbers_ok {names : Option (List PhysName)} {elts : List Elt} {m : Mesh (Option R)}
    {pts : List (Option (R × R × R))} (hm : IsMeshOf pts names elts m) {m' : Mesh R} (h : (PyMesh.lists m).numbers = .ok m') :
    ∃ P : List (R × R × R), pts = P.map some := by
  unfold PyMesh.numbers at h
  simp only [hm.coords, bind_eq_ok] at h
  obtain ⟨x, hx, _⟩ := h
  exact floats_ok _ _ hx

section
variable [DecidableEq Loc] [Add R] [Mul R] [Zero R] [One R] (env : VtkEnv R) (fmt : Option String) (s : Fs Loc)
  (filename : Name) (outpath : Option Name)

/-- **C71, Gmsh, otherwise.** In all other cases than those of `C71_gmsh` and `C71_gmsh_extruded` the command is refused and
nothing changes: a missing point, a cell on an unknown node, a negative number of layers, layers over triangles or volumes,
a scale without layers. -/
theorem C71_gmsh_refused (hu : Uses fmt filename "GMSH" ".msh") {b : Bytes}
    (hb : s.content (s.resolve (PyPath.parse filename).str) = some b) {m : Mesh (Option R)}
    (hread : Gmsh.readFile env.num (env.text b) = .ok m) {pts : List (Option (R × R × R))} {names : Option (List PhysName)}
    {elts : List Elt} (hm : IsMeshOf pts names elts m) (hsup : ∀ e ∈ elts, e.Supported) (htop : 2 ≤ topDim elts)
    (o : Options R) (hlin : ∀ k, (env.linspace k).length = k)
    (hno : ¬ ∃ P : List (R × R × R), pts = P.map some ∧ NodesExist P.length (gmshCells elts) ∧
      (o = ⟨0, none⟩ ∨ 0 < o.extrude ∧ ∀ e ∈ cellsOf elts, e.name = "quad4")) :
    Refused (fun fuel => cfdwriteVtk env fmt o s fuel filename outpath) s := by
  rw [vtk_gmsh env fmt s filename outpath o hu]
  apply refused_of
  intro i j m' g h0 h1 h2 h3
  unfold gmshIn at h0
  simp only [hb, hread, Except_bind_ok, Except_pure, Except.ok.injEq] at h0
  subst h0
  obtain ⟨n, sc⟩ := o
  unfold transform at h1
  rw [bind_eq_ok] at h1
  obtain ⟨i1, hx, h1⟩ := h1
  unfold extrudeStep at hx
  simp only at hx h1
  split at hx
  · rename_i hn0
    simp only [Except.ok.injEq] at hx
    subst hx
    cases sc with
    | some q =>
      unfold scaleStep Mesh.scaleLists at h1
      simp only [hm.coords, Mesh.listTimes, bind_eq_ok] at h1
      obtain ⟨_, ⟨_, h, _⟩, _⟩ := h1
      cases h
    | none =>
      simp only [scaleStep, Except.ok.injEq] at h1
      subst h1
      obtain ⟨P, rfl⟩ := numbers_ok hm h2
      obtain ⟨m1, c, e1, e2, _⟩ := gmsh_shows hm
      rw [h2] at e1
      cases e1
      exact hno ⟨P, rfl, setMesh_nodes e2 h3, .inl (by rw [hn0])⟩
  · rename_i hn0
    split at hx
    · cases hx
    rename_i hn1
    rw [bind_eq_ok] at hx
    obtain ⟨m0, hm0, hx⟩ := hx
    rw [bind_eq_ok] at hx
    obtain ⟨m1, hm1, hx⟩ := hx
    simp only [Except_pure, Except.ok.injEq] at hx
    subst hx
    obtain ⟨P, rfl⟩ := numbers_ok hm hm0
    obtain ⟨m0', c, e1, e2, e3, ebo⟩ := gmsh_shows hm
    rw [hm0] at e1
    cases e1
    obtain ⟨hp, hty⟩ := extruded_types e2 hm1 h1 h2 h3
    rw [hlin] at hp
    have hn : 0 < n := by omega
    have hq : ∀ e ∈ cellsOf elts, e.name = "quad4" := by
      intro e he
      have hk : e.name ∈ c.tbl.keys := by
        rw [e3.types, mem_firstUse]
        exact List.mem_map_of_mem he
      obtain ⟨y, hy, ht'⟩ := hty _ hk
      obtain ⟨y', hy', hye', _⟩ := gmsh_kinds hsup htop _ (List.mem_map.2 ⟨e, he, rfl⟩)
      simp only at hye'
      have h00 : ∀ y' ∈ vtkTypes, y'.1 ≠ "bar2" → y'.1 ≠ "quad4" → ∀ y ∈ vtkTypes, extrudedFace.get? y'.1 ≠ some y.1 := by decide
      by_contra hne
      have hb : e.name ≠ "bar2" := by
        intro hb
        have hd : e.dim = topDim elts := by simpa using (List.mem_filter.1 he).2
        obtain ⟨t, d, ht⟩ := hsup e (List.mem_of_mem_filter he)
        have hnd : e.name = t ∧ e.dim = d := by
          unfold Elt.name Elt.dim
          rw [ht]
          exact ⟨rfl, rfl⟩
        have h01 : ∀ p ∈ documented, p.2.1 = "bar2" → p.2.2.1 = 1 := by decide
        have := h01 _ (Dict.mem_of_get? ht) (by rw [← hb, hnd.1])
        simp only at this
        omega
      exact h00 y' hy' (by rw [← hye']; exact hb) (by rw [← hye']; exact hne) y hy (by rw [← hye']; exact ht')
    have hkey : ∀ t ∈ c.tbl.keys, t = "quad4" := by
      intro t ht
      rw [e3.types, mem_firstUse] at ht
      obtain ⟨e, he, rfl⟩ := List.mem_map.1 ht
      exact hq e he
    have h4 : ∀ q ∈ gmshCells elts, q.2.length = 4 := by
      intro q hq'
      obtain ⟨y, hy, ey, el⟩ := gmsh_kinds hsup htop q hq'
      have h0 : ∀ y ∈ vtkTypes, y.1 = "quad4" → y.2.2 = 4 := by decide
      rw [el]
      apply h0 y hy
      rw [← ey]
      obtain ⟨e, he, rfl⟩ := List.mem_map.1 hq'
      exact hq e he
    exact hno ⟨P, rfl, extruded_nodes e2 hm1 h1 h2 h3 hkey h4 (by
      rw [ebo]
      intro p hp
      obtain ⟨l, hl⟩ := (Convert.read_shape hread).2 p hp
      rw [hl]; simp) (by rw [ebo]; exact hm.marks.distinct), .inr ⟨hn, hq⟩⟩

end

/-! ## CGNS -/

section
open Cfd.Cgns Cfd.Spec.Cgns
variable {z : Zone R} {dim : Int}

theorem pick_kind (p : Kind → Bool) (f : Kind → List (List Int)) (l : List Kind) (hl : (l.map (·.name)).Nodup) {k : Kind}
    (hk : k ∈ l) : ((l.filter p).flatMap fun k' => if k'.name = k.name then f k' else []) = if p k then f k else [] := by
  have hnone : ∀ l : List Kind, k.name ∉ l.map (·.name) →
      ((l.filter p).flatMap fun k' => if k'.name = k.name then f k' else []) = [] := by
    intro l hn
    rw [List.flatMap_eq_nil_iff]
    intro a ha
    rw [if_neg]
    intro e
    exact hn (List.mem_map.2 ⟨a, List.mem_of_mem_filter ha, e⟩)
  induction l with
  | nil => cases hk
  | cons a l ih =>
    rw [List.map_cons, List.nodup_cons] at hl
    by_cases hp : p a
    · rw [List.filter_cons_of_pos hp, List.flatMap_cons]
      rcases List.mem_cons.1 hk with rfl | hk
      · rw [hnone l hl.1, if_pos rfl, if_pos hp, List.append_nil]
      · rw [if_neg, ih hl.2 hk, List.nil_append]
        intro e
        exact hl.1 (List.mem_map.2 ⟨k, hk, e.symm⟩)
    · rw [List.filter_cons_of_neg hp]
      rcases List.mem_cons.1 hk with rfl | hk
      · rw [hnone l hl.1, if_neg hp]
      · exact ih hl.2 hk

theorem names_filter (t : String) :
    ((cgnsCells z dim).filter fun q => q.1 = t).map (·.2) =
      (Spec.Cgns.kinds.filter fun k => (k.dim : Int) = dim).flatMap fun k => if k.name = t then (elemsOfKind z k).map (·.2) else [] := by
  unfold cgnsCells
  rw [List.filter_flatMap, List.map_flatMap]
  congr 1
  funext k
  by_cases h : k.name = t
  · rw [if_pos h, List.filter_eq_self.2 (by
      intro q hq
      obtain ⟨e, _, rfl⟩ := List.mem_map.1 hq
      simp [h]), List.map_map]
    rfl
  · rw [if_neg h, List.filter_eq_nil_iff.2 (by
      intro q hq
      obtain ⟨e, _, rfl⟩ := List.mem_map.1 hq
      simp [h])]
    rfl

theorem kind_length (hz : SectionsOk z) {k : Kind} (hk : k ∈ Spec.Cgns.kinds) : ∀ e ∈ elemsOfKind z k, e.2.length = k.nodes := by
  intro p hp
  rw [elemsOfKind, List.mem_flatMap] at hp
  obtain ⟨s, hs, hp⟩ := hp
  rw [List.mem_filter, decide_eq_true_eq] at hs
  obtain ⟨k', hk', ho⟩ := hz s hs.1
  have hkk : k' = k := by
    have h0 : ∀ k' ∈ Spec.Cgns.kinds, ∀ k ∈ Spec.Cgns.kinds, k'.code = k.code → k' = k := by decide
    exact h0 k' hk' k hk (by rw [← ho.code, hs.2])
  subst hkk
  unfold sectionElems at hp
  rw [List.mem_map] at hp
  obtain ⟨j, hj, rfl⟩ := hp
  rw [List.mem_range] at hj
  have h1 := ho.size
  simp only [List.length_map, List.length_take, List.length_drop]
  have h2 : ((j : Int) + 1) * k'.nodes ≤ (s.2.last - s.2.first + 1) * k'.nodes :=
    Int.mul_le_mul_of_nonneg_right (by omega) (by omega)
  rw [Int.add_mul, Int.one_mul, ← h1] at h2
  have h3 : ((j * k'.nodes : Nat) : Int) = (j : Int) * k'.nodes := by simp
  omega

/-- Types of the cells come from the sections. -/
theorem elemcon_keys {c : ElemConn} (h : elemcon z dim = .ok c) :
    ∀ t ∈ c.tbl.keys, ∃ p ∈ z.sections, eleCgns2local.get? p.2.cgtype = some t := by
  unfold elemcon at h
  have key : ∀ (l : List (String × Section)) (a b : ElemConn), l.foldlM (addSection dim) a = .ok b →
      ∀ t ∈ b.tbl.keys, t ∈ a.tbl.keys ∨ ∃ p ∈ l, eleCgns2local.get? p.2.cgtype = some t := by
    intro l
    induction l with
    | nil =>
      intro a b hab t ht
      simp only [List.foldlM_nil, Except_pure, Except.ok.injEq] at hab
      rw [hab]; exact .inl ht
    | cons p l ih =>
      intro a b hab t ht
      rw [List.foldlM_cons, bind_eq_ok] at hab
      obtain ⟨a1, h1, h2⟩ := hab
      rcases ih _ _ h2 t ht with h | ⟨q, hq, h⟩
      · unfold addSection at h1
        simp only [bind_eq_ok] at h1
        obtain ⟨et, het, _, _, _, _, h1⟩ := h1
        rw [Dict.getE_eq_ok] at het
        split at h1
        · rw [bind_eq_ok] at h1
          obtain ⟨_, _, h1⟩ := h1
          rcases (addElems_keys h1 t).1 h with h | rfl
          · exact .inl h
          · exact .inr ⟨p, List.mem_cons_self .., het⟩
        · simp only [Except_pure, Except.ok.injEq] at h1
          rw [← h1] at h
          exact .inl h
      · exact .inr ⟨q, List.mem_cons_of_mem _ hq, h⟩
  intro t ht
  rcases key _ _ _ h t ht with h | h
  · simp [ElemConn.empty, Dict.keys] at h
  · exact h

/-- Points of a zone. -/
theorem zip3_map (x y w : List R) (h1 : x.length = y.length) (h2 : y.length = w.length) :
    (x.zip (y.zip w)).map (·.1) = x ∧ (x.zip (y.zip w)).map (·.2.1) = y ∧ (x.zip (y.zip w)).map (·.2.2) = w := by
  induction x generalizing y w with
  | nil =>
    cases y with
    | nil => cases w with
      | nil => exact ⟨rfl, rfl, rfl⟩
      | cons _ _ => simp at h2
    | cons _ _ => simp at h1
  | cons a x ih =>
    cases y with
    | nil => simp at h1
    | cons b y => cases w with
      | nil => simp at h2
      | cons d w =>
        obtain ⟨e1, e2, e3⟩ := ih y w (by simpa using h1) (by simpa using h2)
        simp [e1, e2, e3]

/-- The mesh of a zone. -/
theorem cgns_shows (so : List Int → List Int) (hso : ∀ l, (so l).Perm l) (hz : ZoneOk z dim) :
    ∃ m c, Cgns.exportMesh so dim z = .ok m ∧ elemcon z dim = .ok c ∧ Shows m c (z.x.zip (z.y.zip z.z)) (cgnsCells z dim) ∧
      (∀ t ∈ c.tbl.keys, ∃ k ∈ Spec.Cgns.kinds, (k.dim : Int) = dim ∧ k.name = t) := by
  obtain ⟨m, c, h1, h2, h3, h4, h5, h6, _⟩ := C56_mesh so hso dim z hz
  obtain ⟨c', e, w, hk, el, hp⟩ := elemcon_ok z dim hz.sections
  rw [h2] at e
  cases e
  obtain ⟨z1, z2, z3⟩ := zip3_map z.x z.y z.z (by rw [hz.lx, hz.ly]) (by rw [hz.ly, hz.lz])
  refine ⟨m, c, h1, h2, ⟨?_, ?_, h3, w, ?_, ?_⟩, hk⟩
  · rw [z1, z2, z3, h6]
  · rw [h5, ← hz.lx, ← z1, List.length_map]
    rw [z1]
  · intro t
    rw [names_filter]
    by_cases hkt : ∃ k ∈ Spec.Cgns.kinds, k.name = t
    · obtain ⟨k, hkm, rfl⟩ := hkt
      rw [pick_kind _ (fun k => (elemsOfKind z k).map (·.2)) _ (by decide) hkm]
      unfold rowsOfType
      rw [el k hkm]
      by_cases hd : (k.dim : Int) = dim
      · simp [hd]
      · simp [hd]
    · rw [List.flatMap_eq_nil_iff.2 (by
        intro k hk
        rw [if_neg]
        intro e
        exact hkt ⟨k, List.mem_of_mem_filter hk, e⟩)]
      unfold rowsOfType elementsOf
      rw [Dict.get?_eq_none_iff.2]
      · rfl
      · intro ht
        obtain ⟨k, hkm, _, e⟩ := hk t ht
        exact hkt ⟨k, hkm, e⟩
  · have := hp.length_eq
    rw [List.length_map] at this
    rw [this]
    unfold elemsOfDim cgnsCells
    rw [List.length_flatMap, List.length_flatMap]
    simp

theorem cgns_kinds (hz : ZoneOk z dim) (hd : 1 ≤ dim) :
    ∀ q ∈ cgnsCells z dim, ∃ y ∈ vtkTypes, q.1 = y.1 ∧ q.2.length = y.2.2 := by
  intro q hq
  obtain ⟨k, hk, hq⟩ := List.mem_flatMap.1 hq
  obtain ⟨e, he, rfl⟩ := List.mem_map.1 hq
  rw [List.mem_filter, decide_eq_true_eq] at hk
  have h0 : ∀ k ∈ Spec.Cgns.kinds, 1 ≤ k.dim → ∃ y ∈ vtkTypes, k.name = y.1 ∧ k.nodes = y.2.2 := by decide
  obtain ⟨y, hy, e1, e2⟩ := h0 k hk.1 (by omega)
  exact ⟨y, hy, e1, by rw [← e2]; exact kind_length hz.sections hk.1 e he⟩

/-- Marks of the mesh of a zone. -/
theorem cgns_marks (so : List Int → List Int) (hso : ∀ l, (so l).Perm l) (hz : ZoneOk z dim)
    (hmk : ∀ p ∈ z.bcs, Whole z p.2 ∨ ¬ OnCells z p.2) {m : Mesh R} (hm : Cgns.exportMesh so dim z = .ok m) :
    (∀ p ∈ m.bocos, p.1 = p.2.name ∧ p.2.index ≠ .unset ∧ p.2.geodim ∈ [GeoDim.node, GeoDim.intnode, GeoDim.bdnode]) ∧
      m.bocos.keys.Nodup := by
  have hnd := (CgnsConvert.exportMesh_shape hm).2
  refine ⟨?_, hnd⟩
  obtain ⟨m', c, h1, _, _, _, _, _, h⟩ := C56_mesh so hso dim z hz
  rw [hm] at h1
  cases h1
  intro p hp
  have hg := Dict.get?_of_mem hnd hp
  have := h p.1
  cases hl : lastNamed z p.1 with
  | none => rw [hl] at this; simp only at this; rw [hg] at this; cases this
  | some q =>
    rw [hl] at this
    obtain ⟨g, ind, hb, hi⟩ := this
    rw [hg, Option.some.injEq] at hb
    rw [hb]
    have hpm := List.mem_of_getLast? hl
    rw [List.mem_filter, decide_eq_true_eq] at hpm
    have hno := (hmk q hpm.1).resolve_left hpm.2.1
    refine ⟨rfl, by simp, ?_⟩
    rcases hi with ⟨_, rfl, _⟩ | ⟨ho, _⟩ | ⟨_, rfl, _⟩
    · simp
    · exact absurd ho hno
    · simp

/-- Without triangles, the cells of a plane zone are quadrangles. -/
theorem quads_only {c : ElemConn} (hel : elemcon z 2 = .ok c)
    (h3 : ∀ t ∈ c.tbl.keys, ∃ k ∈ Spec.Cgns.kinds, (k.dim : Int) = 2 ∧ k.name = t) (htri : ∀ p ∈ z.sections, p.2.cgtype ≠ 5) :
    ∀ t ∈ c.tbl.keys, t = "quad4" := by
  intro t ht
  obtain ⟨p, hp, e⟩ := elemcon_keys hel t ht
  obtain ⟨k, hk, hd, rfl⟩ := h3 t ht
  have h0 : ∀ k ∈ Spec.Cgns.kinds, (k.dim : Int) = 2 → k.name = "quad4" ∨ k.name = "tri3" := by decide
  rcases h0 k hk hd with h | h
  · exact h
  · exfalso
    have h1 : ∀ q ∈ eleCgns2local, q.2 = "tri3" → q.1 = 5 := by decide
    exact htri p hp (h1 _ (Dict.mem_of_get? e) h)

theorem quads_length (hz : ZoneOk z dim) {m : Mesh R} {c : ElemConn} {pts : List (R × R × R)}
    (h : Shows m c pts (cgnsCells z dim)) (hkey : ∀ t ∈ c.tbl.keys, t = "quad4") : ∀ q ∈ cgnsCells z dim, q.2.length = 4 := by
  intro q hq
  have hq4 := hkey _ (names_of h hq)
  obtain ⟨k, hk, hq⟩ := List.mem_flatMap.1 hq
  obtain ⟨e, he, rfl⟩ := List.mem_map.1 hq
  have h0 : ∀ k ∈ Spec.Cgns.kinds, k.name = "quad4" → k.nodes = 4 := by decide
  rw [← h0 k (List.mem_of_mem_filter hk) hq4]
  exact kind_length hz.sections (List.mem_of_mem_filter hk) e he

variable [DecidableEq Loc] [Add R] [Mul R] [Zero R] [One R] (env : VtkEnv R) (fmt : Option String) (s : Fs Loc)
  (filename : Name) (outpath : Option Name)

theorem vtk_cgns (o : Options R) (hu : Uses fmt filename "CGNS" ".cgns") :
    (fun fuel => cfdwriteVtk env fmt o s fuel filename outpath) = fun fuel => toVtk (cgnsIn env) env o s fuel filename outpath := by
  funext fuel
  unfold cfdwriteVtk
  rw [(C70_select fmt filename).2.2.1 hu]

theorem cgns_in {b : Bytes} (hb : s.content (s.resolve (PyPath.parse filename).str) = some b) {root : Cgns.Tree R}
    (htree : env.tree b = .ok root) (hun : Spec.Cgns.TellsFile root dim z) (hnc : z.ncell ≠ 0) :
    cgnsIn env s (PyPath.parse filename).str = (Cgns.exportMesh env.so dim z >>= fun m => .ok (.arrays m)) := by
  unfold cgnsIn
  simp only [hb, htree, Except_bind_ok]
  obtain ⟨zt, hrd, hzc, hze⟩ := Cgns.tellsFile_read env.so hun
  simp only [hrd, hzc, hze, Except_bind_ok]
  rw [if_neg hnc]
  rfl

section
variable (hfin : ∀ folder : PyPath, FiniteFolder s.has folder) (hf : (PyPath.parse filename).name ≠ [])
include hfin hf

/-- **C71, CGNS.** A CGNS file whose zone to read is unstructured, of supported sections, in dimension `dim`, is written by
`cfdwrite_vtk` to a new file: the grid has the points (scaled, with `--scale`) and the elements of dimension `dim` of the
zone; no other file changes. -/
theorem C71_cgns (hso : ∀ l, (env.so l).Perm l) (hu : Uses fmt filename "CGNS" ".cgns") {b : Bytes}
    (hb : s.content (s.resolve (PyPath.parse filename).str) = some b) {root : Cgns.Tree R}
    (htree : env.tree b = .ok root) (hun : Spec.Cgns.TellsFile root dim z) (hnc : z.ncell ≠ 0)
    (hz : ZoneOk z dim) (hdim : 1 ≤ dim) (hn : NodesExist z.nnode (cgnsCells z dim)) (sc : Option (R × R × R)) :
    Written env.enc (fun fuel => cfdwriteVtk env fmt ⟨0, sc⟩ s fuel filename outpath) s
      (scaled sc (z.x.zip (z.y.zip z.z))) (cgnsCells z dim) := by
  obtain ⟨m, c, h1, _, h2, h3⟩ := cgns_shows env.so hso hz
  have hlen : (z.x.zip (z.y.zip z.z)).length = z.nnode := by simp [hz.lx, hz.ly, hz.lz]
  have hk := cgns_kinds hz hdim
  have hkt : ∀ t ∈ c.tbl.keys, ∃ y ∈ vtkTypes, y.1 = t := by
    intro t ht
    obtain ⟨k, hk, hd, rfl⟩ := h3 t ht
    have h0 : ∀ k ∈ Spec.Cgns.kinds, 1 ≤ k.dim → ∃ y ∈ vtkTypes, y.1 = k.name := by decide
    exact h0 k hk (by omega)
  rw [vtk_cgns env fmt s filename outpath ⟨0, sc⟩ hu]
  have h0 : cgnsIn env s (PyPath.parse filename).str = .ok (.arrays m) := by
    rw [cgns_in env s filename hb htree hun hnc, h1, Except_bind_ok]
  cases sc with
  | none =>
    obtain ⟨g, hg1, hg2⟩ := grid_of h2 hkt hk (by rw [hlen]; exact hn)
    exact run_ok (cgnsIn env) hfin hf (i := .arrays m) (j := .arrays m) h0 rfl rfl hg1 hg2
  | some q =>
    obtain ⟨m2, e2, hs2⟩ := scaled_shows h2 q
    obtain ⟨g, hg1, hg2⟩ := grid_of hs2 hkt hk (by
      have : (scaled (some q) (z.x.zip (z.y.zip z.z))).length = z.nnode := by rw [← hlen]; simp [scaled]
      rw [this]; exact hn)
    refine run_ok (cgnsIn env) hfin hf (i := .arrays m) (j := .arrays m2) h0 ?_ rfl hg1 hg2
    unfold transform extrudeStep scaleStep
    simp only [if_true, Except_bind_ok, e2, Except_pure]

/-- **C71, CGNS extruded.** With `--extrude n` (`n` positive) a plane CGNS zone of quadrangles gives the points at the `n + 1`
heights of `linspace`, and `n` layers of hexahedra. -/
theorem C71_cgns_extruded (hso : ∀ l, (env.so l).Perm l) (hu : Uses fmt filename "CGNS" ".cgns") {b : Bytes}
    (hb : s.content (s.resolve (PyPath.parse filename).str) = some b) {root : Cgns.Tree R}
    (htree : env.tree b = .ok root) (hun : Spec.Cgns.TellsFile root 2 z) (hnc : z.ncell ≠ 0)
    (hz : ZoneOk z 2) (htri : ∀ p ∈ z.sections, p.2.cgtype ≠ 5) (hne : cgnsCells z 2 ≠ [])
    (hmk : ∀ p ∈ z.bcs, Whole z p.2 ∨ ¬ OnCells z p.2) (hn : NodesExist z.nnode (cgnsCells z 2))
    (n : Nat) (hpos : 0 < n) (hlin : (env.linspace (n + 1)).length = n + 1) (sc : Option (R × R × R)) :
    Written env.enc (fun fuel => cfdwriteVtk env fmt ⟨n, sc⟩ s fuel filename outpath) s
      (scaled sc (lifted (env.linspace (n + 1)) (z.x.zip (z.y.zip z.z)))) (layers z.nnode n (cgnsCells z 2)) := by
  obtain ⟨m, c, h1, hel, h2, h3⟩ := cgns_shows env.so hso hz
  have hlen : (z.x.zip (z.y.zip z.z)).length = z.nnode := by simp [hz.lx, hz.ly, hz.lz]
  have hkey := quads_only hel h3 htri
  have h4 := quads_length hz h2 hkey
  obtain ⟨mk1, mk2⟩ := cgns_marks env.so hso hz hmk h1
  obtain ⟨m1, c1, hx, hs1, hk1⟩ := extruded_shows env.so h2 hkey hne h4 mk1 mk2 (env.linspace (n + 1)) (by omega) "fluid"
  rw [hlin, Nat.add_sub_cancel] at hs1
  rw [vtk_cgns env fmt s filename outpath ⟨n, sc⟩ hu]
  rw [← hlen]
  exact extruded_run env s hfin filename hf outpath (cgnsIn env) (i := .arrays m) (by
    rw [cgns_in env s filename hb htree hun hnc, h1, Except_bind_ok]) rfl (by rw [hlen]; exact hn) h4 n hpos hlin sc hx hs1 hk1

end

/-- **C71, CGNS, otherwise.** A zone of surfaces or volumes with a cell on an unknown node, a negative number of layers, layers
over triangles or volumes: the command is refused and nothing changes. -/
theorem C71_cgns_refused (hso : ∀ l, (env.so l).Perm l) (hu : Uses fmt filename "CGNS" ".cgns") {b : Bytes}
    (hb : s.content (s.resolve (PyPath.parse filename).str) = some b) {root : Cgns.Tree R}
    (htree : env.tree b = .ok root) (hun : Spec.Cgns.TellsFile root dim z) (hnc : z.ncell ≠ 0)
    (hz : ZoneOk z dim) (hdim : 2 ≤ dim) (hmk : ∀ p ∈ z.bcs, Whole z p.2 ∨ ¬ OnCells z p.2)
    (o : Options R) (hlin : ∀ k, (env.linspace k).length = k)
    (hno : ¬ (NodesExist z.nnode (cgnsCells z dim) ∧
      (o.extrude = 0 ∨ 0 < o.extrude ∧ ∀ q ∈ cgnsCells z dim, q.1 = "quad4"))) :
    Refused (fun fuel => cfdwriteVtk env fmt o s fuel filename outpath) s := by
  rw [vtk_cgns env fmt s filename outpath o hu]
  apply refused_of
  intro i j m' g h0 h1 h2 h3
  obtain ⟨m, c, e1, hel, e2, e3⟩ := cgns_shows env.so hso hz
  have hlen : (z.x.zip (z.y.zip z.z)).length = z.nnode := by simp [hz.lx, hz.ly, hz.lz]
  rw [cgns_in env s filename hb htree hun hnc, e1, Except_bind_ok, Except.ok.injEq] at h0
  subst h0
  obtain ⟨n, sc⟩ := o
  unfold transform at h1
  rw [bind_eq_ok] at h1
  obtain ⟨i1, hx, h1⟩ := h1
  unfold extrudeStep at hx
  simp only at hx h1 hno
  split at hx
  · rename_i hn0
    simp only [Except.ok.injEq] at hx
    subst hx
    obtain ⟨m2, rfl, _, hsh⟩ := scaleStep_arrays h1
    simp only [PyMesh.numbers, Except.ok.injEq] at h2
    subst h2
    obtain ⟨P', hP', hs2⟩ := hsh _ _ _ e2
    have := setMesh_nodes hs2 h3
    rw [hP', hlen] at this
    exact hno ⟨this, .inl hn0⟩
  · rename_i hn0
    split at hx
    · cases hx
    rename_i hn1
    rw [bind_eq_ok] at hx
    obtain ⟨m0, hm0, hx⟩ := hx
    simp only [PyMesh.numbers, Except.ok.injEq] at hm0
    subst hm0
    rw [bind_eq_ok] at hx
    obtain ⟨m1, hm1, hx⟩ := hx
    simp only [Except_pure, Except.ok.injEq] at hx
    subst hx
    obtain ⟨hp, hty⟩ := extruded_types e2 hm1 h1 h2 h3
    rw [hlin] at hp
    have hkey : ∀ t ∈ c.tbl.keys, t = "quad4" := by
      intro t ht
      obtain ⟨k, hk, hd, rfl⟩ := e3 t ht
      obtain ⟨y, hy, ey⟩ := hty _ ht
      have h00 : ∀ k ∈ Spec.Cgns.kinds, 2 ≤ k.dim → k.name ≠ "quad4" → ∀ y ∈ vtkTypes, extrudedFace.get? k.name ≠ some y.1 := by decide
      by_contra hne
      exact h00 k hk (by omega) hne y hy ey
    have h4 := quads_length hz e2 hkey
    obtain ⟨mk1, mk2⟩ := cgns_marks env.so hso hz hmk e1
    have hnodes := extruded_nodes e2 hm1 h1 h2 h3 hkey h4 mk1 mk2
    rw [hlen] at hnodes
    exact hno ⟨hnodes, .inr ⟨by omega, fun q hq => hkey _ (names_of e2 hq)⟩⟩

end

/-! ## Other files -/

/-- The mesh of an IC3 file has no cells. -/
theorem export_conn {r : RData} {f : FullMesh} (h : Ic3.exportMesh r = .ok f) : f.mesh.cell2node = none := by
  unfold Ic3.exportMesh at h
  simp only [bind_eq_ok] at h
  obtain ⟨m1, h1, c, _, m2, h2, h⟩ := h
  simp only [Except_pure, Except.ok.injEq] at h
  rw [← h]
  have e1 : m1.cell2node = none := by
    unfold Mesh.setCoordsNd at h1
    rw [bind_eq_ok] at h1
    obtain ⟨_, _, h1⟩ := h1
    simp only [Except_pure, Except.ok.injEq] at h1
    rw [← h1]
    rfl
  have e2 : m2.cell2node = none := by
    unfold Mesh.addFaces at h2
    split at h2
    · simp only [Except.ok.injEq] at h2
      rw [← h2]
      exact e1
    · cases h2
  have key : ∀ (l : List Mark) (a : Mesh F64), (l.foldl Mesh.addBoco a).cell2node = a.cell2node := by
    intro l
    induction l with
    | nil => intro a; rfl
    | cons p l ih => intro a; rw [List.foldl_cons, ih]; rfl
  show (List.foldl Mesh.addBoco m2 _).cell2node = none
  rw [key]
  exact e2

section
variable [DecidableEq Loc] [Add R] [Mul R] [Zero R] [One R] (env : VtkEnv R) (fmt : Option String) (o : Options R) (s : Fs Loc)
  (filename : Name) (outpath : Option Name)

/-- **C71, IC3.** No IC3 file is converted to VTK, whatever the options: the command ends with an exception and nothing
changes. -/
theorem C71_ic3_refused (hu : Uses fmt filename "IC3" ".ic3") :
    Refused (fun fuel => cfdwriteVtk env fmt o s fuel filename outpath) s := by
  have e : (fun fuel => cfdwriteVtk env fmt o s fuel filename outpath) = fun fuel => toVtk (ic3In env) env o s fuel filename outpath := by
    funext fuel
    unfold cfdwriteVtk
    rw [(C70_select fmt filename).1 hu]
  rw [e]
  apply refused_of
  intro i j m' g h0 h1 h2 h3
  unfold ic3In at h0
  rw [bind_eq_ok] at h0
  obtain ⟨f, hf, h0⟩ := h0
  simp only [Except_pure, Except.ok.injEq] at h0
  have hc : f.mesh.cell2node = none := by
    unfold Convert.ic3Input at hf
    split at hf
    · cases hf
    · rw [bind_eq_ok] at hf
      obtain ⟨r, _, hf⟩ := hf
      split at hf
      · cases hf
      · exact export_conn hf
  subst h0
  unfold transform at h1
  rw [bind_eq_ok] at h1
  obtain ⟨i1, hx, h1⟩ := h1
  unfold extrudeStep at hx
  split at hx
  · simp only [Except.ok.injEq] at hx
    subst hx
    obtain ⟨m2, rfl, e2, _⟩ := scaleStep_arrays h1
    simp only [PyMesh.numbers, Except.ok.injEq] at h2
    subst h2
    unfold Vtk.setMesh at h3
    rw [e2] at h3
    simp only [hc] at h3
    rw [bind_eq_ok] at h3
    obtain ⟨_, _, h3⟩ := h3
    cases h3
  · split at hx
    · cases hx
    rw [bind_eq_ok] at hx
    obtain ⟨m0, hm0, hx⟩ := hx
    simp only [PyMesh.numbers, Except.ok.injEq] at hm0
    subst hm0
    rw [bind_eq_ok] at hx
    obtain ⟨m1, hm1, hx⟩ := hx
    obtain ⟨_, c, _, hcc, _⟩ := extruded_parts hm1
    simp only [hc] at hcc
    cases hcc

/-- **C71, no reader.** With another format or suffix the command ends with an exception and nothing changes. -/
theorem C71_no_reader (fuel : Nat) (h1 : ¬ Uses fmt filename "IC3" ".ic3") (h2 : ¬ Uses fmt filename "GMSH" ".msh")
    (h3 : ¬ Uses fmt filename "CGNS" ".cgns") :
    ∃ e, cfdwriteVtk env fmt o s fuel filename outpath = some (s, .error e) := by
  obtain ⟨_, _, _, q4, q5, q6⟩ := C70_select fmt filename
  unfold cfdwriteVtk
  cases fmt with
  | some f =>
    refine ⟨.exit, ?_⟩
    rw [q5 f rfl ?_]
    simp only [List.mem_cons, List.not_mem_nil, or_false, not_or]
    exact ⟨fun h => h1 (.inl (by rw [h])), fun h => h2 (.inl (by rw [h])), fun h => h3 (.inl (by rw [h]))⟩
  | none =>
    by_cases hv : (PyPath.parse filename).suffix = ".vtu".toList
    · exact ⟨.type, by rw [q4 rfl hv]⟩
    · refine ⟨.runtime, ?_⟩
      rw [q6 rfl ?_]
      simp only [List.mem_cons, List.not_mem_nil, or_false, not_or]
      exact ⟨fun h => h1 (.inr ⟨rfl, h⟩), fun h => h2 (.inr ⟨rfl, h⟩), fun h => h3 (.inr ⟨rfl, h⟩), hv⟩

end

/-! ## Files meeting the hypotheses -/

/-- Two quadrangles and a boundary edge. -/
def quadMsh : List String :=
  ["$MeshFormat", "2 0 8", "$EndMeshFormat", "$PhysicalNames", "2", "1 1 \"wall\"", "2 2 \"fluid\"", "$EndPhysicalNames",
   "$Nodes", "6", "1 0 0 0", "2 1 0 0", "3 2 0 0", "4 0 3 0", "5 1 3 0", "6 2 3 0", "$EndNodes",
   "$Elements", "3", "1 1 2 1 1 1 2", "2 3 2 2 1 1 2 5 4", "3 3 2 2 1 2 3 6 5", "$EndElements"]

def quadPts : List (Int × Int × Int) := [(0, 0, 0), (1, 0, 0), (2, 0, 0), (0, 3, 0), (1, 3, 0), (2, 3, 0)]
def quadElts : List Elt := [⟨1, 1, [1, 1], [1, 2]⟩, ⟨2, 3, [2, 1], [1, 2, 5, 4]⟩, ⟨3, 3, [2, 1], [2, 3, 6, 5]⟩]

/-- The bytes of a grid: numbers of points, types and nodes of the cells, heights of the points. -/
def demoEnc (g : Vtk.Grid (Int × Int × Int)) : Bytes :=
  [UInt8.ofNat g.points.length] ++ (g.items.flatMap fun c => (c.1 :: c.2).map fun n => UInt8.ofNat n.toNat) ++
    g.points.map fun p => UInt8.ofNat p.2.2.toNat

def demoVtk : VtkEnv Int := { demoEnv with
  text := fun _ => quadMsh
  linspace := fun n => (List.range n).map fun k => (k : Int)
  enc := demoEnc
  value := fun _ => 0 }

def quadFs : Fs Name := ⟨id, fun l => if l = "in/quad.msh".toList then some [] else none⟩

def quadNames : List PhysName := [⟨1, 1, "wall"⟩, ⟨2, 2, "fluid"⟩]

def quadSections : Gmsh.Sections Int :=
  ⟨some [("1", "wall"), ("2", "fluid")], some [("wall", "1"), ("fluid", "2")], quadPts.map fun p => some p.1,
    quadPts.map fun p => some p.2.1, quadPts.map fun p => some p.2.2, quadElts.map Elt.line⟩

theorem quad_supported : ∀ e ∈ quadElts, e.Supported := by
  intro e he
  simp only [quadElts, List.mem_cons, List.not_mem_nil, or_false] at he
  rcases he with rfl | rfl | rfl
  · exact ⟨"bar2", 1, rfl⟩
  · exact ⟨"quad4", 2, rfl⟩
  · exact ⟨"quad4", 2, rfl⟩

theorem quad_read : ∃ m, Gmsh.readFile demoVtk.num (demoVtk.text []) = .ok m ∧
    IsMeshOf (quadPts.map some) (some quadNames) quadElts m := by
  have hs : Gmsh.readSections intNum (quadMsh.map Gmsh.pySplit) = .ok quadSections := by decide +kernel
  obtain ⟨st, m, h1, h2, h3⟩ := C43_mesh (s := quadSections) (pts := quadPts.map some) (names := some quadNames)
    (elts := quadElts) rfl rfl rfl rfl (by simp) (by
      intro l hl
      cases hl
      exact ⟨_, rfl, by decide +kernel⟩) quad_supported (by decide +kernel) ⟨by decide +kernel, by decide +kernel, by
        intro l hl
        cases hl
        decide +kernel⟩
  refine ⟨m, ?_, h3⟩
  show Gmsh.read intNum (quadMsh.map Gmsh.pySplit) = _
  unfold Gmsh.read
  rw [hs, Except_bind_ok, h1, Except_bind_ok, h2]

theorem quadFs_finite : ∀ folder : PyPath, FiniteFolder quadFs.has folder := oneFile_finite _ _

/-- `C70_info_gmsh` on this file. -/
example (check : Bool) : cfdinfo demoVtk.toEnv none check quadFs "in/quad.msh".toList = .ok () := by
  obtain ⟨m, h1, h2⟩ := quad_read
  exact (C70_info_gmsh demoVtk.toEnv none check quadFs "in/quad.msh".toList (.inr ⟨rfl, by decide⟩) [] (by decide) m h1 _ _ _ h2
    (by decide)).2 ⟨by decide, by decide⟩

-- three layers, heights multiplied by 5
example : Written demoEnc (fun fuel => cfdwriteVtk demoVtk none ⟨3, some (1, 1, 5)⟩ quadFs fuel "in/quad.msh".toList none) quadFs
    (scaled (some (1, 1, 5)) (lifted [0, 1, 2, 3] quadPts))
    (layers 6 3 [("quad4", [0, 1, 4, 3]), ("quad4", [1, 2, 5, 4])]) := by
  obtain ⟨m, h1, h2⟩ := quad_read
  exact C71_gmsh_extruded demoVtk none quadFs quadFs_finite "in/quad.msh".toList (by decide) none (.inr ⟨rfl, by decide⟩)
    (b := []) (by decide) h1 h2 quad_supported (by decide +kernel) (by decide +kernel) (by unfold NodesExist; decide +kernel) 3
    (by decide) (by decide) _

example : Written demoEnc (fun fuel => cfdwriteVtk demoVtk none ⟨0, none⟩ quadFs fuel "in/quad.msh".toList none) quadFs quadPts
    [("quad4", [0, 1, 4, 3]), ("quad4", [1, 2, 5, 4])] := by
  obtain ⟨m, h1, h2⟩ := quad_read
  exact C71_gmsh demoVtk none quadFs quadFs_finite "in/quad.msh".toList (by decide) none (.inr ⟨rfl, by decide⟩)
    (b := []) (by decide) h1 h2 quad_supported (by decide +kernel) (by unfold NodesExist; decide +kernel)

-- a scale without layers, a negative number of layers
example : ∀ o ∈ ([⟨0, some (1, 1, 5)⟩, ⟨-2, none⟩] : List (Options Int)),
    Refused (fun fuel => cfdwriteVtk demoVtk none o quadFs fuel "in/quad.msh".toList none) quadFs := by
  obtain ⟨m, h1, h2⟩ := quad_read
  intro o ho
  refine C71_gmsh_refused demoVtk none quadFs "in/quad.msh".toList none (.inr ⟨rfl, by decide⟩) (b := []) (by decide) h1 h2
    quad_supported (by decide +kernel) o (fun k => by simp [demoVtk]) ?_
  rintro ⟨_, _, _, h⟩
  simp only [List.mem_cons, List.not_mem_nil, or_false] at ho
  rcases ho with rfl | rfl
  · rcases h with h | h
    · cases h
    · exact absurd h.1 (by decide)
  · rcases h with h | h
    · simp at h
    · exact absurd h.1 (by decide)

set_option synthInstance.maxSize 2000 in
-- the commands themselves
example : ([⟨0, none⟩, ⟨1, some (1, 1, 5)⟩, ⟨0, some (1, 1, 5)⟩, ⟨-2, none⟩, ⟨-1, none⟩] : List (Options Int)).map (fun o =>
    match cfdwriteVtk demoVtk none o quadFs 2 "in/quad.msh".toList none with
    | some (s, r) => some (r, s.content "quad.vtu".toList)
    | none => none) =
  [some (.ok "quad.vtu".toList, some [6, 9, 0, 1, 4, 3, 9, 1, 2, 5, 4, 0, 0, 0, 0, 0, 0]),
   some (.ok "quad.vtu".toList, some [12, 12, 0, 1, 4, 3, 6, 7, 10, 9, 12, 1, 2, 5, 4, 7, 8, 11, 10, 0, 0, 0, 0, 0, 0, 5, 5, 5, 5, 5, 5]),
   some (.error .type, none), some (.error .value, none), some (.error .assertion, none)] := by decide +kernel

/-- A plane CGNS zone of two quadrangles, its boundary edges and a condition on two of them. -/
def quadZone : Cgns.Zone Int :=
  { nnode := 6, ncell := 2, x := [0, 1, 2, 0, 1, 2], y := [0, 0, 0, 3, 3, 3], z := [0, 0, 0, 0, 0, 0]
    sections := [("Quads", ⟨7, 1, 2, [1, 2, 5, 4, 2, 3, 6, 5]⟩), ("Edges", ⟨3, 3, 4, [1, 2, 2, 3]⟩)]
    bcs := [("low", ⟨some "wall", some "FaceCenter", some [3, 4], none⟩)]
    unstructured := true }

theorem quadZone_ok : Spec.Cgns.ZoneOk quadZone 2 where
  sections := by
    intro p hp
    simp only [quadZone, List.mem_cons, List.not_mem_nil, or_false] at hp
    rcases hp with rfl | rfl
    · exact ⟨⟨7, "quad4", 4, 2⟩, by decide, ⟨rfl, by decide⟩⟩
    · exact ⟨⟨3, "bar2", 2, 1⟩, by decide, ⟨rfl, by decide⟩⟩
  lx := rfl
  ly := rfl
  lz := rfl
  faces := by decide
  names := by decide
  bcs := by
    intro p hp
    simp only [quadZone, List.mem_cons, List.not_mem_nil, or_false] at hp
    subst hp
    refine ⟨.inr (.inr (.inl ⟨rfl, rfl⟩)), fun _ e he => ?_, fun _ => by decide⟩
    simp only [Spec.Cgns.listed, List.mem_cons, List.not_mem_nil, or_false] at he
    rcases he with rfl | rfl
    · exact ⟨[0, 1], by decide⟩
    · exact ⟨[1, 2], by decide⟩

theorem quadZone_marks : ∀ p ∈ quadZone.bcs, Spec.Cgns.Whole quadZone p.2 ∨ ¬ Spec.Cgns.OnCells quadZone p.2 := by
  intro p hp
  simp only [quadZone, List.mem_cons, List.not_mem_nil, or_false] at hp
  subst hp
  right
  rintro (⟨-, h⟩ | ⟨h, -⟩)
  · revert h; decide
  · cases h

theorem quadZone_bytes : Spec.Cgns.OneByte quadZone := by
  intro p hp
  simp only [quadZone, List.mem_cons, List.not_mem_nil, or_false] at hp
  subst hp
  exact ⟨by intro s hs; cases hs <;> decide, by intro s hs; cases hs <;> decide⟩

/-- The standard file of this zone. -/
def quadZoneFile : Cgns.Tree Int := Spec.Cgns.fileTree 4 [("base", ⟨2, [("zone", quadZone)]⟩)]

theorem quadZoneFile_tells : Spec.Cgns.TellsFile quadZoneFile 2 quadZone :=
  Cgns.C88_one_zone 4 "base" "zone" 2 quadZone rfl (by decide) quadZone_bytes

def cgnsVtk : VtkEnv Int := { demoVtk with tree := fun _ => .ok quadZoneFile }

example (sc : Option (Int × Int × Int)) :
    Written demoEnc (fun fuel => cfdwriteVtk cgnsVtk (some "CGNS") ⟨0, sc⟩ quadFs fuel "in/quad.msh".toList none) quadFs
      (scaled sc quadPts) [("quad4", [0, 1, 4, 3]), ("quad4", [1, 2, 5, 4])] :=
  C71_cgns cgnsVtk (some "CGNS") quadFs "in/quad.msh".toList none quadFs_finite (by decide) (fun _ => List.Perm.refl _) (.inl rfl)
    (b := []) (by decide) rfl quadZoneFile_tells (by decide) quadZone_ok (by decide) (by unfold NodesExist; decide) sc

example : Written demoEnc (fun fuel => cfdwriteVtk cgnsVtk (some "CGNS") ⟨2, none⟩ quadFs fuel "in/quad.msh".toList none) quadFs
      (lifted [0, 1, 2] quadPts) (layers 6 2 [("quad4", [0, 1, 4, 3]), ("quad4", [1, 2, 5, 4])]) :=
  C71_cgns_extruded cgnsVtk (some "CGNS") quadFs "in/quad.msh".toList none quadFs_finite (by decide) (fun _ => List.Perm.refl _)
    (.inl rfl) (b := []) (by decide) rfl quadZoneFile_tells (by decide) quadZone_ok (by decide) (by decide) quadZone_marks
    (by unfold NodesExist; decide) 2 (by decide) (by decide) none

-- a cell on a node that does not exist
example : ¬ (NodesExist 5 (cgnsCells quadZone 2)) := by unfold NodesExist; decide

-- a complete IC3 file is read, and refused all the same
example : ((writeIc3 cgnsElem2faces id .little .native .v3 noConv twoTetra).1.bind fun b =>
    let s : Fs Name := ⟨id, fun l => if l = "a.ic3".toList then some b else none⟩
    (cfdwriteVtk demoVtk none ⟨0, none⟩ s 2 "a.ic3".toList none).map fun r =>
      ((Convert.ic3Input s "a.ic3".toList).isOk, r.2, r.1.content "a.vtu".toList)) =
  some (true, .error .attribute, none) := by decide +kernel

/-- `C71_ic3_refused`, `C71_no_reader`: whatever the files. -/
example (s : Fs Name) : Refused (fun fuel => cfdwriteVtk demoVtk none ⟨0, none⟩ s fuel "a.ic3".toList none) s :=
  C71_ic3_refused demoVtk none _ s "a.ic3".toList none (.inr ⟨rfl, by decide⟩)
example (s : Fs Name) (fuel : Nat) : ∃ e, cfdwriteVtk demoVtk (some "XMF") ⟨0, none⟩ s fuel "a.ic3".toList none = some (s, .error e) :=
  C71_no_reader demoVtk (some "XMF") _ s "a.ic3".toList none fuel (by rintro (h | h) <;> simp at h) (by rintro (h | h) <;> simp at h)
    (by rintro (h | h) <;> simp at h)

/-- `C71_cgns_refused`: a negative number of layers. -/
example : Refused (fun fuel => cfdwriteVtk cgnsVtk (some "CGNS") ⟨-2, none⟩ quadFs fuel "in/quad.msh".toList none) quadFs :=
  C71_cgns_refused cgnsVtk (some "CGNS") quadFs "in/quad.msh".toList none (fun _ => List.Perm.refl _) (.inl rfl) (b := []) (by decide) rfl
    quadZoneFile_tells (by decide) quadZone_ok (by decide) quadZone_marks ⟨-2, none⟩ (fun k => by simp [cgnsVtk, demoVtk])
    (by rintro ⟨-, h | ⟨h, -⟩⟩ <;> simp at h)

end Cfd.VtkConvert
