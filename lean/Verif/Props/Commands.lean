import Verif.Model.Commands
import Verif.Spec.Commands
import Verif.Props.Convert
import Verif.Props.CgnsConvert
import Verif.Props.Ic3Copy
import Verif.Props.Ic3Cube
import Verif.Props.Registry

/-!
# C70: the commands as a whole
-/

namespace Cfd.Commands
open Cfd.Spec Cfd.Spec.Ic3 Cfd.Spec.Commands Cfd.Ic3 ElemConn

theorem formats_eq : formats =
    [("IC3", ⟨some .ic3Reader, some .ic3WriterV3, ".ic3".toList⟩), ("GMSH", ⟨some .gmshReader, none, ".msh".toList⟩),
     ("CGNS", ⟨some .cgnsReader, none, ".cgns".toList⟩), ("VTK", ⟨none, some .vtkWriter, ".vtu".toList⟩)] := by decide

/-- **C70, choice of the format.** `--fmt` IC3, GMSH or CGNS, or the suffix .ic3, .msh, .cgns, .vtu without `--fmt`; anything
else is refused. -/
theorem C70_select (fmt : Option String) (filename : Name) :
    (Uses fmt filename "IC3" ".ic3" → select fmt filename = .ok (some .ic3Reader, some .ic3WriterV3)) ∧
    (Uses fmt filename "GMSH" ".msh" → select fmt filename = .ok (some .gmshReader, none)) ∧
    (Uses fmt filename "CGNS" ".cgns" → select fmt filename = .ok (some .cgnsReader, none)) ∧
    (fmt = none → (PyPath.parse filename).suffix = ".vtu".toList → select fmt filename = .ok (none, some .vtkWriter)) ∧
    (∀ f, fmt = some f → f ∉ ["IC3", "GMSH", "CGNS"] → select fmt filename = .error .exit) ∧
    (fmt = none → (PyPath.parse filename).suffix ∉ [".ic3".toList, ".msh".toList, ".cgns".toList, ".vtu".toList] →
      select fmt filename = .error .runtime) := by
  have h1 : ∀ f, f = "IC3" ∨ f = "GMSH" ∨ f = "CGNS" → fmtOption formats (some f) none = .ok (some f) := by
    rintro f (rfl | rfl | rfl) <;> decide
  have h2 : fmtOption formats none none = .ok none := rfl
  have key : ∀ (e : Name) (r w : Option Cls) (n : String), (n, (⟨r, w, e⟩ : Format Cls)) ∈ formats →
      (PyPath.parse filename).suffix = e → select none filename = .ok (r, w) := by
    intro e r w n hm he
    unfold select
    rw [h2, Except_bind_ok]
    unfold parseFormat
    simp only [he]
    rw [formats_eq] at hm ⊢
    simp only [List.mem_cons, Prod.mk.injEq, Format.mk.injEq, List.not_mem_nil, or_false] at hm
    rcases hm with ⟨_, rfl, rfl, rfl⟩ | ⟨_, rfl, rfl, rfl⟩ | ⟨_, rfl, rfl, rfl⟩ | ⟨_, rfl, rfl, rfl⟩ <;> rfl
  refine ⟨?_, ?_, ?_, ?_, ?_, ?_⟩
  · rintro (rfl | ⟨rfl, h⟩)
    · rfl
    · exact key _ _ _ "IC3" (by decide) h
  · rintro (rfl | ⟨rfl, h⟩)
    · rfl
    · exact key _ _ _ "GMSH" (by decide) h
  · rintro (rfl | ⟨rfl, h⟩)
    · rfl
    · exact key _ _ _ "CGNS" (by decide) h
  · rintro rfl h
    exact key _ _ _ "VTK" (by decide) h
  · rintro f rfl hf
    have : availableReaders formats = ["IC3", "GMSH", "CGNS"] := by decide
    have : fmtOption formats (some f) none = .error .exit := by
      unfold fmtOption
      simp only [this]
      exact if_neg hf
    unfold select
    rw [this]
    rfl
  · rintro rfl h
    unfold select
    rw [h2, Except_bind_ok]
    unfold parseFormat
    rw [formats_eq]
    generalize (PyPath.parse filename).suffix = e at h
    simp only [List.mem_cons, List.not_mem_nil, or_false, not_or] at h
    have e1 : decide (".ic3".toList = e) = false := decide_eq_false fun q => h.1 q.symm
    have e2 : decide (".msh".toList = e) = false := decide_eq_false fun q => h.2.1 q.symm
    have e3 : decide (".cgns".toList = e) = false := decide_eq_false fun q => h.2.2.1 q.symm
    have e4 : decide (".vtu".toList = e) = false := decide_eq_false fun q => h.2.2.2 q.symm
    simp only [List.filter, e1, e2, e3, e4, List.map]
    rfl

section
variable {R Loc : Type} [DecidableEq Loc] (env : Env R)

/-- **C70, conversion.** The commands that write IC3 files read the file with the reader of the format asked for or given by
the suffix. -/
theorem C70_convert (v : Ver) (fmt : Option String) (s : Fs Loc) (fuel : Nat) (filename : Name) (outpath : Option Name) :
    (Uses fmt filename "IC3" ".ic3" → cfdwriteIc3 env v fmt s fuel filename outpath =
      Convert.ic3ToIc3 env.so env.host env.endian v env.conv s fuel filename outpath) ∧
    (Uses fmt filename "GMSH" ".msh" → cfdwriteIc3 env v fmt s fuel filename outpath =
      Convert.gmshToIc3 env.num env.storeGmsh env.text env.so env.host env.endian v env.conv s fuel filename outpath) ∧
    (Uses fmt filename "CGNS" ".cgns" → cfdwriteIc3 env v fmt s fuel filename outpath =
      Convert.cgnsToIc3 env.tree env.store env.so env.host env.endian v env.conv s fuel filename outpath) := by
  obtain ⟨h1, h2, h3, _⟩ := C70_select fmt filename
  refine ⟨fun h => ?_, fun h => ?_, fun h => ?_⟩
  · unfold cfdwriteIc3; rw [h1 h]
  · unfold cfdwriteIc3; rw [h2 h]
  · unfold cfdwriteIc3; rw [h3 h]

/-- **C70, refusals.** In all other cases an exception is raised and nothing is written: VTK files have no reader. -/
theorem C70_convert_refused (v : Ver) (fmt : Option String) (s : Fs Loc) (fuel : Nat) (filename : Name)
    (outpath : Option Name) (h1 : ¬ Uses fmt filename "IC3" ".ic3") (h2 : ¬ Uses fmt filename "GMSH" ".msh")
    (h3 : ¬ Uses fmt filename "CGNS" ".cgns") :
    ∃ e, cfdwriteIc3 env v fmt s fuel filename outpath = some (s, .error e) ∧
      (e = .exit ↔ fmt ≠ none) ∧ (e = .type ↔ fmt = none ∧ (PyPath.parse filename).suffix = ".vtu".toList) := by
  obtain ⟨_, _, _, q4, q5, q6⟩ := C70_select fmt filename
  cases fmt with
  | some f =>
    refine ⟨.exit, ?_, by simp, by simp⟩
    unfold cfdwriteIc3
    rw [q5 f rfl ?_]
    simp only [List.mem_cons, List.not_mem_nil, or_false, not_or]
    exact ⟨fun h => h1 (.inl (by rw [h])), fun h => h2 (.inl (by rw [h])), fun h => h3 (.inl (by rw [h]))⟩
  | none =>
    by_cases hv : (PyPath.parse filename).suffix = ".vtu".toList
    · refine ⟨.type, ?_, by simp, ⟨fun _ => ⟨rfl, hv⟩, fun _ => rfl⟩⟩
      unfold cfdwriteIc3
      rw [q4 rfl hv]
    · refine ⟨.runtime, ?_, by simp, ⟨fun h => by simp at h, fun h => absurd h.2 hv⟩⟩
      unfold cfdwriteIc3
      rw [q6 rfl ?_]
      simp only [List.mem_cons, List.not_mem_nil, or_false, not_or]
      exact ⟨fun h => h1 (.inr ⟨rfl, h⟩), fun h => h2 (.inr ⟨rfl, h⟩), fun h => h3 (.inr ⟨rfl, h⟩), hv⟩

/-- **C70, files are kept.** Whatever the arguments and the files, a conversion changes no existing file. -/
theorem C70_convert_keeps_files (v : Ver) (fmt : Option String) (s s' : Fs Loc) (fuel : Nat) (filename : Name)
    (outpath : Option Name) (r : Py Name) (h : cfdwriteIc3 env v fmt s fuel filename outpath = some (s', r)) (l : Loc)
    (b : Bytes) (hl : s.content l = some b) : s'.content l = some b := by
  unfold cfdwriteIc3 at h
  split at h
  · simp only [Option.some.injEq, Prod.mk.injEq] at h; rw [← h.1]; exact hl
  · exact C36_conversion_keeps_files _ _ _ _ _ (by decide) _ _ _ _ _ _ h l b hl
  · exact C36_conversion_keeps_files _ _ _ _ _ (by decide) _ _ _ _ _ _ h l b hl
  · exact C36_conversion_keeps_files _ _ _ _ _ (by decide) _ _ _ _ _ _ h l b hl
  · simp only [Option.some.injEq, Prod.mk.injEq] at h; rw [← h.1]; exact hl

end

/-! ## `cfdwritecube` -/

section
variable {R Loc : Type} [Div R] [NatCast R] [DecidableEq Loc] (env : Env R)

/-- **C70, cube.** For an IC3 file (`--fmt IC3` or suffix .ic3), `cfdwritecube` with two cells or more, within the limits of
32-bit numbers, writes the file of the given name, existing or not, and changes no other; the file is read as the cube. -/
theorem C70_cube (hso : Reorders env.so) (vtk : FullMesh → PyErr ⊕ (Bytes × Py Unit)) (fmt : Option String)
    (s : Fs Loc) (filename : Name) (hu : Uses fmt filename "IC3" ".ic3") (nx ny nz : Nat) (hx : 1 ≤ nx) (hy : 1 ≤ ny)
    (hz : 1 ≤ nz) (h2 : 2 ≤ nx * ny * nz) (hnode : Small ((nx + 1) * (ny + 1) * (nz + 1)))
    (hface : Small (cubeFaces ⟨nx, ny, nz⟩)) (integ : Bool) :
    ∃ s' b g lb li x y z, cfdwritecube env vtk fmt nx ny nz s filename = (s', .ok (PyPath.parse filename).str) ∧
      s'.content (s.resolve (PyPath.parse filename).str) = some b ∧
      (∀ l, l ≠ s.resolve (PyPath.parse filename).str → s'.content l = s.content l) ∧
      readIc3 integ b = .ok g ∧ CubeRead ⟨nx, ny, nz⟩ (some (x, y, z)) lb li g.mesh ∧
      ∀ i j k, i ≤ nx → j ≤ ny → k ≤ nz → ∃ n, n = k + (nz + 1) * (j + (ny + 1) * i) ∧
        x[n]? = some (env.store ((i : R) / (nx : R))) ∧ y[n]? = some (env.store ((j : R) / (ny : R))) ∧
        z[n]? = some (env.store ((k : R) / (nz : R))) := by
  obtain ⟨q1, _⟩ := C70_select fmt filename
  have hm : ((Cube.mk nx ny nz).exportMesh : Py (Mesh R)) = .ok (cubeMesh ⟨nx, ny, nz⟩) :=
    exportMesh_eq _ (elemIjk_ne_nil hx hy hz)
  have hn : NamesFit (Convert.imported (Convert.stored env.store (cubeMesh ⟨nx, ny, nz⟩ : Mesh R))) := by
    constructor
    · intro p hp
      have : p.1 ∈ ["imin", "imax", "jmin", "jmax", "kmin", "kmax"] := by
        have hp' : p ∈ cubeMarks ⟨nx, ny, nz⟩ := hp
        have := List.mem_map_of_mem (f := fun q : String × Mark => q.1) hp'
        simpa [cubeMarks, Cube.marks] using this
      revert this
      generalize p.1 = t
      intro ht
      simp only [List.mem_cons, List.not_mem_nil, or_false] at ht
      rcases ht with rfl | rfl | rfl | rfl | rfl | rfl <;> decide
    · intro d hd; cases hd
    · intro p hp; cases hp
    · intro p hp; cases hp
  have hdf : DataFits .v3 env.conv (Convert.imported (Convert.stored env.store (cubeMesh ⟨nx, ny, nz⟩ : Mesh R)))
      (Convert.imported (Convert.stored env.store (cubeMesh ⟨nx, ny, nz⟩ : Mesh R))).mesh.ncell := by
    constructor
    · exact .inl rfl
    all_goals first
      | (intro s h; cases h; done)
      | (intro p hp; cases hp; done)
      | (intro _ h; exact absurd rfl h)
  obtain ⟨b, g, lb, li, hw, hr, hc⟩ := C63_cube (R := R) ⟨nx, ny, nz⟩ hx hy hz h2 hnode hface _ hm env.store env.so hso
    env.host env.endian .v3 env.conv (Convert.imported (Convert.stored env.store (cubeMesh ⟨nx, ny, nz⟩ : Mesh R))) rfl hn
    (Convert.data_storable _ _ _) hdf integ
  refine ⟨s.write (PyPath.parse filename) b, b, g, lb, li, _, _, _, ?_, by simp [Fs.write], fun l hl => ?_, hr, hc, ?_⟩
  · unfold cfdwritecube writeCube runWriter Convert.ic3Output
    rw [q1 hu]
    simp only [Int.toNat_natCast, hm, hw]
  · simp [Fs.write, hl]
  · intro i j k hi hj hk
    have hp : InGrid (nodeDims ⟨nx, ny, nz⟩) (i, j, k) :=
      ⟨Nat.lt_succ_of_le hi, Nat.lt_succ_of_le hj, Nat.lt_succ_of_le hk⟩
    have := nodesIjk_getElem hp
    exact ⟨_, rfl, by simp [Cube.nodeIndex] at this; simp [this], by simp [Cube.nodeIndex] at this; simp [this],
      by simp [Cube.nodeIndex] at this; simp [this]⟩

/-- **C70, cubes refused.** One cell, no cell in a direction, or a format without writer: an exception is raised and no file is
written or changed. -/
theorem C70_cube_refused (vtk : FullMesh → PyErr ⊕ (Bytes × Py Unit)) (fmt : Option String) (s : Fs Loc)
    (filename : Name) (nx ny nz : Int) :
    (Uses fmt filename "IC3" ".ic3" → nx = 1 → ny = 1 → nz = 1 →
      cfdwritecube env vtk fmt nx ny nz s filename = (s, .error .assertion)) ∧
    (nx ≤ 0 ∨ ny ≤ 0 ∨ nz ≤ 0 → ∃ e, cfdwritecube env vtk fmt nx ny nz s filename = (s, .error e)) ∧
    (¬ Uses fmt filename "IC3" ".ic3" → ¬ (fmt = none ∧ (PyPath.parse filename).suffix = ".vtu".toList) →
      ∃ e, cfdwritecube env vtk fmt nx ny nz s filename = (s, .error e)) := by
  obtain ⟨q1, q2, q3, q4, q5, q6⟩ := C70_select fmt filename
  refine ⟨?_, ?_, ?_⟩
  · rintro hu rfl rfl rfl
    have hm : ((Cube.mk 1 1 1).exportMesh : Py (Mesh R)) = .ok (cubeMesh ⟨1, 1, 1⟩) := exportMesh_eq _ (by decide)
    have := C63_one_cell _ hm env.store env.so env.host env.endian .v3 env.conv
      (Convert.imported (Convert.stored env.store (cubeMesh ⟨1, 1, 1⟩ : Mesh R))) rfl
    unfold cfdwritecube writeCube runWriter Convert.ic3Output
    rw [q1 hu]
    have h1 : (1 : Int).toNat = 1 := rfl
    simp only [h1, hm, this]
  · intro h
    have : ((Cube.mk nx.toNat ny.toNat nz.toNat).exportMesh : Py (Mesh R)) = .error .value :=
      C23_empty _ (by simp only; omega)
    unfold cfdwritecube
    cases select fmt filename with
    | error e => exact ⟨_, rfl⟩
    | ok x => simp only [this]; exact ⟨_, rfl⟩
  · intro h1 h4
    have key : ∀ r, select fmt filename = .ok (r, none) →
        ∃ e, cfdwritecube env vtk fmt nx ny nz s filename = (s, .error e) := by
      intro r hr
      unfold cfdwritecube
      rw [hr]
      cases ((Cube.mk nx.toNat ny.toNat nz.toNat).exportMesh : Py (Mesh R)) with
      | error e => exact ⟨_, rfl⟩
      | ok m => exact ⟨_, rfl⟩
    have kerr : ∀ e, select fmt filename = .error e →
        ∃ e, cfdwritecube env vtk fmt nx ny nz s filename = (s, .error e) := by
      intro e he
      unfold cfdwritecube
      rw [he]
      exact ⟨_, rfl⟩
    by_cases h2 : Uses fmt filename "GMSH" ".msh"
    · exact key _ (q2 h2)
    by_cases h3 : Uses fmt filename "CGNS" ".cgns"
    · exact key _ (q3 h3)
    cases fmt with
    | some f =>
      refine kerr _ (q5 f rfl ?_)
      simp only [List.mem_cons, List.not_mem_nil, or_false, not_or]
      exact ⟨fun h => h1 (.inl (by rw [h])), fun h => h2 (.inl (by rw [h])), fun h => h3 (.inl (by rw [h]))⟩
    | none =>
      refine kerr _ (q6 rfl ?_)
      simp only [List.mem_cons, List.not_mem_nil, or_false, not_or]
      exact ⟨fun h => h1 (.inr ⟨rfl, h⟩), fun h => h2 (.inr ⟨rfl, h⟩), fun h => h3 (.inr ⟨rfl, h⟩),
        fun h => h4 ⟨rfl, h⟩⟩

end

/-! ## `cfdinfo` -/

theorem forM_ok {α : Type} (f : α → Py Unit) : ∀ l : List α, l.forM f = .ok () ↔ ∀ a ∈ l, f a = .ok ()
  | [] => by simp [List.forM_nil, Except_pure]
  | a :: l => by
    show (f a >>= fun _ => l.forM f) = .ok () ↔ _
    constructor
    · intro h
      obtain ⟨u, h1, h2⟩ := bind_eq_ok.1 h
      intro x hx
      rcases List.mem_cons.1 hx with rfl | hx
      · cases u; exact h1
      · exact (forM_ok f l).1 h2 x hx
    · intro h
      rw [h a (by simp), Except_bind_ok]
      exact (forM_ok f l).2 fun x hx => h x (by simp [hx])

theorem showRange_ok {R : Type} {number : R → Bool} {l : List R} :
    showRange number l = .ok () ↔ l ≠ [] ∧ ∀ x ∈ l, number x = true := by
  unfold showRange
  cases l with
  | nil => simp
  | cons a l =>
    rw [if_neg (by simp)]
    by_cases h : (a :: l).all number = true
    · rw [if_pos h]; simpa using h
    · rw [if_neg h]
      simp only [reduceCtorEq, ne_eq, not_false_eq_true, true_and, false_iff, List.cons_ne_nil]
      intro hx
      exact h (List.all_eq_true.2 hx)

theorem printinfo_ok {R : Type} {number : R → Bool} {m : Mesh R} {x y z : List R} (hc : m.coords = some (x, y, z)) :
    printinfo number m = .ok () ↔ (x ≠ [] ∧ y ≠ [] ∧ z ≠ []) ∧ (∀ a ∈ x ++ y ++ z, number a = true) ∧
      (∀ c, m.cell2node = some c → ∀ p ∈ c.tbl, showIndex p.2.index = .ok ()) ∧
      (∀ p ∈ m.faces, ∀ q ∈ p.2.f2n.tbl, showIndex q.2.index = .ok ()) ∧
      ∀ p ∈ m.bocos, showIndex p.2.index = .ok () := by
  unfold printinfo
  rw [hc]
  simp only
  have hcells : showCells m.cell2node = .ok () ↔ ∀ c, m.cell2node = some c → ∀ p ∈ c.tbl, showIndex p.2.index = .ok () := by
    cases hm : m.cell2node with
    | none => simp [showCells]
    | some c =>
      simp only [showCells, showConn, forM_ok, Option.some.injEq]
      exact ⟨fun h c hc => hc ▸ h, fun h => h c rfl⟩
  constructor
  · intro h
    obtain ⟨u1, h1, h⟩ := bind_eq_ok.1 h
    obtain ⟨u2, h2, h⟩ := bind_eq_ok.1 h
    obtain ⟨u3, h3, h⟩ := bind_eq_ok.1 h
    obtain ⟨u4, h4, h⟩ := bind_eq_ok.1 h
    obtain ⟨u5, h5, h⟩ := bind_eq_ok.1 h
    obtain ⟨a1, b1⟩ := showRange_ok.1 h1
    obtain ⟨a2, b2⟩ := showRange_ok.1 h2
    obtain ⟨a3, b3⟩ := showRange_ok.1 h3
    refine ⟨⟨a1, a2, a3⟩, ?_, hcells.1 h4, ?_, (forM_ok _ _).1 h⟩
    · intro a ha
      simp only [List.mem_append] at ha
      rcases ha with (ha | ha) | ha
      · exact b1 a ha
      · exact b2 a ha
      · exact b3 a ha
    · intro p hp
      exact (forM_ok _ _).1 ((forM_ok _ _).1 h5 p hp)
  · rintro ⟨⟨a1, a2, a3⟩, hn, h4, h5, h6⟩
    have hfaces : List.forM m.faces (fun p => showConn p.2.f2n) = .ok () :=
      (forM_ok _ _).2 fun p hp => (forM_ok _ _).2 (h5 p hp)
    rw [showRange_ok.2 ⟨a1, fun a ha => hn a (by simp [ha])⟩, Except_bind_ok,
      showRange_ok.2 ⟨a2, fun a ha => hn a (by simp [ha])⟩, Except_bind_ok,
      showRange_ok.2 ⟨a3, fun a ha => hn a (by simp [ha])⟩, Except_bind_ok, hcells.2 h4, Except_bind_ok,
      hfaces, Except_bind_ok]
    exact (forM_ok _ _).2 h6

theorem import_shown {z : Csr} : ∀ (S : List Int) (c c' : ElemConn), S.foldlM (ElemConn.importStep z) c = .ok c' →
    (∀ n ∈ S, n ∈ diffs z.index) → (∀ p ∈ c.tbl, ∃ a l, p.2.index = .list (a :: l)) →
    ∀ p ∈ c'.tbl, ∃ a l, p.2.index = .list (a :: l)
  | [], c, c', h, _, hc => by
    simp only [List.foldlM_nil, Except_pure, Except.ok.injEq] at h
    exact h ▸ hc
  | n :: S, c, c', h, hS, hc => by
    rw [List.foldlM_cons] at h
    obtain ⟨d, hd, h⟩ := bind_eq_ok.1 h
    refine import_shown S d c' h (fun m hm => hS m (by simp [hm])) ?_
    unfold ElemConn.importStep at hd
    obtain ⟨t, _, hd⟩ := bind_eq_ok.1 hd
    obtain ⟨zi, _, hd⟩ := bind_eq_ok.1 hd
    obtain ⟨nodes, _, hd⟩ := bind_eq_ok.1 hd
    obtain ⟨k, hk, hkn⟩ := List.mem_iff_getElem.1 (hS n (by simp))
    have hne : ∃ a l, argwhereEq (diffs z.index) n = a :: l := by
      have : ((k : Nat) : Int) ∈ argwhereEq (diffs z.index) n := by
        unfold argwhereEq
        refine List.mem_map.2 ⟨(n, k), List.mem_filter.2 ⟨?_, by simp⟩, rfl⟩
        rw [List.mem_zipIdx_iff_getElem?]
        simp [List.getElem?_eq_getElem hk, hkn]
      cases hx : argwhereEq (diffs z.index) n with
      | nil => rw [hx] at this; simp at this
      | cons a l => exact ⟨a, l, rfl⟩
    obtain ⟨a, l, hl⟩ := hne
    unfold ElemConn.addElems at hd
    simp only [hl, ElemConn.newIndex] at hd
    have hset : ∀ (e : Entry), (∃ a l, e.index = .list (a :: l)) → ∀ p ∈ c.tbl.set t e, ∃ a l, p.2.index = .list (a :: l) := by
      intro e he p hp
      rcases mem_set hp with rfl | hp
      · exact he
      · exact hc p hp
    split at hd
    · rename_i old hold
      obtain ⟨il, h1, hd⟩ := bind_eq_ok.1 hd
      obtain ⟨ni, h2, hd⟩ := bind_eq_ok.1 hd
      obtain ⟨na, _, hd⟩ := bind_eq_ok.1 hd
      simp only [Except_pure, Except.ok.injEq] at hd
      subst hd
      refine hset _ ?_
      simp only [IndexList.toList, Except.ok.injEq] at h1
      subst h1
      unfold IndexList.append at h2
      obtain ⟨cur, _, h2⟩ := bind_eq_ok.1 h2
      simp only [Except_pure, Except.ok.injEq] at h2
      subst h2
      cases cur with
      | nil => exact ⟨_, _, rfl⟩
      | cons a l => exact ⟨_, _, rfl⟩
    · simp only [Except.ok.injEq] at hd
      subst hd
      exact hset _ ⟨_, _, rfl⟩

theorem ic3_faces {integ : Bool} {file : Bytes} {f : FullMesh} (h : readIc3 integ file = .ok f) :
    f.mesh.cell2node = none ∧ ∀ p ∈ f.mesh.faces, ∀ q ∈ p.2.f2n.tbl, ∃ a l, q.2.index = .list (a :: l) := by
  unfold readIc3 exportMesh at h
  obtain ⟨r, hr, h⟩ := bind_eq_ok.1 h
  obtain ⟨m1, h1, h⟩ := bind_eq_ok.1 h
  obtain ⟨c, hc, h⟩ := bind_eq_ok.1 h
  obtain ⟨m2, h2, h⟩ := bind_eq_ok.1 h
  simp only [Except_pure, Except.ok.injEq] at h
  subst h
  unfold Mesh.setCoordsNd at h1
  obtain ⟨_, _, h1⟩ := bind_eq_ok.1 h1
  simp only [Except_pure, Except.ok.injEq] at h1
  subst h1
  unfold Mesh.addFaces at h2
  rw [if_pos (by decide)] at h2
  simp only [Except.ok.injEq] at h2
  subst h2
  have key : ∀ (l : List Mark) (m : Mesh F64), (l.foldl Mesh.addBoco m).cell2node = m.cell2node ∧
      (l.foldl Mesh.addBoco m).faces = m.faces := by
    intro l
    induction l with
    | nil => intro m; exact ⟨rfl, rfl⟩
    | cons b l ih => intro m; exact ih _
  simp only [(key _ _).1, (key _ _).2]
  refine ⟨rfl, ?_⟩
  intro p hp q hq
  simp only [Mesh.new, Dict.set, List.mem_cons, List.not_mem_nil, or_false] at hp
  subst hp
  unfold ElemConn.importCompressed at hc
  exact import_shown _ _ _ hc (fun n hn => mem_npUnique.1 hn) (by simp [ElemConn.empty]) q hq

section
variable {R Loc : Type} (env : Env R)

/-- **C70, information on an IC3 file.** `cfdinfo` succeeds exactly when the reader accepts the file (with the integrity check
if asked) and there is at least one node. -/
theorem C70_info_ic3 (fmt : Option String) (check : Bool) (s : Fs Loc) (filename : Name)
    (hu : Uses fmt filename "IC3" ".ic3") :
    cfdinfo env fmt check s filename = .ok () ↔ ∃ b f, s.content (s.resolve (PyPath.parse filename).str) = some b ∧
      readIc3 check b = .ok f ∧ 0 < f.mesh.nnode := by
  unfold cfdinfo
  rw [(C70_select fmt filename).1 hu]
  simp only
  cases hb : s.content (s.resolve (PyPath.parse filename).str) with
  | none => simp
  | some b =>
    simp only [Option.some.injEq]
    cases hf : readIc3 check b with
    | error e =>
      constructor
      · intro h; cases h
      · rintro ⟨_, f, rfl, h, _⟩; rw [hf] at h; cases h
    | ok f =>
      rw [Except_bind_ok]
      obtain ⟨l, ha⟩ := accepted hf
      obtain ⟨x, y, z, hc, h1, h2, h3⟩ := ha.coords
      obtain ⟨hn, hfa⟩ := ic3_faces hf
      rw [printinfo_ok hc]
      constructor
      · rintro ⟨⟨hx, _⟩, _⟩
        exact ⟨b, f, rfl, hf, by rw [← h1]; exact List.length_pos_iff.2 hx⟩
      · rintro ⟨_, g, rfl, hg, h0⟩
        rw [hf] at hg; cases hg
        refine ⟨⟨?_, ?_, ?_⟩, fun _ _ => rfl, ?_, ?_, ?_⟩
        · exact List.length_pos_iff.1 (by rw [h1]; exact h0)
        · exact List.length_pos_iff.1 (by rw [h2]; exact h0)
        · exact List.length_pos_iff.1 (by rw [h3]; exact h0)
        · intro c hc'; rw [hn] at hc'; cases hc'
        · intro p hp q hq
          obtain ⟨a, l, e⟩ := hfa p hp q hq
          rw [e]; rfl
        · intro p hp
          obtain ⟨a, c, e, _⟩ := (ha.marks p hp).2.index
          rw [e]; rfl

/-- **C70, information on a CGNS file.** `cfdinfo` never works on a CGNS file, nor on a VTK file. -/
theorem C70_info_never (fmt : Option String) (check : Bool) (s : Fs Loc) (filename : Name)
    (h : Uses fmt filename "CGNS" ".cgns" ∨ fmt = none ∧ (PyPath.parse filename).suffix = ".vtu".toList) :
    cfdinfo env fmt check s filename = .error .type := by
  obtain ⟨_, _, q3, q4, _⟩ := C70_select fmt filename
  unfold cfdinfo
  rcases h with h | ⟨h1, h2⟩
  · rw [q3 h]
  · rw [q4 h1 h2]

open Cfd.Gmsh Cfd.Spec.Gmsh in
/-- **C70, information on a Gmsh file** that holds the given points, names and elements: `cfdinfo` succeeds exactly when every
number up to the largest is that of a point. -/
theorem C70_info_gmsh (fmt : Option String) (check : Bool) (s : Fs Loc) (filename : Name)
    (hu : Uses fmt filename "GMSH" ".msh") (b : Bytes) (hb : s.content (s.resolve (PyPath.parse filename).str) = some b)
    (m : Mesh (Option R)) (hr : Gmsh.readFile env.num (env.text b) = .ok m) (pts : List (Option (R × R × R)))
    (names : Option (List PhysName)) (elts : List Elt) (hm : IsMeshOf pts names elts m) (hn : ∀ e ∈ elts, e.nodes ≠ []) :
    cfdinfo env fmt check s filename = .ok () ↔ pts ≠ [] ∧ ∀ p ∈ pts, p.isSome := by
  unfold cfdinfo
  rw [(C70_select fmt filename).2.1 hu]
  simp only [hb, hr, Except_bind_ok]
  rw [printinfo_ok hm.coords]
  obtain ⟨hfa, _⟩ := Convert.read_shape hr
  obtain ⟨c, hcell, hcc⟩ := hm.cells
  have hidx : ∀ (i : IndexList) (n : Int) (l : List Int), i.toList = .ok l → n ∈ l → showIndex i = .ok () := by
    intro i n l hl hn
    cases i with
    | unset => simp [IndexList.toList] at hl
    | range a b => rfl
    | list l' =>
      simp only [IndexList.toList, Except.ok.injEq] at hl
      subst hl
      cases l' with
      | nil => simp at hn
      | cons a l => rfl
  have hcells : ∀ c, m.cell2node = some c → ∀ p ∈ c.tbl, showIndex p.2.index = .ok () := by
    intro c' hc' p hp
    rw [hcell] at hc'; cases hc'
    have hk : p.1 ∈ c.tbl.keys := List.mem_map_of_mem (f := Prod.fst) hp
    rw [hcc.types, mem_firstUse] at hk
    obtain ⟨e, he, hen⟩ := List.mem_map.1 hk
    have hrow : (e.nodes.map (· - 1)) ∈ (elementsOf c p.1).map (·.2) := by
      rw [hcc.rows]
      exact List.mem_map.2 ⟨e, by simp [he, hen], rfl⟩
    obtain ⟨q, hq, _⟩ := List.mem_map.1 hrow
    unfold elementsOf at hq
    rw [Dict.get?_of_mem hcc.wf.keys hp] at hq
    obtain ⟨⟨l, hl, _⟩, _⟩ := hcc.wf.entries p hp
    have : q.1 ∈ indicesOf p.2 := (List.of_mem_zip (a := q.1) (b := q.2) hq).1
    unfold indicesOf at this
    rw [hl] at this
    exact hidx _ _ _ hl this
  have hmarks : ∀ p ∈ m.bocos, showIndex p.2.index = .ok () := by
    intro p hp
    have hget := Dict.get?_of_mem hm.marks.distinct hp
    obtain ⟨e, he, hbe⟩ := (hm.marks.names p.1).1 (List.mem_map_of_mem (f := Prod.fst) hp)
    obtain ⟨_, _, _, hit⟩ := hm.marks.marks _ _ hget
    cases hne : e.nodes with
    | nil => exact absurd hne (hn e (List.mem_filter.1 he).1)
    | cons k ks =>
      have := (hit (k - 1)).2 ⟨e, he, hbe, by rw [hne]; simp⟩
      unfold markItems at this
      split at this
      · rename_i l hl
        exact hidx _ _ _ hl this
      · simp at this
  constructor
  · rintro ⟨⟨hx, _⟩, hnum, _⟩
    refine ⟨fun h => hx (by rw [h]; rfl), fun p hp => ?_⟩
    have := hnum (p.map fun q => q.1) (by simp only [List.mem_append]; exact .inl (.inl (List.mem_map_of_mem hp)))
    simpa using this
  · rintro ⟨h0, hs⟩
    refine ⟨⟨by simpa using h0, by simpa using h0, by simpa using h0⟩, ?_, hcells, ?_, hmarks⟩
    · intro a ha
      simp only [List.mem_append, List.mem_map] at ha
      rcases ha with (⟨p, hp, rfl⟩ | ⟨p, hp, rfl⟩) | ⟨p, hp, rfl⟩ <;> simpa using hs p hp
    · intro p hp; rw [hfa] at hp; cases hp

end

/-! ## Examples -/

/-- Integers as numbers; a Gmsh file of two tetrahedra, an IC3 name and a folder without other files. -/
def demoEnv : Env Int where
  num := intNum
  storeGmsh := fun x => UInt64.ofNat (x.getD 0).toNat
  text := fun _ => Convert.pairMsh.map fun l => " ".intercalate l
  tree := fun _ => .error .os
  store := fun x => UInt64.ofNat x.toNat
  so := id
  host := .little
  endian := .native
  conv := noConv

def demoFs : Fs Name := ⟨id, fun l => if l = "in/pair.msh".toList then some [] else none⟩

example : Uses none "in/pair.msh".toList "GMSH" ".msh" ∧ Uses none "a.b.ic3".toList "IC3" ".ic3" ∧
    Uses (some "CGNS") "x.hdf".toList "CGNS" ".cgns" := by
  refine ⟨.inr ⟨rfl, by decide⟩, .inr ⟨rfl, by decide⟩, .inl rfl⟩

set_option synthInstance.maxSize 2000 in
-- the whole command on the Gmsh file, then `cfdinfo` on both files
example : (match cfdwriteIc3 demoEnv .v3 none demoFs 2 "in/pair.msh".toList none with
    | some (s, r) => some (r, cfdinfo demoEnv none true s "pair.ic3".toList, cfdinfo demoEnv none true s "in/pair.msh".toList,
        cfdinfo demoEnv (some "CGNS") true s "pair.ic3".toList, cfdinfo demoEnv none true s "other.ic3".toList)
    | none => none) =
  some (.ok "pair.ic3".toList, .ok (), .ok (), .error .type, .error .runtime) := by decide +kernel

-- the whole `cfdwritecube`, in another format than the suffix says, and refusals
example : (let (s, r) := cfdwritecube demoEnv (fun _ => .inl .runtime) (some "IC3") 2 1 1 demoFs "in/pair.msh".toList
    (r, (s.content "in/pair.msh".toList).map (·.length), cfdinfo demoEnv (some "IC3") true s "in/pair.msh".toList)) =
  (.ok "in/pair.msh".toList, some 4964, .ok ()) := by decide +kernel
example : (cfdwritecube demoEnv (fun _ => .inl .runtime) none 2 1 1 demoFs "cube.msh".toList).2 = .error .type ∧
    (cfdwritecube demoEnv (fun _ => .inl .runtime) (some "VTK") 2 1 1 demoFs "cube.vtu".toList).2 = .error .exit ∧
    (cfdwritecube demoEnv (fun _ => .inl .runtime) none 2 (-1) 1 demoFs "cube.ic3".toList).2 = .error .value := by
  decide +kernel

-- the hypotheses of `C70_cube`
example : 2 ≤ 2 * 1 * 3 ∧ Small ((2 + 1) * (1 + 1) * (3 + 1)) ∧ Small (cubeFaces ⟨2, 1, 3⟩) ∧ Reorders demoEnv.so :=
  ⟨by decide, by decide, by decide, fun _ => List.Perm.refl _⟩

/-- `C70_convert_refused`: a format with no reader, and a suffix with no reader. -/
example (v : Ver) (fuel : Nat) : cfdwriteIc3 demoEnv v (some "VTK") demoFs fuel "in/pair.msh".toList none = some (demoFs, .error .exit) := by
  obtain ⟨e, h, he, -⟩ := C70_convert_refused demoEnv v (some "VTK") demoFs fuel "in/pair.msh".toList none
    (by rintro (h | h) <;> simp at h) (by rintro (h | h) <;> simp at h) (by rintro (h | h) <;> simp at h)
  rw [h, he.2 (by simp)]

/-- `C70_convert_keeps_files`. -/
example (v : Ver) (fuel : Nat) (s' : Fs Name) (r : Py Name) (b : Bytes) (hb : demoFs.content "in/pair.msh".toList = some b)
    (h : cfdwriteIc3 demoEnv v none demoFs fuel "in/pair.msh".toList none = some (s', r)) : s'.content "in/pair.msh".toList = some b :=
  C70_convert_keeps_files demoEnv v none demoFs s' fuel _ none r h _ b hb

/-- `C70_info_ic3`: no file, no information. -/
example (check : Bool) : cfdinfo demoEnv none check demoFs "none.ic3".toList ≠ .ok () := fun h => by
  obtain ⟨b, f, hb, -⟩ := (C70_info_ic3 demoEnv none check demoFs "none.ic3".toList (.inr ⟨rfl, by decide⟩)).1 h
  exact absurd hb (by rw [show demoFs.content (demoFs.resolve (PyPath.parse "none.ic3".toList).str) = none by decide]; simp)

/-- `C70_info_never`. -/
example (check : Bool) : cfdinfo demoEnv none check demoFs "in/x.cgns".toList = .error .type :=
  C70_info_never demoEnv none check demoFs _ (.inl (.inr ⟨rfl, by decide⟩))

end Cfd.Commands
