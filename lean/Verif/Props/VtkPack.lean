import Verif.Lemmas.VtkPack
import Verif.Props.VtkList
import Verif.Props.Files
import Verif.Props.Data

/-!
# Packed series of VTK files (C73, C74)
-/

namespace Cfd.VtkPack
open Cfd.Vtk Cfd.Xdmf Cfd.Spec Cfd.Spec.Vtk Cfd.Spec.VtkPack

variable {R V T K Loc : Type} [LinearOrder K] [Zero T] [DecidableEq T] [DecidableEq Loc]

/-- **C73.** If all the files are there and their cells are those of the first one in any order, up to the tolerance, with
distinct cells more than twice the tolerance apart, `vtkpack` writes one new file, named `dumped.h5` or the first free
`dumped(i).h5`, and changes no other file. This file has the points and cells of the first grid, type by type, and each value of
each variable of each file at the number in the first grid of the cell at the same place. -/
theorem C73_packs [Add K] [AddLeftMono K] [AddRightMono K] (env : PackEnv R V T K) (s : Fs Loc) (n0 : Name)
    (names : List Name) (f0 : VtkFile R V T) (files : List (VtkFile R V T)) (hd : IsDist env.dist)
    (hc : Contents env s (n0 :: names) (f0 :: files)) (hne : env.centers f0.grid ≠ [])
    (hnn : IsNearest env.dist (env.centers f0.grid) (env.nn (env.centers f0.grid)))
    (hsep : Separated env.dist env.tol (env.centers f0.grid)) (hf : ∀ f ∈ f0 :: files, SameSeries env f0 f)
    (hg : KnownCells f0.grid) (hfin : FiniteFolder s.has (PyPath.parse "dumped.h5".toList).parent) :
    ∃ n changed p h s', SafeName s.has (PyPath.parse "dumped.h5".toList) changed p ∧ Packed env f0 (f0 :: files) h ∧
      s'.content (s.resolve p.str) = some (env.enc h) ∧ (∀ l, l ≠ s.resolve p.str → s'.content l = s.content l) ∧
      ∀ fuel, n ≤ fuel → vtkpack env s fuel (n0 :: names) = some (s', .ok p.str) := by
  obtain ⟨d, e, hs⟩ := readList_ok hd hc hne hnn hsep hf
  obtain ⟨m, h, hm, hh, hp⟩ := packed_of_steps hg (fun f hf' => (hf f hf').names.2) hs
  obtain ⟨n, changed, q, hq⟩ := C35_terminates s.has _ hfin
  refine ⟨n, changed, q, h, s.write q (env.enc h), C35_safe_name _ _ _ _ _ (hq n le_rfl), hp, by simp [Fs.write],
    fun l hl => by simp [Fs.write, hl], fun fuel hfuel => ?_⟩
  have hall : ((n0 :: names).all fun n => s.has (PyPath.parse n)) = true := by
    have key : ∀ (names : List Name) (files : List (VtkFile R V T)), Contents env s names files →
        (names.all fun n => s.has (PyPath.parse n)) = true := by
      intro names files hc
      unfold Contents at hc
      induction hc with
      | nil => rfl
      | cons h _ ih =>
        obtain ⟨b, hb, -⟩ := h
        rw [List.all_cons, ih, Bool.and_true]
        unfold Fs.has
        rw [hb]; rfl
    exact key _ _ hc
  unfold vtkpack
  rw [if_pos hall, e]
  simp only
  unfold dumpSeries
  rw [hm]
  simp only
  rw [hq fuel hfuel]
  simp only
  rw [hh]

/-- **C73, existing files.** Whatever the files, their contents and the errors, no existing file is changed. -/
theorem C73_keeps_files (env : PackEnv R V T K) (s : Fs Loc) (fuel : Nat) (names : List Name) (s' : Fs Loc) (r : Py Name)
    (h : vtkpack env s fuel names = some (s', r)) (l : Loc) (b : List UInt8) (hl : s.content l = some b) :
    s'.content l = some b := by
  have hw : ∀ (changed : Bool) (p : PyPath) (x : List UInt8),
      findSafe s.has fuel (PyPath.parse "dumped.h5".toList) = some (changed, p) → (s.write p x).content l = some b := by
    intro changed p x hp
    have hfree := (C35_safe_name _ _ _ _ _ hp).1
    unfold Fs.write
    simp only
    rw [if_neg]
    · exact hl
    · rintro rfl
      unfold Fs.has at hfree
      rw [hl] at hfree
      cases hfree
  unfold vtkpack at h
  split at h
  · split at h
    · cases h; exact hl
    · unfold dumpSeries at h
      split at h
      · cases h; exact hl
      · split at h
        · cases h
        · rename_i hp
          split at h
          · cases h; exact hw _ _ _ hp
          · cases h; exact hw _ _ _ hp
  · cases h; exact hl

/-- **C73, missing file.** Nothing is read and nothing changes. -/
theorem C73_missing (env : PackEnv R V T K) (s : Fs Loc) (fuel : Nat) (names : List Name)
    (h : ∃ n ∈ names, s.content (s.resolve (PyPath.parse n).str) = none) :
    vtkpack env s fuel names = some (s, .error .runtime) := by
  obtain ⟨n, hn, hs⟩ := h
  unfold vtkpack
  rw [if_neg]
  rw [List.all_eq_true]
  intro hall
  have := hall n hn
  unfold Fs.has at this
  rw [hs] at this
  cases this

/-- A file that does not belong to the series of `f0`: another number of cells (none of the two being 1), or a cell far from
all those of `f0`. -/
def Foreign (env : PackEnv R V T K) (f0 f : VtkFile R V T) : Prop :=
  let ref := env.centers f0.grid
  let ctr := env.centers f.grid
  (ctr.length ≠ ref.length ∧ ctr.length ≠ 1 ∧ ref.length ≠ 1) ∨
    (ctr.length = ref.length ∧ ∃ p ∈ ctr, ∀ r ∈ ref, env.tol < env.dist r p)

/-- **C73, refusal.** If a file has another number of cells than the first one, or a cell without counterpart in the first one, the
command fails and nothing changes. -/
theorem C73_foreign (env : PackEnv R V T K) (s : Fs Loc) (n0 : Name) (names : List Name) (f0 : VtkFile R V T)
    (files : List (VtkFile R V T)) (hc : Contents env s (n0 :: names) (f0 :: files))
    (hnn : IsNearest env.dist (env.centers f0.grid) (env.nn (env.centers f0.grid)))
    (h : ∃ f ∈ f0 :: files, Foreign env f0 f) :
    ∃ e, ∀ fuel, vtkpack env s fuel (n0 :: names) = some (s, .error e) := by
  have hbad : ∀ f, Foreign env f0 f →
      readFile env.dist (env.nn (env.centers f0.grid)) env.tol (env.centers f0.grid) [] (env.file f) = .error .value := by
    intro f hf
    rcases hf with ⟨h1, h2, h3⟩ | ⟨h1, h2⟩
    · unfold readFile
      have : distances env.dist (env.centers f0.grid) (env.file f).centers = .error .value := by
        show distances env.dist (env.centers f0.grid) (env.centers f.grid) = .error .value
        unfold distances
        split
        · rename_i e; exact absurd (congrArg List.length e) h3
        · rename_i e _; exact absurd (congrArg List.length e) h2
        · rw [if_neg (fun e => h1 e.symm)]
      rw [this]
      rfl
    · exact C45_no_counterpart hnn [] (env.file f) h1 h2
  have key : ∀ (names : List Name) (files : List (VtkFile R V T)) (d0 : DataSetList (List V) T),
      Contents env s names files → (∃ f ∈ files, Foreign env f0 f) →
      ∃ e, names.foldlM (fun (d : DataSetList (List V) T) n => do
          let f ← env.load s n
          let l ← readFile env.dist (env.nn (env.centers f0.grid)) env.tol (env.centers f0.grid) [] (env.file f)
          return d.addDatalist l f.time) d0 = .error e := by
    intro names files d0 hc
    unfold Contents at hc
    induction hc generalizing d0 with
    | nil => rintro ⟨f, hf, -⟩; cases hf
    | @cons n f names files h hc ih =>
      rintro ⟨f', hf', hbf⟩
      obtain ⟨b, hb, hr⟩ := h
      rw [List.foldlM_cons, load_ok hb hr]
      simp only [Except_bind_ok]
      cases hrd : readFile env.dist (env.nn (env.centers f0.grid)) env.tol (env.centers f0.grid) [] (env.file f) with
      | error e => exact ⟨e, rfl⟩
      | ok l =>
        rcases List.mem_cons.1 hf' with rfl | hf'
        · rw [hbad _ hbf] at hrd; cases hrd
        · exact ih _ ⟨f', hf', hbf⟩
  have hc' := hc
  unfold Contents at hc'
  obtain ⟨⟨b, hb, hr⟩, -⟩ := List.forall₂_cons.1 hc'
  have ha : DataAttrs.init .dataSetList "cellaverage" 1 "instant" = .ok ⟨.dataSetList, "cellaverage", 1, "instant"⟩ := by
    decide
  obtain ⟨e, he⟩ := key _ _ ⟨⟨.dataSetList, "cellaverage", 1, "instant"⟩, []⟩ hc h
  have hread : readList env s (n0 :: names) = .error e := by
    unfold readList
    simp only
    rw [load_ok hb hr]
    simp only [Except_bind_ok]
    rw [ha]
    simp only [Except_bind_ok]
    rw [he]
    rfl
  by_cases hall : ((n0 :: names).all fun n => s.has (PyPath.parse n)) = true
  · refine ⟨e, fun fuel => ?_⟩
    unfold vtkpack
    rw [if_pos hall, hread]
  · refine ⟨.runtime, fun fuel => ?_⟩
    unfold vtkpack
    rw [if_neg hall]

/-! ## C74 -/

/-- **C74.** The mesh stored with the series numbers its cells type after type, by increasing VTK code, whereas the data are in the
order of the first grid: number `j` is the same cell on both sides exactly when the cells of the first grid are listed by
increasing code. -/
theorem C74_numbers_partial {R : Type} (g : Grid (R × R × R)) (hg : KnownCells g) :
    ∃ m c, exportMesh g = .ok m ∧ m.cell2node = some c ∧ (SameNumbers g c ↔ CodesSorted g) := by
  obtain ⟨m, c, e, hc, al, k, el⟩ := exportMesh_elements hg
  refine ⟨m, c, e, hc, ?_⟩
  have hmem : ∀ a ∈ g.items, a.1 ∈ uniqueTypes g := fun a ha => by
    unfold uniqueTypes
    rw [mem_npUnique]
    exact List.mem_map.2 ⟨a, ha, rfl⟩
  unfold CodesSorted
  rw [← grouped_eq (·.1) (uniqueTypes g) (npUnique_sorted _) g.items hmem, ← el]
  have hlen : (elements c).length = g.items.length := by
    have := congrArg List.length al
    simpa [allIndices, length_pyRange] using this
  have hidx : ∀ (j : Nat) (x : String × Int × List Int), (elements c)[j]? = some x → x.2.1 = j := by
    intro j x hx
    have h1 : (allIndices c)[j]? = some x.2.1 := by unfold allIndices; rw [List.getElem?_map, hx]; rfl
    have hj : j < g.items.length := by rw [← hlen]; exact (List.getElem?_eq_some_iff.1 hx).1
    rw [al] at h1
    unfold pyRange at h1
    rw [List.getElem?_map, List.getElem?_range (by omega)] at h1
    simpa using h1.symm
  constructor
  · intro h
    apply List.ext_getElem?
    intro j
    by_cases hj : j < g.items.length
    · rw [List.getElem?_map]
      obtain ⟨x, hx, e1, e2⟩ := h j g.items[j] (List.getElem?_eq_getElem hj)
      obtain ⟨j', hj'⟩ := List.getElem?_of_mem e2
      have := hidx j' _ hj'
      simp only at this
      have : j = j' := by omega
      subst this
      rw [hj', List.getElem?_eq_getElem hj]
      simp [codeOf_name hx, e1]
    · rw [List.getElem?_eq_none (by simpa [hlen] using hj), List.getElem?_eq_none (by simpa using hj)]
  · intro h j cell hcell
    rw [← h, List.getElem?_map] at hcell
    obtain ⟨x, hx, ex⟩ := Option.map_eq_some_iff.1 hcell
    subst ex
    obtain ⟨y, hy, ey⟩ := k x.1 (by
      have := List.mem_of_getElem? hx
      unfold elements at this
      obtain ⟨p, hp, hx'⟩ := List.mem_flatMap.1 this
      obtain ⟨q, -, rfl⟩ := List.mem_map.1 hx'
      exact List.mem_map.2 ⟨p, hp, rfl⟩)
    refine ⟨y, hy, by rw [← ey, codeOf_name hy], ?_⟩
    have := hidx j x hx
    rw [ey, ← this]
    exact List.mem_of_getElem? hx

/-- **C74, grids read again.** h5py lists the types by alphabetical order of their names: the grid read in the dumped file has the cells
of the original one in the same order exactly when they were listed in this order. -/
theorem C74_read_again_partial {P : Type} (order : Dict String Arr2 → Dict String Arr2)
    (horder : ∀ d, List.Perm (order d) d ∧ (order d).keys.Pairwise (· ≤ ·)) (g : Grid P) (hg : KnownCells g) :
    ∃ h g', dumpMesh g = .ok h ∧ importMesh order h = .ok g' ∧ (g'.items = g.items ↔ NamesSorted g) := by
  obtain ⟨D, hD, hd, hi, hcn, hmem⟩ := hdf_items order (fun d => (horder d).1) g hg
  refine ⟨_, _, hd, hi, ?_⟩
  have hname : ∀ a ∈ g.items, ∃ y ∈ vtkTypes, a.1 = y.2.1 ∧ nameOf a.1 = y.1 := by
    intro a ha
    obtain ⟨⟨y, hy, e, -⟩, -⟩ := hg a ha
    exact ⟨y, hy, e, by rw [e, nameOf_code hy]⟩
  have hnd : (order D).keys.Nodup := by
    have h1 : ((order D).keys.map codeOf).Nodup := by simpa [Dict.keys, Function.comp_def] using hcn
    exact h1.of_map _
  have hL : (order D).keys.Pairwise (· < ·) :=
    ((horder D).2.and hnd).imp fun ⟨h, h'⟩ => lt_of_le_of_ne h h'
  have hin : ∀ a ∈ g.items, nameOf a.1 ∈ (order D).keys := by
    intro a ha
    have h1 : a.1 ∈ (cellsDict g).keys := by
      rw [cellsDict_keys, uniqueTypes, mem_npUnique]
      exact List.mem_map.2 ⟨a, ha, rfl⟩
    obtain ⟨q, hq, e⟩ := List.mem_map.1 h1
    refine List.mem_map.2 ⟨(nameOf q.1, q.2), ?_, by rw [← e]⟩
    rw [(horder D).1.mem_iff, hD]
    exact List.mem_map.2 ⟨q, hq, rfl⟩
  have hr : ∀ rows, (Arr2.ofRows rows).rows = rows := by intro rows; cases rows <;> rfl
  have hitems : (((order D).map fun p => (codeOf p.1, p.2)).flatMap fun p => p.2.rows.map fun r => (p.1, r)) =
      grouped (fun a : Int × List Int => nameOf a.1) (order D).keys g.items := by
    unfold grouped Dict.keys
    rw [List.flatMap_map, List.flatMap_map]
    refine List.flatMap_congr fun p hp => ?_
    obtain ⟨q, hq, rfl⟩ := hmem p hp
    obtain ⟨y, hy, e, -⟩ := cellsDict_known hg q hq
    unfold cellsDict at hq
    obtain ⟨t, ht, rfl⟩ := List.mem_map.1 hq
    simp only at e
    subst e
    simp only [hr, nameOf_code hy, codeOf_name hy, List.map_map]
    have hf : (g.items.filter fun c => decide (c.1 = y.2.1)) = g.items.filter fun c => decide (nameOf c.1 = y.1) := by
      refine List.filter_congr fun c hc => ?_
      obtain ⟨z, hz, e1, e2⟩ := hname c hc
      rw [e2, e1]
      simp [(codes_inj z hz y hy).1]
    rw [← hf]
    refine Eq.trans (List.map_congr_left ?_) (List.map_id _)
    intro a ha
    simp only [List.mem_filter, decide_eq_true_eq] at ha
    simp [← ha.2]
  rw [hitems, grouped_eq _ _ hL _ hin]
  unfold NamesSorted
  constructor
  · refine fun h => h.imp_of_mem ?_
    intro a b ha hb hab x hx y hy ex ey
    rw [← ex, ← ey, nameOf_code hx, nameOf_code hy] at hab
    exact hab
  · refine fun h => h.imp_of_mem ?_
    intro a b ha hb hab
    obtain ⟨x, hx, e1, e2⟩ := hname a ha
    obtain ⟨y, hy, e3, e4⟩ := hname b hb
    rw [e2, e4]
    exact hab x hx y hy e1.symm e3.symm

/-- **C74, refutation.** With a tetrahedron after a hexahedron, the numbers of the mesh are not those of the data. -/
theorem C74_mixed_refuted : ∃ (g : Grid (Int × Int × Int)) (m : Mesh Int) (c : ElemConn), KnownCells g ∧
    exportMesh g = .ok m ∧ m.cell2node = some c ∧ ¬ SameNumbers g c := by
  have hg : KnownCells (⟨[(12, [0, 1, 2, 3, 4, 5, 6, 7]), (10, [1, 2, 6, 8])],
      (List.range 9).map fun i => ((i : Int), (i : Int) * i, (i : Int) * i * i)⟩ : Grid (Int × Int × Int)) := by
    unfold KnownCells; decide +kernel
  obtain ⟨m, c, h1, h2, h3⟩ := C74_numbers_partial _ hg
  refine ⟨_, m, c, hg, h1, h2, ?_⟩
  rw [h3]
  unfold CodesSorted
  decide

/-! ## Examples -/

/-- Two tetrahedra far from each other. -/
def twoGrid : Grid (Int × Int × Int) :=
  ⟨[(10, [0, 1, 2, 3]), (10, [4, 5, 6, 7])],
    [(0, 0, 0), (1, 0, 0), (0, 1, 0), (0, 0, 1), (10, 0, 0), (11, 0, 0), (10, 1, 0), (10, 0, 1)]⟩

/-- The same in the other order. -/
def twoGridBack : Grid (Int × Int × Int) := ⟨twoGrid.items.reverse, twoGrid.points⟩

/-- The corner of a cell stands for its center; files are their number; distances along the first axis. -/
def demoPack : PackEnv Int String Nat Int where
  read := fun _ b => match b with
    | [0] => .ok ⟨twoGrid, [("p", ["a", "b"])], some 3⟩
    | [1] => .ok ⟨twoGridBack, [("p", ["c", "d"]), ("q", ["e", "f"])], none⟩
    | [2] => .ok ⟨⟨[(10, [0, 1, 2, 3])], twoGrid.points⟩, [("p", ["g"])], none⟩
    | [3] => .ok ⟨⟨[(10, [0, 1, 2, 3]), (10, [4, 5, 6, 7])], twoGrid.points.map fun p => (p.1 + 5, p.2)⟩, [("p", ["h", "i"])], none⟩
    | _ => .error .os
  centers := fun g => g.items.map fun c => (c.2.head?.bind fun q => g.points[q.toNat]?).getD (0, 0, 0)
  dist := fun a b => intDist a.1 b.1
  nn := fun ref p => closest (ref.map (·.1)) p.1
  tol := 1
  enc := fun h => List.replicate h.sets.length 0
  junk := []

/-- Files `a.vtu` to `d.vtu`. -/
def demoFs : Fs Name :=
  ⟨id, fun l => if l = "a.vtu".toList then some [0] else if l = "b.vtu".toList then some [1]
    else if l = "c.vtu".toList then some [2] else if l = "d.vtu".toList then some [3] else none⟩

theorem demo_dist : IsDist demoPack.dist where
  symm a b := intDist_isDist.symm a.1 b.1
  triangle a b c := intDist_isDist.triangle a.1 b.1 c.1

theorem demo_nearest (ref : List (Int × Int × Int)) (h : ref ≠ []) : IsNearest demoPack.dist ref (demoPack.nn ref) := by
  intro p
  obtain ⟨r, h1, h2⟩ := closest_isNearest (ref.map (·.1)) (by simpa using h) p.1
  rw [List.getElem?_map] at h1
  obtain ⟨q, hq, rfl⟩ := Option.map_eq_some_iff.1 h1
  exact ⟨q, hq, fun r' hr' => h2 r'.1 (List.mem_map.2 ⟨r', hr', rfl⟩)⟩

theorem demoFs_finite : FiniteFolder demoFs.has (PyPath.parse "dumped.h5".toList).parent := by
  refine ⟨["a.vtu".toList, "b.vtu".toList, "c.vtu".toList, "d.vtu".toList], fun n hn => ?_⟩
  have e : (PyPath.parse "dumped.h5".toList).parent = ⟨false, []⟩ := by decide
  rw [e] at hn
  have hs : (child ⟨false, []⟩ n).str = n := by
    simp [child, PyPath.str, List.intercalate]
  unfold Fs.has at hn
  rw [hs] at hn
  simp only [demoFs, id] at hn
  by_contra h
  simp only [List.mem_cons, List.not_mem_nil, or_false, not_or] at h
  rw [if_neg h.1, if_neg h.2.1, if_neg h.2.2.1, if_neg h.2.2.2] at hn
  cases hn

example : ∃ n changed p h s', SafeName demoFs.has (PyPath.parse "dumped.h5".toList) changed p ∧
    Packed demoPack ⟨twoGrid, [("p", ["a", "b"])], some 3⟩
      [⟨twoGrid, [("p", ["a", "b"])], some 3⟩, ⟨twoGridBack, [("p", ["c", "d"]), ("q", ["e", "f"])], none⟩] h ∧
    s'.content (demoFs.resolve p.str) = some (demoPack.enc h) ∧
    (∀ l, l ≠ demoFs.resolve p.str → s'.content l = demoFs.content l) ∧
    ∀ fuel, n ≤ fuel → vtkpack demoPack demoFs fuel ["a.vtu".toList, "b.vtu".toList] = some (s', .ok p.str) := by
  refine C73_packs demoPack demoFs _ _ _ _ demo_dist ?_ (by decide) (demo_nearest _ (by decide)) ?_ ?_ ?_ demoFs_finite
  · exact .cons ⟨[0], by decide, rfl⟩ (.cons ⟨[1], by decide, rfl⟩ .nil)
  · intro i j a b
    have e : demoPack.centers twoGrid = [(0, 0, 0), (10, 0, 0)] := by decide
    simp only [e]
    rcases i with - | - | i <;> rcases j with - | - | j <;> simp <;> intros <;> subst_vars <;> decide
  · intro f hf
    simp only [List.mem_cons, List.not_mem_nil, or_false] at hf
    rcases hf with rfl | rfl
    · refine ⟨⟨id, by decide, by decide, fun _ _ _ _ h => h, ?_⟩, ?_, by decide, by decide⟩
      · intro i p r h1 h2
        have h3 := h1.symm.trans h2
        cases h3
        simp [demoPack, intDist]
      · intro name v hv
        have := Dict.mem_of_get? hv
        simp only [List.mem_singleton, Prod.mk.injEq] at this
        obtain ⟨-, rfl⟩ := this
        decide
    · refine ⟨⟨fun i => 1 - i, by decide, by decide, ?_, ?_⟩, ?_, by decide, by decide⟩
      · intro i j hi hj
        have e : (demoPack.centers twoGridBack).length = 2 := by decide
        simp only [e] at hi hj
        omega
      · intro i p r
        have e1 : demoPack.centers twoGrid = [(0, 0, 0), (10, 0, 0)] := by decide
        have e2 : demoPack.centers twoGridBack = [(10, 0, 0), (0, 0, 0)] := by decide
        simp only [e1, e2]
        rcases i with - | - | i <;> simp <;> intros <;> subst_vars <;> decide
      · intro name v hv
        have := Dict.mem_of_get? hv
        simp only [List.mem_cons, List.not_mem_nil, or_false, Prod.mk.injEq] at this
        rcases this with ⟨-, rfl⟩ | ⟨-, rfl⟩ <;> decide
  · show KnownCells twoGrid
    unfold KnownCells; decide +kernel

/-- **C54, dumped file.** In the file of a list made by any additions, the group of the i-th addition has the time given then,
unless it is zero, and no other; there is no other time. -/
theorem C54_dumped_times {R V T : Type} [Zero T] [DecidableEq T] (m : Mesh R) (attrs : DataAttrs)
    (l : List (Dict String V × Option T)) (h : H5 R V T) (hh : dumpHdf m (addAll (⟨attrs, []⟩ : DataSetList V T) l) = .ok h) :
    (∀ (i : Nat) (t : T), (stepGroup i, t) ∈ h.times ↔ t ≠ 0 ∧ ∃ data, l[i]? = some (data, some t)) ∧
    ∀ p ∈ h.times, ∃ i, p.1 = stepGroup i := by
  rw [dumpHdf_times hh, C54_steps]
  simp only [List.nil_append]
  have hg : ∀ i, gpath i = stepGroup i := fun _ => rfl
  have hinj : ∀ i j, gpath i = gpath j → i = j := by
    intro i j hij
    exact groupName_inj ((String.append_right_inj _).1 hij)
  constructor
  · intro i t
    rw [List.mem_flatMap]
    constructor
    · rintro ⟨⟨s, j⟩, hs, ht⟩
      obtain ⟨t', ht', he⟩ := List.mem_map.1 ht
      obtain ⟨e1, e2⟩ := Prod.mk.inj he
      subst e2
      have hj : j = i := hinj _ _ e1
      subst hj
      have hs' := List.mem_zipIdx_iff_getElem?.1 hs
      simp only at hs'
      rw [List.getElem?_map, Option.map_eq_some_iff] at hs'
      obtain ⟨⟨data, time⟩, hl, rfl⟩ := hs'
      simp only [Option.mem_toList] at ht'
      by_cases h0 : time = some 0
      · simp [h0] at ht'
      · rw [if_neg h0] at ht'
        have ht' : time = some t' := ht'
        subst ht'
        exact ⟨fun h => h0 (by rw [h]), data, hl⟩
    · rintro ⟨h0, data, hl⟩
      refine ⟨((data, some t), i), List.mem_zipIdx_iff_getElem?.2 ?_, ?_⟩
      · simp only
        rw [List.getElem?_map, hl]
        simp [h0]
      · simp [stepTimes, hg]
  · intro p hp
    obtain ⟨⟨s, j⟩, -, ht⟩ := List.mem_flatMap.1 hp
    obtain ⟨t', -, rfl⟩ := List.mem_map.1 ht
    exact ⟨j, rfl⟩

/-- Times 4, none and 0. -/
example : ∃ h, dumpHdf (R := Int) { (Mesh.new 0 0 : Mesh Int) with cell2node := some ElemConn.empty, coords := some ([], [], []) }
      (addAll (⟨⟨.dataSetList, "cellaverage", 1, "timeevol"⟩, []⟩ : DataSetList Nat Int) [([], some 4), ([], none), ([], some 0)]) = .ok h ∧
    ("/datalist/i000000", 4) ∈ h.times ∧ ∀ t, ("/datalist/i000002", t) ∉ h.times := by
  obtain ⟨h, hh⟩ := exists_of_isOk (x := dumpHdf (R := Int) { (Mesh.new 0 0 : Mesh Int) with cell2node := some ElemConn.empty, coords := some ([], [], []) }
      (addAll (⟨⟨.dataSetList, "cellaverage", 1, "timeevol"⟩, []⟩ : DataSetList Nat Int) [([], some 4), ([], none), ([], some 0)])) (by decide +kernel)
  have := (C54_dumped_times _ _ _ h hh).1
  refine ⟨h, hh, (this 0 4).2 ⟨by decide, _, rfl⟩, fun t ht => ?_⟩
  obtain ⟨h0, data, he⟩ := (this 2 t).1 ht
  simp at he
  exact h0 he.2.symm

-- the values of the second file are stored in the order of the cells of the first one
example : (vtkpack demoPack demoFs 5 ["a.vtu".toList, "b.vtu".toList]).map (·.2) = some (.ok "dumped.h5".toList) ∧
    (do
      let (g, d) ← readList demoPack demoFs ["a.vtu".toList, "b.vtu".toList]
      let h ← seriesHdf g d
      return (h.sets.get? "/datalist/i000001/q", h.times) : Py _) =
      .ok (some (.data ["f", "e"]), [("/datalist/i000000", 3)]) := by decide +kernel

-- a file moved away: nothing is written
example : ∃ e, ∀ fuel, vtkpack demoPack demoFs fuel ["a.vtu".toList, "d.vtu".toList] = some (demoFs, .error e) :=
  C73_foreign demoPack demoFs _ _ ⟨twoGrid, [("p", ["a", "b"])], some 3⟩
    [⟨⟨[(10, [0, 1, 2, 3]), (10, [4, 5, 6, 7])], twoGrid.points.map fun p => (p.1 + 5, p.2)⟩, [("p", ["h", "i"])], none⟩]
    (.cons ⟨[0], by decide, rfl⟩ (.cons ⟨[3], by decide, rfl⟩ .nil)) (demo_nearest _ (by decide))
    ⟨_, List.mem_cons_of_mem _ (List.mem_singleton.2 rfl), .inr (by decide +kernel)⟩

example : vtkpack demoPack demoFs 5 ["a.vtu".toList, "none.vtu".toList] = some (demoFs, .error .runtime) :=
  C73_missing _ _ _ _ ⟨"none.vtu".toList, by simp, by decide⟩

/-- **C73, files of one cell.** A file with a single cell, at the place of the first cell of the first file, is accepted although the
first file has two cells: the series then has one value for two cells. -/
theorem C73_single_cell_accepted :
    (vtkpack demoPack demoFs 5 ["a.vtu".toList, "c.vtu".toList]).map (·.2) = some (.ok "dumped.h5".toList) ∧
    (readList demoPack demoFs ["a.vtu".toList, "c.vtu".toList]).map (fun x => (x.1.items.length, x.2.steps.map (·.1))) =
      .ok (2, [[("p", ["a", "b"])], [("p", ["g"])]]) := by decide +kernel

example : KnownCells twoGrid ∧ CodesSorted twoGrid := by
  unfold KnownCells CodesSorted; decide +kernel

/-- `C74_numbers_partial`, `C74_read_again_partial`. -/
example := C74_numbers_partial twoGrid (by unfold KnownCells; decide +kernel)
example (order : Dict String Arr2 → Dict String Arr2) (horder : ∀ d, List.Perm (order d) d ∧ (order d).keys.Pairwise (· ≤ ·)) :=
  C74_read_again_partial order horder twoGrid (by unfold KnownCells; decide +kernel)

/-- `C73_keeps_files`. -/
example (fuel : Nat) (s' : Fs Name) (r : Py Name) (h : vtkpack demoPack demoFs fuel ["a.vtu".toList, "b.vtu".toList] = some (s', r)) :
    s'.content "a.vtu".toList = some [0] :=
  C73_keeps_files demoPack demoFs fuel _ s' r h _ _ (by decide)

end Cfd.VtkPack
