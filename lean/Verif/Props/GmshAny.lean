import Verif.Lemmas.GmshAny
import Verif.Props.Gmsh

/-! C87: Gmsh files of any origin. -/

namespace Cfd
open Spec Spec.Gmsh Gmsh

variable {R : Type} {num : PyNum R}

private theorem sections_read {s : Sections R} {msh : Lines} (hs : readSections num msh = .ok s) {names : Option (List PhysName)}
    {pts : List (Option (R × R × R))} {elts : List Elt}
    (hx : s.x = pts.map (Option.map fun q => q.1)) (hy : s.y = pts.map (Option.map fun q => q.2.1))
    (hz : s.z = pts.map (Option.map fun q => q.2.2)) (hel : s.elts = elts.map Elt.line)
    (hf0 : names = none → s.fam = none)
    (hf1 : ∀ l, names = some l → ∃ d, s.fam = some d ∧ ∀ n : Int, d.get? (toString n) = lastName l n) :
    ((∃ m, Gmsh.read num msh = .ok m) ↔ Readable names elts) ∧
    ∀ m, Gmsh.read num msh = .ok m → IsMeshWith pts (readBoundary names elts) elts m := by
  have key : ∀ m, Gmsh.read num msh = .ok m → ∃ st, analyze s = .ok st ∧ exportMesh st = .ok m := by
    intro m h
    unfold Gmsh.read at h
    rw [hs, Except_bind_ok] at h
    obtain ⟨st, h1, h2⟩ := bind_eq_ok.1 h
    exact ⟨st, h1, h2⟩
  refine ⟨⟨?_, ?_⟩, ?_⟩
  · rintro ⟨m, h⟩
    obtain ⟨st, h1, -⟩ := key m h
    exact readable_of hel hf0 hf1 h1
  · intro hr
    obtain ⟨st, m, h1, h2, -⟩ := readable_mesh hx hy hz hel hf0 hf1 hr
    refine ⟨m, ?_⟩
    unfold Gmsh.read
    rw [hs, Except_bind_ok, h1, Except_bind_ok, h2]
  · intro m h
    obtain ⟨st, h1, h2⟩ := key m h
    obtain ⟨st', m', h1', h2', hm⟩ := readable_mesh hx hy hz hel hf0 hf1 (readable_of hel hf0 hf1 h1)
    rw [h1, Except.ok.injEq] at h1'
    subst h1'
    rw [h2, Except.ok.injEq] at h2'
    subst h2'
    exact hm

private theorem fam_last {names : Option (List PhysName)} {dims : List String}
    (hd : ∀ l, names = some l → dims.length = l.length) :
    (names = none → (names.map fun l => (nameDicts l dims).1) = none) ∧
    ∀ l, names = some l → ∃ d, (names.map fun l => (nameDicts l dims).1) = some d ∧
      ∀ n : Int, d.get? (toString n) = lastName l n := by
  refine ⟨fun h => by rw [h]; rfl, ?_⟩
  rintro l rfl
  exact ⟨_, rfl, fun n => nameDicts_last (hd l rfl) n⟩

private theorem read2 {msh : Lines} {names : Option (List PhysName)} {nodes : List (Int × R × R × R)} {elts : List Elt}
    (h : IsMsh2 num msh names nodes elts) :
    ((∃ m, Gmsh.read num msh = .ok m) ↔ Readable names elts) ∧
    ∀ m, Gmsh.read num msh = .ok m → IsMeshWith (nodes.map fun p => some p.2) (readBoundary names elts) elts m := by
  obtain ⟨dims, hread, hd⟩ := readV2_ok h
  obtain ⟨v, hv, hf⟩ := h.format
  obtain ⟨f0, f1⟩ := fam_last hd
  have hs : readSections num msh = .ok (sectionsOf (nodes.map fun p => some p.2) names dims elts) := by
    rw [readSections_ok hf, if_pos hv]; exact hread
  exact sections_read hs (by simp [sectionsOf]) (by simp [sectionsOf]) (by simp [sectionsOf]) rfl f0 f1

/-- C87: which files of format 2.2 are accepted. -/
theorem C87_accepts {msh : Lines} {names : Option (List PhysName)} {nodes : List (Int × R × R × R)} {elts : List Elt}
    (h : IsMsh2 num msh names nodes elts) : (∃ m, Gmsh.read num msh = .ok m) ↔ Readable names elts :=
  (read2 h).1

/-- C87: what is read in an accepted file: the nodes in file order, the elements of highest dimension as cells, and the
boundary elements gathered by the name of the group last given to their entity. -/
theorem C87_content {msh : Lines} {names : Option (List PhysName)} {nodes : List (Int × R × R × R)} {elts : List Elt}
    (h : IsMsh2 num msh names nodes elts) {m : Mesh (Option R)} (hm : Gmsh.read num msh = .ok m) :
    IsMeshWith (nodes.map fun p => some p.2) (readBoundary names elts) elts m :=
  (read2 h).2 m hm

private theorem read4 {msh : Lines} {v : Int} {names : Option (List PhysName)} {nblocks : List (NodeBlock R)} {n npoint : Nat}
    {curves surfaces volumes : List Entity} {blocks : List EltBlock} (hv : 4 ≤ v) (hf : IsFormat num msh v)
    (hnames : HasNames num msh names)
    (hnodes : HasNodes4 num msh nblocks 1 n)
    (hn : ((nblocks.flatMap (·.nodes)).map (·.1)).Perm (pyRange 1 ((n : Int) + 1)))
    (hlast : ∀ init b rest, nblocks = init ++ b :: rest → rest.flatMap (·.nodes) = [] → b.nodes.length ≠ 1)
    (hent : HasEntities num msh npoint curves surfaces volumes) (hcurves : curves ≠ [])
    (helts : HasElts4 num msh blocks) :
    ((∃ m, Gmsh.read num msh = .ok m) ↔ Readable names (eltsFound curves surfaces blocks)) ∧
    ∀ m, Gmsh.read num msh = .ok m → ∃ pts : List (Option (R × R × R)), pts.length = n ∧
      (∀ q ∈ nblocks.flatMap (·.nodes), pts[(q.1 - 1).toNat]? = some (some q.2)) ∧
      IsMeshWith pts (readBoundary names (eltsFound curves surfaces blocks)) (eltsFound curves surfaces blocks) m := by
  obtain ⟨pts, hp, hpl, hpq⟩ := C41_nodes hnodes hn hlast
  obtain ⟨dims, hnm, hdims⟩ := readNames_ok hnames
  obtain ⟨f0, f1⟩ := fam_last hdims
  have hel := readEltsV4_ok (findEnt_ok hent hcurves) helts
  have hLu : eltsRead (foundGroup curves surfaces) blocks = eltsFound curves surfaces blocks := by
    unfold eltsRead eltsFound
    have : ∀ j, foundGroup curves surfaces j = groupFound curves surfaces j := by
      intro j
      unfold foundGroup groupFound ninth
      rfl
    simp only [this]
  have hs : readSections num msh = .ok (sectionsOf pts names dims (eltsFound curves surfaces blocks)) := by
    rw [readSections_ok hf, if_neg (by omega), if_pos hv]
    unfold readV4
    rw [hnm, Except_bind_ok, hp, Except_bind_ok, hel, Except_bind_ok, hLu]
    unfold sectionsOf
    simp only [Except_pure, Option.map_map]
    rfl
  have := sections_read hs (pts := pts) (elts := eltsFound curves surfaces blocks) rfl rfl rfl rfl f0 f1
  exact ⟨this.1, fun m hm => ⟨pts, hpl, hpq, this.2 m hm⟩⟩

/-- C87: which files of format 4.1 are accepted, their nodes being numbered from 1 on. -/
theorem C87_accepts4 {msh : Lines} {v : Int} {names : Option (List PhysName)} {nblocks : List (NodeBlock R)} {n npoint : Nat}
    {curves surfaces volumes : List Entity} {blocks : List EltBlock} (hv : 4 ≤ v) (hf : IsFormat num msh v)
    (hnames : HasNames num msh names)
    (hnodes : HasNodes4 num msh nblocks 1 n)
    (hn : ((nblocks.flatMap (·.nodes)).map (·.1)).Perm (pyRange 1 ((n : Int) + 1)))
    (hlast : ∀ init b rest, nblocks = init ++ b :: rest → rest.flatMap (·.nodes) = [] → b.nodes.length ≠ 1)
    (hent : HasEntities num msh npoint curves surfaces volumes) (hcurves : curves ≠ [])
    (helts : HasElts4 num msh blocks) :
    (∃ m, Gmsh.read num msh = .ok m) ↔ Readable names (eltsFound curves surfaces blocks) :=
  (read4 hv hf hnames hnodes hn hlast hent hcurves helts).1

/-- C87: what is read in an accepted file of format 4.1. -/
theorem C87_content4 {msh : Lines} {v : Int} {names : Option (List PhysName)} {nblocks : List (NodeBlock R)} {n npoint : Nat}
    {curves surfaces volumes : List Entity} {blocks : List EltBlock} (hv : 4 ≤ v) (hf : IsFormat num msh v)
    (hnames : HasNames num msh names)
    (hnodes : HasNodes4 num msh nblocks 1 n)
    (hn : ((nblocks.flatMap (·.nodes)).map (·.1)).Perm (pyRange 1 ((n : Int) + 1)))
    (hlast : ∀ init b rest, nblocks = init ++ b :: rest → rest.flatMap (·.nodes) = [] → b.nodes.length ≠ 1)
    (hent : HasEntities num msh npoint curves surfaces volumes) (hcurves : curves ≠ [])
    (helts : HasElts4 num msh blocks) {m : Mesh (Option R)} (hm : Gmsh.read num msh = .ok m) :
    ∃ pts : List (Option (R × R × R)), pts.length = n ∧
      (∀ q ∈ nblocks.flatMap (·.nodes), pts[(q.1 - 1).toNat]? = some (some q.2)) ∧
      IsMeshWith pts (readBoundary names (eltsFound curves surfaces blocks)) (eltsFound curves surfaces blocks) m :=
  (read4 hv hf hnames hnodes hn hlast hent hcurves helts).2 m hm

/-- C87: elements of any other type, for instance of second order, make the reader refuse a file of format 2.2. -/
theorem C87_other_types {msh : Lines} {names : Option (List PhysName)} {nodes : List (Int × R × R × R)} {elts : List Elt}
    (h : IsMsh2 num msh names nodes elts) {e : Elt} (he : e ∈ elts) (ht : e.type ∉ [1, 2, 3, 4, 5, 6, 7, 15]) :
    ∃ err, Gmsh.read num msh = .error err := by
  cases hr : Gmsh.read num msh with
  | error err => exact ⟨err, rfl⟩
  | ok m =>
    have hk := ((C87_accepts h).1 ⟨m, hr⟩).types e he
    obtain ⟨n, hn⟩ := known_entry hk
    exact absurd (List.mem_map_of_mem (f := Prod.fst) hn) ht

/-- C87: for files as the documentation describes them, this is the mesh of C42. -/
theorem C87_regular {names : Option (List PhysName)} {elts : List Elt} (hsup : ∀ e ∈ elts, e.Supported)
    (htop : 2 ≤ topDim elts) (hb : BordersOk names elts) (hg : DistinctGroups names) :
    Readable names elts ∧ ∀ e ∈ bordersOf elts, readBoundary names elts e = boundaryOf names e := by
  have htags : ∀ e ∈ bordersOf elts, e.group = e.tags[0]? ∧ e.entity = e.tags[1]? := by
    intro e he
    have := hb.tags e he
    unfold Elt.group Elt.entity
    exact ⟨List.getElem?_append_left (by omega), List.getElem?_append_left (by omega)⟩
  have hw : ∀ e ∈ elts, ∀ e' ∈ elts, e.type = e'.type → e.nodes.length = e'.nodes.length := by
    intro e he e' he' ht
    obtain ⟨t, d, h⟩ := hsup e he
    obtain ⟨t', d', h'⟩ := hsup e' he'
    rw [ht, h', Option.some.injEq] at h
    simp only [Prod.mk.injEq] at h
    exact h.2.2.symm
  have hlast : ∀ e ∈ bordersOf elts, lastGroup (bordersOf elts) e = e.tags[0]? := by
    intro e he
    unfold lastGroup
    cases hc : (bordersOf elts).reverse.find? (fun x => decide (x.entity = e.entity)) with
    | none =>
      rw [List.find?_eq_none] at hc
      exact absurd (decide_eq_true rfl) (hc e (List.mem_reverse.2 he))
    | some x =>
      have hx := List.mem_reverse.1 (List.mem_of_find?_eq_some hc)
      have hxe : x.entity = e.entity := by simpa using List.find?_some hc
      rw [Option.bind_some, (htags x hx).1]
      exact hb.entity x hx e he (by rw [← (htags x hx).2, ← (htags e he).2, hxe])
  have hfam : ∀ l, names = some l → ∀ e ∈ bordersOf elts, ∃ p ∈ l, e.tags[0]? = some p.tag ∧ familyOf l e = some p.name := by
    intro l hl e he
    obtain ⟨f, hf⟩ := Option.isSome_iff_exists.1 (hb.named l hl e he)
    unfold familyOf at hf ⊢
    obtain ⟨p, hp, hpf⟩ := Option.map_eq_some_iff.1 hf
    refine ⟨p, List.mem_of_find?_eq_some hp, ?_, by rw [hp]; rfl⟩
    have := List.find?_some hp
    simp only [decide_eq_true_eq] at this
    exact this.2
  have hname : ∀ l, names = some l → ∀ p ∈ l, lastName l p.tag = some p.name := by
    intro l hl p hp
    unfold lastName
    cases hc : l.reverse.find? (fun q => decide (q.tag = p.tag)) with
    | none =>
      rw [List.find?_eq_none] at hc
      exact absurd (decide_eq_true rfl) (hc p (List.mem_reverse.2 hp))
    | some q =>
      have hq := List.mem_reverse.1 (List.mem_of_find?_eq_some hc)
      have hqt : q.tag = p.tag := by simpa using List.find?_some hc
      rw [List.inj_on_of_nodup_map (hg l hl) hq hp hqt]
      rfl
  refine ⟨⟨fun e he => supported_known (hsup e he), htop, ?_, ?_, ?_, ?_⟩, ?_⟩
  · intro e he e' he'
    exact hw e (List.mem_of_mem_filter he) e' (List.mem_of_mem_filter he')
  · intro e he
    have := hb.tags e he
    rw [List.length_append]; omega
  · intro e he e' he' _
    exact hw e (List.mem_of_mem_filter he) e' (List.mem_of_mem_filter he')
  · intro l hl e he
    obtain ⟨p, hp, h1, -⟩ := hfam l hl e he
    exact ⟨p.tag, by rw [hlast e he, h1], p, hp, rfl⟩
  · intro e he
    cases names with
    | none => rfl
    | some l =>
      obtain ⟨p, hp, h1, h2⟩ := hfam l rfl e he
      unfold readBoundary boundaryOf
      simp only
      rw [hlast e he, h1, Option.bind_some, hname l rfl p hp, h2]

/-! ## Application -/

/-- A file with these lines of elements, one name of group for each dimension, both of number 1. -/
def oddMsh2 (lines : Lines) : Lines :=
  [["$MeshFormat"], ["2", "0", "8"], ["$EndMeshFormat"],
   ["$PhysicalNames"], ["3"], ["2", "1", "\"wall\""], ["2", "2", "\"inlet\""], ["3", "1", "\"volume\""],
   ["$EndPhysicalNames"],
   ["$Nodes"], ["4"], ["1", "0", "0", "0"], ["2", "5", "0", "0"], ["3", "0", "6", "0"], ["4", "0", "0", "7"], ["$EndNodes"],
   ["$Elements"], [toString lines.length]] ++ lines ++ [["$EndElements"]]

def oddNames : List PhysName := [⟨2, 1, "wall"⟩, ⟨2, 2, "inlet"⟩, ⟨3, 1, "volume"⟩]

/-- Two triangles of one entity in two groups, one of another entity with its group, a tetrahedron of three nodes. -/
def oddLines : Lines :=
  [["1", "2", "2", "2", "11", "1", "2", "3"], ["2", "2", "2", "1", "11", "1", "2", "4"],
   ["3", "2", "2", "2", "13", "2", "3", "4"], ["4", "4", "2", "1", "1", "1", "2", "3"]]

def oddElts : List Elt :=
  [⟨1, 2, [2, 11], [1, 2, 3]⟩, ⟨2, 2, [1, 11], [1, 2, 4]⟩, ⟨3, 2, [2, 13], [2, 3, 4]⟩, ⟨4, 4, [1, 1], [1, 2, 3]⟩]

/-- A tetrahedron of second order and a triangle. -/
def secondLines : Lines :=
  [["1", "2", "2", "1", "11", "1", "2", "3"], ["2", "11", "2", "1", "1", "1", "2", "3", "4", "1", "2", "3", "4", "1", "2"]]

def secondElts : List Elt := [⟨1, 2, [1, 11], [1, 2, 3]⟩, ⟨2, 11, [1, 1], [1, 2, 3, 4, 1, 2, 3, 4, 1, 2]⟩]

private theorem section_in (pre body post : Lines) (name : String) {msh : Lines}
    (h : msh = pre ++ [["$" ++ name]] ++ body ++ [["$End" ++ name]] ++ post)
    (h1 : ["$" ++ name] ∉ pre) (h2 : ["$End" ++ name] ∉ pre)
    (h3 : ["$End" ++ name] ∉ body) : HasSection msh name body :=
  ⟨_, _, h, h1, h2, h3⟩

private theorem odd_file {lines : Lines} {elts : List Elt}
    (h : List.Forall₂ (fun l e => IntLine intNum l (Elt.line e)) lines elts) (hend : ["$EndElements"] ∉ lines)
    (hl : intNum.int (toString lines.length) = .ok (lines.length : Int)) (hlen : [toString lines.length] ≠ ["$EndElements"]) :
    IsMsh2 intNum (oddMsh2 lines) (some oddNames) tetraNodes elts := by
  refine ⟨⟨2, by decide, "2", "0", "8", 2, [], [], ?_, by decide +kernel, rfl, by decide +kernel, by decide +kernel⟩,
    ⟨["3"], [["2", "1", "\"wall\""], ["2", "2", "\"inlet\""], ["3", "1", "\"volume\""]], ?_, ?_, ?_⟩,
    ⟨["4"], [["1", "0", "0", "0"], ["2", "5", "0", "0"], ["3", "0", "6", "0"], ["4", "0", "0", "7"]], ?_, ?_, ?_⟩,
    ⟨[toString lines.length], lines, ?_, ?_, h⟩⟩
  · exact section_in [] [["2", "0", "8"]] ((oddMsh2 lines).drop 3) _ rfl (by decide) (by decide) (by decide +kernel)
  · exact section_in [["$MeshFormat"], ["2", "0", "8"], ["$EndMeshFormat"]] _ ((oddMsh2 lines).drop 9) _ rfl (by decide +kernel)
      (by decide +kernel) (by decide +kernel)
  · repeat (first | exact .nil | refine .cons (by decide +kernel) ?_)
  · refine .cons ⟨"2", by decide +kernel, by decide +kernel⟩ (.cons ⟨"2", by decide +kernel, by decide +kernel⟩
      (.cons ⟨"3", by decide +kernel, by decide +kernel⟩ .nil))
  · exact section_in [["$MeshFormat"], ["2", "0", "8"], ["$EndMeshFormat"],
      ["$PhysicalNames"], ["3"], ["2", "1", "\"wall\""], ["2", "2", "\"inlet\""], ["3", "1", "\"volume\""],
      ["$EndPhysicalNames"]] _ ((oddMsh2 lines).drop 16) _ rfl (by decide +kernel) (by decide +kernel) (by decide +kernel)
  · repeat (first | exact .nil | refine .cons (by decide +kernel) ?_)
  · repeat (first | exact .nil | refine .cons ⟨_, _, rfl, by decide +kernel,
      .cons (by decide +kernel) (.cons (by decide +kernel) (.cons (by decide +kernel) .nil))⟩ ?_)
  · refine section_in [["$MeshFormat"], ["2", "0", "8"], ["$EndMeshFormat"],
      ["$PhysicalNames"], ["3"], ["2", "1", "\"wall\""], ["2", "2", "\"inlet\""], ["3", "1", "\"volume\""],
      ["$EndPhysicalNames"],
      ["$Nodes"], ["4"], ["1", "0", "0", "0"], ["2", "5", "0", "0"], ["3", "0", "6", "0"], ["4", "0", "0", "7"], ["$EndNodes"]]
      _ [] _ (by unfold oddMsh2; simp) (by decide +kernel) (by decide +kernel) ?_
    intro hc
    rcases List.mem_cons.1 hc with hc | hc
    · exact hlen hc.symm
    · exact hend hc
  · exact .cons (by rw [hl, h.length_eq]) .nil

theorem odd_msh : IsMsh2 intNum (oddMsh2 oddLines) (some oddNames) tetraNodes oddElts :=
  odd_file (by repeat (first | exact .nil | refine .cons (by repeat (first | exact .nil | refine .cons (by decide +kernel) ?_)) ?_))
    (by decide +kernel) (by decide +kernel) (by decide +kernel)

theorem second_msh : IsMsh2 intNum (oddMsh2 secondLines) (some oddNames) tetraNodes secondElts :=
  odd_file (by repeat (first | exact .nil | refine .cons (by repeat (first | exact .nil | refine .cons (by decide +kernel) ?_)) ?_))
    (by decide +kernel) (by decide +kernel) (by decide +kernel)

/-- It can be read, though not as the documentation says. -/
theorem odd_readable : Readable (some oddNames) oddElts := by
  refine ⟨by decide, by decide, by decide, by decide, by decide, ?_⟩
  intro l hl
  cases hl
  have : ∀ e ∈ bordersOf oddElts, lastGroup (bordersOf oddElts) e = some (if e.entity = some 11 then 1 else 2) := by decide
  intro e he
  refine ⟨_, this e he, ?_⟩
  split
  · exact ⟨⟨3, 1, "volume"⟩, by decide, rfl⟩
  · exact ⟨⟨2, 2, "inlet"⟩, by decide, rfl⟩

example : ∃ m, Gmsh.read intNum (oddMsh2 oddLines) = .ok m := (C87_accepts odd_msh).2 odd_readable

/-- Its boundaries: the first triangle is in the group of the second one, of the same entity, and this group has the name of
the group of volumes of the same number. -/
example : oddElts.map (readBoundary (some oddNames) oddElts) = [some "volume", some "volume", some "inlet", none] := by decide

example {m : Mesh (Option Int)} (h : Gmsh.read intNum (oddMsh2 oddLines) = .ok m) := C87_content odd_msh h

example : ∃ err, Gmsh.read intNum (oddMsh2 secondLines) = .error err :=
  C87_other_types second_msh (e := ⟨2, 11, [1, 1], [1, 2, 3, 4, 1, 2, 3, 4, 1, 2]⟩) (by simp [secondElts]) (by decide)

example : Readable (some tetraNames) tetraElts :=
  (C87_regular tetra_meets.2.1 (by decide) tetra_meets.2.2.2.1 tetra_meets.1).1

example : (∃ m, Gmsh.read intNum tetraMsh4 = .ok m) ↔
    Readable (some [⟨2, 4, "wall"⟩, ⟨2, 5, "inlet"⟩]) (eltsFound tetraCurves tetraSurfaces tetraEltBlocks) :=
  C87_accepts4 (by decide) tetra4_file.1 tetra4_names tetra4_file.2.1 (by decide +kernel)
    tetra4_last tetra4_file.2.2.1 (by decide) tetra4_file.2.2.2

example {m : Mesh (Option Int)} (h : Gmsh.read intNum tetraMsh4 = .ok m) :=
  C87_content4 (by decide) tetra4_file.1 tetra4_names tetra4_file.2.1 (by decide +kernel)
    tetra4_last tetra4_file.2.2.1 (by decide) tetra4_file.2.2.2 h

/-- C87: a file with tetrahedra of three nodes is accepted, and they are cells of the mesh. -/
theorem C87_node_counts_accepted : ∃ (msh : Lines) (elts : List Elt) (m : Mesh (Option Int)) (c : ElemConn),
    IsMsh2 intNum msh (some oddNames) tetraNodes elts ∧ (∃ e ∈ elts, ¬ e.Supported) ∧ Gmsh.read intNum msh = .ok m ∧
    m.cell2node = some c ∧ (elementsOf c "tetra4").map (·.2) = [[0, 1, 2]] := by
  obtain ⟨m, hm⟩ := (C87_accepts odd_msh).2 odd_readable
  obtain ⟨c, hc, hcells⟩ := (C87_content odd_msh hm).cells
  refine ⟨_, _, m, c, odd_msh, ⟨⟨4, 4, [1, 1], [1, 2, 3]⟩, by simp [oddElts], ?_⟩, hm, hc, ?_⟩
  · rintro ⟨t, d, h⟩
    exact absurd h (by simp [documented, Dict.get?])
  · rw [hcells.rows]; decide

end Cfd
