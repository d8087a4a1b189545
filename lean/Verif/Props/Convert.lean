import Verif.Lemmas.Convert
import Verif.Props.Gmsh
import Verif.Props.Files

/-! # C64: a Gmsh file converted to an IC3 file -/

namespace Cfd.Convert
open Cfd.Spec Cfd.Spec.Ic3 Cfd.Spec.Gmsh Cfd.Spec.Convert Cfd.Ic3 Cfd.Gmsh

variable {R : Type} {num : PyNum R}

private theorem cells_supported {elts : List Elt} (hsup : ∀ e ∈ elts, e.Supported) : ∀ e ∈ cellsOf elts, e.Supported :=
  fun e he => hsup e (List.mem_of_mem_filter he)

private theorem cells_some {elts : List Elt} (htop : 2 ≤ topDim elts) : cellsOf elts ≠ [] := by
  have key : ∀ l : List Elt, l ≠ [] → ∃ e ∈ l, e.dim = topDim l := by
    intro l
    induction l with
    | nil => intro h; exact absurd rfl h
    | cons a t ih =>
      intro _
      show ∃ e ∈ a :: t, e.dim = max a.dim (topDim t)
      by_cases ht : t = []
      · subst ht; exact ⟨a, by simp, by simp [topDim]⟩
      · obtain ⟨e, he, h⟩ := ih ht
        by_cases hle : a.dim ≤ topDim t
        · exact ⟨e, by simp [he], by rw [h, max_eq_right hle]⟩
        · exact ⟨a, by simp, by rw [max_eq_left (by omega)]⟩
  have hne : elts ≠ [] := by rintro rfl; simp [topDim] at htop
  obtain ⟨e, he, h⟩ := key elts hne
  intro hc
  have : e ∈ cellsOf elts := by unfold cellsOf; simp [he, h]
  rw [hc] at this; cases this

/-- The imported mesh is a mesh of cells and node marks. -/
theorem imported_cells {msh : Lines} {m : Mesh (Option R)} {pts : List (Option (R × R × R))}
    {names : Option (List PhysName)} {elts : List Elt} (hread : Gmsh.read num msh = .ok m)
    (hm : IsMeshOf pts names elts m) (htop : 2 ≤ topDim elts) (hg : GoodNames names elts) (store : Option R → F64)
    {c : ElemConn} (hc : m.cell2node = some c) (hcc : IsCells (cellsOf elts) c) :
    CellMesh (stored store m) c where
  cells := hc
  conn := hcc.wf
  some := by
    intro h
    have := (cells_perm hcc).length_eq
    rw [h, List.length_map, List.length_map] at this
    exact cells_some htop (List.length_eq_zero_iff.1 this.symm)
  numbering := valid_of_perm_pyRange (n := (cellsOf elts).length) (by rw [hcc.indices])
  ncell := by
    show m.ncell = _
    rw [hm.ncell, hcc.count]
  noFaces := (read_shape hread).1
  coords := by
    intro x y z h
    simp only [stored, hm.coords, Option.map_some, Option.some.injEq, Prod.mk.injEq] at h
    obtain ⟨rfl, rfl, rfl⟩ := h
    simp [stored, hm.nnode]
  markKeys := hm.marks.distinct
  onNodes := by
    intro p hp
    obtain ⟨l, h⟩ := (read_shape hread).2 p hp
    rw [h]; simp
  marksSet := by
    intro p hp
    obtain ⟨l, h⟩ := (read_shape hread).2 p hp
    rw [h]; simp
  notInternal := by
    intro p hp
    obtain ⟨l, h⟩ := (read_shape hread).2 p hp
    rw [h]; simp
  notReserved := by
    constructor
    · intro h
      exact (hg _ ((hm.marks.names _).1 h)).2.1 rfl
    · intro h
      exact (hg _ ((hm.marks.names _).1 h)).2.2 rfl

private theorem face_width {c : ElemConn} {elts : List Elt} (hcc : IsCells (cellsOf elts) c)
    (hs : ∀ e ∈ cellsOf elts, e.Supported) :
    ∀ o ∈ facesOfCells gmshElem2faces c, 1 ≤ o.1.length ∧ o.1.length ≤ 4 := by
  intro o ho
  obtain ⟨e, he, hn⟩ := (face_iff hcc hs (o.1.map (· + 1))).1 ⟨o, ho, rfl⟩
  unfold eltFaces at hn
  simp only [List.mem_flatMap, List.mem_map] at hn
  obtain ⟨q, hq, f, hf, hfo⟩ := hn
  have h1 := (gmshTable_range _ (supported_entry (hs e he)) q hq f hf).2
  have h2 := congrArg List.length hfo
  simp only [List.length_map, List.length_reverse] at h2
  omega

private theorem conforming_of {c : ElemConn} {elts : List Elt} (hcc : IsCells (cellsOf elts) c)
    (hs : ∀ e ∈ cellsOf elts, e.Supported) (h : NoTriple elts) : Conforming gmshElem2faces c := by
  intro o ho
  obtain ⟨e, he, hn⟩ := (face_iff hcc hs (o.1.map (· + 1))).1 ⟨o, ho, rfl⟩
  rw [← sharing_eq hcc hs]
  exact h e he _ hn

private theorem holds_iff {m : Mesh (Option R)} {pts : List (Option (R × R × R))} {names : Option (List PhysName)}
    {elts : List Elt} (hm : IsMeshOf pts names elts m) {name : String} {b : Mark} (hb : m.bocos.get? name = some b)
    (n : List Int) : (∀ k ∈ n, k ∈ markItems b) ↔ NodesIn names elts name (n.map (· + 1)) := by
  obtain ⟨-, -, -, h⟩ := hm.marks.marks name b hb
  unfold NodesIn
  constructor
  · intro hk k hk'
    obtain ⟨j, hj, rfl⟩ := List.mem_map.1 hk'
    exact (h j).1 (hk j hj)
  · intro hk k hk'
    exact (h k).2 (hk _ (List.mem_map_of_mem hk'))

private theorem nodesIn_of_inFile {names : Option (List PhysName)} {elts : List Elt} {name : String} {n : List Int}
    (h : InFile names elts name n) : NodesIn names elts name n := by
  obtain ⟨e, he, hb, hp⟩ := h
  intro k hk
  exact ⟨e, he, hb, hp.mem_iff.1 hk⟩

private theorem isBoundary_of_inFile {names : Option (List PhysName)} {elts : List Elt} {name : String} {n : List Int}
    (h : InFile names elts name n) : IsBoundary names elts name := by
  obtain ⟨e, he, hb, _⟩ := h
  exact ⟨e, he, hb⟩

/-- Items of two zones. -/
theorem zone_unique {g : Mesh F64} (h : (marked g).Nodup) {a b : String} {x y : Mark}
    (ha : g.bocos.get? a = some x) (hb : g.bocos.get? b = some y) {i : Int} (hx : i ∈ markItems x) (hy : i ∈ markItems y) :
    a = b := by
  by_contra hne
  unfold marked at h
  rw [List.nodup_flatMap] at h
  have hp := h.2
  let D : String × Mark → String × Mark → Prop := fun p q => p.1 ≠ q.1 → List.Disjoint (markItems p.2) (markItems q.2)
  have hsymm : Std.Symm D := ⟨fun p q h hne => (h (Ne.symm hne)).symm⟩
  have hall : ∀ p ∈ g.bocos, ∀ q ∈ g.bocos, D p q := by
    intro p hp' q hq
    refine List.Pairwise.forall_of_forall (R := D) (l := g.bocos) ?_ ?_ hp' hq
    · intro p _ hpp; exact absurd rfl hpp
    · refine hp.imp ?_
      intro p q hd _
      exact hd
  exact hall _ (Dict.mem_of_get? ha) _ (Dict.mem_of_get? hb) hne hx hy

/-- From the mesh read again to the statement on the Gmsh file. -/
theorem converted_of {msh : Lines} {m : Mesh (Option R)} {pts : List (Option (R × R × R))}
    {names : Option (List PhysName)} {elts : List Elt} (hread : Gmsh.read num msh = .ok m)
    (hm : IsMeshOf pts names elts m) (hsup : ∀ e ∈ elts, e.Supported) (store : Option R → F64)
    {c : ElemConn} (hcc : IsCells (cellsOf elts) c) {lb li : List Face} {g : Mesh F64}
    (h : FromCells gmshElem2faces c (stored store m) lb li g) :
    Converted store pts names elts c lb li g := by
  have hs := cells_supported hsup
  have hskin : ∀ f ∈ lb, OnSkin elts (fileNodes f) := by
    intro f hf
    obtain ⟨a, -, h2⟩ := h.facesOf.boundary f hf
    have hmem : (f.1, a) ∈ facesOfCells gmshElem2faces c := (mem_facesOn.1 (by rw [h2]; simp : (f.1, a) ∈ facesOn _ c f.1)).1
    refine ⟨(face_iff hcc hs _).1 ⟨_, hmem, rfl⟩, ?_⟩
    unfold fileNodes
    rw [sharing_eq hcc hs, h2]; rfl
  have hzone : ∀ name, IsBoundary names elts name → ∃ b, g.bocos.get? name = some b ∧ b.geodim = .bdface ∧
      b.type = "boundary" ∧
      ∀ i : Int, i ∈ markItems b ↔ 0 ≤ i ∧ ∃ f, lb[i.toNat]? = some f ∧ NodesIn names elts name (fileNodes f) := by
    intro name hn
    obtain ⟨b0, hb0⟩ := Dict.mem_keys_iff.1 ((hm.marks.names name).2 hn)
    obtain ⟨b, hb, h1, h2, h3⟩ := h.marks name b0 hb0
    obtain ⟨-, -, ht, -⟩ := hm.marks.marks name b0 hb0
    refine ⟨b, hb, h1, by rw [h2, ht], ?_⟩
    intro i
    rw [h3]
    unfold Holds
    simp only [holds_iff hm hb0]
    rfl
  refine ⟨hcc, ?_, ?_, ?_, h.facesOf, h.faces, hzone, ?_, ?_, h.tiles⟩
  · rw [h.ncell]; exact hm.ncell
  · rw [h.nnode]; exact hm.nnode
  · rw [h.coords]
    simp only [stored, hm.coords, Option.map_some, List.map_map, Function.comp_def]
  · intro hcl name b hn hb i
    obtain ⟨b', hb', -, -, hz⟩ := hzone name hn
    rw [hb] at hb'; cases hb'
    rw [hz]
    constructor
    · rintro ⟨h0, f, hf, hk⟩
      refine ⟨h0, f, hf, ?_⟩
      have hfl := List.mem_of_getElem? hf
      obtain ⟨name', hin⟩ := hcl _ (hskin f hfl)
      obtain ⟨b2, hb2, -, -, hz2⟩ := hzone name' (isBoundary_of_inFile hin)
      have hi2 : i ∈ markItems b2 := (hz2 i).2 ⟨h0, f, hf, nodesIn_of_inFile hin⟩
      have hi1 : i ∈ markItems b := (hz i).2 ⟨h0, f, hf, hk⟩
      have hnd : (marked g).Nodup := (h.tiles (List.ne_nil_of_mem hfl)).nodup_iff.2 (nodup_pyRange _ _)
      rw [zone_unique hnd hb hb2 hi1 hi2]
      exact hin
    · rintro ⟨h0, f, hf, hin⟩
      exact ⟨h0, f, hf, nodesIn_of_inFile hin⟩
  · intro name hn
    by_cases hb : IsBoundary names elts name
    · exact .inl hb
    · rcases h.others name hn with h1 | h1 | h1
      · exact absurd ((hm.marks.names name).1 h1) hb
      · subst h1
        refine .inr (.inr ⟨rfl, ?_⟩)
        intro hcl
        obtain ⟨b, hb'⟩ := Dict.mem_keys_iff.1 hn
        obtain ⟨-, hne, hz⟩ := h.unmarked b hb'
        obtain ⟨i, hi⟩ := List.exists_mem_of_ne_nil _ hne
        obtain ⟨-, f, hf, hno⟩ := (hz i).1 hi
        obtain ⟨name', hin⟩ := hcl _ (hskin f (List.mem_of_getElem? hf))
        obtain ⟨b0, hb0⟩ := Dict.mem_keys_iff.1 ((hm.marks.names name').2 (isBoundary_of_inFile hin))
        refine hno (name', b0) (Dict.mem_of_get? hb0) ?_
        unfold Holds
        rw [holds_iff hm hb0]
        exact nodesIn_of_inFile hin
      · exact .inr (.inl h1)

private theorem names_fit {m : Mesh (Option R)} {pts : List (Option (R × R × R))} {names : Option (List PhysName)}
    {elts : List Elt} (hm : IsMeshOf pts names elts m) (hg : GoodNames names elts) (store : Option R → F64) :
    NamesFit (imported (stored store m)) where
  marks := by
    intro p hp
    exact (hg _ ((hm.marks.names _).1 (List.mem_map_of_mem (f := Prod.fst) hp))).1
  weights := by intro d h; cases h
  nodes := by intro p hp; cases hp
  cells := by intro p hp; cases hp

theorem data_storable (v : Ver) (m : Mesh F64) (m' : Mesh F64) : DataStorable v (imported m) m' where
  nodeKeys := List.nodup_nil
  cellKeys := List.nodup_nil
  nodes := by intro p hp; cases hp
  cells := by intro p hp; cases hp
  someNode := by intro h; exact absurd rfl h
  someCell := by intro h; exact absurd rfl h

/-- C64: when an IC3 writer accepts the mesh of a Gmsh file, the file is read again as the mesh of the Gmsh file: same
points, same cells, each face once with its cells, and the boundaries of the Gmsh file as zones. -/
theorem C64_mesh {msh : Lines} {m : Mesh (Option R)} {pts : List (Option (R × R × R))}
    {names : Option (List PhysName)} {elts : List Elt} (hread : Gmsh.read num msh = .ok m)
    (hm : IsMeshOf pts names elts m) (hsup : ∀ e ∈ elts, e.Supported) (htop : 2 ≤ topDim elts)
    (hg : GoodNames names elts) (h3 : NoTriple elts) (store : Option R → F64)
    (so : List Int → List Int) (hso : Reorders so) (host : Order) (e : Endian) (v : Ver) (cv : Conv) (b : Bytes)
    (hw : writeIc3 gmshElem2faces so host e v cv (imported (stored store m)) = (some b, .ok ())) (integ : Bool) :
    ∃ c g lb li, readIc3 integ b = .ok g ∧ Converted store pts names elts c lb li g.mesh := by
  obtain ⟨c, hc, hcc⟩ := hm.cells
  have hs := cells_supported hsup
  obtain ⟨g, lb, li, h1, h2⟩ := C62_from_cells gmshElem2faces gmshTable_wf gmshTable_widths so hso host e v cv
    (imported (stored store m)) c (imported_cells hread hm htop hg store hc hcc) (conforming_of hcc hs h3)
    (face_width hcc hs) (names_fit hm hg store) b hw (fun m' _ => data_storable _ _ _) integ
  exact ⟨c, g, lb, li, h1, converted_of hread hm hsup store hcc h2⟩

private theorem cells_known {c : ElemConn} {elts : List Elt} (hcc : IsCells (cellsOf elts) c)
    (hs : ∀ e ∈ cellsOf elts, e.Supported) (hd : ∀ e ∈ cellsOf elts, 2 ≤ e.dim) : CellsKnown gmshElem2faces c := by
  intro p hp
  have hk : p.1 ∈ c.tbl.keys := List.mem_map_of_mem (f := Prod.fst) hp
  rw [hcc.types, mem_firstUse] at hk
  obtain ⟨e, he, hen⟩ := List.mem_map.1 hk
  have hrow : (e.nodes.map (· - 1)) ∈ (elementsOf c p.1).map (·.2) := by
    rw [hcc.rows]
    exact List.mem_map.2 ⟨e, by simp [he, hen], rfl⟩
  obtain ⟨q, hq, hq2⟩ := List.mem_map.1 hrow
  have hnc : p.2.e2n.ncol = some e.nodes.length := by
    unfold elementsOf at hq
    rw [Dict.get?_of_mem hcc.wf.keys hp] at hq
    have hr : q.2 ∈ p.2.e2n.rows := (List.of_mem_zip hq).2
    have hwf := (hcc.wf.entries p hp).2
    unfold Arr2.WF at hwf
    split at hwf
    · rename_i k hk
      rw [hk, ← hwf q.2 hr, hq2, List.length_map]
    · rw [hwf] at hr; cases hr
  have htab : ∀ p ∈ documented, 2 ≤ p.2.2.1 → (gmshElem2faces.get? p.2.1).isSome := by decide
  obtain ⟨fs, hfs⟩ := Option.isSome_iff_exists.1 (htab _ (supported_entry (hs e he)) (hd e he))
  refine ⟨fs, _, by rw [← hen]; exact hfs, hnc, ?_⟩
  intro q hq f hf i hi
  have := gmshTable_range _ (supported_entry (hs e he)) q (by simp only; rw [hfs]; exact hq) f hf
  exact this.1 i hi

/-- The mesh of a Gmsh file within these limits has the form of C62 and C63. -/
theorem convert_ready {msh : Lines} {m : Mesh (Option R)} {pts : List (Option (R × R × R))}
    {names : Option (List PhysName)} {elts : List Elt} (hread : Gmsh.read num msh = .ok m)
    (hm : IsMeshOf pts names elts m) (hsup : ∀ e ∈ elts, e.Supported) (htop : 2 ≤ topDim elts)
    (hg : GoodNames names elts) (h3 : NoTriple elts) (hmix : Mixed elts) (hsep : Separable names elts)
    (hfit : Fits pts elts) (store : Option R → F64) :
    ∃ c, CellMesh (stored store m) c ∧ CellsKnown gmshElem2faces c ∧ CellsFit gmshElem2faces (stored store m) c ∧
      NamesFit (imported (stored store m)) ∧ (∀ p ∈ m.bocos, p.2.perio = some (List.replicate 16 0)) ∧
      ∀ lb li g, FromCells gmshElem2faces c (stored store m) lb li g → Converted store pts names elts c lb li g := by
  obtain ⟨c, hc, hcc⟩ := hm.cells
  have hs := cells_supported hsup
  have hd2 : ∀ e ∈ cellsOf elts, 2 ≤ e.dim := by
    intro e he
    have := (List.mem_filter.1 he).2
    simp only [decide_eq_true_eq] at this
    omega
  have hskin : ∀ o ∈ facesOfCells gmshElem2faces c, (facesOn gmshElem2faces c o.1).length = 1 →
      OnSkin elts (o.1.map (· + 1)) := by
    intro o ho h1
    exact ⟨(face_iff hcc hs _).1 ⟨o, ho, rfl⟩, by rw [sharing_eq hcc hs, h1]⟩
  have hmark : ∀ p ∈ m.bocos, m.bocos.get? p.1 = some p.2 := fun p hp => Dict.get?_of_mem hm.marks.distinct hp
  have hfits : CellsFit gmshElem2faces (stored store m) c := by
    constructor
    · intro t ht h0
      rw [hcc.types, mem_firstUse] at ht
      obtain ⟨e, he, hen⟩ := List.mem_map.1 ht
      have := hcc.rows t
      rw [h0] at this
      have hne : (cellsOf elts).filter (fun e => e.name = t) ≠ [] :=
        List.ne_nil_of_mem (List.mem_filter.2 ⟨he, by simpa using hen⟩)
      simp only [List.map_nil] at this
      exact hne (List.map_eq_nil_iff.1 this.symm)
    · exact conforming_of hcc hs h3
    · exact face_width hcc hs
    · intro o ho
      obtain ⟨e, he, hn⟩ := (face_iff hcc hs (o.1.map (· + 1))).1 ⟨o, ho, rfl⟩
      obtain ⟨⟨e', he', n', hn', hl, h1⟩, -⟩ := hmix e he _ hn
      obtain ⟨o', ho', rfl⟩ := (face_iff hcc hs n').2 ⟨e', he', hn'⟩
      refine ⟨o', ho', by simpa using hl, ?_⟩
      rw [← sharing_eq hcc hs, h1]
    · intro o ho
      obtain ⟨e, he, hn⟩ := (face_iff hcc hs (o.1.map (· + 1))).1 ⟨o, ho, rfl⟩
      obtain ⟨-, ⟨e', he', n', hn', hl, h1⟩⟩ := hmix e he _ hn
      obtain ⟨o', ho', rfl⟩ := (face_iff hcc hs n').2 ⟨e', he', hn'⟩
      refine ⟨o', ho', by simpa using hl, ?_⟩
      rw [← sharing_eq hcc hs, h1]
    · intro p hp
      obtain ⟨n, ⟨hn, h1⟩, hin⟩ := hsep.some p.1 ((hm.marks.names _).1 (List.mem_map_of_mem (f := Prod.fst) hp))
      obtain ⟨o, ho, rfl⟩ := (face_iff hcc hs n).2 hn
      refine ⟨o, ho, ?_, (holds_iff hm (hmark p hp) o.1).2 hin⟩
      rw [← sharing_eq hcc hs, h1]
    · rintro p hp q hq hpq o ⟨⟨h1, h2, h4⟩, -, -, h5⟩
      exact hsep.apart p.1 q.1 _ hpq (hskin o h1 h2)
        ⟨(holds_iff hm (hmark p hp) o.1).1 h4, (holds_iff hm (hmark q hq) o.1).1 h5⟩
    · intro p hp
      obtain ⟨l, h⟩ := (read_shape hread).2 p hp
      rw [h]
      refine ⟨rfl, ?_, by simp⟩
      show "boundary" ∈ type2zonekind.keys
      decide
    · refine ⟨?_, ?_, ?_⟩
      · show Small m.nnode
        rw [hm.nnode]; exact hfit.1
      · show Small m.ncell
        rw [hm.ncell]; exact hfit.2.1
      · rw [faceTotal_eq hcc hs]; exact hfit.2.2.1
    · intro x hx n hn
      have hx' : (x.1, x.2.2) ∈ (cellsOf elts).map fun e => (e.name, e.nodes.map (· - 1)) :=
        (cells_perm hcc).mem_iff.1 (List.mem_map_of_mem (f := fun x : String × Int × List Int => (x.1, x.2.2)) hx)
      obtain ⟨e, he, hee⟩ := List.mem_map.1 hx'
      rw [← (Prod.mk.inj hee).2] at hn
      obtain ⟨k, hk, rfl⟩ := List.mem_map.1 hn
      exact hfit.2.2.2 e he k hk
    · simp only [stored, hm.coords, Option.map_some]
      exact ⟨_, _, _, rfl⟩
  exact ⟨c, imported_cells hread hm htop hg store hc hcc, cells_known hcc hs hd2, hfits, names_fit hm hg store,
    fun p hp => (by obtain ⟨l, h⟩ := (read_shape hread).2 p hp; rw [h]), fun _ _ _ h => converted_of hread hm hsup store hcc h⟩

/-- C64: a Gmsh file is converted by both writers, in every byte order, when no face is in three cells, every shape of
face occurs on the boundary and inside, node marks can tell the boundaries apart, and numbers fit in 32 bits. -/
theorem C64_converts {msh : Lines} {m : Mesh (Option R)} {pts : List (Option (R × R × R))}
    {names : Option (List PhysName)} {elts : List Elt} (hread : Gmsh.read num msh = .ok m)
    (hm : IsMeshOf pts names elts m) (hsup : ∀ e ∈ elts, e.Supported) (htop : 2 ≤ topDim elts)
    (hg : GoodNames names elts) (h3 : NoTriple elts) (hmix : Mixed elts) (hsep : Separable names elts)
    (hfit : Fits pts elts) (store : Option R → F64)
    (so : List Int → List Int) (hso : Reorders so) (host : Order) (e : Endian) (v : Ver) (cv : Conv) :
    ∃ b, writeIc3 gmshElem2faces so host e v cv (imported (stored store m)) = (some b, .ok ()) := by
  obtain ⟨c, hcm, hkn, hfits, hnames, -, -⟩ := convert_ready hread hm hsup htop hg h3 hmix hsep hfit store
  have hdf : DataFits v cv (imported (stored store m)) (stored store m).ncell := by
    constructor
    · exact .inl rfl
    all_goals first
      | (intro s h; cases h; done)
      | (intro p hp; cases hp; done)
      | (intro _ h; exact absurd rfl h)
  obtain ⟨b, _, _, _, h, _⟩ := C63_cells gmshElem2faces gmshTable_wf gmshTable_widths so hso host e v cv
    (imported (stored store m)) c hcm hkn hfits hnames (data_storable _ _ _) hdf false
  exact ⟨b, h⟩

/-! ## The command -/

theorem output_ok {tbl : FaceTable} {so : List Int → List Int} {host : Order} {e : Endian} {v : Ver} {cv : Conv}
    {f : FullMesh} {b : Bytes} (h : ic3Output tbl so host e v cv f = .inr (b, .ok ())) :
    writeIc3 tbl so host e v cv f = (some b, .ok ()) := by
  unfold ic3Output at h
  split at h
  · cases h
  · rename_i hw
    simp only [Sum.inr.injEq, Prod.mk.injEq] at h
    rw [hw, h.1, h.2]
  · cases h

/-- C64: the command on a Gmsh file: the file written is new and holds the mesh of the Gmsh file; no other file
changes. -/
theorem C64_command {Loc : Type} [DecidableEq Loc] {msh : Lines} {m : Mesh (Option R)}
    {pts : List (Option (R × R × R))} {names : Option (List PhysName)} {elts : List Elt}
    (hread : Gmsh.read num msh = .ok m) (hm : IsMeshOf pts names elts m) (hsup : ∀ e ∈ elts, e.Supported)
    (htop : 2 ≤ topDim elts) (hg : GoodNames names elts) (h3 : NoTriple elts) (store : Option R → F64)
    (so : List Int → List Int) (hso : Reorders so) (host : Order) (e : Endian) (v : Ver) (cv : Conv)
    (text : Bytes → List String) (s s' : Fs Loc) (fuel : Nat) (filename name : Name) (outpath : Option Name)
    (content : Bytes) (hin : s.content (s.resolve (PyPath.parse filename).str) = some content)
    (htext : List.Forall₂ (fun t ws => Spells t.toList ws) (text content) msh)
    (hrun : gmshToIc3 num store text so host e v cv s fuel filename outpath = some (s', .ok name)) (integ : Bool) :
    s.content (s.resolve name) = none ∧ (∀ l, l ≠ s.resolve name → s'.content l = s.content l) ∧
    ∃ b c g lb li, s'.content (s.resolve name) = some b ∧ readIc3 integ b = .ok g ∧
      Converted store pts names elts c lb li g.mesh := by
  obtain ⟨h1, ⟨m0, m1, m2, b, r0, r1, r2, r3, r4⟩, h2⟩ := C36_conversion_writes_new_file _ _ _ _ _ (by decide) _ _ _ _ _ _ hrun
  cases r1; cases r2
  unfold gmshInput at r0
  rw [hin] at r0
  simp only [C42_text _ _ htext, hread, Except_bind_ok, Except_pure, Except.ok.injEq] at r0
  subst r0
  obtain ⟨c, g, lb, li, q1, q2⟩ := C64_mesh hread hm hsup htop hg h3 store so hso host e v cv b (output_ok r3) integ
  exact ⟨h1, h2, b, c, g, lb, li, r4, q1, q2⟩

/-- C64: the command succeeds on every file satisfying the conditions of `C64_converts`. -/
theorem C64_command_succeeds {Loc : Type} [DecidableEq Loc] {msh : Lines} {m : Mesh (Option R)}
    {pts : List (Option (R × R × R))} {names : Option (List PhysName)} {elts : List Elt}
    (hread : Gmsh.read num msh = .ok m) (hm : IsMeshOf pts names elts m) (hsup : ∀ e ∈ elts, e.Supported)
    (htop : 2 ≤ topDim elts) (hg : GoodNames names elts) (h3 : NoTriple elts) (hmix : Mixed elts)
    (hsep : Separable names elts) (hfit : Fits pts elts) (store : Option R → F64)
    (so : List Int → List Int) (hso : Reorders so) (host : Order) (e : Endian) (v : Ver) (cv : Conv)
    (text : Bytes → List String) (s : Fs Loc) (hfin : ∀ folder : PyPath, FiniteFolder s.has folder)
    (filename : Name) (hf : (PyPath.parse filename).name ≠ []) (outpath : Option Name)
    (content : Bytes) (hin : s.content (s.resolve (PyPath.parse filename).str) = some content)
    (htext : List.Forall₂ (fun t ws => Spells t.toList ws) (text content) msh) :
    ∃ n s' name, ∀ fuel, n ≤ fuel →
      gmshToIc3 num store text so host e v cv s fuel filename outpath = some (s', .ok name) := by
  obtain ⟨b, hb⟩ := C64_converts hread hm hsup htop hg h3 hmix hsep hfit store so hso host e v cv
  refine C36_conversion_succeeds (gmshInput num store text) .ok .ok (ic3Output gmshElem2faces so host e v cv) "ic3".toList
    (by decide) (by decide) s filename hf outpath hfin (imported (stored store m)) (imported (stored store m))
    (imported (stored store m)) b ?_ rfl rfl ?_
  · unfold gmshInput
    rw [hin]
    simp only [C42_text _ _ htext, hread, Except_bind_ok, Except_pure]
  · unfold ic3Output
    rw [hb]

/-- C64 for the format 2.2. -/
theorem C64_msh2 {Loc : Type} [DecidableEq Loc] {msh : Lines} {names : Option (List PhysName)}
    {nodes : List (Int × R × R × R)} {elts : List Elt}
    (hfile : IsMsh2 num msh names nodes elts) (hgr : DistinctGroups names) (hsup : ∀ e ∈ elts, e.Supported)
    (htop : 2 ≤ topDim elts) (hb : BordersOk names elts) (hnum : nodes.map (·.1) = pyRange 1 ((nodes.length : Int) + 1))
    (hg : GoodNames names elts) (h3 : NoTriple elts) (store : Option R → F64)
    (so : List Int → List Int) (hso : Reorders so) (host : Order) (e : Endian) (v : Ver) (cv : Conv)
    (text : Bytes → List String) (s s' : Fs Loc) (fuel : Nat) (filename name : Name) (outpath : Option Name)
    (content : Bytes) (hin : s.content (s.resolve (PyPath.parse filename).str) = some content)
    (htext : List.Forall₂ (fun t ws => Spells t.toList ws) (text content) msh)
    (hrun : gmshToIc3 num store text so host e v cv s fuel filename outpath = some (s', .ok name)) (integ : Bool) :
    s.content (s.resolve name) = none ∧ (∀ l, l ≠ s.resolve name → s'.content l = s.content l) ∧
    ∃ b c g lb li, s'.content (s.resolve name) = some b ∧ readIc3 integ b = .ok g ∧
      Converted store (nodes.map fun q => some q.2) names elts c lb li g.mesh := by
  obtain ⟨m, pts, hread, hm, hlen, hpts⟩ := C42_mesh hfile hgr hsup htop hb hnum
  have hp : pts = nodes.map fun q => some q.2 := by
    apply List.ext_getElem (by simpa using hlen)
    intro i h1 h2
    have hi : i < nodes.length := by omega
    have h4 := hpts _ (List.getElem_mem hi)
    have h5 : (nodes.map (·.1))[i]'(by simpa using hi) = 1 + (i : Int) := by
      simp only [hnum]
      exact getElem_pyRange _ _ _ _
    rw [List.getElem_map] at h5
    rw [h5, show (1 + (i : Int) - 1).toNat = i by omega, List.getElem?_eq_getElem h1, Option.some.injEq] at h4
    rw [h4, List.getElem_map]
  subst hp
  exact C64_command hread hm hsup htop hg h3 store so hso host e v cv text s s' fuel filename name outpath content hin
    htext hrun integ

/-- C64 for the format 4.1 with volumes. -/
theorem C64_msh4 {Loc : Type} [DecidableEq Loc] {msh : Lines} {ver : Int} {names : Option (List PhysName)}
    {nblocks : List (NodeBlock R)} {n npoint : Nat}
    {curves surfaces volumes : List Entity} {blocks : List EltBlock} (hv : 4 ≤ ver) (hf : IsFormat num msh ver)
    (hnames : HasNames num msh names) (hgr : DistinctGroups names)
    (hnodes : HasNodes4 num msh nblocks 1 n)
    (hn : ((nblocks.flatMap (·.nodes)).map (·.1)).Perm (pyRange 1 ((n : Int) + 1)))
    (hlast : ∀ init b rest, nblocks = init ++ b :: rest → rest.flatMap (·.nodes) = [] → b.nodes.length ≠ 1)
    (hent : HasEntities num msh npoint curves surfaces volumes) (hcurves : curves ≠ [])
    (helts : HasElts4 num msh blocks)
    (hsup : ∀ e ∈ eltsOf curves surfaces volumes blocks, e.Supported)
    (htop : topDim (eltsOf curves surfaces volumes blocks) = 3)
    (hdim : ∀ b ∈ blocks, ∀ e ∈ eltsOf curves surfaces volumes [b], (e.dim : Int) = b.dim)
    (hgroup : ∀ l, names = some l → ∀ b ∈ blocks, b.dim = 2 → (∀ c, curves.getLast? = some c → c.tag ≠ b.ent) ∧
      ∃ g, groupOf curves surfaces volumes 2 b.ent = some g ∧ ∃ p ∈ l, p.dim = 2 ∧ p.tag = g)
    (hg : GoodNames names (eltsOf curves surfaces volumes blocks)) (h3 : NoTriple (eltsOf curves surfaces volumes blocks))
    (store : Option R → F64)
    (so : List Int → List Int) (hso : Reorders so) (host : Order) (e : Endian) (v : Ver) (cv : Conv)
    (text : Bytes → List String) (s s' : Fs Loc) (fuel : Nat) (filename name : Name) (outpath : Option Name)
    (content : Bytes) (hin : s.content (s.resolve (PyPath.parse filename).str) = some content)
    (htext : List.Forall₂ (fun t ws => Spells t.toList ws) (text content) msh)
    (hrun : gmshToIc3 num store text so host e v cv s fuel filename outpath = some (s', .ok name)) (integ : Bool) :
    s.content (s.resolve name) = none ∧ (∀ l, l ≠ s.resolve name → s'.content l = s.content l) ∧
    ∃ b c g lb li pts, s'.content (s.resolve name) = some b ∧ readIc3 integ b = .ok g ∧
      Converted store pts names (eltsOf curves surfaces volumes blocks) c lb li g.mesh ∧ pts.length = n ∧
      ∀ q ∈ nblocks.flatMap (·.nodes), pts[(q.1 - 1).toNat]? = some (some q.2) := by
  obtain ⟨m, pts, hread, hm, hlen, hpts⟩ := C59_mesh hv hf hnames hgr hnodes hn hlast hent hcurves helts hsup htop hdim hgroup
  obtain ⟨h1, h2, b, c, g, lb, li, h4, h5, h6⟩ := C64_command hread hm hsup (by omega) hg h3 store so hso host e v cv text s
    s' fuel filename name outpath content hin htext hrun integ
  exact ⟨h1, h2, b, c, g, lb, li, pts, h4, h5, h6, hlen, hpts⟩

/-- C55: the conversion of a Gmsh file with `--scale` always fails, leaving all files as they are. -/
theorem C55_gmsh_command_refuted {Loc : Type} [DecidableEq Loc] (store : Option R → F64)
    (so : List Int → List Int) (host : Order) (e : Endian) (v : Ver) (cv : Conv) (text : Bytes → List String)
    (s s' : Fs Loc) (fuel : Nat) (filename : Name) (outpath : Option Name) (r : Py Name)
    (hrun : gmshToIc3Scaled num store text so host e v cv s fuel filename outpath = some (s', r)) :
    s' = s ∧ ∃ er, r = .error er := by
  have hsc : ∀ f : FullMesh, ∃ er, scaleOption f = .error er := by
    intro f
    unfold scaleOption Mesh.scaleLists
    split
    · exact ⟨_, rfl⟩
    · exact ⟨_, rfl⟩
  unfold gmshToIc3Scaled writeGeneric at hrun
  split at hrun
  · cases hrun; exact ⟨rfl, _, rfl⟩
  · split at hrun
    · cases hrun
    · cases hrun; exact ⟨rfl, _, rfl⟩
    · next m _ _ _ _ =>
      obtain ⟨er, he⟩ := hsc m
      rw [he] at hrun
      cases hrun; exact ⟨rfl, _, rfl⟩

/-! ## A file meeting the hypotheses -/

/-- Two tetrahedra with a common face, all other faces in two groups. -/
def pairMsh : Lines :=
  [["$MeshFormat"], ["2", "0", "8"], ["$EndMeshFormat"],
   ["$PhysicalNames"], ["3"], ["2", "1", "\"wall\""], ["2", "2", "\"inlet\""], ["3", "3", "\"fluid\""],
   ["$EndPhysicalNames"],
   ["$Nodes"], ["5"], ["1", "0", "0", "0"], ["2", "5", "0", "0"], ["3", "0", "6", "0"], ["4", "0", "0", "7"],
   ["5", "8", "8", "8"], ["$EndNodes"],
   ["$Elements"], ["8"], ["1", "2", "2", "1", "11", "1", "2", "3"], ["2", "2", "2", "1", "11", "1", "2", "4"],
   ["3", "2", "2", "1", "11", "1", "3", "4"], ["4", "2", "2", "2", "12", "2", "3", "5"],
   ["5", "2", "2", "2", "12", "2", "4", "5"], ["6", "2", "2", "2", "12", "3", "4", "5"],
   ["7", "4", "2", "3", "1", "1", "2", "3", "4"], ["8", "4", "2", "3", "1", "5", "2", "4", "3"], ["$EndElements"]]

def pairNodes : List (Int × Int × Int × Int) := [(1, 0, 0, 0), (2, 5, 0, 0), (3, 0, 6, 0), (4, 0, 0, 7), (5, 8, 8, 8)]
def pairElts : List Elt :=
  [⟨1, 2, [1, 11], [1, 2, 3]⟩, ⟨2, 2, [1, 11], [1, 2, 4]⟩, ⟨3, 2, [1, 11], [1, 3, 4]⟩, ⟨4, 2, [2, 12], [2, 3, 5]⟩,
   ⟨5, 2, [2, 12], [2, 4, 5]⟩, ⟨6, 2, [2, 12], [3, 4, 5]⟩, ⟨7, 4, [3, 1], [1, 2, 3, 4]⟩, ⟨8, 4, [3, 1], [5, 2, 4, 3]⟩]

private theorem section_at (msh : Lines) (name : String) (i j : Nat)
    (h : msh = msh.take i ++ [["$" ++ name]] ++ (msh.take j).drop (i + 1) ++ [["$End" ++ name]] ++ msh.drop (j + 1))
    (h1 : ["$" ++ name] ∉ msh.take i) (h2 : ["$End" ++ name] ∉ msh.take i)
    (h3 : ["$End" ++ name] ∉ (msh.take j).drop (i + 1)) : HasSection msh name ((msh.take j).drop (i + 1)) :=
  ⟨_, _, h, h1, h2, h3⟩

theorem pair_file : IsMsh2 intNum pairMsh (some tetraNames) pairNodes pairElts := by
  refine ⟨⟨2, by decide, "2", "0", "8", 2, [], [], ?_, by decide +kernel, rfl, by decide +kernel, by decide +kernel⟩,
    ⟨["3"], [["2", "1", "\"wall\""], ["2", "2", "\"inlet\""], ["3", "3", "\"fluid\""]], ?_, ?_, ?_⟩,
    ⟨["5"], [["1", "0", "0", "0"], ["2", "5", "0", "0"], ["3", "0", "6", "0"], ["4", "0", "0", "7"], ["5", "8", "8", "8"]],
      ?_, ?_, ?_⟩,
    ⟨["8"], [["1", "2", "2", "1", "11", "1", "2", "3"], ["2", "2", "2", "1", "11", "1", "2", "4"],
      ["3", "2", "2", "1", "11", "1", "3", "4"], ["4", "2", "2", "2", "12", "2", "3", "5"],
      ["5", "2", "2", "2", "12", "2", "4", "5"], ["6", "2", "2", "2", "12", "3", "4", "5"],
      ["7", "4", "2", "3", "1", "1", "2", "3", "4"], ["8", "4", "2", "3", "1", "5", "2", "4", "3"]], ?_, ?_, ?_⟩⟩
  · exact section_at pairMsh "MeshFormat" 0 2 (by decide +kernel) (by decide +kernel) (by decide +kernel) (by decide +kernel)
  · exact section_at pairMsh "PhysicalNames" 3 8 (by decide +kernel) (by decide +kernel) (by decide +kernel) (by decide +kernel)
  · repeat (first | exact .nil | refine .cons (by decide +kernel) ?_)
  · refine .cons ⟨"2", by decide +kernel, by decide +kernel⟩ (.cons ⟨"2", by decide +kernel, by decide +kernel⟩
      (.cons ⟨"3", by decide +kernel, by decide +kernel⟩ .nil))
  · exact section_at pairMsh "Nodes" 9 16 (by decide +kernel) (by decide +kernel) (by decide +kernel) (by decide +kernel)
  · repeat (first | exact .nil | refine .cons (by decide +kernel) ?_)
  · repeat (first | exact .nil | refine .cons ⟨_, _, rfl, by decide +kernel,
      .cons (by decide +kernel) (.cons (by decide +kernel) (.cons (by decide +kernel) .nil))⟩ ?_)
  · exact section_at pairMsh "Elements" 17 27 (by decide +kernel) (by decide +kernel) (by decide +kernel) (by decide +kernel)
  · repeat (first | exact .nil | refine .cons (by decide +kernel) ?_)
  · repeat (first | exact .nil | refine .cons (by repeat (first | exact .nil | refine .cons (by decide +kernel) ?_)) ?_)

theorem pair_supported : ∀ e ∈ pairElts, e.Supported := by
  intro e he
  have : ∀ e ∈ pairElts, documented.get? e.type = some (if e.type = 2 then ("tri3", 2, e.nodes.length)
      else ("tetra4", 3, e.nodes.length)) := by decide +kernel
  have h := this e he
  by_cases ht : e.type = 2
  · exact ⟨"tri3", 2, by rw [h, if_pos ht]⟩
  · exact ⟨"tetra4", 3, by rw [h, if_neg ht]⟩

private theorem pair_boundary {name : String} (h : IsBoundary (some tetraNames) pairElts name) :
    name = "wall" ∨ name = "inlet" := by
  obtain ⟨e, he, hn⟩ := h
  have : ∀ e ∈ bordersOf pairElts, boundaryOf (some tetraNames) e = some "wall" ∨
      boundaryOf (some tetraNames) e = some "inlet" := by decide +kernel
  rcases this e he with h | h
  · rw [h] at hn; cases hn; exact .inl rfl
  · rw [h] at hn; cases hn; exact .inr rfl

private theorem skin_mem {elts : List Elt} {n : List Int} (h : OnSkin elts n) :
    n ∈ ((cellsOf elts).flatMap eltFaces).filter fun n => sharing elts n = 1 := by
  obtain ⟨⟨e, he, hn⟩, h1⟩ := h
  exact List.mem_filter.2 ⟨List.mem_flatMap.2 ⟨e, he, hn⟩, by simpa using h1⟩

/-- The hypotheses of `C64_msh2` and `C64_command_succeeds` hold for this file, and its boundaries cover the boundary. -/
theorem pair_meets : DistinctGroups (some tetraNames) ∧ topDim pairElts = 3 ∧ BordersOk (some tetraNames) pairElts ∧
    pairNodes.map (·.1) = pyRange 1 ((pairNodes.length : Int) + 1) ∧ GoodNames (some tetraNames) pairElts ∧
    NoTriple pairElts ∧ Mixed pairElts ∧ Separable (some tetraNames) pairElts ∧
    Fits (pairNodes.map fun q => some q.2) pairElts ∧ Closed (some tetraNames) pairElts := by
  refine ⟨?_, by decide, ⟨by decide, by decide, ?_⟩, by decide, ?_, ?_, ?_, ⟨?_, ?_⟩, ?_, ?_⟩
  · intro l hl; cases hl; decide
  · intro l hl; cases hl; decide
  · intro name h
    rcases pair_boundary h with rfl | rfl <;> decide +kernel
  · unfold NoTriple; decide +kernel
  · unfold Mixed; decide +kernel
  · intro name h
    rcases pair_boundary h with rfl | rfl
    · exact ⟨[3, 2, 1], by unfold OnSkin; decide +kernel, by unfold NodesIn; decide +kernel⟩
    · exact ⟨[4, 2, 5], by unfold OnSkin; decide +kernel, by unfold NodesIn; decide +kernel⟩
  · intro name name' n hne hs ⟨h1, h2⟩
    have hsk := skin_mem hs
    have key : ∀ n ∈ ((cellsOf pairElts).flatMap eltFaces).filter fun n => sharing pairElts n = 1,
        ¬ (NodesIn (some tetraNames) pairElts "wall" n ∧ NodesIn (some tetraNames) pairElts "inlet" n) := by
      unfold NodesIn; decide +kernel
    have hb : ∀ x, NodesIn (some tetraNames) pairElts x n → x = "wall" ∨ x = "inlet" := by
      intro x hx
      have : ∀ n ∈ (cellsOf pairElts).flatMap eltFaces, n ≠ [] := by decide +kernel
      obtain ⟨k, hk⟩ := List.exists_mem_of_ne_nil _ (this n (List.mem_of_mem_filter hsk))
      obtain ⟨e, he, h, _⟩ := hx k hk
      exact pair_boundary ⟨e, he, h⟩
    rcases hb _ h1 with rfl | rfl <;> rcases hb _ h2 with rfl | rfl
    · exact hne rfl
    · exact key n hsk ⟨h1, h2⟩
    · exact key n hsk ⟨h2, h1⟩
    · exact hne rfl
  · unfold Fits; decide +kernel
  · intro n hs
    have hsk := skin_mem hs
    have key : ∀ n ∈ ((cellsOf pairElts).flatMap eltFaces).filter fun n => sharing pairElts n = 1,
        (∃ e ∈ bordersOf pairElts, boundaryOf (some tetraNames) e = some "wall" ∧ n.isPerm e.nodes = true) ∨
        (∃ e ∈ bordersOf pairElts, boundaryOf (some tetraNames) e = some "inlet" ∧ n.isPerm e.nodes = true) := by
      decide +kernel
    rcases key n hsk with ⟨e, he, h1, h2⟩ | ⟨e, he, h1, h2⟩
    · exact ⟨"wall", e, he, h1, List.isPerm_iff.1 h2⟩
    · exact ⟨"inlet", e, he, h1, List.isPerm_iff.1 h2⟩

/-- The file is read as the mesh it describes. -/
theorem pair_read : ∃ m, Gmsh.read intNum pairMsh = .ok m ∧
    IsMeshOf (pairNodes.map fun q => some q.2) (some tetraNames) pairElts m := by
  obtain ⟨h1, h2, h3, h4, -⟩ := pair_meets
  obtain ⟨m, pts, hm, hi, hl, hp⟩ := C42_mesh pair_file h1 pair_supported (by rw [h2]; decide) h3 h4
  have : pts = pairNodes.map fun q => some q.2 := by
    apply List.ext_getElem?
    intro i
    by_cases hi : i < 5
    · have key : ∀ i < 5, ∃ q ∈ pairNodes, (q.1 - 1).toNat = i ∧ (pairNodes.map fun q => some q.2)[i]? = some (some q.2) := by
        decide
      obtain ⟨q, hq, hqi, hqe⟩ := key i hi
      rw [hqe, ← hqi]
      exact hp q hq
    · rw [List.getElem?_eq_none (by rw [hl]; simpa [pairNodes] using hi), List.getElem?_eq_none (by simpa [pairNodes] using hi)]
  exact ⟨m, hm, this ▸ hi⟩

/-- C64 applied to this file. -/
example (store : Option Int → F64) (e : Endian) (v : Ver) (cv : Conv) (integ : Bool) : ∃ m b c g lb li,
    Gmsh.read intNum pairMsh = .ok m ∧
    writeIc3 gmshElem2faces id .little e v cv (imported (stored store m)) = (some b, .ok ()) ∧ readIc3 integ b = .ok g ∧
    Converted store (pairNodes.map fun q => some q.2) (some tetraNames) pairElts c lb li g.mesh := by
  obtain ⟨-, h2, -, -, h5, h6, h7, h8, h9, -⟩ := pair_meets
  obtain ⟨m, hm, hi⟩ := pair_read
  have ht : 2 ≤ topDim pairElts := by rw [h2]; decide
  obtain ⟨b, hb⟩ := C64_converts hm hi pair_supported ht h5 h6 h7 h8 h9 store id (fun l => List.Perm.refl l) .little e v cv
  obtain ⟨c, g, lb, li, hg, hc⟩ := C64_mesh hm hi pair_supported ht h5 h6 store id (fun l => List.Perm.refl l) .little e v cv b hb integ
  exact ⟨m, b, c, g, lb, li, hm, hb, hg, hc⟩

/-- The lines of this file, as text. -/
theorem pair_text : List.Forall₂ (fun (t : String) ws => Spells t.toList ws) (pairMsh.map joined) pairMsh := by
  rw [List.forall₂_map_left_iff]
  refine List.forall₂_same.2 fun l hl => spells_joined l ?_
  have : ∀ l ∈ pairMsh, ∀ w ∈ l, IsWord w = true := by decide +kernel
  exact this l hl

/-- The whole command on a folder that holds this file: it succeeds, and what it writes is the converted mesh. -/
example (store : Option Int → F64) (e : Endian) (v : Ver) (cv : Conv) : ∃ fuel s' name b c g lb li,
    gmshToIc3 intNum store (fun _ => pairMsh.map joined) id .little e v cv
      (⟨id, fun l => if l = "d/p.msh".toList then some [1] else none⟩ : Fs Name) fuel "d/p.msh".toList none = some (s', .ok name) ∧
    s'.content name = some b ∧ readIc3 true b = .ok g ∧
    Converted store (pairNodes.map fun q => some q.2) (some tetraNames) pairElts c lb li g.mesh := by
  obtain ⟨h1, h2, h3, h4, h5, h6, h7, h8, h9, -⟩ := pair_meets
  obtain ⟨m, hm, hi⟩ := pair_read
  have ht : 2 ≤ topDim pairElts := by rw [h2]; decide
  obtain ⟨n, s', name, hn⟩ := C64_command_succeeds hm hi pair_supported ht h5 h6 h7 h8 h9 store id (fun l => List.Perm.refl l)
    .little e v cv (fun _ => pairMsh.map joined) _ (oneFile_finite "d/p.msh".toList [1]) "d/p.msh".toList (by decide) none [1]
    (by decide) pair_text
  obtain ⟨-, -, b, c, g, lb, li, r1, r2, r3⟩ := C64_msh2 pair_file h1 pair_supported ht h3 h4 h5 h6 store id
    (fun l => List.Perm.refl l) .little e v cv (fun _ => pairMsh.map joined) _ s' n "d/p.msh".toList name none [1]
    (by decide) pair_text (hn n le_rfl) true
  exact ⟨n, s', name, b, c, g, lb, li, hn n le_rfl, r1, r2, r3⟩

/-- The same mesh in the format 4.1. -/
def pairMsh4 : Lines :=
  [["$MeshFormat"], ["4", "0", "8"], ["$EndMeshFormat"],
   ["$PhysicalNames"], ["3"], ["2", "1", "\"wall\""], ["2", "2", "\"inlet\""], ["3", "3", "\"fluid\""], ["$EndPhysicalNames"],
   ["$Entities"], ["0", "1", "2", "1"], ["6", "0", "0", "0", "1", "1", "1", "0", "0"],
   ["11", "0", "0", "0", "1", "1", "1", "1", "1", "1", "6"], ["12", "0", "0", "0", "1", "1", "1", "1", "2", "1", "6"],
   ["1", "0", "0", "0", "1", "1", "1", "1", "3", "2", "11", "12"], ["$EndEntities"],
   ["$Nodes"], ["2", "5", "1", "5"], ["2", "11", "0", "2"], ["3"], ["1"], ["0", "6", "0"], ["0", "0", "0"],
   ["2", "12", "0", "3"], ["2"], ["4"], ["5"], ["5", "0", "0"], ["0", "0", "7"], ["8", "8", "8"], ["$EndNodes"],
   ["$Elements"], ["3", "8", "1", "8"], ["2", "11", "2", "3"], ["1", "1", "2", "3"], ["2", "1", "2", "4"], ["3", "1", "3", "4"],
   ["2", "12", "2", "3"], ["4", "2", "3", "5"], ["5", "2", "4", "5"], ["6", "3", "4", "5"],
   ["3", "1", "4", "2"], ["7", "1", "2", "3", "4"], ["8", "5", "2", "4", "3"], ["$EndElements"]]

def pairBlocks4 : List (NodeBlock Int) :=
  [⟨2, 11, 0, [(3, 0, 6, 0), (1, 0, 0, 0)]⟩, ⟨2, 12, 0, [(2, 5, 0, 0), (4, 0, 0, 7), (5, 8, 8, 8)]⟩]
def pairCurves : List Entity := [⟨6, [], []⟩]
def pairSurfaces : List Entity := [⟨11, [1], [6]⟩, ⟨12, [2], [6]⟩]
def pairVolumes : List Entity := [⟨1, [3], [11, 12]⟩]
def pairEltBlocks : List EltBlock :=
  [⟨2, 11, 2, [(1, [1, 2, 3]), (2, [1, 2, 4]), (3, [1, 3, 4])]⟩, ⟨2, 12, 2, [(4, [2, 3, 5]), (5, [2, 4, 5]), (6, [3, 4, 5])]⟩,
   ⟨3, 1, 4, [(7, [1, 2, 3, 4]), (8, [5, 2, 4, 3])]⟩]

theorem pair4_elts : eltsOf pairCurves pairSurfaces pairVolumes pairEltBlocks = pairElts := by decide

theorem pair4_file : IsFormat intNum pairMsh4 4 ∧ HasNodes4 intNum pairMsh4 pairBlocks4 1 5 ∧
    HasEntities intNum pairMsh4 0 pairCurves pairSurfaces pairVolumes ∧ HasElts4 intNum pairMsh4 pairEltBlocks ∧
    HasNames intNum pairMsh4 (some tetraNames) := by
  refine ⟨⟨"4", "0", "8", 4, [], [], ?_, by decide +kernel, rfl, by decide +kernel, by decide +kernel⟩,
    ⟨["2", "5", "1", "5"], [[["2", "11", "0", "2"], ["3"], ["1"], ["0", "6", "0"], ["0", "0", "0"]],
      [["2", "12", "0", "3"], ["2"], ["4"], ["5"], ["5", "0", "0"], ["0", "0", "7"], ["8", "8", "8"]]], ?_, ?_, ?_⟩,
    ⟨["0", "1", "2", "1"], [], [["6", "0", "0", "0", "1", "1", "1", "0", "0"]],
      [["11", "0", "0", "0", "1", "1", "1", "1", "1", "1", "6"], ["12", "0", "0", "0", "1", "1", "1", "1", "2", "1", "6"]],
      [["1", "0", "0", "0", "1", "1", "1", "1", "3", "2", "11", "12"]], ?_, ?_, rfl, ?_, ?_, ?_⟩,
    ⟨["3", "8", "1", "8"], [[["2", "11", "2", "3"], ["1", "1", "2", "3"], ["2", "1", "2", "4"], ["3", "1", "3", "4"]],
      [["2", "12", "2", "3"], ["4", "2", "3", "5"], ["5", "2", "4", "5"], ["6", "3", "4", "5"]],
      [["3", "1", "4", "2"], ["7", "1", "2", "3", "4"], ["8", "5", "2", "4", "3"]]], 1, 8, ?_, ?_, ?_⟩,
    ⟨["3"], [["2", "1", "\"wall\""], ["2", "2", "\"inlet\""], ["3", "3", "\"fluid\""]], ?_, ?_, ?_⟩⟩
  · exact section_at pairMsh4 "MeshFormat" 0 2 (by decide +kernel) (by decide +kernel) (by decide +kernel) (by decide +kernel)
  · exact section_at pairMsh4 "Nodes" 16 30 (by decide +kernel) (by decide +kernel) (by decide +kernel) (by decide +kernel)
  · repeat (first | exact .nil | refine .cons (by decide +kernel) ?_)
  · refine .cons ⟨["2", "11", "0", "2"], [["3"], ["1"]], [["0", "6", "0"], ["0", "0", "0"]], rfl, ?_, ?_, ?_⟩
      (.cons ⟨["2", "12", "0", "3"], [["2"], ["4"], ["5"]], [["5", "0", "0"], ["0", "0", "7"], ["8", "8", "8"]], rfl, ?_, ?_, ?_⟩ .nil)
    all_goals first
      | ((repeat (first | exact .nil | refine .cons (by decide +kernel) ?_)); done)
      | (repeat (first | exact .nil | refine .cons (by
          repeat (first | exact .nil | refine .cons (by decide +kernel) ?_)) ?_))
  · exact section_at pairMsh4 "Entities" 9 15 (by decide +kernel) (by decide +kernel) (by decide +kernel) (by decide +kernel)
  · repeat (first | exact .nil | refine .cons (by decide +kernel) ?_)
  · exact .cons ⟨"6", ["0", "0", "0", "1", "1", "1"], ["0", "0"], rfl, rfl, by decide +kernel,
      .cons (by decide +kernel) (.cons (by decide +kernel) .nil)⟩ .nil
  · refine .cons ⟨"11", ["0", "0", "0", "1", "1", "1"], ["1", "1", "1", "6"], rfl, rfl, by decide +kernel, ?_⟩
      (.cons ⟨"12", ["0", "0", "0", "1", "1", "1"], ["1", "2", "1", "6"], rfl, rfl, by decide +kernel, ?_⟩ .nil)
    all_goals repeat (first | exact .nil | refine .cons (by decide +kernel) ?_)
  · refine .cons ⟨"1", ["0", "0", "0", "1", "1", "1"], ["1", "3", "2", "11", "12"], rfl, rfl, by decide +kernel, ?_⟩ .nil
    repeat (first | exact .nil | refine .cons (by decide +kernel) ?_)
  · exact section_at pairMsh4 "Elements" 31 44 (by decide +kernel) (by decide +kernel) (by decide +kernel) (by decide +kernel)
  · repeat (first | exact .nil | refine .cons (by decide +kernel) ?_)
  · refine .cons ⟨_, _, rfl, ?_, ?_⟩ (.cons ⟨_, _, rfl, ?_, ?_⟩ (.cons ⟨_, _, rfl, ?_, ?_⟩ .nil))
    all_goals first
      | ((repeat (first | exact .nil | refine .cons (by decide +kernel) ?_)); done)
      | (repeat (first | exact .nil | refine .cons (by
          repeat (first | exact .nil | refine .cons (by decide +kernel) ?_)) ?_))
  · exact section_at pairMsh4 "PhysicalNames" 3 8 (by decide +kernel) (by decide +kernel) (by decide +kernel) (by decide +kernel)
  · repeat (first | exact .nil | refine .cons (by decide +kernel) ?_)
  · refine .cons ⟨"2", by decide +kernel, by decide +kernel⟩ (.cons ⟨"2", by decide +kernel, by decide +kernel⟩
      (.cons ⟨"3", by decide +kernel, by decide +kernel⟩ .nil))

theorem pair4_last : ∀ init b rest, pairBlocks4 = init ++ b :: rest → rest.flatMap (·.nodes) = [] → b.nodes.length ≠ 1 := by
  intro init b rest h _
  have : b ∈ pairBlocks4 := by rw [h]; simp
  have all : ∀ b ∈ pairBlocks4, b.nodes.length ≠ 1 := by decide
  exact all b this

theorem pair4_text : List.Forall₂ (fun (t : String) ws => Spells t.toList ws) (pairMsh4.map joined) pairMsh4 := by
  rw [List.forall₂_map_left_iff]
  refine List.forall₂_same.2 fun l hl => spells_joined l ?_
  have : ∀ l ∈ pairMsh4, ∀ w ∈ l, IsWord w = true := by decide +kernel
  exact this l hl

theorem pair4_groups : (∀ b ∈ pairEltBlocks, ∀ e ∈ eltsOf pairCurves pairSurfaces pairVolumes [b], (e.dim : Int) = b.dim) ∧
    ∀ l, some tetraNames = some l → ∀ b ∈ pairEltBlocks, b.dim = 2 → (∀ c, pairCurves.getLast? = some c → c.tag ≠ b.ent) ∧
      ∃ g, groupOf pairCurves pairSurfaces pairVolumes 2 b.ent = some g ∧ ∃ p ∈ l, p.dim = 2 ∧ p.tag = g := by
  refine ⟨by decide +kernel, ?_⟩
  intro l hl
  cases hl
  decide +kernel

/-- The whole command on a folder that holds this file. -/
example (store : Option Int → F64) (e : Endian) (v : Ver) (cv : Conv) : ∃ fuel s' name b c g lb li pts,
    gmshToIc3 intNum store (fun _ => pairMsh4.map joined) id .little e v cv
      (⟨id, fun l => if l = "d/p.msh".toList then some [1] else none⟩ : Fs Name) fuel "d/p.msh".toList none = some (s', .ok name) ∧
    s'.content name = some b ∧ readIc3 true b = .ok g ∧ Converted store pts (some tetraNames) pairElts c lb li g.mesh ∧
    pts.length = 5 := by
  obtain ⟨h1, h2, h3, h4, h5, h6, h7, h8, h9, -⟩ := pair_meets
  obtain ⟨f1, f2, f3, f4, f5⟩ := pair4_file
  obtain ⟨g1, g2⟩ := pair4_groups
  have hsup : ∀ e ∈ eltsOf pairCurves pairSurfaces pairVolumes pairEltBlocks, e.Supported := pair4_elts ▸ pair_supported
  have ht : topDim (eltsOf pairCurves pairSurfaces pairVolumes pairEltBlocks) = 3 := pair4_elts ▸ h2
  obtain ⟨m, pts, hm, hi, hl, -⟩ := C59_mesh (by decide) f1 f5 h1 f2 (by decide +kernel) pair4_last f3 (by decide) f4 hsup ht g1 g2
  rw [pair4_elts] at hi
  obtain ⟨n, s', name, hn⟩ := C64_command_succeeds hm hi pair_supported (by rw [h2]; decide) h5 h6 h7 h8
    (by unfold Fits at h9 ⊢; simpa [hl, pairNodes] using h9) store id (fun l => List.Perm.refl l)
    .little e v cv (fun _ => pairMsh4.map joined) _ (oneFile_finite "d/p.msh".toList [1]) "d/p.msh".toList (by decide) none [1]
    (by decide) pair4_text
  obtain ⟨-, -, b, c, g, lb, li, pts', r1, r2, r3, r4, -⟩ := C64_msh4 (by decide) f1 f5 h1 f2 (by decide +kernel) pair4_last f3
    (by decide) f4 hsup ht g1 g2 (pair4_elts ▸ h5) (pair4_elts ▸ h6) store id
    (fun l => List.Perm.refl l) .little e v cv (fun _ => pairMsh4.map joined) _ s' n "d/p.msh".toList name none [1]
    (by decide) pair4_text (hn n le_rfl) true
  exact ⟨n, s', name, b, c, g, lb, li, pts', hn n le_rfl, r1, r2, pair4_elts ▸ r3, r4⟩

end Cfd.Convert
