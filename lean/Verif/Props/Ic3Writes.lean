import Verif.Lemmas.Ic3Writes
import Verif.Props.Ic3Cells
import Verif.Props.Cube

/-! C63: which meshes the IC3 writers accept. -/

namespace Cfd
open Spec ElemConn

/-- The renumbering keeps types and nodes of the boundary faces. -/
theorem reindex_tables {R : Type} {m m' : Mesh R} {fs : FaceSet} (hfs : m.faces.get? "boundary" = some fs)
    (h : m.reindexBoundary = .ok m') : ∃ fs', m'.faces.get? "boundary" = some fs' ∧ m'.nface = m.nface ∧
      fs'.f2n.tbl.map (fun p => (p.1, p.2.e2n)) = fs.f2n.tbl.map fun p => (p.1, p.2.e2n) := by
  unfold Mesh.reindexBoundary at h
  simp only [hfs] at h
  rw [bind_eq_ok] at h
  obtain ⟨_, _, h⟩ := h
  rw [bind_eq_ok] at h
  obtain ⟨old, _, h⟩ := h
  rw [bind_eq_ok] at h
  obtain ⟨cu, _, h⟩ := h
  split at h
  · split at h
    · simp at h
    rw [bind_eq_ok] at h
    obtain ⟨ni, _, h⟩ := h
    rw [bind_eq_ok] at h
    obtain ⟨_, _, h⟩ := h
    rw [bind_eq_ok] at h
    obtain ⟨bocos, _, h⟩ := h
    rw [bind_eq_ok] at h
    obtain ⟨tbl, htbl, h⟩ := h
    rw [bind_eq_ok] at h
    obtain ⟨conn, _, h⟩ := h
    split at h
    · simp at h
    rw [bind_eq_ok] at h
    obtain ⟨rows', _, h⟩ := h
    simp only [Except_pure, Except.ok.injEq] at h
    subst h
    refine ⟨_, Dict.get?_set_self _ _ _, rfl, ?_⟩
    simp only
    rw [mapM_ok_iff] at htbl
    generalize fs.f2n.tbl = t0 at htbl
    clear hfs
    induction htbl with
    | nil => rfl
    | cons hab _ ih =>
      rw [List.map_cons, List.map_cons, ih]
      congr 1
      rw [bind_eq_ok] at hab
      obtain ⟨e, he, hab⟩ := hab
      simp only [Except_pure, Except.ok.injEq] at hab
      subst hab
      unfold Mesh.reindexEntry at he
      rw [bind_eq_ok] at he
      obtain ⟨l, _, he⟩ := he
      rw [bind_eq_ok] at he
      obtain ⟨nl, _, he⟩ := he
      simp only [Except_pure, Except.ok.injEq] at he
      subst he
      rfl
  · simp at h

theorem sameWidths_of_tables {a a' b : ElemConn}
    (h : a'.tbl.map (fun p => (p.1, p.2.e2n)) = a.tbl.map fun p => (p.1, p.2.e2n)) (hw : SameWidths [a, b]) :
    SameWidths [a', b] := by
  obtain ⟨w, hw⟩ := hw
  refine ⟨w, ?_⟩
  intro c hc p hp
  simp only [List.mem_cons, List.not_mem_nil, or_false] at hc
  rcases hc with rfl | rfl
  · have : (p.1, p.2.e2n) ∈ c.tbl.map fun p => (p.1, p.2.e2n) := List.mem_map_of_mem (f := fun p => (p.1, p.2.e2n)) hp
    rw [h] at this
    obtain ⟨q, hq, hqe⟩ := List.mem_map.1 this
    simp only [Prod.mk.injEq] at hqe
    rw [← hqe.1, ← hqe.2]
    exact hw a (by simp) q hq
  · exact hw _ (by simp) p hp

end Cfd

namespace Cfd.Ic3
open Spec Spec.Ic3 ElemConn

/-- The faces of a completed mesh can be exported together; their number. -/
theorem completed_export {tbl : FaceTable} (ht : TableWF tbl) {so : List Int → List Int}
    {m m' : Mesh F64} {c : ElemConn} (hm : CellMesh m c) {r : FacesResult} (hr : createFaces tbl c = .ok r)
    (h : completeMesh tbl so m = .ok m') (hw : SameWidths [r.boundary, r.internal]) :
    (∃ q, m'.exportMixed = .ok q) ∧ m'.nface = (elements r.boundary).length + (elements r.internal).length := by
  have hwf := createFaces_wf ht hm.conn hr
  have hnf : (facedMesh so m r).nface = (elements r.boundary).length + (elements r.internal).length := by
    show r.internal.nelem + r.boundary.nelem = _
    rw [hwf.1.nelem, hwf.2.nelem]
    omega
  rw [complete_eq ht so hm.toNodeCells hr] at h
  obtain ⟨wb, wi⟩ := faceSetWF_generated ht hm.conn (conn_ne_nil hm.toNodeCells) hr
  have hset : MarksSet (facedMesh so m r) := by
    intro p hp
    obtain ⟨_, l, hl⟩ := faceMarks_mem hp
    rw [hl]; simp
  have hon : MarksOnFaces (facedMesh so m r) := fun p hp => .inr (faceMarks_mem hp).1
  have hfb : (facedMesh so m r).faces.get? "boundary" = some ⟨r.boundary, some r.b2c⟩ := rfl
  have hfi : (facedMesh so m r).faces.get? "internal" = some ⟨r.internal, some r.i2c⟩ := rfl
  unfold needReindex at h
  split at h
  · obtain ⟨hne, hnon, hperm, _⟩ := C18_reindex_refuses _ m' _ _ hfb wb hset h
    obtain ⟨m2, σ, fs', rows', h1, h2, h3, h4, h5, _⟩ :=
      C18_reindex_consistent _ _ _ hfb wb hset hon hne hnon hperm
    rw [h] at h1
    simp only [Except.ok.injEq] at h1
    subst h1
    obtain ⟨fs2, g1, g2, g3⟩ := reindex_tables hfb h
    rw [h4, Option.some.injEq] at g1
    subst g1
    refine ⟨?_, by rw [g2, hnf]⟩
    have hi : m'.faces.get? "internal" = some ⟨r.internal, some r.i2c⟩ := by rw [h3 _ (by decide), hfi]
    obtain ⟨mc, rows, k, _⟩ := C14_mixed_aligned m' _ _ _ _ h4 hi h5 wi (sameWidths_of_tables g3 hw)
    exact ⟨_, k⟩
  · simp only [Except.ok.injEq] at h
    subst h
    refine ⟨?_, hnf⟩
    obtain ⟨mc, rows, k, _⟩ := C14_mixed_aligned _ _ _ _ _ hfb hfi wb wi hw
    exact ⟨_, k⟩

/-- The number of faces of the completed mesh. -/
theorem completed_nface {tbl : FaceTable} (ht : TableWF tbl) {so : List Int → List Int}
    {m m' : Mesh F64} {c : ElemConn} (hm : CellMesh m c) {r : FacesResult} (hr : createFaces tbl c = .ok r)
    (h : completeMesh tbl so m = .ok m') : m'.nface = (elements r.boundary).length + (elements r.internal).length := by
  have hwf := createFaces_wf ht hm.conn hr
  have hnf : (facedMesh so m r).nface = (elements r.boundary).length + (elements r.internal).length := by
    show r.internal.nelem + r.boundary.nelem = _
    rw [hwf.1.nelem, hwf.2.nelem]
    omega
  rw [complete_eq ht so hm.toNodeCells hr] at h
  have hfb : (facedMesh so m r).faces.get? "boundary" = some ⟨r.boundary, some r.b2c⟩ := rfl
  unfold needReindex at h
  split at h
  · obtain ⟨_, _, g2, _⟩ := reindex_tables hfb h
    rw [g2, hnf]
  · simp only [Except.ok.injEq] at h
    rw [← h, hnf]

/-- The faces of the cells, by types and widths. -/
theorem type_of_face {tbl : FaceTable} (hd : DistinctWidths tbl) {c : ElemConn} {ft : String}
    {o o' : List Int × Int} (ho : o ∈ cellFaces tbl c ft) (ho' : o' ∈ facesOfCells tbl c)
    (hl : o'.1.length = o.1.length) :
    o' ∈ cellFaces tbl c ft ∧ (facesOn tbl c o'.1).length = occurrences tbl c ft o'.1 := by
  obtain ⟨ft', h'⟩ := mem_cellFaces_of ho'
  have := cellFaces_type hd h' ho hl
  subst this
  exact ⟨h', facesOn_length hd h' rfl⟩

theorem mem_of_faceType {tbl : FaceTable} {c : ElemConn} (hc : ConnWF c)
    (hne : ∀ t ∈ c.tbl.keys, elementsOf c t ≠ []) {ft : String} (h : ft ∈ faceTypes tbl c) :
    ∃ o, o ∈ cellFaces tbl c ft := by
  unfold faceTypes at h
  simp only [List.mem_flatMap] at h
  obtain ⟨et, het, q, hq, h⟩ := h
  split at h
  · simp at h
  rename_i hq2
  simp only [List.mem_singleton] at h
  subst h
  obtain ⟨f, hf⟩ := List.exists_mem_of_ne_nil _ hq2
  obtain ⟨x, hx⟩ := List.exists_mem_of_ne_nil _ (hne et het)
  refine ⟨(f.reverse.map fun k => x.2.getD k 0, x.1), ?_⟩
  unfold cellFaces localFaces
  simp only [List.mem_flatMap, List.mem_map]
  exact ⟨(et, x.1, x.2), (mem_elements hc.keys).2 hx, f, ⟨q, hq, by simpa using hf⟩, rfl⟩

/-- Distinct faces are counted once. -/
theorem faceCount_eq {tbl : FaceTable} {c : ElemConn} {lb li : List Face} (h : FacesOf tbl c lb li) :
    (lb ++ li).length = faceCount tbl c := by
  have hmem : ∀ f ∈ lb ++ li, ∃ a, (f.1, a) ∈ facesOfCells tbl c := by
    intro f hf
    rcases List.mem_append.1 hf with hf | hf
    · obtain ⟨a, _, h2⟩ := h.boundary f hf
      have : (f.1, a) ∈ facesOn tbl c f.1 := by rw [h2]; simp
      exact ⟨a, (mem_facesOn.1 this).1⟩
    · obtain ⟨n, h1⟩ := h.internal f hf
      have h2 : (f.1, f.2.1) ∈ facesOn tbl c f.1 := by rw [h1.mem_iff]; simp
      exact ⟨_, (mem_facesOn.1 h2).1⟩
  have hcount : ∀ n : List Int, ((lb ++ li).map fun f => sortInts f.1).count (sortInts n) =
      (lb ++ li).countP fun f => f.1.isPerm n := by
    intro n
    unfold List.count
    rw [List.countP_map]
    apply List.countP_congr
    intro q _
    simp only [Function.comp_apply, beq_iff_eq, List.isPerm_iff]
    exact sortInts_eq_iff
  have hnd : ((lb ++ li).map fun f => sortInts f.1).Nodup := by
    rw [List.nodup_iff_count_le_one]
    intro k
    by_cases hk : k ∈ (lb ++ li).map fun f => sortInts f.1
    · obtain ⟨f, hf, rfl⟩ := List.mem_map.1 hk
      obtain ⟨a, ha⟩ := hmem f hf
      rw [hcount, h.once _ ha]
    · rw [List.count_eq_zero_of_not_mem hk]; omega
  have hp : ((lb ++ li).map fun f => sortInts f.1).Perm ((facesOfCells tbl c).map fun o => sortInts o.1).dedup := by
    rw [List.perm_ext_iff_of_nodup hnd (List.nodup_dedup _)]
    intro k
    rw [List.mem_dedup]
    constructor
    · intro hk
      obtain ⟨f, hf, rfl⟩ := List.mem_map.1 hk
      obtain ⟨a, ha⟩ := hmem f hf
      exact List.mem_map.2 ⟨_, ha, rfl⟩
    · intro hk
      obtain ⟨o, ho, rfl⟩ := List.mem_map.1 hk
      have := h.once o ho
      rw [← hcount] at this
      exact List.count_pos_iff.1 (by omega)
  have := hp.length_eq
  rw [List.length_map] at this
  exact this

/-- C63, for any mesh: when it can be completed (C62, C16, C18), its faces, marks and data are within the
limits of the format, and its faces can be exported (C14), the file is written without exception. -/
theorem C63_writes (tbl : FaceTable) (so : List Int → List Int) (host : Order) (e : Endian) (v : Ver) (cv : Conv)
    (f : FullMesh) (m : Mesh F64) (l : List Face) (hc : completeMesh tbl so f.mesh = .ok m) (hs : Storable m l)
    (hd : DataStorable v f m) (hn : NamesFit f) (mf : MeshFits m l) (df : DataFits v cv f m.ncell)
    (hx : m.faces.get? "mixed" = none → ∃ r, m.exportMixed = .ok r) :
    ∃ b, writeIc3 tbl so host e v cv f = (some b, .ok ()) :=
  writeIc3_of host e hc hs hd hn mf df hx

theorem twoTetra_meshFits : MeshFits twoTetra.mesh twoTetraFaces where
  counts := by decide
  count := by decide
  coords := ⟨_, _, _, rfl⟩
  numbers := by decide
  marks := by
    intro p hp _
    simp only [twoTetra, List.mem_cons, List.not_mem_nil, or_false] at hp
    rcases hp with rfl | rfl
    · exact ⟨rfl, by decide, by decide, by decide, by intro a b h; cases h; decide⟩
    · exact ⟨rfl, by decide, by decide, by decide, by intro a b h; cases h; decide⟩

/-- The two tetrahedra with two face sets meet the hypotheses. -/
example (e : Endian) (cv : Conv) := C63_writes _ _ .little e .v3 cv twoTetra _ _ twoTetra_complete twoTetra_storable
  (twoTetra_data .v3) twoTetra_names twoTetra_meshFits
  { part := .inr ⟨⟨some 2, .arr [0, 1]⟩, rfl, by decide, .inr ⟨_, rfl, by decide, by decide⟩⟩
    step := by intro s h; simp [twoTetra, Dict.get?] at h; subst h; exact (by decide : FitsInt 8 3)
    dt := by intro s h; simp [twoTetra, Dict.get?] at h
    time := by intro s h d; simp [twoTetra, Dict.get?] at h; subst h; simp
    wgt := by intro s h; simp [twoTetra, Dict.get?] at h
    nodes := by
      intro p hp
      simp only [twoTetra, List.mem_cons, List.not_mem_nil, or_false] at hp
      subst hp
      exact fun _ _ => trivial
    cells := by
      intro p hp
      simp only [twoTetra, List.mem_cons, List.not_mem_nil, or_false] at hp
      rcases hp with rfl | rfl | rfl
      · exact fun _ _ => trivial
      · exact fun _ _ => trivial
      · exact fun _ _ => (by decide : ∀ n ∈ [(-1 : Int), 4], FitsInt 8 n)
    attrs := fun _ _ => ⟨_, rfl, by decide, by decide⟩ }
  (fun _ => exists_of_isOk (by decide +kernel))

/-- The numbers of the faces of cells. -/
theorem cellFace_fits {tbl : FaceTable} {m : Mesh F64} {c : ElemConn} (hm : CellMesh m c)
    (hnum : ∀ x ∈ elements c, ∀ n ∈ x.2.2, FitsInt 4 n) (hsm : Small m.ncell) {lb li : List Face} (hfo : FacesOf tbl c lb li)
    (x : Face) (hx : x ∈ lb ++ li) : (∀ n ∈ x.1, FitsInt 4 n) ∧ FitsInt 4 x.2.1 ∧ FitsInt 4 x.2.2 := by
  have hfits : ∀ o ∈ facesOfCells tbl c, (∀ n ∈ o.1, FitsInt 4 n) ∧ FitsInt 4 o.2 := by
    intro o ho
    have hi := facesOfCells_cell ho
    constructor
    · unfold facesOfCells at ho
      simp only [List.mem_flatMap, List.mem_map] at ho
      obtain ⟨x, hx, q, hq, g, hg, rfl⟩ := ho
      intro n hn
      obtain ⟨k, _, rfl⟩ := List.mem_map.1 hn
      rw [List.getD_eq_getElem?_getD]
      cases hk : x.2.2[k]? with
      | none => simp [FitsInt]
      | some n => exact hnum x hx n (List.mem_of_getElem? hk)
    · rw [hm.numbering.2] at hi
      have h2 := hsm
      have h3 : (allIndices c).length = m.ncell := by
        rw [hm.ncell, hm.conn.nelem]; simp [allIndices]
      unfold Small at h2
      unfold FitsInt
      omega
  rcases List.mem_append.1 hx with hx | hx
  · obtain ⟨a, h1, h2⟩ := hfo.boundary x hx
    have : (x.1, a) ∈ facesOn tbl c x.1 := by rw [h2]; simp
    obtain ⟨k1, k2⟩ := hfits _ (mem_facesOn.1 this).1
    refine ⟨k1, by rw [h1]; exact k2, by rw [h1]; simp [FitsInt]⟩
  · obtain ⟨n, h1⟩ := hfo.internal x hx
    have h2 : (x.1, x.2.1) ∈ facesOn tbl c x.1 := by rw [h1.mem_iff]; simp
    have h3 : (n, x.2.2) ∈ facesOn tbl c x.1 := by rw [h1.mem_iff]; simp
    obtain ⟨k1, k2⟩ := hfits _ (mem_facesOn.1 h2).1
    obtain ⟨_, k3⟩ := hfits _ (mem_facesOn.1 h3).1
    exact ⟨k1, k2, k3⟩

/-- A mesh of cells and node marks within the limits of the format can be completed, and fits the format. -/
theorem cells_ready {tbl : FaceTable} (ht : TableWF tbl) (hdw : DistinctWidths tbl)
    {so : List Int → List Int} (hso : Reorders so) {m : Mesh F64} {c : ElemConn} (hm : CellMesh m c) (hk : CellsKnown tbl c)
    (hfit : CellsFit tbl m c) :
    ∃ r m' lb li σ, createFaces tbl c = .ok r ∧ completeMesh tbl so m = .ok m' ∧ Completed so m r m' lb li σ ∧
      Storable m' (lb ++ li) ∧ MeshFits m' (lb ++ li) ∧ (∃ x, m'.exportMixed = .ok x) ∧ m'.nface = faceCount tbl c := by
  obtain ⟨r, hr, _⟩ : ∃ r, createFaces tbl c = .ok r ∧ _ := by
    refine C10_conforming_accepted tbl ht c hm.conn hk ?_ ?_
    · intro ft o ho
      rw [← facesOn_length hdw ho rfl]
      exact hfit.conforming o (mem_facesOfCells_of ho)
    · intro ft hft
      obtain ⟨o, ho⟩ := mem_of_faceType hm.conn hfit.types hft
      obtain ⟨o', ho', hl, h2⟩ := hfit.inner o (mem_facesOfCells_of ho)
      rw [(type_of_face hdw ho ho' hl).2] at h2
      exact ⟨_, h2⟩
  have hwid : SameWidths [r.boundary, r.internal] := by
    rw [sameWidths_iff ht hm.conn hr]
    intro ft hft
    obtain ⟨o, ho⟩ := mem_of_faceType hm.conn hfit.types hft
    obtain ⟨o', ho', hl, h2⟩ := hfit.outer o (mem_facesOfCells_of ho)
    obtain ⟨k1, k2⟩ := type_of_face hdw ho ho' hl
    exact ⟨o', k1, by rw [← k2, h2]⟩
  obtain ⟨m', hc⟩ : ∃ m', completeMesh tbl so m = .ok m' := by
    rw [C62_completes_iff tbl ht hdw so hso m c hm hk]
    refine ⟨(C10_acceptance_partial tbl ht c hm.conn hk).1.1 ⟨r, hr⟩, ?_, ?_⟩
    · intro p hp
      obtain ⟨o, h1, h2, h3⟩ := hfit.markSome p hp
      exact ⟨o, h1, h2, h3⟩
    · rintro p hp q hq hpq o ho h1 ⟨h2, h3⟩
      exact hfit.markApart p hp q hq hpq o ⟨⟨ho, h1, h2⟩, ho, h1, h3⟩
  obtain ⟨lb, li, σ, hcomp⟩ := completed_of_ok ht hso hm.toNodeCells hr hc
  have hs := completed_storable ht hdw hm hfit.conforming hfit.width hr hcomp
  have hfo := facesOf_generated ht hdw hm.conn hfit.conforming hr hcomp.pb hcomp.pi
  obtain ⟨hx, hnf⟩ := completed_export ht hm hr hc hwid
  have hlen : (lb ++ li).length = (elements r.boundary).length + (elements r.internal).length := by
    rw [List.length_append, hcomp.pb.length_eq, hcomp.pi.length_eq]
    simp [storedFaces]
  have hnface : m'.nface = faceCount tbl c := by rw [hnf, ← hlen, faceCount_eq hfo]
  have hrest := hcomp.rest
  have hnc : m'.ncell = m.ncell := by rw [hrest]
  have hnn : m'.nnode = m.nnode := by rw [hrest]
  have mf : MeshFits m' (lb ++ li) := by
    constructor
    · rw [hnn, hnc, hnface]; exact hfit.counts
    · rw [hnf, hlen]
    · rw [hrest]; exact hfit.coords
    · exact cellFace_fits hm hfit.numbers hfit.counts.2.1 hfo
    · intro p hp _
      obtain ⟨b, x, y, hb, h2, h3, h4, h5, _⟩ := completed_mark hcomp hp
      have hrange : ∀ a b, p.2.index = .range a b → FitsInt 8 b := by
        intro a b' hab
        rw [h2] at hab
        simp only [IndexList.range.injEq] at hab
        have hl := hfit.counts.2.2
        rw [← faceCount_eq hfo, List.length_append] at hl
        unfold Small at hl
        unfold FitsInt
        omega
      rcases faceMarks_cases hb with ⟨q, hq, he⟩ | ⟨_, he⟩
      · have hb1 : p.1 = q.1 := (Prod.mk.inj he).1
        have hb2 : b = toFaces r.boundary q.2 := (Prod.mk.inj he).2
        obtain ⟨k1, k2, k3⟩ := hfit.markKnown q hq
        refine ⟨?_, ?_, ?_, ?_, hrange⟩
        · rw [h2, hb2, hb1]; exact k1
        · rw [h2, hb2]; rfl
        · rw [h2, hb2]; exact k2
        · rw [h2, hb2]; exact k3
      · have hb1 : p.1 = "unmarked" := (Prod.mk.inj he).1
        have hb2 : b = restMark _ := (Prod.mk.inj he).2
        refine ⟨?_, ?_, ?_, ?_, hrange⟩
        · rw [h2, hb2, hb1]; rfl
        · rw [h2, hb2]; rfl
        · rw [h2, hb2]; show "boundary" ∈ type2zonekind.keys; decide
        · rw [h2, hb2]; simp [restMark]
  exact ⟨r, m', lb, li, σ, hr, hc, hcomp, hs, mf, hx, hnface⟩

/-- C63: a mesh of cells and node marks within the limits of the format is written without exception, by
both versions, in both byte orders, with data of the right sizes; the file is read back as in C62. -/
theorem C63_cells (tbl : FaceTable) (ht : TableWF tbl) (hdw : DistinctWidths tbl)
    (so : List Int → List Int) (hso : Reorders so) (host : Order) (e : Endian) (v : Ver) (cv : Conv)
    (f : FullMesh) (c : ElemConn) (hm : CellMesh f.mesh c) (hk : CellsKnown tbl c) (hfit : CellsFit tbl f.mesh c)
    (hn : NamesFit f) (hd : DataStorable v f { f.mesh with nface := faceCount tbl c })
    (df : DataFits v cv f f.mesh.ncell) (integ : Bool) :
    ∃ b g lb li, writeIc3 tbl so host e v cv f = (some b, .ok ()) ∧ readIc3 integ b = .ok g ∧
      FromCells tbl c f.mesh lb li g.mesh := by
  obtain ⟨r, m', lb, li, σ, hr, hc, hcomp, hs, mf, hx, hnface⟩ := cells_ready ht hdw hso hm hk hfit
  have hrest := hcomp.rest
  have hnc : m'.ncell = f.mesh.ncell := by rw [hrest]
  have hnn : m'.nnode = f.mesh.nnode := by rw [hrest]
  have hd' : DataStorable v f m' := by
    constructor
    · exact hd.nodeKeys
    · exact hd.cellKeys
    · rw [hnn]; exact hd.nodes
    · rw [hnc]; exact hd.cells
    · rw [hnn]; exact hd.someNode
    · rw [hnn, hnc, hnface]; exact hd.someCell
  obtain ⟨b, hb⟩ := writeIc3_of host e (v := v) (cv := cv) hc hs hd' hn mf (by rw [hnc]; exact df) (fun _ => hx)
  obtain ⟨g, lb', li', h1, h2⟩ := C62_from_cells tbl ht hdw so hso host e v cv f c hm hfit.conforming hfit.width hn b hb
    (by intro m2 h2; rw [hc, Except.ok.injEq] at h2; rw [← h2]; exact hd') integ
  exact ⟨b, g, lb', li', hb, h1, h2⟩

-- the hypotheses of `C63_cells` are met by the two tetrahedra of C62
theorem tetPair_fit : CellsFit cgnsElem2faces tetPair.mesh exTetras where
  types := by decide
  conforming := by unfold Conforming; decide +kernel
  width := by decide +kernel
  outer := by decide +kernel
  inner := by decide +kernel
  markSome := by
    have h : ∀ p ∈ tetPair.mesh.bocos, ∃ o ∈ facesOfCells cgnsElem2faces exTetras,
        (facesOn cgnsElem2faces exTetras o.1).length = 1 ∧ ∀ n ∈ o.1, n ∈ markItems p.2 := by decide +kernel
    intro p hp
    obtain ⟨o, h1, h2, h3⟩ := h p hp
    exact ⟨o, h1, h2, h3⟩
  markApart := by
    have h : ∀ p ∈ tetPair.mesh.bocos, ∀ q ∈ tetPair.mesh.bocos, p.1 ≠ q.1 →
        ∀ o ∈ facesOfCells cgnsElem2faces exTetras, (facesOn cgnsElem2faces exTetras o.1).length = 1 →
          ¬ ((∀ n ∈ o.1, n ∈ markItems p.2) ∧ ∀ n ∈ o.1, n ∈ markItems q.2) := by decide +kernel
    rintro p hp q hq hpq o ⟨⟨h1, h2, h3⟩, _, _, h4⟩
    exact h p hp q hq hpq o h1 h2 ⟨h3, h4⟩
  markKnown := by decide
  counts := by decide +kernel
  numbers := by decide
  coords := ⟨_, _, _, rfl⟩

theorem tetPair_dataFits (v : Ver) (cv : Conv) : DataFits v cv tetPair tetPair.mesh.ncell where
  part := .inl rfl
  step := by intro s h; simp [tetPair, Dict.get?] at h
  dt := by intro s h; simp [tetPair, Dict.get?] at h
  time := by intro s h; simp [tetPair, Dict.get?] at h
  wgt := by intro s h; simp [tetPair, Dict.get?] at h
  nodes := by intro p hp; simp [tetPair] at hp; subst hp; exact fun _ _ => trivial
  cells := by intro p hp; simp [tetPair] at hp; subst hp; exact fun _ _ => trivial
  attrs := fun _ _ => ⟨_, rfl, by decide, by decide⟩

example (e : Endian) (v : Ver) (cv : Conv) (integ : Bool) := C63_cells _ cgnsTable_wf cgnsTable_widths id
  (fun l => List.Perm.refl l) .little e v cv tetPair _ tetPair_cells exTetras_known tetPair_fit tetPair_names
  (by cases v <;> constructor <;> decide +kernel) (tetPair_dataFits v cv) integ

end Cfd.Ic3
