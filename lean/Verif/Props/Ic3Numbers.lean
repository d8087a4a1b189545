import Verif.Props.Ic3Cells

/-! C62, cell numbers: which files written from cells the reader refuses. -/

namespace Cfd.Ic3
open Spec Spec.Ic3 ElemConn

theorem readCvofa_max {v : Ver} {cv : Conv} {w : WState} {file : Bytes} {o : Order}
    (hF : IsFile o file (bodySecs o v cv w)) (hw : Written v cv w) {x : List (Int × Int) × Nat}
    (h : readCvofa file o w.nfa w.ncv = .ok x) :
    ((WState.rows w).flatMap fun r => [r.1, r.2]).max? = some ((w.ncv : Int) - 1) := by
  rw [bodySecs_eq] at hF
  obtain ⟨q, s1, a1⟩ := IsFile.scanReq (ids := [cCvofa]) (l := cntSec w :: (checkSecs o v w ++ [noofaSec o w]))
    (s := cvofaSec o w) (by simpa using hF)
    (by rw [Others.cons, Others.append, Others.cons]
        exact ⟨by sid, others_check (by decide) (by decide) (by decide), by sid, Others.nil⟩) (by sid)
  rw [cvofaSec, sec_payload] at a1
  have hl : ((WState.rows w).flatMap fun r => [r.1, r.2]).length = w.nfa * 2 := by
    rw [length_flatMap_pairs, hw.rowsLen]
  have r1 := a1.readI32 hw.rowsFit (n := (w.nfa : Int) * 2) (by rw [hl]; omega)
  unfold readCvofa at h
  rw [s1, cvofaSec] at h
  simp only [Except_bind_ok] at h
  rw [sec_int _ _ _ _ _ 0 (by simp), sec_int _ _ _ _ _ 1 (by simp), r1] at h
  simp only [Except_bind_ok, orRaise, bind_eq_ok] at h
  obtain ⟨_, _, _, _, h⟩ := h
  split at h
  · simp at h
  · rename_i mx hmx
    simp only [bind_eq_ok] at h
    obtain ⟨_, _, _, h2, _⟩ := h
    rw [pyAssert_eq_ok, decide_eq_true_eq] at h2
    rw [hmx, h2]

/-- The reader accepts a file only if the largest cell number on its faces is the one of the last cell. -/
theorem readIc3_max {host : Order} {e : Endian} {v : Ver} {cv : Conv} {w : WState} {b : Bytes} (hn : NamesOK w)
    (h : runChunks (fileChunks host e v cv w) = (b, .ok ())) {integ : Bool} {g : FullMesh}
    (hr : readIc3 integ b = .ok g) :
    ((WState.rows w).flatMap fun r => [r.1, r.2]).max? = some ((w.ncv : Int) - 1) := by
  have hF := isFile_of_ok hn h
  have hw := written_of_ok h
  obtain ⟨h1, _⟩ := write_full hn h
  unfold readIc3 at hr
  rw [bind_eq_ok] at hr
  obtain ⟨d, hr, _⟩ := hr
  unfold readData at hr
  simp only [bind_eq_ok] at hr
  obtain ⟨⟨o, ver⟩, hh, x, hx, _⟩ := hr
  have ho : o = e.order host := by
    rw [h1, fileBytes] at hh
    rcases readRestartHeader_prefix (e.order host) v _ _ (List.prefix_refl _) with ⟨er, h⟩ | ⟨h, _⟩
    · rw [h] at hh; simp at hh
    · rw [h] at hh
      simp only [Except.ok.injEq, Prod.mk.injEq] at hh
      exact hh.1.symm
  subst ho
  obtain ⟨q, s1⟩ := counts_ok hF
  unfold readConnectivity at hx
  rw [s1, cntSec] at hx
  simp only [Except_bind_ok] at hx
  rw [sec_int _ _ _ _ _ 0 (by simp), sec_int _ _ _ _ _ 1 (by simp), sec_int _ _ _ _ _ 2 (by simp),
    sec_int _ _ _ _ _ 3 (by simp)] at hx
  simp only [List.getElem_cons_zero, List.getElem_cons_succ] at hx
  have key : ∀ k : RMesh, (do
      let csr ← readNoofa b (e.order host) w.nfa w.noofaV.length
      let (cvofa, p) ← readCvofa b (e.order host) w.nfa w.ncv
      let bocos ← sectionLoop b (e.order host) [cFaZone] (zoneStep csr) p []
      let (npart, icv) ← readPart b (e.order host) w.ncv
      let coords ← readCoords b (e.order host) w.nno
      return (⟨w.nno, w.nfa, w.ncv, w.noofaV.length, csr, cvofa, bocos, npart, icv, coords⟩ : RMesh)) = .ok k →
      ((WState.rows w).flatMap fun r => [r.1, r.2]).max? = some ((w.ncv : Int) - 1) := by
    intro k hk
    simp only [bind_eq_ok] at hk
    obtain ⟨_, _, y, hy, _⟩ := hk
    exact readCvofa_max hF hw hy
  split at hx
  · rw [bind_eq_ok] at hx
    obtain ⟨_, _, hx⟩ := hx
    exact key _ hx
  · exact key _ hx

/-- A file written by `writeIc3`: the completed mesh and the state of the writer. -/
theorem write_state {tbl : FaceTable} {so : List Int → List Int} {host : Order} {e : Endian} {v : Ver} {cv : Conv}
    {f : FullMesh} {b : Bytes} (h : writeIc3 tbl so host e v cv f = (some b, .ok ())) :
    ∃ m w, completeMesh tbl so f.mesh = .ok m ∧ setMesh f m = .ok w ∧
      runChunks (fileChunks host e v cv w) = (b, .ok ()) := by
  unfold writeIc3 at h
  cases hc : completeMesh tbl so f.mesh with
  | error er =>
    rw [hc] at h
    simp [bind, Except.bind] at h
  | ok m =>
    rw [hc, Except_bind_ok] at h
    split at h
    · simp at h
    · rename_i w hw
      simp only [Prod.mk.injEq, Option.some.injEq] at h
      exact ⟨m, w, rfl, hw, Prod.ext h.1 h.2⟩

/-- The cells of the generated faces are cells of the mesh; the cells of a face of one or two cells are on it. -/
theorem cells_generated {tbl : FaceTable} (ht : TableWF tbl) (hd : DistinctWidths tbl) {c : ElemConn}
    (hc : ConnWF c) {r : FacesResult} (hr : createFaces tbl c = .ok r)
    {lb li : List Face} (hb : lb.Perm (storedFaces ⟨r.boundary, some r.b2c⟩ (r.b2c.getD [])))
    (hi : li.Perm (storedFaces ⟨r.internal, some r.i2c⟩ (r.i2c.getD []))) :
    (∀ f ∈ lb ++ li, (∃ o ∈ facesOfCells tbl c, f.2.1 = o.2) ∧ (f.2.2 = -1 ∨ ∃ o ∈ facesOfCells tbl c, f.2.2 = o.2)) ∧
    ∀ o ∈ facesOfCells tbl c, (facesOn tbl c o.1).length ≤ 2 → ∃ f ∈ lb ++ li, f.2.1 = o.2 ∨ f.2.2 = o.2 := by
  have c8 := C08_faces_exactly_once tbl ht c hc r hr
  have cb := (C09_boundary_cells tbl ht c hc r hr).2
  have ci := (C09_internal_cells tbl ht c hc r hr).2
  have inv := facesInv_of_ok ht hc.entries hr
  constructor
  · intro f hf
    rcases List.mem_append.1 hf with hf | hf
    · rw [hb.mem_iff, storedFaces, List.mem_map] at hf
      obtain ⟨⟨t, k, nodes⟩, hx, rfl⟩ := hf
      obtain ⟨cell, h1, h2⟩ := cb t k nodes hx
      have h3 : (nodes, cell) ∈ (cellFaces tbl c t).filter fun o => o.1.isPerm nodes := by rw [h2]; simp
      simp only [h1, Option.getD_some]
      exact ⟨⟨_, mem_facesOfCells_of (List.mem_filter.1 h3).1, rfl⟩, .inl trivial⟩
    · rw [hi.mem_iff, storedFaces, List.mem_map] at hf
      obtain ⟨⟨t, k, nodes⟩, hx, rfl⟩ := hf
      obtain ⟨c1, c2, n2, rest, h1, h2⟩ := ci t k nodes hx
      have h3 : (nodes, c1) ∈ (cellFaces tbl c t).filter fun o => o.1.isPerm nodes := by rw [h2.mem_iff]; simp
      have h4 : (n2, c2) ∈ (cellFaces tbl c t).filter fun o => o.1.isPerm nodes := by rw [h2.mem_iff]; simp
      simp only [h1, Option.getD_some]
      exact ⟨⟨_, mem_facesOfCells_of (List.mem_filter.1 h3).1, rfl⟩,
        .inr ⟨_, mem_facesOfCells_of (List.mem_filter.1 h4).1, rfl⟩⟩
  · intro o ho hle
    obtain ⟨ft, hft⟩ := mem_cellFaces_of ho
    rw [facesOn_length hd hft rfl] at hle
    have hself : o ∈ (cellFaces tbl c ft).filter fun x => x.1.isPerm o.1 :=
      List.mem_filter.2 ⟨hft, List.isPerm_iff.2 (List.Perm.refl _)⟩
    have hpos : 0 < occurrences tbl c ft o.1 := by
      unfold occurrences
      rw [List.countP_eq_length_filter]
      exact List.length_pos_of_mem hself
    -- the occurrences of a stored face with the same nodes
    have hsame : ∀ nodes : List Int, nodes.Perm o.1 →
        ((cellFaces tbl c ft).filter fun x => x.1.isPerm nodes) = (cellFaces tbl c ft).filter fun x => x.1.isPerm o.1 := by
      intro nodes hp
      apply List.filter_congr
      intro x _
      rw [Bool.eq_iff_iff, List.isPerm_iff, List.isPerm_iff]
      exact ⟨fun h => h.trans hp, fun h => h.trans hp.symm⟩
    by_cases h1 : occurrences tbl c ft o.1 = 1
    · have := (c8 ft o.1).1
      rw [if_pos h1] at this
      have hq : 0 < facesWith r.boundary ft o.1 := by omega
      unfold facesWith at hq
      rw [List.countP_pos_iff] at hq
      obtain ⟨q, hq, hp⟩ := hq
      have hx : (ft, q.1, q.2) ∈ elements r.boundary := (mem_elements inv.bwf.keys).2 hq
      obtain ⟨cell, k1, k2⟩ := cb ft q.1 q.2 hx
      rw [hsame _ (List.isPerm_iff.1 hp)] at k2
      rw [k2, List.mem_singleton] at hself
      refine ⟨(q.2, (cell, -1)), List.mem_append.2 (.inl ?_), .inl (by rw [hself])⟩
      rw [hb.mem_iff, storedFaces, List.mem_map]
      exact ⟨_, hx, by simp only [k1, Option.getD_some]⟩
    · have := (c8 ft o.1).2
      rw [if_pos (by omega)] at this
      have hq : 0 < facesWith r.internal ft o.1 := by omega
      unfold facesWith at hq
      rw [List.countP_pos_iff] at hq
      obtain ⟨q, hq, hp⟩ := hq
      have hx : (ft, q.1, q.2) ∈ elements r.internal := (mem_elements inv.iwf.keys).2 hq
      obtain ⟨c1, c2, n2, rest, k1, k2⟩ := ci ft q.1 q.2 hx
      rw [hsame _ (List.isPerm_iff.1 hp)] at k2
      have hrest : rest = [] := by
        have := k2.length_eq
        unfold occurrences at hle
        rw [List.countP_eq_length_filter] at hle
        rw [this] at hle
        cases rest with
        | nil => rfl
        | cons _ _ => simp at hle
      subst hrest
      rw [k2.mem_iff] at hself
      refine ⟨(q.2, (c1, c2)), List.mem_append.2 (.inr ?_), ?_⟩
      · rw [hi.mem_iff, storedFaces, List.mem_map]
        exact ⟨_, hx, by simp only [k1, Option.getD_some]⟩
      · simp only [List.mem_cons, List.not_mem_nil, or_false] at hself
        rcases hself with rfl | rfl
        · exact .inl rfl
        · exact .inr rfl

/-- C62, cell numbers. A file written from cells and node marks, whatever their numbers, is read again only if some
cell has number `ncell - 1` and no cell with a face of one or two cells has a larger one. -/
theorem C62_numbers_read (tbl : FaceTable) (ht : TableWF tbl) (hdw : DistinctWidths tbl)
    (so : List Int → List Int) (hso : Reorders so) (host : Order) (e : Endian) (v : Ver) (cv : Conv)
    (f : FullMesh) (c : ElemConn) (hm : NodeCells f.mesh c) (hn : NamesFit f)
    (b : Bytes) (h : writeIc3 tbl so host e v cv f = (some b, .ok ())) (integ : Bool) (g : FullMesh)
    (hg : readIc3 integ b = .ok g) (hpos : 0 < f.mesh.ncell) :
    (∃ o ∈ facesOfCells tbl c, o.2 = (f.mesh.ncell : Int) - 1) ∧
      ∀ o ∈ facesOfCells tbl c, (facesOn tbl c o.1).length ≤ 2 → o.2 < (f.mesh.ncell : Int) := by
  obtain ⟨m', w, hc, hw, hrun⟩ := write_state h
  obtain ⟨r, hr⟩ : ∃ r, createFaces tbl c = .ok r := by
    have hc := hc
    unfold completeMesh needFaces at hc
    rw [hm.noFaces, bind_eq_ok] at hc
    obtain ⟨m1, h1, _⟩ := hc
    obtain ⟨r, hr, _⟩ := makeFaces_ok hm.cells h1
    exact ⟨r, hr⟩
  obtain ⟨lb, li, σ, hcomp⟩ := completed_of_ok ht hso hm hr hc
  obtain ⟨_, _, k3, _, _, k6⟩ := setMesh_faces hw hcomp.faces
  have hrows : WState.rows w = (lb ++ li).map (·.2) := by rw [WState.rows, k3]; rfl
  have hncv : w.ncv = f.mesh.ncell := by rw [k6, hcomp.rest]
  have hmax := readIc3_max (namesOK_of_fit hn hc hw) hrun hg
  rw [hrows, hncv, List.max?_eq_some_iff] at hmax
  simp only [List.mem_flatMap, List.mem_map, List.mem_cons, List.not_mem_nil, or_false] at hmax
  obtain ⟨h1, h2⟩ := cells_generated ht hdw hm.conn hr hcomp.pb hcomp.pi
  constructor
  · obtain ⟨p, ⟨x, hx, rfl⟩, hor⟩ := hmax.1
    obtain ⟨⟨o, ho, e1⟩, h3⟩ := h1 x hx
    rcases hor with hor | hor
    · exact ⟨o, ho, by omega⟩
    · rcases h3 with h3 | ⟨o', ho', e2⟩
      · omega
      · exact ⟨o', ho', by omega⟩
  · intro o ho hle
    obtain ⟨x, hx, hor⟩ := h2 o ho hle
    have := hmax.2 o.2 ⟨x.2, ⟨x, hx, rfl⟩, hor.imp Eq.symm Eq.symm⟩
    omega

/-- The two tetrahedra: their file is read, so that their numbers are those of the cells. -/
example : ∃ b g, writeIc3 cgnsElem2faces id .little .native .v3 noConv tetPair = (some b, .ok ()) ∧ readIc3 true b = .ok g ∧
    ∃ o ∈ facesOfCells cgnsElem2faces exTetras, o.2 = 1 := by
  obtain ⟨b, hb⟩ := tetPair_written .native .v3
  have h : (match writeIc3 cgnsElem2faces id .little .native .v3 noConv tetPair with
    | (some b, _) => (readIc3 true b).isOk
    | _ => false) = true := by decide +kernel
  rw [hb] at h
  obtain ⟨g, hg⟩ := exists_of_isOk h
  exact ⟨b, g, hb, hg, (C62_numbers_read _ cgnsTable_wf cgnsTable_widths id (fun l => List.Perm.refl l) _ _ _ _ tetPair _
    tetPair_cells.toNodeCells tetPair_names b hb true g hg (by decide)).1⟩

/-- The two tetrahedra of `tetPair` numbered 0 and 2. -/
def tetGap : FullMesh := { tetPair with mesh := { tetPair.mesh with cell2node :=
  (tetPair.mesh.cell2node.map fun c => ⟨c.nelem, c.tbl.map fun p => (p.1, { p.2 with index := .list [0, 2] })⟩) } }

-- the file is written, and refused by the reader
example : (writeIc3 cgnsElem2faces id .little .native .v3 noConv tetGap).2 = .ok () := by decide +kernel
example : ((writeIc3 cgnsElem2faces id .little .native .v3 noConv tetGap).1.map fun b => (readIc3 false b).isOk) =
    some false := by decide +kernel

end Cfd.Ic3
