import Verif.Lemmas.Ic3Mesh
import Verif.Lemmas.Ic3ReadConn
import Verif.Lemmas.Ic3ReadVars
import Verif.Spec.Ic3Round
import Verif.Props.Ic3Trunc
import Verif.Props.Mesh

/-! A complete IC3 file is read as the state of the writer, then exported as a mesh. -/

namespace Cfd.Ic3
open Spec Spec.Ic3 ElemConn

theorem whenScalar_mem {a : NpArr} {cs : List (Py Bytes)} (hs : Scalar a = true) : whenScalar a cs = cs := by
  unfold whenScalar NpArr.isScalar
  unfold Scalar at hs
  cases h : a.shape with
  | nil => rw [h] at hs; simp at hs
  | cons n t => rw [h] at hs; simp only [hs]

theorem ready_of_scalarV3 {host : Order} {e : Endian} {idF idI : Int} {n : Nat} {idata : List Int} {p : String × NpArr}
    (h : ∀ c ∈ scalarV3 host e idF idI n idata p, ∃ x, c = .ok x) (hs : Scalar p.2 = true) : Ready .v3 p.2 := by
  intro _
  unfold scalarV3 at h
  rw [whenScalar_mem hs] at h
  cases hd : p.2.data with
  | f64 l => exact .inl ⟨l, rfl⟩
  | i64 l =>
    refine .inr ⟨l, rfl, ?_⟩
    rw [hd] at h
    obtain ⟨x, hx⟩ := h (writeI64 host e n l) (by simp)
    exact (writeI64_ok.1 hx).2.1
  | other l =>
    rw [hd] at h
    simp at h

theorem ready_of_ok {host : Order} {e : Endian} {v : Ver} {cv : Conv} {w : WState} {b : Bytes}
    (h : runChunks (fileChunks host e v cv w) = (b, .ok ())) :
    (∀ p ∈ w.nodes, Scalar p.2 = true → Ready v p.2) ∧
    (∀ p ∈ w.cells.data, Scalar p.2 = true → Ready v p.2) := by
  cases v with
  | v2 => exact ⟨fun _ _ _ h => by simp at h, fun _ _ _ h => by simp at h⟩
  | v3 =>
    have hv : ∀ c ∈ varChunksV3 host e cv w, ∃ x, c = .ok x := fun c hc =>
      chunk_ok h (by simp [fileChunks, bodyChunks, varChunks, hc])
    constructor
    · intro p hp hs
      exact ready_of_scalarV3 (fun c hc => hv c (by
        simp only [varChunksV3, List.mem_append, List.mem_flatMap]
        exact .inl (.inl ⟨p, hp, hc⟩))) hs
    · intro p hp hs
      cases ha : w.cells.attrs with
      | none =>
        have hne : w.cells.data.isEmpty = false := by
          cases hd : w.cells.data with
          | nil => rw [hd] at hp; simp at hp
          | cons _ _ => rfl
        obtain ⟨x, hx⟩ := hv (.error .attribute) (by simp [varChunksV3, cellChunksV3, ha, hne])
        simp at hx
      | some a =>
        exact ready_of_scalarV3 (fun c hc => hv c (by
          simp only [varChunksV3, cellChunksV3, ha, List.mem_append, List.mem_flatMap]
          exact .inr (.inl (.inl ⟨p, hp, hc⟩)))) hs

/-- Everything the reader keeps. -/
def dataRead (o : Order) (v : Ver) (cv : Conv) (w : WState) : RData :=
  ⟨o, v.num, meshRead w, infoRead cv w.sim, varsRead v cv w⟩

theorem readData_ok {host : Order} {e : Endian} {v : Ver} {cv : Conv} {w : WState} {b : Bytes}
    (hn : NamesOK w) (h : runChunks (fileChunks host e v cv w) = (b, .ok ())) (hm : MeshOK w)
    (hd : DataOK v w) (integ : Bool) :
    readData integ b = .ok (dataRead (e.order host) v cv w) := by
  have hF := isFile_of_ok hn h
  have hw := written_of_ok h
  have hr := ready_of_ok h
  obtain ⟨h1, _⟩ := write_full hn h
  have hh : readRestartHeader b = .ok (e.order host, v.num) := by
    rw [h1, fileBytes]
    rcases readRestartHeader_prefix (e.order host) v _ _ (List.prefix_refl _) with ⟨er, h⟩ | ⟨h, _⟩
    · exfalso
      have hv : FitsInt 4 v.num := by cases v <;> decide
      obtain ⟨b', k1, _, k3⟩ := C26_detects_partial host e v.num hv (secsBytes (e.order host) (bodySecs (e.order host) v cv w) ++ eofSec.bytes (e.order host))
      rw [show (123581321 : Int) = magic from rfl, packFirst host e v.num hv] at k1
      simp only [Except.ok.injEq] at k1
      rw [k1, k3] at h
      simp at h
    · exact h
  unfold readData
  rw [hh, Except_bind_ok]
  simp only
  rw [readConnectivity_ok integ hF hw hm, Except_bind_ok, readInfo_ok hF, Except_bind_ok,
    show (meshRead w).no = w.nno from rfl, show (meshRead w).fa = w.nfa from rfl,
    show (meshRead w).cv = w.ncv from rfl, readVars_ok hF hd hr.1 hr.2, Except_bind_ok]
  rfl

/-! ## The faces written -/

theorem zipIdx_nodes (l : List Face) :
    (l.zipIdx.map fun x => ((x.2 : Int), x.1.1)) = enumFaces (l.map (·.1)) := by
  unfold enumFaces
  rw [List.zipIdx_map, List.map_map]
  rfl

theorem _root_.Cfd.Spec.Ic3.IsFaces.length {fs : FaceSet} {l : List Face} (h : IsFaces fs l) : (elements fs.f2n).length = l.length := by
  have := h.nodes.length_eq
  simpa using this

theorem _root_.Cfd.Spec.Ic3.IsFaces.wf {fs : FaceSet} {l : List Face} (h : IsFaces fs l) : FaceSetWF fs (l.map (·.2)) := by
  refine ⟨h.conn, ?_, h.cells, by simp [h.length]⟩
  have hp : (allIndices fs.f2n).Perm (pyRange 0 l.length) := by
    have := h.nodes.map Prod.fst
    rw [zipIdx_nodes, enumFaces_map_fst] at this
    simpa [allIndices, List.map_map, Function.comp_def] using this
  refine ⟨hp.nodup_iff.2 (nodup_pyRange _ _), fun i => ?_⟩
  rw [hp.mem_iff, mem_pyRange, hp.length_eq]
  simp

theorem _root_.Cfd.Spec.Ic3.IsFaces.export {fs : FaceSet} {l : List Face} (h : IsFaces fs l) :
    exportCompressed fs.f2n = .ok (csrOf (l.map (·.1))) :=
  export_of_perm (indexElemTuples_of_wf h.conn.entries) (by rw [← zipIdx_nodes]; exact h.nodes)

theorem writerFaces_ok {m : Mesh F64} {l : List Face} (h : MeshFaces m l) {zf : Csr × F2C}
    (hz : writerFaces m = .ok zf) : zf = (csrOf (l.map (·.1)), some (l.map (·.2))) := by
  unfold writerFaces at hz
  rcases h with ⟨fs, h1, h2⟩ | ⟨h0, b, i, lb, li, hb, hi, wb, wi, rfl⟩
  · rw [h1] at hz
    simp only [h2.export, h2.cells, Mesh.f2cConn, Except_bind_ok, Except_pure, Except.ok.injEq] at hz
    exact hz.symm
  · rw [h0] at hz
    simp only [bind_eq_ok] at hz
    obtain ⟨⟨c, rows⟩, h1, z, h2, h3⟩ := hz
    have ha := C14_mixed_aligned_returned m b i _ _ rows c hb hi wb.wf wi.wf h1
    have hrows : rows = lb.map (·.2) ++ li.map (·.2) := by
      unfold Mesh.exportMixed at h1
      simp only [Dict.getE, hb, hi, Except_bind_ok, bind_eq_ok, wb.cells, wi.cells, Mesh.f2cConn] at h1
      obtain ⟨c', _, h1⟩ := h1
      simp only [Except.ok.injEq, Prod.mk.injEq] at h1
      exact h1.2.symm
    have hp : ((elements c).map (·.2)).Perm (enumFaces ((lb ++ li).map (·.1))) := by
      refine (ha.faces.map (·.2)).trans ?_
      rw [List.map_append, ← zipIdx_nodes, List.zipIdx_append, List.map_append]
      refine List.Perm.append wb.nodes ?_
      rw [List.map_map]
      have e1 : (elements i.f2n).map ((fun x : String × Int × List Int => x.2) ∘ fun x => (x.1, x.2.1 + ((elements b.f2n).length : Int), x.2.2)) =
          ((elements i.f2n).map (·.2)).map fun q => (q.1 + (lb.length : Int), q.2) := by
        rw [List.map_map, wb.length]; rfl
      have e2 : (li.zipIdx (0 + lb.length)).map (fun x => ((x.2 : Int), x.1.1)) =
          (li.zipIdx.map fun x => ((x.2 : Int), x.1.1)).map fun q => (q.1 + (lb.length : Int), q.2) := by
        rw [List.map_map, Nat.zero_add, List.zipIdx_eq_map_add, List.map_map]
        refine List.map_congr_left fun x _ => ?_
        simp only [Function.comp_def, Prod.mk.injEq, and_true]
        push_cast
        omega
      rw [e1, e2]
      exact wi.nodes.map _
    rw [export_of_perm (indexElemTuples_of_wf ha.conn.entries) hp] at h2
    simp only [Except.ok.injEq] at h2
    simp only [Except_pure, Except.ok.injEq] at h3
    rw [← h3, ← h2, hrows, List.map_append (f := fun x : Face => x.2)]

/-- The state of the writer for a mesh whose faces are `l`. -/
theorem setMesh_faces {f : FullMesh} {m : Mesh F64} {w : WState} {l : List Face} (h : setMesh f m = .ok w)
    (hl : MeshFaces m l) :
    w.noofa = l.map (fun x => (x.1.length : Int)) ∧ w.noofaV = (l.map (·.1)).flatten ∧
      w.f2e = some (l.map (·.2)) ∧ w.nno = m.nnode ∧ w.nfa = m.nface ∧ w.ncv = m.ncell := by
  obtain ⟨c, zf, _, _, h3, rfl⟩ := setMesh_ok h
  have := writerFaces_ok hl h3
  subst this
  refine ⟨?_, rfl, rfl, rfl, rfl, rfl⟩
  show ElemConn.diffs (csrOf _).index = _
  unfold csrOf
  rw [diffs_offsets, List.map_map]
  rfl

theorem meshOK_of_count {f : FullMesh} {m : Mesh F64} {w : WState} {l : List Face}
    (h : setMesh f m = .ok w) (hs : Storable m l) (hlen : m.nface = l.length) : MeshOK w := by
  obtain ⟨k1, k2, k3, k4, k5, k6⟩ := setMesh_faces h hs.faces
  have hr : WState.rows w = l.map (·.2) := by rw [WState.rows, k3]; rfl
  obtain ⟨c, zf, _, _, _, hw2⟩ := setMesh_ok h
  have hb : w.bocos = m.bocos.filter fun p => decide (p.2.type ≠ "internal") := by rw [hw2]
  have hbm : ∀ p ∈ w.bocos, p ∈ m.bocos ∧ p.2.type ≠ "internal" := by
    intro p hp
    rw [hb] at hp
    have := List.mem_filter.1 hp
    simpa using this
  constructor
  · obtain ⟨x, hx, _⟩ := hs.lastCell
    have := List.length_pos_of_mem hx
    omega
  · intro n hn
    rw [k1, List.mem_map] at hn
    obtain ⟨x, hx, rfl⟩ := hn
    have := hs.nodesPerFace x hx
    omega
  · rw [k1, k2]
    clear hr hlen k1 k2 k3 hs
    induction l with
    | nil => rfl
    | cons x t ih => simp [ih]
  · intro r hr'
    rw [hr, List.mem_map] at hr'
    obtain ⟨x, hx, rfl⟩ := hr'
    rw [k6]
    exact hs.cells x hx
  · obtain ⟨x, hx, h1⟩ := hs.lastCell
    exact ⟨x.2, by rw [hr]; exact List.mem_map.2 ⟨x, hx, rfl⟩, by rw [k6]; exact h1⟩
  · rw [hb]
    exact hs.markKeys.sublist (List.Sublist.map _ List.filter_sublist)
  · intro hk
    obtain ⟨p, hp, e⟩ := List.mem_map.1 hk
    obtain ⟨h1, h2⟩ := hbm p hp
    exact hs.markNames p h1 h2 e
  · exact fun p hp => (hbm p hp).2
  · intro p hp
    obtain ⟨h1, h2⟩ := hbm p hp
    obtain ⟨a, b, h3, h4⟩ := hs.markRanges p h1 h2
    rw [markRange, h3, k5, hlen]
    exact h4

theorem meshOK_of_storable {f : FullMesh} {m : Mesh F64} {w : WState} {l : List Face} {v : Ver} {cv : Conv}
    (h : setMesh f m = .ok w) (hs : Storable m l) (hw : Written v cv w) : MeshOK w ∧ m.nface = l.length := by
  obtain ⟨_, _, k3, _, k5, _⟩ := setMesh_faces h hs.faces
  have hr : WState.rows w = l.map (·.2) := by rw [WState.rows, k3]; rfl
  have hlen : m.nface = l.length := by
    have := hw.rowsLen
    rw [hr, List.length_map, k5] at this
    exact this.symm
  exact ⟨meshOK_of_count h hs hlen, hlen⟩

theorem dataOK_of_storable {f : FullMesh} {m : Mesh F64} {w : WState} {v : Ver}
    (h : setMesh f m = .ok w) (hs : DataStorable v f m) : DataOK v w := by
  obtain ⟨c, zf, _, _, _, rfl⟩ := setMesh_ok h
  have hd : ∀ w : WState, WState.dof v w = dofOf v w.cells := by intro w; cases v <;> rfl
  exact ⟨hs.nodeKeys, hs.cellKeys, hs.nodes, by simpa only [hd] using hs.cells, hs.someNode,
    by simpa only [hd] using hs.someCell⟩

/-! ## The mesh exported by the reader -/

/-- What `export_mesh` makes of the content of a file, the connectivity `c` of the faces being given. -/
def exported (v : Ver) (cv : Conv) (w : WState) (c : ElemConn) : FullMesh where
  mesh := { ncell := w.ncv, nnode := w.nno, nface := c.nelem, cell2node := none
            faces := [("mixed", ⟨c, some (some (WState.rows w))⟩)]
            coords := some (w.coords.map (·.1), w.coords.map (·.2.1), w.coords.map (·.2.2))
            bocos := (w.bocos.map readMark ++ [internalMark w]).map fun b => (b.name, b) }
  cells := ⟨some (varsRead v cv w).attrs, (varsRead v cv w).cells⟩
  nodes := (varsRead v cv w).nodes
  params := (infoRead cv w.sim).foldl (fun d p => d.set p.1 p.2) (paramsOf (meshRead w))
  partition := some (some ⟨some (WState.npart w), .arr (WState.icv w)⟩)

theorem foldl_addBoco (l : List Mark) (m : Mesh F64) :
    l.foldl Mesh.addBoco m = { m with bocos := l.foldl (fun d b => d.set b.name b) m.bocos } := by
  induction l generalizing m with
  | nil => rfl
  | cons x t ih => rw [List.foldl_cons, ih]; rfl

theorem exportMesh_ok {v : Ver} {cv : Conv} {w : WState} {o : Order} (hc : w.coords.length = w.nno)
    (hm : MeshOK w) {c : ElemConn}
    (hi : ElemConn.empty.importCompressed ⟨ElemConn.offsets 0 w.noofa, w.noofaV⟩ = .ok c) :
    exportMesh (dataRead o v cv w) = .ok (exported v cv w c) := by
  unfold exportMesh
  have e1 : (Mesh.new (R := F64) (dataRead o v cv w).mesh.cv.toNat (dataRead o v cv w).mesh.no.toNat).setCoordsNd
      (dataRead o v cv w).mesh.coords = .ok { (Mesh.new w.ncv w.nno : Mesh F64) with
        coords := some (w.coords.map (·.1), w.coords.map (·.2.1), w.coords.map (·.2.2)) } := by
    unfold Mesh.setCoordsNd
    simp only [dataRead, meshRead, Int.toNat_natCast, Mesh.new, hc, decide_true, pyAssert, if_true,
      Except_bind_ok, Except_pure]
  rw [e1, Except_bind_ok, show (dataRead o v cv w).mesh.csr = ⟨ElemConn.offsets 0 w.noofa, w.noofaV⟩ from rfl, hi,
    Except_bind_ok]
  have e2 : ∀ m : Mesh F64, m.faces = [] → m.addFaces "mixed" c (some (some (dataRead o v cv w).mesh.cvofa)) =
      .ok { m with faces := [("mixed", ⟨c, some (some (WState.rows w))⟩)], nface := c.nelem } := by
    intro m h
    unfold Mesh.addFaces
    rw [h]
    simp only [Mesh.faceKinds, List.mem_cons, true_or, if_true, Dict.set, Mesh.totalFaces, List.map_cons,
      List.map_nil, List.sum_cons, List.sum_nil, Nat.add_zero]
    rfl
  rw [e2 _ rfl, Except_bind_ok, foldl_addBoco]
  have hk : (w.bocos.map readMark ++ [internalMark w]).map (·.name) = w.bocos.keys ++ ["internal-domain"] := by
    rw [List.map_append, List.map_map]
    rfl
  have e3 : (dataRead o v cv w).mesh.bocos.foldl (fun (d : Dict String Mark) b => d.set b.name b) [] =
      (w.bocos.map readMark ++ [internalMark w]).map fun b => (b.name, b) := by
    have := foldl_set_new (w.bocos.map readMark ++ [internalMark w]) (·.name) id ([] : Dict String Mark) (by
      rw [show Dict.keys ([] : Dict String Mark) = [] from rfl, List.nil_append, hk]
      rw [List.nodup_append]
      refine ⟨hm.markKeys, by simp, ?_⟩
      intro a ha b hb
      simp only [List.mem_singleton] at hb
      subst hb
      rintro rfl
      exact hm.markNames ha)
    rw [List.nil_append] at this
    exact this
  simp only [Mesh.new]
  rw [e3]
  rfl

theorem stack_unstack {c : List F64 × List F64 × List F64} {n : Nat} (h1 : c.1.length = n) (h2 : c.2.1.length = n)
    (h3 : c.2.2.length = n) :
    ((stackCoords c).map (·.1), (stackCoords c).map (·.2.1), (stackCoords c).map (·.2.2)) = c := by
  obtain ⟨x, y, z⟩ := c
  simp only [stackCoords] at *
  have e1 : (x.zip (y.zip z)).map (·.1) = x := List.map_fst_zip (by simp; omega)
  have e2 : (x.zip (y.zip z)).map (·.2) = y.zip z := List.map_snd_zip (by simp; omega)
  have e3 : (x.zip (y.zip z)).map (·.2.1) = ((x.zip (y.zip z)).map (·.2)).map (·.1) := by rw [List.map_map]; rfl
  have e4 : (x.zip (y.zip z)).map (·.2.2) = ((x.zip (y.zip z)).map (·.2)).map (·.2) := by rw [List.map_map]; rfl
  rw [e1, e3, e4, e2, List.map_fst_zip (by omega), List.map_snd_zip (by omega)]

theorem isFaces_exported {l : List Face} {c : ElemConn} (hn : ∀ f ∈ l, 1 ≤ f.1.length ∧ f.1.length ≤ 4)
    (hi : ElemConn.empty.importCompressed (csrOf (l.map (·.1))) = .ok c) :
    IsFaces ⟨c, some (some (l.map (·.2)))⟩ l ∧ c.nelem = l.length := by
  obtain ⟨c', h1, h2, h3, h4, _, h6⟩ := import_ok (l.map (·.1)) (by
    intro f hf
    obtain ⟨x, hx, rfl⟩ := List.mem_map.1 hf
    exact hn x hx)
  rw [hi] at h1
  simp only [Except.ok.injEq] at h1
  subst h1
  refine ⟨⟨⟨h3, h2, h6⟩, ?_, rfl⟩, ?_⟩
  · rw [zipIdx_nodes]; exact h4
  · rw [h6]
    have := h4.length_eq
    simpa [enumFaces_length] using this

/-- Reading a complete file: the result in terms of the state of the writer. -/
theorem readIc3_ok {host : Order} {e : Endian} {v : Ver} {cv : Conv} {f : FullMesh} {m : Mesh F64} {w : WState}
    {b : Bytes} {l : List Face} (hset : setMesh f m = .ok w) (hn : NamesOK w)
    (h : runChunks (fileChunks host e v cv w) = (b, .ok ())) (hs : Storable m l) (hd : DataStorable v f m)
    (integ : Bool) :
    ∃ c, IsFaces ⟨c, some (some (l.map (·.2)))⟩ l ∧ c.nelem = l.length ∧ m.nface = l.length ∧
      MeshOK w ∧ WState.rows w = l.map (·.2) ∧ readIc3 integ b = .ok (exported v cv w c) := by
  have hw := written_of_ok h
  obtain ⟨hm, hlen⟩ := meshOK_of_storable hset hs hw
  have hdo := dataOK_of_storable hset hd
  obtain ⟨k1, k2, k3, k4, k5, k6⟩ := setMesh_faces hset hs.faces
  have hcsr : (⟨ElemConn.offsets 0 w.noofa, w.noofaV⟩ : Csr) = csrOf (l.map (·.1)) := by
    rw [k1, k2, csrOf, List.map_map]; rfl
  obtain ⟨c, h1, _⟩ := import_ok (l.map (·.1)) (by
    intro f hf
    obtain ⟨x, hx, rfl⟩ := List.mem_map.1 hf
    exact hs.nodesPerFace x hx)
  obtain ⟨h2, h3⟩ := isFaces_exported hs.nodesPerFace h1
  refine ⟨c, h2, h3, hlen, hm, by rw [WState.rows, k3]; rfl, ?_⟩
  unfold readIc3
  rw [readData_ok hn h hm hdo integ, Except_bind_ok]
  exact exportMesh_ok hw.coordsLen hm (by rw [hcsr]; exact h1)

theorem sameMesh_exported {v : Ver} {cv : Conv} {f : FullMesh} {m : Mesh F64} {w : WState} {l : List Face}
    (hset : setMesh f m = .ok w) (hw : Written v cv w) (hs : Storable m l) (hm : MeshOK w)
    (hrows : WState.rows w = l.map (·.2)) {c : ElemConn} (hc : IsFaces ⟨c, some (some (l.map (·.2)))⟩ l)
    (hcl : c.nelem = l.length) (hlen : m.nface = l.length) :
    SameMesh f m l (exported v cv w c) := by
  obtain ⟨_, _, _, k4, k5, k6⟩ := setMesh_faces hset hs.faces
  obtain ⟨co, zf, hco, _, _, hw2⟩ := setMesh_ok hset
  have hb : w.bocos = m.bocos.filter fun p => decide (p.2.type ≠ "internal") := by rw [hw2]
  have hkeys : Dict.keys (exported v cv w c).mesh.bocos = w.bocos.keys ++ ["internal-domain"] := by
    show List.map _ (List.map _ (w.bocos.map readMark ++ [internalMark w])) = _
    rw [List.map_map, List.map_append, List.map_map]
    rfl
  have hnd : (Dict.keys (exported v cv w c).mesh.bocos).Nodup := by
    rw [hkeys, List.nodup_append]
    refine ⟨hm.markKeys, by simp, ?_⟩
    intro a ha b hb
    simp only [List.mem_singleton] at hb
    subst hb
    rintro rfl
    exact hm.markNames ha
  constructor
  · exact k6
  · exact k4
  · rw [hlen]; exact hcl
  · exact hlen
  · show some _ = _
    have hwc : w.coords = stackCoords co := by rw [hw2]
    obtain ⟨h1, h2, h3⟩ := hs.coords co.1 co.2.1 co.2.2 (by rw [hco])
    rw [hwc, stack_unstack h1 h2 h3, hco]
  · left
    refine ⟨⟨c, some (some (WState.rows w))⟩, rfl, ?_⟩
    rw [hrows]
    exact hc
  · intro name b hget ht
    apply Dict.get?_of_mem hnd
    refine List.mem_map.2 ⟨readMark (name, b), ?_, rfl⟩
    rw [List.mem_append]
    left
    refine List.mem_map.2 ⟨(name, b), ?_, rfl⟩
    rw [hb, List.mem_filter]
    exact ⟨Dict.mem_of_get? hget, by simpa using ht⟩
  · refine ⟨lastBoco w.bocos + 1, ?_⟩
    apply Dict.get?_of_mem hnd
    refine List.mem_map.2 ⟨internalMark w, by simp, ?_⟩
    unfold internalMark
    rw [k5, hlen]
  · intro name hname
    rw [hkeys, List.mem_append, List.mem_singleton] at hname
    rcases hname with h | h
    · right
      obtain ⟨p, hp, rfl⟩ := List.mem_map.1 h
      rw [hb, List.mem_filter] at hp
      exact ⟨p.2, Dict.get?_of_mem hs.markKeys hp.1, by simpa using hp.2⟩
    · exact .inl h
  · refine ⟨WState.npart w, WState.icv w, rfl, by rw [hw.icvLen, k6], ?_⟩
    have hp : w.part = (match f.partition with
                 | none => some ⟨some 1, .arr (List.replicate m.ncell 0)⟩
                 | some p => p) := by rw [hw2]; cases f.partition <;> rfl
    unfold WState.npart WState.icv
    rw [hp, k6]
    rcases f.partition with _ | _ | ⟨np, _ | q | _⟩ <;> simp

end Cfd.Ic3
