import Verif.Spec.Ic3Layout
import Verif.Props.Ic3Brief
import Verif.Props.Ic3Cells

/-!
# Bytes of the IC3 files (C81)
-/

namespace Cfd.Ic3
open Spec Spec.Ic3

theorem leBytes_eq (k n : Nat) : leBytes k n = (List.range k).map fun i => UInt8.ofNat (n / 256 ^ i % 256) := by
  induction k generalizing n with
  | zero => rfl
  | succ k ih =>
    rw [leBytes, ih, List.range_succ_eq_map, List.map_cons, List.map_map]
    congr 1
    · simp
    · apply List.map_congr_left
      intro i _
      simp only [Function.comp, Nat.pow_succ, Nat.div_div_eq_div_mul, Nat.mul_comm]

theorem word_eq (o : Order) (k n : Nat) : natBytes o k n = word o k n := by
  unfold natBytes word
  cases o with
  | little => exact leBytes_eq k n
  | big =>
    show (leBytes k n).reverse = _
    rw [leBytes_eq]
    apply List.ext_getElem
    · simp
    · intro i h1 h2
      simp

theorem ints_eq : intsBytes = intBytes := by
  funext o k l
  unfold intsBytes intBytes
  apply List.flatMap_congr
  intro n _
  rw [word_eq, Int.pow_mul]
  rfl

theorem reals_eq : f64sBytes = realBits := by
  funext o l
  unfold f64sBytes realBits
  apply List.flatMap_congr
  intro n _
  rw [word_eq]

theorem sec_bytes (o : Order) (name : String) (id : Int) (idata : List Int) (rdata : List F64) (payload : Bytes) :
    (sec name id idata rdata payload).bytes o = sectionBytes o name id idata rdata payload := by
  simp [Sec.bytes, sec, hdrBytes, mkHeader, sectionBytes, List.append_assoc, ints_eq, reals_eq]

theorem zoneKind_eq (t : String) (h : t ≠ "internal") : (type2zonekind.get? t).getD 0 = zoneKind t := by
  unfold zoneKind type2zonekind
  simp only [Dict.get?, List.find?_cons, List.find?_nil]
  by_cases h1 : t = "boundary"
  · subst h1; rfl
  by_cases h2 : t = "perio_cart"
  · subst h2; rfl
  by_cases h3 : t = "perio_cylx"
  · subst h3; rfl
  by_cases h4 : t = "perio_cyly"
  · subst h4; rfl
  by_cases h5 : t = "perio_cylz"
  · subst h5; rfl
  simp [h1, h2, h3, h4, h5, h, Ne.symm h, Ne.symm h1, Ne.symm h2, Ne.symm h3, Ne.symm h4, Ne.symm h5]

theorem lastBoco_eq (d : List (String × Mark)) (h : ∀ p ∈ d, p.2.index = .range (markRange p.2).1 (markRange p.2).2) :
    lastBoco d = (d.map fun p => (faceRange p.2).2).foldl max 0 := by
  unfold lastBoco
  generalize (0 : Int) = a
  induction d generalizing a with
  | nil => rfl
  | cons p t ih =>
    rw [List.foldl_cons, List.map_cons, List.foldl_cons, ih (fun q hq => h q (List.mem_cons_of_mem _ hq))]
    have := h p (by simp)
    congr 1
    unfold faceRange
    rw [this]
    rfl

theorem scalar_eq (a : NpArr) : Scalar a = isScalar a := by
  obtain ⟨s, d⟩ := a
  unfold Scalar isScalar NpArr.size
  cases s <;> cases d <;> rfl

theorem values_eq (cv : Conv) (a : NpArr) : a.doubles cv = realValues cv a := rfl

theorem flatMap_secs {α : Type} (o : Order) (l : List α) (g : α → Sec) (h : α → Bytes) (e : ∀ x ∈ l, (g x).bytes o = h x) :
    secsBytes o (l.map g) = l.flatMap h := by
  unfold secsBytes
  rw [List.flatMap_map]
  exact List.flatMap_congr e

theorem secs_append (o : Order) (a b : List Sec) : secsBytes o (a ++ b) = secsBytes o a ++ secsBytes o b := by
  simp [secsBytes]

theorem varSecs_bytes (o : Order) (v : Ver) (cv : Conv) (f : FullMesh) (w : WState) (h1 : w.nodes = f.nodes) (h2 : w.cells = f.cells) :
    secsBytes o (varSecs o v cv w) = dataBytes o v cv f w.nno w.ncv := by
  unfold varSecs dataBytes
  have hsc : ∀ d : Dict String NpArr, (d.filter fun p => Scalar p.2) = d.filter fun p => isScalar p.2 := by
    intro d; congr 1; funext p; exact scalar_eq p.2
  have hr : ∀ (c : Int) (ints : List Int) (p : String × NpArr),
      (sec p.1 c ints [] (f64sBytes o (p.2.doubles cv))).bytes o = realBytes o cv c ints p := by
    intro c ints p
    rw [sec_bytes, reals_eq]
    rfl
  have hs3 : ∀ (d i : Int) (ints : List Int) (p : String × NpArr),
      (sec p.1 (if isI64 p.2 then i else d) ints [] (scalarPayload o p.2)).bytes o = scalarBytes o d i ints p := by
    intro d i ints p
    obtain ⟨n, s, x⟩ := p
    rw [sec_bytes]
    unfold scalarPayload scalarBytes
    cases x <;> simp only [ints_eq, reals_eq] <;> rfl
  cases v with
  | v2 =>
    simp only [varSecsV2, h1, h2, hsc, secs_append]
    congr 1
    · congr 1
      · congr 1
        · congr 1
          · exact flatMap_secs _ _ _ _ fun p _ => hr _ _ p
          · exact flatMap_secs _ _ _ _ fun p _ => hr _ _ p
        · exact flatMap_secs _ _ _ _ fun p _ => hr _ _ p
      · exact flatMap_secs _ _ _ _ fun p _ => hr _ _ p
    · exact flatMap_secs _ _ _ _ fun p _ => hr _ _ p
  | v3 =>
    have hdof : CellSet.ndof f.cells = match f.cells.attrs with | some a => a.ndof | none => 1 := by
      unfold CellSet.ndof; cases f.cells.attrs <;> rfl
    simp only [varSecsV3, h1, h2, hsc, secs_append, hdof]
    congr 1
    · congr 1
      · congr 1
        · congr 1
          · exact flatMap_secs _ _ _ _ fun p _ => hs3 _ _ _ p
          · exact flatMap_secs _ _ _ _ fun p _ => hr _ _ p
        · exact flatMap_secs _ _ _ _ fun p _ => hs3 _ _ _ p
      · exact flatMap_secs _ _ _ _ fun p _ => hr _ _ p
    · exact flatMap_secs _ _ _ _ fun p _ => hr _ _ p

/-- **C81.** A file written without exception is, byte for byte, the one of the format: the two first integers, then the sections
of the mesh, of its zones, of the parameters and of the data, with their codes and sizes, in this order, then the end of file. -/
theorem C81_layout (tbl : FaceTable) (so : List Int → List Int) (host : Order) (e : Endian) (v : Ver) (cv : Conv)
    (f : FullMesh) (b : Bytes) (m : Mesh F64) (l : List Face) (hn : NamesFit f) (hc : completeMesh tbl so f.mesh = .ok m)
    (hl : MeshFaces m l) (h : writeIc3 tbl so host e v cv f = (some b, .ok ())) :
    ∃ xyz, m.coords = some xyz ∧ b = layout (e.order host) v cv f m l xyz := by
  unfold writeIc3 at h
  rw [hc, Except_bind_ok] at h
  cases hw : setMesh f m with
  | error er => rw [hw] at h; simp at h
  | ok w =>
    rw [hw] at h
    simp only [Prod.mk.injEq, Option.some.injEq] at h
    have hr : runChunks (fileChunks host e v cv w) = (b, .ok ()) := Prod.ext h.1 h.2
    obtain ⟨h1, -⟩ := write_full (namesOK_of_fit hn hc hw) hr
    have hwr := written_of_ok hr
    obtain ⟨e1, e2, e3, e4, e5, e6⟩ := setMesh_faces hw hl
    have hlen : w.nfa = l.length := by rw [← hwr.noofaLen, e1, List.length_map]
    have hrows : WState.rows w = l.map (·.2) := by unfold WState.rows; rw [e3]; rfl
    obtain ⟨xyz, zf, hco, -, -, hwe⟩ := setMesh_ok hw
    have hb : w.bocos = zoneMarks m := by rw [hwe]; rfl
    have hxyz : w.coords = xyz.1.zip (xyz.2.1.zip xyz.2.2) := by rw [hwe]; rfl
    have hpart : w.part = match f.partition with
        | none => some ⟨some 1, .arr (List.replicate m.ncell 0)⟩
        | some p => p := by rw [hwe]; cases f.partition <;> rfl
    have hsim : w.sim = setSimstate f.params := by rw [hwe]
    have hnodes : w.nodes = f.nodes := by rw [hwe]
    have hcells : w.cells = f.cells := by rw [hwe]
    clear hwe
    refine ⟨xyz, hco, ?_⟩
    have hz : ∀ p ∈ zoneMarks m, (zoneSec p).bytes (e.order host) = zoneBytes (e.order host) p := by
      intro p hp
      have hi : p.2.type ≠ "internal" := by simpa using (List.mem_filter.1 hp).2
      obtain ⟨-, -, -, hx, -⟩ := hwr.zones p (by rw [hb]; exact hp)
      have hm : markRange p.2 = faceRange p.2 := rfl
      unfold zoneSec zoneBytes
      rw [sec_bytes, zoneKind_eq _ hi, hm]
      cases p.2.perio <;> rfl
    have hlast : lastBoco w.bocos = lastZoneFace m := by
      rw [lastBoco_eq w.bocos fun p hp => (hwr.zones p hp).2.2.2.1, hb]; rfl
    have hnp : WState.npart w = (partition f m.ncell).1 := by
      unfold WState.npart partition
      rw [hpart]
      cases f.partition with
      | none => rfl
      | some p =>
        cases p with
        | none => rfl
        | some p => cases hp : p.npart <;> simp [hp]
    have hicv : WState.icv w = (partition f m.ncell).2 := by
      unfold WState.icv partition
      rw [hpart, e6]
      cases f.partition with
      | none => rfl
      | some p =>
        cases p with
        | none => rfl
        | some p =>
          obtain ⟨n, i⟩ := p
          cases i <;> rfl
    have hchk : secsBytes (e.order host) (checkSecs (e.order host) v w) = checkBytes (e.order host) v m.nnode l.length m.ncell := by
      have hp : ∀ n : Nat, pyRange 0 n = (List.range n).map fun (i : Nat) => (i : Int) := by
        intro n; simp [pyRange]
      cases v with
      | v2 =>
        simp only [checkSecs, checkBytes, secsBytes, List.flatMap_cons, List.flatMap_nil, sec_bytes, countBytes, hp, e4, hlen, e6, ints_eq,
          List.append_nil, List.append_assoc]
        rfl
      | v3 => rfl
    have hstep : simIntD cv w.sim.step = intParam cv f "step" := by
      rw [hsim]
      unfold simIntD intParam setSimstate simInt
      cases f.params.get? "step" with
      | none => rfl
      | some x => cases x <;> rfl
    have hreal : ∀ name x, x = (f.params.get? name).getD (.int 0) → (∃ y, simF64 cv x = .ok y) → simF64D cv x = realParam cv f name := by
      intro name x hx hy
      subst hx
      unfold simF64D realParam
      cases hg : f.params.get? name with
      | none => rfl
      | some x =>
        cases x with
        | int n => rfl
        | f64 x => rfl
        | wgts d =>
          rw [hg] at hy
          obtain ⟨y, hy⟩ := hy
          cases hy
    have hdt := hreal "dt" w.sim.dt (by rw [hsim]; rfl) hwr.dt
    have htime := hreal "time" w.sim.time (by rw [hsim]; rfl) hwr.time
    have hwgt : wgtsOf w.sim.wgt = weights f := by
      rw [hsim]
      unfold wgtsOf weights setSimstate
      cases f.params.get? "wgt" with
      | none => rfl
      | some x => cases x <;> rfl
    rw [h1]
    unfold fileBytes bodySecs connSecs infoSecs layout
    simp only [secs_append, varSecs_bytes _ v cv f w hnodes hcells, hchk, hb]
    rw [flatMap_secs _ (zoneMarks m) _ _ hz, flatMap_secs (e.order host) (wgtsOf w.sim.wgt)
      (fun p => sec (p.1.toUpper ++ "_WGT") cD0 [] [p.2] []) _ (fun p _ => sec_bytes _ _ _ _ _ _)]
    simp only [secsBytes, List.flatMap_cons, List.flatMap_nil, sec_bytes, internalSec, eofSec, hlast, hnp, hicv, hxyz, hstep, hdt,
      htime, hwgt, e4, hlen, e6, hrows, e1, e2, List.append_nil, List.append_assoc, List.flatMap_map, ints_eq, reals_eq]
    have hflat : (l.map (·.1)).flatten = l.flatMap fun x => x.1 := (List.flatMap_def).symm
    rw [hflat]
    cases v <;> rfl

/-- **C81.** The file of a mesh given by its cells and its node marks: the faces written are those of the cells, each once,
the boundary faces first. -/
theorem C81_from_cells (tbl : FaceTable) (ht : TableWF tbl) (hdw : DistinctWidths tbl) (so : List Int → List Int)
    (hso : Reorders so) (host : Order) (e : Endian) (v : Ver) (cv : Conv) (f : FullMesh) (c : ElemConn)
    (hm : CellMesh f.mesh c) (hcf : Conforming tbl c) (hn : NamesFit f) (b : Bytes)
    (h : writeIc3 tbl so host e v cv f = (some b, .ok ())) :
    ∃ m lb li xyz, completeMesh tbl so f.mesh = .ok m ∧ FacesOf tbl c lb li ∧ f.mesh.coords = some xyz ∧
      m.ncell = f.mesh.ncell ∧ m.nnode = f.mesh.nnode ∧ b = layout (e.order host) v cv f m (lb ++ li) xyz := by
  obtain ⟨m, hc⟩ : ∃ m, completeMesh tbl so f.mesh = .ok m := by
    unfold writeIc3 at h
    cases hc : completeMesh tbl so f.mesh with
    | error er =>
      rw [hc] at h
      simp [bind, Except.bind] at h
    | ok m' => exact ⟨m', rfl⟩
  obtain ⟨r, hr⟩ : ∃ r, createFaces tbl c = .ok r := by
    have h0 := hc
    unfold completeMesh needFaces at h0
    rw [hm.noFaces, bind_eq_ok] at h0
    obtain ⟨m1, h1, _⟩ := h0
    obtain ⟨r, hr, _⟩ := makeFaces_ok hm.cells h1
    exact ⟨r, hr⟩
  obtain ⟨lb, li, σ, hcomp⟩ := completed_of_ok ht hso hm.toNodeCells hr hc
  obtain ⟨xyz, h1, h2⟩ := C81_layout tbl so host e v cv f b m _ hn hc hcomp.faces h
  exact ⟨m, lb, li, xyz, hc, facesOf_generated ht hdw hm.conn hcf hr hcomp.pb hcomp.pi, by rw [← h1, hcomp.rest],
    by rw [hcomp.rest], by rw [hcomp.rest], h2⟩

-- two tetrahedra with data: the file is the layout for its seven faces
example (e : Endian) (v : Ver) : ∃ b xyz, writeIc3 cgnsElem2faces id .little e v noConv twoTetra = (some b, .ok ()) ∧
    twoTetra.mesh.coords = some xyz ∧ b = layout (e.order .little) v noConv twoTetra twoTetra.mesh twoTetraFaces xyz := by
  obtain ⟨b, hb⟩ := twoTetra_written e v
  obtain ⟨xyz, h1, h2⟩ := C81_layout _ _ _ e v _ _ b _ _ twoTetra_names twoTetra_complete twoTetra_storable.faces hb
  exact ⟨b, xyz, hb, h1, h2⟩

-- two tetrahedra given by their cells
example (e : Endian) (v : Ver) : ∃ b m lb li xyz, writeIc3 cgnsElem2faces id .little e v noConv tetPair = (some b, .ok ()) ∧
    FacesOf cgnsElem2faces exTetras lb li ∧ b = layout (e.order .little) v noConv tetPair m (lb ++ li) xyz := by
  obtain ⟨b, hb⟩ := tetPair_written e v
  obtain ⟨m, lb, li, xyz, -, h1, -, -, -, h2⟩ := C81_from_cells _ cgnsTable_wf cgnsTable_widths id (fun l => List.Perm.refl l) _ e v _
    tetPair _ tetPair_cells exTetras_conforming tetPair_names b hb
  exact ⟨b, m, lb, li, xyz, hb, h1, h2⟩

-- numbers: 258 and -2 on four bytes
example : intBytes .little 4 [258, -2] = [2, 1, 0, 0, 254, 255, 255, 255] := by decide
example : intBytes .big 4 [258, -2] = [0, 0, 1, 2, 255, 255, 255, 254] := by decide
-- a section of 256 bytes and its content
example : (sectionBytes .big "X_NO" 31 [5, 3] [] [1, 2, 3]).take 72 =
    [88, 95, 78, 79] ++ List.replicate 48 0 ++ [0, 0, 0, 31] ++ [0, 0, 0, 0, 0, 0, 1, 3] ++ [0, 0, 0, 0, 0, 0, 0, 5] := by decide
example : (sectionBytes .big "X_NO" 31 [5, 3] [] [1, 2, 3]).length = 259 := by decide +kernel

end Cfd.Ic3
