import Verif.Spec.Morph
import Verif.Props.Ic3Object
import Verif.Props.Ic3Copy
import Verif.Model.Extrude
import Verif.Model.Ic3V4
import Verif.Model.Vtk
import Verif.Lemmas.Extrude

/-!
# The positions of the nodes have no influence on the rest (C80)
-/

namespace Cfd
open Spec

section
variable {R S : Type} (c : Option (List S × List S × List S))

theorem replaced_makeFaces (tbl : FaceTable) (m : Mesh R) :
    (replaced m c).makeFaces tbl = (m.makeFaces tbl).map fun x => replaced x c := by
  unfold Mesh.makeFaces
  show (match m.cell2node with | none => _ | some c => _) = _
  cases m.cell2node with
  | none => rfl
  | some k =>
    simp only
    cases createFaces tbl k with
    | error => rfl
    | ok r => rfl

theorem replaced_bocosToFaces (m : Mesh R) : (replaced m c).bocosToFaces = m.bocosToFaces.map fun x => replaced x c := by
  unfold Mesh.bocosToFaces
  show (match m.faces.get? "boundary" with | none => _ | some fs => _) = _
  cases m.faces.get? "boundary" with
  | none => rfl
  | some fs =>
    simp only
    cases fs.f2n.indexElemTuples with
    | error => rfl
    | ok t =>
      simp only [Except_bind_ok]
      show (List.mapM _ m.bocos >>= _) = _
      cases (m.bocos.mapM fun p => do let b ← Mesh.markToFace t p.2; return (p.1, b)) with
      | error => rfl
      | ok b => rfl

theorem replaced_makeUnmarked (so : List Int → List Int) (m : Mesh R) (name : String) :
    (replaced m c).makeUnmarked so name = (m.makeUnmarked so name).map fun x => (x.1, replaced x.2 c) := by
  unfold Mesh.makeUnmarked
  show (match m.faces.get? "boundary" with | none => _ | some fs => _) = _
  cases m.faces.get? "boundary" with
  | none => rfl
  | some fs =>
    simp only
    show (pyAssert (m.bocos.all _) >>= _) = _
    cases pyAssert (m.bocos.all fun p => p.2.onFaces) with
    | error => rfl
    | ok _ =>
      simp only [Except_bind_ok]
      show (m.listBocoIndex >>= _) = _
      cases m.listBocoIndex with
      | error => rfl
      | ok l =>
        simp only [Except_bind_ok]
        cases fs.f2n.allIndex with
        | error => rfl
        | ok a =>
          simp only [Except_bind_ok]
          split <;> rfl

theorem replaced_check (so : List Int → List Int) (m : Mesh R) :
    (replaced m c).check so = ((m.check so).1, replaced (m.check so).2 c) := by
  unfold Mesh.check
  rw [replaced_makeUnmarked]
  show (if m.ncell = 0 then _ else if m.nnode = 0 then _ else match m.checkCell2node with | .error e => _ | .ok _ => _) = _
  split
  · rfl
  · split
    · rfl
    · cases m.checkCell2node with
      | error => rfl
      | ok =>
        simp only
        cases m.makeUnmarked so with
        | error => rfl
        | ok x =>
          simp only [Except.map]
          split <;> rfl

theorem replaced_reindex (m : Mesh R) : (replaced m c).reindexBoundary = m.reindexBoundary.map fun x => replaced x c := by
  unfold Mesh.reindexBoundary
  show (match m.faces.get? "boundary" with | none => _ | some fs => _) = _
  cases m.faces.get? "boundary" with
  | none => rfl
  | some fs =>
    simp only
    show (pyAssert (m.bocos.all _) >>= _) = _
    cases pyAssert (m.bocos.all fun p => p.2.onFaces) with
    | error => rfl
    | ok _ =>
      simp only [Except_bind_ok]
      show (m.listBocoIndex >>= _) = _
      cases m.listBocoIndex with
      | error => rfl
      | ok old =>
        simp only [Except_bind_ok]
        cases ElemConn.npAllEq (ElemConn.npUnique old) (sortInts old) with
        | error => rfl
        | ok u =>
          simp only [Except_bind_ok]
          cases old.min? with
          | none => rfl
          | some mn =>
            cases old.max? with
            | none => rfl
            | some mx =>
              simp only
              split
              · rfl
              · cases npScatter (List.replicate old.length (-1 : Int)) (old.zip (pyRange 0 old.length)) with
                | error => rfl
                | ok newindex =>
                  simp only [Except_bind_ok]
                  cases pyAssert (newindex.all fun i => decide (0 ≤ i)) with
                  | error => rfl
                  | ok _ =>
                    simp only [Except_bind_ok]
                    show (List.mapM _ m.bocos >>= _) = _
                    cases (m.bocos.mapM fun p => do let b ← Mesh.reindexMark newindex p.2; return (p.1, b)) with
                    | error => rfl
                    | ok bocos =>
                      simp only [Except_bind_ok]
                      cases (fs.f2n.tbl.mapM fun p => do let e ← Mesh.reindexEntry newindex p.2; return (p.1, e)) with
                      | error => rfl
                      | ok t =>
                        simp only [Except_bind_ok]
                        cases Mesh.f2cConn fs.f2c with
                        | error => rfl
                        | ok k =>
                          simp only [Except_bind_ok]
                          cases k with
                          | none => rfl
                          | some rows =>
                            simp only
                            cases npGather rows old with
                            | error => rfl
                            | ok r => rfl

end

namespace Ic3

theorem replaced_complete (tbl : FaceTable) (so : List Int → List Int) (m : Mesh F64) (c : Option (List F64 × List F64 × List F64)) :
    completeMesh tbl so (replaced m c) = (completeMesh tbl so m).map fun x => replaced x c := by
  have h1 : ∀ m, needFaces tbl (replaced m c) = (needFaces tbl m).map fun x => replaced x c := by
    intro m
    unfold needFaces
    rw [replaced_makeFaces]
    show (if m.faces.isEmpty then _ else _) = _
    split <;> rfl
  have h2 : ∀ m : Mesh F64, needFaceMarks (replaced m c) = (needFaceMarks m).map fun x => replaced x c := by
    intro m
    unfold needFaceMarks
    rw [replaced_bocosToFaces]
    show (if m.bocos.any _ then _ else _) = _
    split <;> rfl
  have h3 : ∀ m, needUnmarked so (replaced m c) = (needUnmarked so m).map fun x => replaced x c := by
    intro m
    unfold needUnmarked
    rw [replaced_makeUnmarked]
    show (if m.faces.keys.contains "boundary" then _ else _) = _
    split
    · cases m.makeUnmarked so "unmarked" <;> rfl
    · rfl
  have h4 : ∀ m : Mesh F64, needReindex (replaced m c) = (needReindex m).map fun x => replaced x c := by
    intro m
    unfold needReindex
    rw [replaced_reindex]
    show (if m.bocos.any _ then _ else _) = _
    split <;> rfl
  unfold completeMesh
  rw [h1]
  cases needFaces tbl m with
  | error => rfl
  | ok a =>
    simp only [Except.map, Except_bind_ok, h2]
    cases needFaceMarks a with
    | error => rfl
    | ok a =>
      simp only [Except_bind_ok, h3]
      cases needUnmarked so a with
      | error => rfl
      | ok a =>
        show needReindex (replaced a c) = _
        rw [h4]
        rfl

/-- A writer is the same but for the positions. -/
theorem replaced_setMesh (f : FullMesh) (m : Mesh F64) {c c' : List F64 × List F64 × List F64} (hc : Positions m.nnode c)
    (hc' : Positions m.nnode c') :
    setMesh (replacedFull f c') (replaced m (some c')) =
      (setMesh (replacedFull f c) (replaced m (some c))).map fun w => { w with coords := stackCoords c' } := by
  obtain ⟨h1, h2, h3⟩ := hc
  obtain ⟨h1', h2', h3'⟩ := hc'
  have hl : (stackCoords c).length = m.nnode := by simp [stackCoords, h1, h2, h3]
  have hl' : (stackCoords c').length = m.nnode := by simp [stackCoords, h1', h2', h3']
  unfold setMesh
  show (pyAssert (decide ((stackCoords c').length = m.nnode)) >>= _) = Except.map _ (pyAssert (decide ((stackCoords c).length = m.nnode)) >>= _)
  rw [hl, hl']
  simp only [decide_true, pyAssert, if_true, Except_bind_ok]
  show (writerFaces m >>= _) = Except.map _ (writerFaces m >>= _)
  cases writerFaces m with
  | error => rfl
  | ok z => rfl

theorem run_append (a b : List (Py Bytes)) : runChunks (a ++ b) =
    match runChunks a with
    | (x, .ok _) => (x ++ (runChunks b).1, (runChunks b).2)
    | (x, .error er) => (x, .error er) := by
  induction a with
  | nil => rfl
  | cons p t ih =>
    cases p with
    | error er => rfl
    | ok x =>
      simp only [List.cons_append, runChunks, ih]
      rcases runChunks t with ⟨y, _ | _⟩ <;> simp

/-- The writes of a writer: those before the positions, the positions, those after. -/
theorem chunks_split (host : Order) (e : Endian) (v : Ver) (cv : Conv) (w : WState) :
    ∃ pre post, ∀ xyz, fileChunks host e v cv { w with coords := xyz } =
      pre ++ writeF64 host e (w.nno * 3) (xyz.flatMap fun p => [p.1, p.2.1, p.2.2]) :: post := by
  refine ⟨[headerChunk host e v] ++
    ([secHeader host e "NO_FA_CV_NOOFA_COUNTS" cCounts hsize [w.nno, w.nfa, w.ncv, w.noofaV.length]] ++
    checkChunks host e v w ++
    [secHeader host e "NOOFA_I_AND_V" cNoofa (hsize + 4 * w.nfa + 4 * w.noofaV.length)
       [w.nfa, w.noofaV.length],
     writeI32 host e w.nfa w.noofa,
     writeI32 host e w.noofaV.length w.noofaV,
     secHeader host e "CVOFA" cCvofa (hsize + 4 * w.nfa * 2) [w.nfa, 2],
     f2eChunk host e w.nfa w.f2e] ++
    w.bocos.map (zoneChunk host e) ++
    [internalChunk host e w] ++
    partChunks host e w ++
    [secHeader host e "X_NO" cXno (hsize + 8 * w.nno * 3) [w.nno, 3]]),
    infoChunks host e cv w.sim ++ varChunks host e v cv w ++ [secHeader host e "EOF" cEof hsize []], fun xyz => ?_⟩
  have h1 : checkChunks host e v { w with coords := xyz } = checkChunks host e v w := by cases v <;> rfl
  have h2 : varChunks host e v cv { w with coords := xyz } = varChunks host e v cv w := by cases v <;> rfl
  have h3 : internalChunk host e { w with coords := xyz } = internalChunk host e w := rfl
  have h4 : partChunks host e { w with coords := xyz } = partChunks host e w := rfl
  unfold fileChunks bodyChunks connChunks
  rw [h1, h2, h3, h4]
  simp only [List.append_assoc, List.cons_append, List.nil_append, List.singleton_append]

/-- **C80, IC3 files.** The same mesh and data with other positions: the writer has the same outcome, and the file is the same
but for the bytes of the positions, which are at the same place. -/
theorem C80_ic3 (tbl : FaceTable) (so : List Int → List Int) (host : Order) (e : Endian) (v : Ver) (cv : Conv) (f : FullMesh)
    {c c' : List F64 × List F64 × List F64} (hc : Positions f.mesh.nnode c) (hc' : Positions f.mesh.nnode c') :
    (writeIc3 tbl so host e v cv (replacedFull f c')).2 = (writeIc3 tbl so host e v cv (replacedFull f c)).2 ∧
    ((writeIc3 tbl so host e v cv (replacedFull f c')).1 = none ↔ (writeIc3 tbl so host e v cv (replacedFull f c)).1 = none) ∧
    ∀ b, (writeIc3 tbl so host e v cv (replacedFull f c)).1 = some b →
      ((writeIc3 tbl so host e v cv (replacedFull f c')).1 = some b ∧ (writeIc3 tbl so host e v cv (replacedFull f c)).2 ≠ .ok ()) ∨
      ∃ pre post, b = pre ++ positionBytes (e.order host) c ++ post ∧
        (writeIc3 tbl so host e v cv (replacedFull f c')).1 = some (pre ++ positionBytes (e.order host) c' ++ post) := by
  obtain ⟨r, hr⟩ : ∃ r, r = (do let m ← completeMesh tbl so (replaced f.mesh (some c)); setMesh (replacedFull f c) m) := ⟨_, rfl⟩
  have hr' : (do let m ← completeMesh tbl so (replaced f.mesh (some c')); setMesh (replacedFull f c') m) =
      r.map fun w => { w with coords := stackCoords c' } := by
    rw [hr, replaced_complete, replaced_complete]
    cases hm : completeMesh tbl so f.mesh with
    | error => rfl
    | ok m =>
      have hn := (completeMesh_cells hm).2.2.2
      exact replaced_setMesh f m (by rw [hn]; exact hc) (by rw [hn]; exact hc')
  have hw : writeIc3 tbl so host e v cv (replacedFull f c) = (match r with
    | .error er => (none, .error er)
    | .ok w => (some (runChunks (fileChunks host e v cv w)).1, (runChunks (fileChunks host e v cv w)).2)) := by
    rw [hr]; rfl
  have hw' : writeIc3 tbl so host e v cv (replacedFull f c') = (match r.map fun w => { w with coords := stackCoords c' } with
    | .error er => (none, .error er)
    | .ok w => (some (runChunks (fileChunks host e v cv w)).1, (runChunks (fileChunks host e v cv w)).2)) := by
    rw [← hr']; rfl
  rw [hw, hw']
  cases hrw : r with
  | error er => exact ⟨rfl, Iff.rfl, fun b h => by cases h⟩
  | ok w =>
    rw [hrw] at hr
    obtain ⟨m, hm, hs⟩ := bind_eq_ok.1 hr.symm
    have hmc := completeMesh_cells hm
    have hwc : w.coords = stackCoords c ∧ w.nno = f.mesh.nnode := by
      unfold setMesh at hs
      rw [hmc.2.1] at hs
      simp only [replaced] at hs
      obtain ⟨_, _, hs⟩ := bind_eq_ok.1 hs
      obtain ⟨_, _, hs⟩ := bind_eq_ok.1 hs
      simp only [Except_pure, Except.ok.injEq] at hs
      rw [← hs]
      exact ⟨rfl, hmc.2.2.2⟩
    obtain ⟨pre, post, hsplit⟩ := chunks_split host e v cv w
    have h1 : fileChunks host e v cv w = pre ++ writeF64 host e (w.nno * 3) ((stackCoords c).flatMap fun p => [p.1, p.2.1, p.2.2]) :: post := by
      rw [← hsplit, ← hwc.1]
    have hlen : ∀ d : List F64 × List F64 × List F64, Positions f.mesh.nnode d →
        writeF64 host e (w.nno * 3) ((stackCoords d).flatMap fun p => [p.1, p.2.1, p.2.2]) = .ok (positionBytes (e.order host) d) := by
      intro d ⟨h1, h2, h3⟩
      refine writeF64_ok.2 ⟨?_, rfl⟩
      rw [hwc.2]
      simp [stackCoords, h1, h2, h3]
    simp only [Except.map]
    rw [h1, hsplit, hlen c hc, hlen c' hc', run_append, run_append]
    rcases runChunks pre with ⟨x, er | u⟩
    · exact ⟨rfl, by simp, fun b h => Or.inl ⟨h, by simp⟩⟩
    · refine ⟨rfl, by simp, fun b h => Or.inr ⟨x, (runChunks post).1, ?_, ?_⟩⟩
      · simp only [Option.some.injEq, runChunks] at h
        rw [← h]
        simp
      · simp [runChunks]

/-- **C80, V4 files.** With other positions only `coordinates` changes in the mesh file; the solution file is the same. -/
theorem C80_v4 (tbl : FaceTable) (so : List Int → List Int) (h5 : H5) (cv : Conv) (f : FullMesh) (sol : Bool)
    {c c' : List F64 × List F64 × List F64} (hc : Positions f.mesh.nnode c) (hc' : Positions f.mesh.nnode c') :
    writeV4 tbl so h5 cv (replacedFull f c') sol = (writeV4 tbl so h5 cv (replacedFull f c) sol).map fun r =>
      ({ r.1 with coordinates := (c'.1.zip (c'.2.1.zip c'.2.2)).flatMap fun p => [p.1, p.2.1, p.2.2] }, r.2) := by
  unfold writeV4
  show (completeMesh tbl so (replaced f.mesh (some c')) >>= _) = Except.map _ (completeMesh tbl so (replaced f.mesh (some c)) >>= _)
  rw [replaced_complete, replaced_complete]
  cases hm : completeMesh tbl so f.mesh with
  | error => rfl
  | ok m =>
    have hn := (completeMesh_cells hm).2.2.2
    simp only [Except.map, Except_bind_ok]
    rw [replaced_setMesh f m (c := c) (by rw [hn]; exact hc) (by rw [hn]; exact hc')]
    cases setMesh (replacedFull f c) (replaced m (some c)) with
    | error => rfl
    | ok w =>
      simp only [Except.map, Except_bind_ok]
      have hmf : meshFile h5 (replaced m (some c')) { w with coords := stackCoords c' } =
          (meshFile h5 (replaced m (some c)) w).map fun x =>
            { x with coordinates := (c'.1.zip (c'.2.1.zip c'.2.2)).flatMap fun p => [p.1, p.2.1, p.2.2] } := by
        unfold meshFile
        cases ravelF2e w.f2e with
        | error => rfl
        | ok f2e =>
          simp only [Except_bind_ok]
          cases f2e.mapM h5.i4 with
          | error => rfl
          | ok cvofa =>
            simp only [Except_bind_ok]
            cases w.noofa.mapM h5.i4 with
            | error => rfl
            | ok a =>
              simp only [Except_bind_ok]
              cases w.noofaV.mapM h5.i4 with
              | error => rfl
              | ok b =>
                simp only [Except_bind_ok]
                show (zonesV4 w >>= _) = Except.map _ (zonesV4 w >>= _)
                cases zonesV4 w with
                | error => rfl
                | ok z =>
                  simp only [Except_bind_ok]
                  cases (z.1.map (·.1) ++ [(w.nfa : Int)]).mapM h5.i4 <;> rfl
      rw [hmf]
      cases meshFile h5 (replaced m (some c)) w with
      | error => rfl
      | ok x =>
        simp only [Except.map, Except_bind_ok]
        cases sol with
        | false => rfl
        | true =>
          simp only [if_true]
          show (solFile cv f >>= _) = Except.map _ (solFile cv f >>= _)
          cases solFile cv f <;> rfl

/-- **C80, morphing of IC3 files.** What is read in an IC3 file is moved by `morph` and written: the new file is read back as the
same mesh and data with the new positions (the program `examples/ic3_morph.py`). -/
theorem C80_morph_file (tbl : FaceTable) (so : List Int → List Int) (host : Order) (e : Endian) (v : Ver) (cv : Conv)
    (integ integ' : Bool) (file : Bytes) (f : FullMesh) (h : readIc3 integ file = .ok f) (hcp : Spec.Ic3.Copyable v f)
    (move : List F64 → List F64 → List F64 → List F64 × List F64 × List F64) (hk : KeepsCount move) :
    ∃ x y z m b g, f.mesh.coords = some (x, y, z) ∧ f.mesh.morph move = .ok m ∧
      writeIc3 tbl so host e v cv { f with mesh := m } = (some b, .ok ()) ∧ readIc3 integ' b = .ok g ∧
      Spec.Ic3.Kept v cv (replacedFull f (move x y z)) g := by
  obtain ⟨l, ha⟩ := accepted h
  obtain ⟨x, y, z, hxyz, hx, hy, hz⟩ := ha.coords
  obtain ⟨h1, h2, h3⟩ := hk f.mesh.nnode x y z ⟨hx, hy, hz⟩
  have hmor : f.mesh.morph move = .ok (replaced f.mesh (some (move x y z))) := by
    unfold Mesh.morph Mesh.setCoords
    rw [hxyz]
    simp only [h1, h2, h3, decide_true, pyAssert, if_true, Except_bind_ok]
    rfl
  have ha' : Accepted (replacedFull f (move x y z)) l :=
    ⟨ha.faces, ha.count, ha.widths, ha.cells, ha.last, ⟨_, _, _, rfl, h1, h2, h3⟩, ha.markKeys, ha.numbers, ha.marks, ha.part,
      ha.params, ha.vars⟩
  have hc' : Spec.Ic3.Copyable v (replacedFull f (move x y z)) :=
    ⟨hcp.counts, hcp.zones, hcp.part, hcp.step, hcp.wgt, hcp.rows, hcp.dof, hcp.tensors⟩
  obtain ⟨b, g, hw, hg, hkept, _⟩ := copy_of_accepted tbl tbl so so host e v cv integ' _ l ha' hc'
  exact ⟨x, y, z, _, b, g, hxyz, hmor, hw, hg, hkept⟩

end Ic3

/-- **C80, VTK grids.** The cells of a `vtkMesh` do not depend on the positions, which are its points. -/
theorem C80_vtk {R : Type} (m : Mesh R) {c c' : List R × List R × List R} (hc : Positions m.nnode c) (hc' : Positions m.nnode c') :
    Vtk.setMesh (replaced m (some c')) = (Vtk.setMesh (replaced m (some c))).map fun g =>
      ⟨g.items, c'.1.zip (c'.2.1.zip c'.2.2)⟩ := by
  obtain ⟨h1, h2, h3⟩ := hc
  obtain ⟨h1', h2', h3'⟩ := hc'
  obtain ⟨x, y, z⟩ := c
  obtain ⟨x', y', z'⟩ := c'
  simp only at h1 h2 h3 h1' h2' h3'
  unfold Vtk.setMesh Vtk.nodesNd
  simp only [replaced]
  rw [if_pos ⟨by omega, by omega⟩, if_pos ⟨by omega, by omega⟩]
  simp only [Except_bind_ok]
  cases m.cell2node with
  | none => rfl
  | some k =>
    simp only
    cases (k.tbl.foldlM (fun (d : Dict Int Arr2) p => do
        let t ← Vtk.vtktypeEle.getE p.1
        return d.set t p.2.e2n) []) with
    | error => rfl
    | ok d =>
      simp only [Except_bind_ok]
      unfold Vtk.Grid.ofDict
      have hl : (x'.zip (y'.zip z')).length = (x.zip (y.zip z)).length := by simp [h1, h2, h3, h1', h2', h3']
      rw [hl]
      cases (d.mapM fun p => (do
        let n ← match Vtk.vtkSize.get? p.1 with | some n => .ok n | none => .error PyErr.value
        if p.2.rows.all fun r => r.length = n ∧ r.all fun q => 0 ≤ q ∧ q < (x.zip (y.zip z)).length then
          return p.2.rows.map fun r => (p.1, r)
        else .error .value : Py (List (Int × List Int)))) <;> rfl

theorem replaced_marks {R : Type} (nrange nnode : Nat) (c : Option (List R × List R × List R)) (l : Dict String Mark) (m : Mesh R) :
    l.foldlM (fun (new : Mesh R) (p : String × Mark) => do
        let b ← Mesh.extrudeMark nrange nnode p.2
        return new.addBoco b) (replaced m c) =
      (l.foldlM (fun (new : Mesh R) (p : String × Mark) => do
        let b ← Mesh.extrudeMark nrange nnode p.2
        return new.addBoco b) m).map fun x => replaced x c := by
  induction l generalizing m with
  | nil => rfl
  | cons p t ih =>
    simp only [List.foldlM_cons]
    cases Mesh.extrudeMark nrange nnode p.2 with
    | error => rfl
    | ok b =>
      simp only [Except_bind_ok, Except_pure]
      exact ih (m.addBoco b)

/-- **C80, extrusion.** The cells and the marks of an extruded mesh do not depend on the positions. -/
theorem C80_extruded {R : Type} [Add R] [Mul R] (so : List Int → List Int) (m : Mesh R) (d : R × R × R) (planes : List R)
    (domain : String) {c c' : List R × List R × List R} (hc : Positions m.nnode c) (hc' : Positions m.nnode c') :
    ∃ x, (replaced m (some c')).exportExtruded so d planes domain =
      ((replaced m (some c)).exportExtruded so d planes domain).map fun r => replaced r (some x) := by
  obtain ⟨h1, h2, h3⟩ := hc
  obtain ⟨h1', h2', h3'⟩ := hc'
  obtain ⟨x, y, z⟩ := c
  obtain ⟨x', y', z'⟩ := c'
  simp only at h1 h2 h3 h1' h2' h3'
  obtain ⟨n, hn⟩ : ∃ n : List (R × R × R), n = Mesh.extrudeCoords m.nnode d planes (x.zip (y.zip z)) := ⟨_, rfl⟩
  obtain ⟨n', hn'⟩ : ∃ n : List (R × R × R), n = Mesh.extrudeCoords m.nnode d planes (x'.zip (y'.zip z')) := ⟨_, rfl⟩
  refine ⟨(n'.map (·.1), n'.map (·.2.1), n'.map (·.2.2)), ?_⟩
  have hlen : ∀ l : List (R × R × R), (Mesh.extrudeCoords m.nnode d planes l).length = planes.length * l.length := by
    intro l
    unfold Mesh.extrudeCoords
    have h0 : (npTile planes.length l).length = planes.length * l.length := by simp [npTile]
    rw [← h0]
    generalize npTile planes.length l = a
    induction planes.zipIdx generalizing a with
    | nil => rfl
    | cons s t ih => rw [List.foldl_cons, ih, length_mapSlice]
  have hl : n.length = m.nnode * planes.length := by rw [hn, hlen]; simp [h1, h2, h3, Nat.mul_comm]
  have hl' : n'.length = m.nnode * planes.length := by rw [hn', hlen]; simp [h1', h2', h3', Nat.mul_comm]
  unfold Mesh.exportExtruded Mesh.nodesNd
  simp only [replaced]
  rw [if_pos ⟨by omega, by omega⟩, if_pos ⟨by omega, by omega⟩]
  simp only [Except_bind_ok, ← hn, ← hn']
  cases pyAssert (decide (1 < planes.length)) with
  | error => rfl
  | ok _ =>
    simp only [Except_bind_ok, Mesh.setCoordsNd, hl, hl', Mesh.new, decide_true, pyAssert, if_true, Except_pure]
    cases m.cell2node with
    | none => rfl
    | some k =>
      simp only
      cases k.extrude planes.length m.nnode with
      | error => rfl
      | ok k' =>
        simp only [Except_bind_ok, Mesh.setCell2node]
        have := replaced_marks planes.length m.nnode (some (n'.map (·.1), n'.map (·.2.1), n'.map (·.2.2))) m.bocos
          (⟨k'.nelem, m.nnode * planes.length, 0, some k', [], some (n.map (·.1), n.map (·.2.1), n.map (·.2.2)), []⟩ : Mesh R)
        simp only [replaced, Except_pure] at this
        rw [this]
        cases (m.bocos.foldlM (fun (new : Mesh R) (p : String × Mark) => do
            let b ← Mesh.extrudeMark planes.length m.nnode p.2
            Except.ok (new.addBoco b))
          (⟨k'.nelem, m.nnode * planes.length, 0, some k', [], some (n.map (·.1), n.map (·.2.1), n.map (·.2.2)), []⟩ : Mesh R)) <;> rfl

/-- **C80, meshes.** The same mesh with other positions of its nodes (or none): face generation, transfer of node marks, marking
of unmarked faces, renumbering of boundary faces and `check()` give the same results or the same exceptions, but for the
positions, which they leave as they are. -/
theorem C80_mesh {R S : Type} (tbl : FaceTable) (so : List Int → List Int) (m : Mesh R) (c : Option (List S × List S × List S)) :
    (replaced m c).makeFaces tbl = (m.makeFaces tbl).map (fun x => replaced x c) ∧
    (replaced m c).bocosToFaces = m.bocosToFaces.map (fun x => replaced x c) ∧
    (∀ name, (replaced m c).makeUnmarked so name = (m.makeUnmarked so name).map fun x => (x.1, replaced x.2 c)) ∧
    (replaced m c).reindexBoundary = m.reindexBoundary.map (fun x => replaced x c) ∧
    (replaced m c).check so = ((m.check so).1, replaced (m.check so).2 c) :=
  ⟨replaced_makeFaces c tbl m, replaced_bocosToFaces c m, replaced_makeUnmarked c so m, replaced_reindex c m, replaced_check c so m⟩

/-! ## Examples -/

namespace Ic3

/-- Exchange of the axes. -/
def turn (x y z : List F64) : List F64 × List F64 × List F64 := (z, x, y)

/-- The positions turned. -/
def turned : List F64 × List F64 × List F64 := ([0, 0, 0, 1, 1], [0, 1, 0, 0, 1], [0, 0, 1, 0, 1])

theorem turn_keeps : KeepsCount turn := fun _ _ _ _ h => ⟨h.2.2, h.1, h.2.1⟩

/-- The two tetrahedra moved: both files are written. -/
example (v : Ver) (cv : Conv) := C80_morph_file cgnsElem2faces id .little .big v cv true true twoTetraFile twoTetraRead
  (twoTetraFile_read true) (twoTetra_copyable v) turn turn_keeps

example (v : Ver) (cv : Conv) := C80_ic3 cgnsElem2faces id .little .native v cv twoTetra (c := ([0, 1, 0, 0, 1], [0, 0, 1, 0, 1], [0, 0, 0, 1, 1]))
  (c' := turned) ⟨rfl, rfl, rfl⟩ ⟨rfl, rfl, rfl⟩

-- the files are complete and not the same
example :
    (match writeIc3 cgnsElem2faces id .little .native .v3 noConv twoTetra,
        writeIc3 cgnsElem2faces id .little .native .v3 noConv (replacedFull twoTetra turned) with
      | (some b, .ok ()), (some b', .ok ()) => b.length == b'.length && !((b.zip b').all fun p => p.1.toNat == p.2.toNat)
      | _, _ => false) = true := by decide +kernel

example (h5 : H5) (cv : Conv) := C80_v4 cgnsElem2faces id h5 cv twoTetra true (c := ([0, 1, 0, 0, 1], [0, 0, 1, 0, 1], [0, 0, 0, 1, 1]))
  (c' := turned) ⟨rfl, rfl, rfl⟩ ⟨rfl, rfl, rfl⟩

/-- A square cell: extruded, and made a VTK grid, at two places. -/
example := C80_extruded id square (0, 0, 1) [0, 1] "d" (c := ([0, 1, 1, 0], [0, 0, 1, 1], [0, 0, 0, 0]))
  (c' := ([2, 3, 3, 2], [0, 0, 1, 1], [5, 5, 5, 5])) ⟨rfl, rfl, rfl⟩ ⟨rfl, rfl, rfl⟩
example := C80_vtk square (c := ([0, 1, 1, 0], [0, 0, 1, 1], [0, 0, 0, 0]))
  (c' := ([2, 3, 3, 2], [0, 0, 1, 1], [5, 5, 5, 5])) ⟨rfl, rfl, rfl⟩ ⟨rfl, rfl, rfl⟩
example : (Vtk.setMesh (replaced square (some ([2, 3, 3, 2], [0, 0, 1, 1], [5, 5, 5, 5])))).isOk = true := by decide +kernel

/-- Without positions at all, the faces are the same. -/
example : ((replaced square (none : Option (List Nat × List Nat × List Nat))).makeFaces cgnsElem2faces).map (·.nface) =
    (square.makeFaces cgnsElem2faces).map (·.nface) := by
  rw [(C80_mesh cgnsElem2faces id square none).1]
  cases square.makeFaces cgnsElem2faces <;> rfl

end Ic3

end Cfd
