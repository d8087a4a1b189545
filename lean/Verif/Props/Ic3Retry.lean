import Verif.Lemmas.Ic3Retry
import Verif.Props.Ic3Object

/-!
# Trying again after an IC3 writer refused a mesh (C82)
-/

namespace Cfd.Ic3
open Spec Spec.Ic3 ElemConn

/-- The steps with the mesh they leave have the outcome and the result of the construction of a writer. -/
theorem C82_same_outcome (tbl : FaceTable) (so : List Int → List Int) (m : Mesh F64) :
    seen (completeState tbl so m) = completeMesh tbl so m := seen_complete tbl so m

theorem refused_of_error {tbl : FaceTable} {host : Order} {h5 : H5} {cv : Conv} {so : List Int → List Int} {f : FullMesh}
    {e : PyErr} (h : completeMesh tbl so f.mesh = .error e) (j : Job) : Refused (runJob tbl host h5 cv so f j) := by
  cases j with
  | legacy en v =>
    refine ⟨e, ?_⟩
    unfold writeIc3
    rw [h]
    rfl
  | v4 sol =>
    refine ⟨e, ?_⟩
    unfold writeV4
    rw [h]
    rfl

/-- C82: a mesh of cells and node marks that a writer refused is refused by every later writer (V2, V3 or V4), however often one
tries. -/
theorem C82_refused_again {tbl : FaceTable} (ht : TableWF tbl) (host : Order) (h5 : H5) (cv : Conv) {so : List Int → List Int}
    (hso : Reorders so) (f : FullMesh) {c : ElemConn} (hm : NodeCells f.mesh c) {e : PyErr}
    (h : completeMesh tbl so f.mesh = .error e) (sos : List (List Int → List Int)) (hsos : ∀ s ∈ sos, Reorders s)
    {so' : List Int → List Int} (hso' : Reorders so') (j : Job) :
    Refused (runJob tbl host h5 cv so' { f with mesh := attempts tbl f.mesh (so :: sos) } j) := by
  obtain ⟨e', he⟩ := stuck_refused (tbl := tbl) hso' (stuck_attempts hsos (stuck_of_refused ht hso hm h))
  exact refused_of_error (f := { f with mesh := attempts tbl f.mesh (so :: sos) }) he j

/-- C82, for meshes in which every mark holds a boundary face: after a refusal, removing any marks, and the mark `unmarked` the writer
may have made, gives the files of the mesh as it was given without these marks. -/
theorem C82_repair_partial {tbl : FaceTable} (ht : TableWF tbl) (hd : DistinctWidths tbl) (host : Order) (h5 : H5) (cv : Conv)
    {so : List Int → List Int} (hso : Reorders so) (f : FullMesh) {c : ElemConn} (hm : NodeCells f.mesh c)
    (hb : ∀ p ∈ f.mesh.bocos, HoldsBoundaryFace tbl c p.2) {e : PyErr} (h : completeMesh tbl so f.mesh = .error e)
    (names : List String) (so' : List Int → List Int) (j : Job) :
    runJob tbl host h5 cv so' { f with mesh := without ("unmarked" :: names) (completeState tbl so f.mesh).1 } j =
      runJob tbl host h5 cv so' { f with mesh := without names f.mesh } j := by
  have key : completeMesh tbl so' (without ("unmarked" :: names) (completeState tbl so f.mesh).1) =
      completeMesh tbl so' (without names f.mesh) := by
    cases hr : createFaces tbl c with
    | error e => rw [faces_refused so hm hr, without_unmarked hm]
    | ok r =>
      rcases refused_cases ht hso hm hr h with ⟨⟨p, hp, hpe⟩, _⟩ | ⟨hs, _⟩
      · exfalso
        obtain ⟨o, ho, h1, h2⟩ := hb p hp
        obtain ⟨x, hx, hxo⟩ := (boundary_of_cells ht hd hm.conn hr).2 o ho h1
        have : x.2.1 ∈ markItems (toFaces r.boundary p.2) := mem_toFaces.2 ⟨x, hx, rfl, fun n hn => h2 n (hxo.mem_iff.1 hn)⟩
        rw [hpe] at this
        cases this
      · rw [hs, without_faced hm, marksMesh_complete ht so' (nodeCells_without hm names) hr]
  cases j with
  | legacy en v => simp only [runJob, writeIc3, key]; rfl
  | v4 sol => simp only [runJob, writeV4, key]; rfl

/-- `remove_boco` is `without`. -/
theorem C82_remove (m : Mesh F64) (hk : m.bocos.keys.Nodup) (name : String) (hn : name ∈ m.bocos.keys) :
    m.removeBoco name = .ok (without [name] m) := by
  unfold Mesh.removeBoco without
  rw [if_pos hn]
  congr 2
  clear hn
  generalize m.bocos = d at hk
  induction d with
  | nil => rfl
  | cons p t ih =>
    unfold Dict.keys at hk
    rw [List.map_cons, List.nodup_cons] at hk
    obtain ⟨k, v⟩ := p
    unfold Dict.erase
    split
    · rename_i hkn
      have : k = name := hkn
      subst this
      rw [List.filter_cons_of_neg (by simp), List.filter_eq_self.2]
      intro q hq
      simp only [List.mem_singleton, decide_eq_true_eq]
      intro hqk
      exact hk.1 (List.mem_map.2 ⟨q, hq, hqk⟩)
    · rename_i hkn
      have hkn : k ≠ name := hkn
      rw [List.filter_cons_of_pos (by simpa using hkn)]
      exact congrArg _ (ih hk.2)

/-! ### Concrete cases -/

/-- Two tetrahedra with two marks that both hold the face of nodes 2, 3, 4. -/
def tetOverlap : FullMesh := { tetPair with mesh := { tetPair.mesh with
  bocos := [("wall", ⟨"wall", .node, "boundary", .list [3, 0, 2, 1], none⟩), ("top", ⟨"top", .bdnode, "boundary", .list [4, 2, 3], none⟩),
    ("side", ⟨"side", .bdnode, "boundary", .list [4, 2, 3], none⟩)] } }

/-- Two tetrahedra with two marks of one face and a mark without any face. -/
def tetEdge : FullMesh := { tetPair with mesh := { tetPair.mesh with
  bocos := [("a", ⟨"a", .node, "boundary", .list [3, 1, 4], none⟩), ("b", ⟨"b", .node, "boundary", .list [2, 1, 0], none⟩),
    ("e", ⟨"e", .node, "boundary", .list [0, 1], none⟩)] } }

theorem tetOverlap_cells : NodeCells tetOverlap.mesh exTetras where
  cells := rfl
  conn := exTetras_wf
  some := by decide
  noFaces := rfl
  coords := tetPair_cells.coords
  markKeys := by decide
  onNodes := by decide
  marksSet := by decide
  notInternal := by decide
  notReserved := by decide

theorem tetEdge_cells : NodeCells tetEdge.mesh exTetras where
  cells := rfl
  conn := exTetras_wf
  some := by decide
  noFaces := rfl
  coords := tetPair_cells.coords
  markKeys := by decide
  onNodes := by decide
  marksSet := by decide
  notInternal := by decide
  notReserved := by decide

theorem tetOverlap_refused : completeMesh cgnsElem2faces id tetOverlap.mesh = .error .value := by decide +kernel
theorem tetEdge_refused : completeMesh cgnsElem2faces id tetEdge.mesh = .error .index := by decide +kernel

theorem tetOverlap_holds : ∀ p ∈ tetOverlap.mesh.bocos, HoldsBoundaryFace cgnsElem2faces exTetras p.2 := by
  unfold HoldsBoundaryFace
  decide +kernel

example (h5 : H5) (v : Ver) : Refused (runJob cgnsElem2faces .little h5 noConv List.reverse
    { tetEdge with mesh := attempts cgnsElem2faces tetEdge.mesh [id, List.reverse, id] } (.legacy .native v)) :=
  C82_refused_again cgnsTable_wf .little h5 noConv (fun l => List.Perm.refl l) tetEdge tetEdge_cells tetEdge_refused
    [List.reverse, id] (by
      simp only [List.mem_cons, List.not_mem_nil, or_false]
      rintro s (rfl | rfl)
      · exact fun l => List.reverse_perm l
      · exact fun l => List.Perm.refl l) (fun l => List.reverse_perm l) (.legacy .native v)

/-- Without the mark `side` the mesh is accepted after all. -/
example (h5 : H5) (j : Job) := C82_repair_partial cgnsTable_wf cgnsTable_widths .little h5 noConv (fun l => List.Perm.refl l) tetOverlap
  tetOverlap_cells tetOverlap_holds tetOverlap_refused ["side"] id j
example : (completeMesh cgnsElem2faces id (without ["side"] tetOverlap.mesh)).isOk = true := by decide +kernel
/-- Leaving the mark `unmarked` does not do when the faces of the removed mark are in no other. -/
example : (completeMesh cgnsElem2faces id (without ["side", "top"] (completeState cgnsElem2faces id tetOverlap.mesh).1)).isOk = false ∧
    (completeMesh cgnsElem2faces id (without ["side", "top", "unmarked"] (completeState cgnsElem2faces id tetOverlap.mesh).1)).isOk = true ∧
    (completeMesh cgnsElem2faces id (without ["side", "top"] tetOverlap.mesh)).isOk = true := by
  decide +kernel
example := C82_remove tetOverlap.mesh tetOverlap_cells.markKeys "side" (by decide)

/-- The nodes of the faces of each zone read from the V3 file of a mesh. -/
def zonesOf (m : Mesh F64) : Option (List (String × List (List Int))) :=
  match reread .v3 { tetPair with mesh := m } with
  | none => none
  | some g => (g.mesh.faces.get? "mixed").map fun fs => g.mesh.bocos.map fun p =>
      (p.1, ((elements fs.f2n).filter fun x => decide (x.2.1 ∈ markItems p.2)).map fun x => x.2.2)

/-- C82 fails when a mark holds no face: the refusal leaves marks renumbered and faces not. Once the mark is removed, the mesh is
accepted, and the file has the marks `a` and `b` exchanged. -/
theorem C82_repair_refuted :
    (∀ p ∈ tetEdge.mesh.bocos, p.1 ≠ "e" → HoldsBoundaryFace cgnsElem2faces exTetras p.2) ∧
    zonesOf (without ["e"] tetEdge.mesh) =
      some [("a", [[3, 1, 4]]), ("b", [[2, 1, 0]]), ("unmarked", [[1, 3, 0], [1, 2, 4], [0, 3, 2], [4, 2, 3]]),
        ("internal-domain", [[2, 3, 1]])] ∧
    ∀ names ∈ [["e"], ["e", "unmarked"]], zonesOf (without names (completeState cgnsElem2faces id tetEdge.mesh).1) =
      some [("a", [[2, 1, 0]]), ("b", [[3, 1, 4]]), ("unmarked", [[1, 3, 0], [1, 2, 4], [0, 3, 2], [4, 2, 3]]),
        ("internal-domain", [[2, 3, 1]])] := by
  unfold HoldsBoundaryFace
  decide +kernel

end Cfd.Ic3
