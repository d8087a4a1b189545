import Verif.Model.Ic3Object

/-!
# The mesh left by an IC3 writer that was not constructed (C82)

The writers complete the mesh they are given in place (writerV2.py:55-67). Here each step returns the mesh it leaves also when it
raises: an exception in a loop over marks or face types leaves those before it changed.
-/

namespace Cfd

/-- A mesh and the outcome of what was done to it. -/
abbrev Left (α : Type) := α × Py Unit

/-- Objects changed one after the other, until an exception. -/
def loopState {α : Type} (step : α → Left α) : List α → Left (List α)
  | [] => ([], .ok ())
  | x :: t => match step x with
    | (y, .error e) => (y :: t, .error e)
    | (y, .ok ()) => (y :: (loopState step t).1, (loopState step t).2)

/-- Something that changes nothing when it raises. -/
def unharmed {α : Type} (x : α) : Py α → Left α
  | .ok y => (y, .ok ())
  | .error e => (x, .error e)

/-- The value of a dictionary entry is changed. -/
def onValue {κ α : Type} (step : α → Left α) (p : κ × α) : Left (κ × α) := ((p.1, (step p.2).1), (step p.2).2)

namespace Mesh
variable {R : Type}

/-- `bocomarks_set_node_to_face` (_mesh.py:201-221): a mark without index raises (_mesh.py:214). -/
def bocosToFacesState (m : Mesh R) : Left (Mesh R) :=
  match m.faces.get? "boundary" with
  | none => (m, .error .assertion)
  | some fs => match fs.f2n.indexElemTuples with
    | .error e => (m, .error e)
    | .ok tuples =>
        let r := loopState (onValue fun b => unharmed b (markToFace tuples b)) m.bocos
        ({ m with bocos := r.1 }, r.2)

/-- Renumbering of one mark (_mesh.py:361-363): the new list is assigned before `compress` raises. -/
def reindexMarkState (newindex : List Int) (b : Mark) : Left Mark :=
  match b.index.toList with
  | .error e => (b, .error e)
  | .ok l => match npGather newindex l with
    | .error e => (b, .error e)
    | .ok nl => match (IndexList.list nl).compress with
      | .error e => ({ b with index := .list nl }, .error e)
      | .ok ix => ({ b with index := ix }, .ok ())

/-- First part of `reindex_boundaryfaces` (_mesh.py:332-359): the marked faces and their new numbers. -/
def reindexTable (m : Mesh R) : Py (List Int × List Int) := do
  pyAssert (m.bocos.all fun p => p.2.onFaces)
  let old ← m.listBocoIndex
  let cUnique ← ElemConn.npAllEq (ElemConn.npUnique old) (sortInts old)
  match old.min?, old.max? with
  | some mn, some mx =>
      if !(cUnique && decide (mn = 0) && decide (mx ≤ (old.length : Int) - 1)) then .error .runtime
      else do
        let newindex ← npScatter (List.replicate old.length (-1 : Int)) (old.zip (pyRange 0 old.length))
        pyAssert (newindex.all fun i => decide (0 ≤ i))
        return (old, newindex)
  | _, _ => .error .value

/-- The cells of the faces in the new order (_mesh.py:368-369). -/
def reindexRows (old : List Int) (f2c : Option F2C) : Py (List (Int × Int)) := do
  match ← f2cConn f2c with
  | none => .error .type
  | some rows => npGather rows old

/-- `reindex_boundaryfaces` (_mesh.py:328-369). -/
def reindexState (m : Mesh R) : Left (Mesh R) :=
  match m.faces.get? "boundary" with
  | none => (m, .error .assertion)
  | some fs => match reindexTable m with
    | .error e => (m, .error e)
    | .ok (old, newindex) =>
        let marks := loopState (onValue (reindexMarkState newindex)) m.bocos
        match marks.2 with
        | .error e => ({ m with bocos := marks.1 }, .error e)
        | .ok () =>
            let tbl := loopState (onValue fun e => unharmed e (reindexEntry newindex e)) fs.f2n.tbl
            let changed (f2c : Option F2C) : Mesh R :=
              { m with bocos := marks.1, faces := m.faces.set "boundary" ⟨⟨fs.f2n.nelem, tbl.1⟩, f2c⟩ }
            match tbl.2 with
            | .error e => (changed fs.f2c, .error e)
            | .ok () => match reindexRows old fs.f2c with
              | .error e => (changed fs.f2c, .error e)
              | .ok rows => (changed (some (some rows)), .ok ())

end Mesh

namespace Ic3

/-- One step after the other, unless an exception. -/
def next (s : Left (Mesh F64)) (f : Mesh F64 → Left (Mesh F64)) : Left (Mesh F64) :=
  match s.2 with
  | .ok () => f s.1
  | .error e => (s.1, .error e)

/-- Node marks are transferred to the faces (writerV2.py:58-60). -/
def needFaceMarksState (m : Mesh F64) : Left (Mesh F64) :=
  if m.bocos.any (fun p => p.2.nodebased) then m.bocosToFacesState else (m, .ok ())

/-- Boundary faces are renumbered when a mark is a list (writerV2.py:65-67). -/
def needReindexState (m : Mesh F64) : Left (Mesh F64) :=
  if m.bocos.any (fun p => isListIndex p.2.index) then m.reindexState else (m, .ok ())

/-- First part of `set_mesh` (writerV2.py:55-67). The generation of faces (_mesh.py:407-416) and `make_unmarked_BC`
(_mesh.py:226-245) raise before they change anything. -/
def completeState (tbl : FaceTable) (so : List Int → List Int) (m : Mesh F64) : Left (Mesh F64) :=
  next (next (next (unharmed m (needFaces tbl m)) needFaceMarksState) fun m => unharmed m (needUnmarked so m)) needReindexState

/-- The mesh after several attempts to construct a writer on it, each with its own order of Python sets. -/
def attempts (tbl : FaceTable) (m : Mesh F64) (sos : List (List Int → List Int)) : Mesh F64 :=
  sos.foldl (fun m so => (completeState tbl so m).1) m

end Ic3
end Cfd
