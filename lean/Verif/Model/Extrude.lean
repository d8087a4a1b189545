import Verif.Model.Mesh

/-!
# Model of `Mesh.export_extruded` (cfdtools/meshbase/_mesh.py:257-302)

Simplifications
* `direction` and `extrude` are given (the defaults are `(0, 0, 1)` and `[0, 1]`);
* coordinates have an arbitrary type `R` with a sum and a product (no rounding).
-/

namespace Cfd
namespace Mesh
variable {R : Type}

/-- `nodescoord(ndarray=True)` (_mesh.py:139-141): `np.column_stack` needs equal lengths. -/
def nodesNd (m : Mesh R) : Py (List (R × R × R)) :=
  match m.coords with
  | none => .error .key
  | some (x, y, z) =>
      if x.length = y.length ∧ y.length = z.length then .ok (x.zip (y.zip z)) else .error .value

/-- Extension of one mark to all planes (_mesh.py:278-286). `boco.index.size` may be negative for a
reversed range, whose list is empty: the slices are then empty as they are here. -/
def extrudeMark (nrange nnode : Nat) (b : Mark) : Py Mark := do
  pyAssert b.nodebased
  let l ← b.index.toList
  let n ← b.index.size
  let index := sliceLoop (fun i x => x + ((i * nnode : Nat) : Int)) n.toNat nrange (npTile nrange l)
  return ⟨b.name, b.geodim, b.type, .list index, none⟩

/-- `newcoords[i*N:(i+1)*N, :] += s * direction` for all planes (_mesh.py:269-271). -/
def extrudeCoords [Add R] [Mul R] (nnode : Nat) (d : R × R × R) (planes : List R)
    (nd : List (R × R × R)) : List (R × R × R) :=
  planes.zipIdx.foldl (fun a s =>
    mapSlice (fun p => (p.1 + s.1 * d.1, p.2.1 + s.1 * d.2.1, p.2.2 + s.1 * d.2.2))
      (s.2 * nnode) ((s.2 + 1) * nnode) a) (npTile planes.length nd)

/-- `export_extruded` (_mesh.py:257-302); `so` is the iteration order of the Python set in
`nodelist`. -/
def exportExtruded [Add R] [Mul R] (so : List Int → List Int) (m : Mesh R) (direction : R × R × R)
    (planes : List R) (domain : String) : Py (Mesh R) := do
  let nrange := planes.length
  pyAssert (decide (1 < nrange))
  let new : Mesh R := Mesh.new (m.ncell * nrange) (m.nnode * nrange)
  let nd ← m.nodesNd
  let new ← new.setCoordsNd (extrudeCoords m.nnode direction planes nd)
  match m.cell2node with
  | none => .error .attribute
  | some c => do
      let c' ← c.extrude nrange m.nnode
      let new := new.setCell2node c'
      let new ← m.bocos.foldlM (fun (new : Mesh R) (p : String × Mark) => do
        let b ← extrudeMark nrange m.nnode p.2
        return new.addBoco b) new
      let index := c.nodelist so
      let new := new.addBoco ⟨domain ++ "0", .bdnode, "boundary", .list index, none⟩
      return new.addBoco ⟨domain ++ "1", .bdnode, "boundary",
        .list (index.map (· + (((nrange - 1) * m.nnode : Nat) : Int))), none⟩

end Mesh
end Cfd
