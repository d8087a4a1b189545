Program run to compare the model with the repository's data files. It is kept as text because it is not part of
the Lake project. To run it: copy the lines below the rule to a file F.lean, then in /verif/lean:
  lake env lean --run F.lean FILE... (names of files of /repo/tests/data)
-----
import Verif.Model.Ic3Reader
import Verif.Model.Ic3Writer
import Verif.Model.Gmsh
import Verif.Model.Elements
open Cfd Cfd.Ic3

def showErr {α} [Inhabited α] : Py α → String
  | .ok _ => "ok"
  | .error e => s!"error {repr e}"

instance : Inhabited FullMesh := ⟨⟨Mesh.new 0 0, ⟨none, []⟩, [], [], none⟩⟩

def parseFloat (s : String) : Py UInt64 :=
  let (neg, t) := if s.startsWith "-" then (true, (s.drop 1).toString) else (false, s)
  let t := if t.any (fun c => c == '.' || c == 'e' || c == 'E') then t else t ++ "."
  match Lean.Syntax.decodeScientificLitVal? t with
  | some (m, sg, e) =>
      let f := Float.ofScientific m sg e
      .ok (if neg then (-f).toBits else f.toBits)
  | none => .error .value

def num : Gmsh.PyNum UInt64 where
  int s := match s.toInt? with | some i => .ok i | none => .error .value
  float := parseFloat
  trunc u := .ok (let f := Float.ofBits u; if f < 0 then -((-f).toUInt64.toNat : Int) else (f.toUInt64.toNat : Int))

def conv : Conv := ⟨fun i => (Float.ofInt i).toBits, fun u => .ok (let f := Float.ofBits u; if f < 0 then -((-f).toUInt64.toNat : Int) else (f.toUInt64.toNat : Int))⟩

def one (dir name : String) : IO Unit := do
  let b ← IO.FS.readBinFile (dir ++ name)
  let l : Bytes := b.toList
  IO.println s!"{name}: {l.length} bytes"
  match readData true l with
  | .error e => IO.println s!"  read error {repr e}"
  | .ok d =>
    IO.println s!"  order {repr d.order} version {d.version} no {d.mesh.no} fa {d.mesh.fa} cv {d.mesh.cv} sim {repr d.sim |>.pretty.take 200}"
    IO.println s!"  nodes {d.vars.nodes.map fun p => (p.1, p.2.shape)} cells {d.vars.cells.map fun p => (p.1, p.2.shape)}"
    match exportMesh d with
    | .error e => IO.println s!"  export error {repr e}"
    | .ok f =>
      IO.println s!"  check {repr (f.mesh.check id).1} marks {repr (f.mesh.bocos.map fun p => (p.1, p.2.index, p.2.type)) |>.pretty}"
      for v in [Ver.v2, Ver.v3] do
        let r := writeIc3 cgnsElem2faces id .little .little v conv f
        match r.1 with
        | none => IO.println s!"  write {repr v}: none {repr r.2}"
        | some o => IO.println s!"  write {repr v}: {repr r.2} {o.length} bytes, same {o == l}, first difference {((o.zip l).findIdx? fun p => p.1 != p.2)}"
        match r.1 with
        | none => pure ()
        | some o => match readIc3 true o with
          | .error e => IO.println s!"    reread error {repr e}"
          | .ok g => IO.println s!"    reread same mesh {g.mesh == f.mesh} cells {g.cells == f.cells} nodes {g.nodes == f.nodes} params {g.params == f.params}"

def gm (dir name : String) : IO Unit := do
  let s ← IO.FS.lines (dir ++ name)
  IO.println s!"{name}: {s.size} lines"
  match Gmsh.readFile num s.toList with
  | .error e => IO.println s!"  read error {repr e}"
  | .ok m =>
    IO.println s!"  ncell {m.ncell} nnode {m.nnode} cells {(m.cell2node.map fun c => c.tbl.map fun p => (p.1, p.2.e2n.rows.length))} marks {m.bocos.map fun p => (p.1, (match p.2.index with | .list l => l.length | _ => 0))}"
    IO.println s!"  check {repr (m.check id).1}"
    let cr := m.coords.map fun (x, y, z) => (x.map (·.getD 0), y.map (·.getD 0), z.map (·.getD 0))
    let m' : Mesh F64 := ⟨m.ncell, m.nnode, m.nface, m.cell2node, m.faces, cr, m.bocos⟩
    let f : FullMesh := ⟨m', ⟨none, []⟩, [], [], none⟩
    let r := writeIc3 gmshElem2faces id .little .native .v3 conv f
    match r.1 with
    | none => IO.println s!"  write: none {repr r.2}"
    | some o =>
      IO.println s!"  write: {repr r.2} {o.length} bytes"
      match readIc3 true o with
      | .error e => IO.println s!"    reread error {repr e}"
      | .ok g => IO.println s!"    reread {g.mesh.ncell} {g.mesh.nnode} {g.mesh.nface} marks {repr (g.mesh.bocos.map fun p => (p.1, p.2.index)) |>.pretty}"

def main (args : List String) : IO Unit := do
  let dir := "/repo/tests/data/"
  for a in args do
    if a.endsWith ".ic3" then one dir a else gm dir a
