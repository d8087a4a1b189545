import Verif.Py

/-!
# Model of `_files` (cfdtools/api.py:67-112), of the conversion commands (cfdtools/_cli.py:203-249,
278-324) and of the HDF5 dump (cfdtools/data.py:242-257, cfdtools/vtk/_vtkList.py:119-155) as far as
file names are concerned

`pathlib.PurePosixPath` is modelled on lists of characters.

Simplifications
* the root is `/` or absent (POSIX also has the special root `//`); Windows paths are not modelled;
* a name ending with a dot has no suffix (Python < 3.14);
* `exists()` is a total test: operating system errors other than "not found" (name too long,
  permission) are not modelled;
* nothing else modifies the file system during a command.
-/

namespace Cfd

/-- A file name, or a component of a path. -/
abbrev Name := List Char

/-- `pathlib.PurePosixPath`: root and components. -/
structure PyPath where
  root : Bool
  parts : List Name
  deriving DecidableEq, Repr

/-- `s.split('/')`. -/
def splitSlash : Name → List Name
  | [] => [[]]
  | c :: t =>
      if c = '/' then [] :: splitSlash t
      else match splitSlash t with
        | h :: r => (c :: h) :: r
        | [] => [[c]]

/-- `(head, tail)` at the last dot: `tail` begins with it. `none` without dot (`rfind` = -1). -/
def lastDot : Name → Option (Name × Name)
  | [] => none
  | c :: t =>
      match lastDot t with
      | some (a, b) => some (c :: a, b)
      | none => if c = '.' then some ([], c :: t) else none

namespace PyPath

/-- `Path(s)`: empty components and single dots disappear. -/
def parse (s : Name) : PyPath :=
  ⟨decide (s.head? = some '/'), (splitSlash s).filter fun p => decide (p ≠ []) && decide (p ≠ ['.'])⟩

/-- `str(path)`. -/
def str (p : PyPath) : Name :=
  if p.root then '/' :: List.intercalate ['/'] p.parts
  else if p.parts = [] then ['.'] else List.intercalate ['/'] p.parts

/-- `path.name`. -/
def name (p : PyPath) : Name := p.parts.getLast?.getD []

/-- `path.parent`. -/
def parent (p : PyPath) : PyPath := ⟨p.root, p.parts.dropLast⟩

/-- `p / q`: an absolute `q` replaces `p`. -/
def join (p q : PyPath) : PyPath := if q.root then q else ⟨p.root, p.parts ++ q.parts⟩

/-- `path.stem` and `path.suffix`: the last dot counts when it is neither the first nor the last
character. -/
def stemSuffix (p : PyPath) : Name × Name :=
  match lastDot p.name with
  | some (a, b) => if a ≠ [] ∧ 1 < b.length then (a, b) else (p.name, [])
  | none => (p.name, [])

/-- `path.stem`. -/
def stem (p : PyPath) : Name := p.stemSuffix.1
/-- `path.suffix`. -/
def suffix (p : PyPath) : Name := p.stemSuffix.2

/-- `path.with_suffix(ext)`: ValueError for an invalid suffix or an empty name. -/
def withSuffix (p : PyPath) (ext : Name) : Py PyPath :=
  if '/' ∈ ext then .error .value
  else if (ext ≠ [] ∧ ext.head? ≠ some '.') ∨ ext = ['.'] then .error .value
  else if p.name = [] then .error .value
  else .ok ⟨p.root, p.parts.dropLast ++ [p.stem ++ ext]⟩

end PyPath

/-- `f"({i})"`. -/
def counter (i : Nat) : Name := '(' :: Nat.toDigits 10 i ++ [')']

/-- `change_dir` (api.py:85-86). -/
def changeDir (newdir : Name) (p : PyPath) : PyPath := (PyPath.parse newdir).join (PyPath.parse p.name)

/-- `remove_dir` (api.py:88-89). -/
def removeDir (p : PyPath) : PyPath := PyPath.parse p.name

/-- The loop of `find_safe_newfile` (api.py:101-109) for at most `fuel` more tests: `folder`, `stem`
and `suff` are those of the original path. `none`: not finished yet. -/
def safeLoop (ex : PyPath → Bool) (folder : PyPath) (stem suff : Name) :
    Nat → Nat → PyPath → Option (Nat × PyPath)
  | 0, _, _ => none
  | fuel + 1, i, p =>
      if ex p then safeLoop ex folder stem suff fuel (i + 1)
        (folder.join (PyPath.parse (stem ++ counter (i + 1) ++ suff)))
      else some (i, p)

/-- `find_safe_newfile` (api.py:94-109): the value returned and the new path. -/
def findSafe (ex : PyPath → Bool) (fuel : Nat) (p : PyPath) : Option (Bool × PyPath) :=
  (safeLoop ex p.parent p.stem p.suffix fuel 0 p).map fun r => (decide (0 < r.1), r.2)

/-! ## Commands writing files -/

/-- A file system: the operating system resolves a path string to a location (links, `..` and the
current folder included), and locations have contents. -/
structure Fs (Loc : Type) where
  resolve : Name → Loc
  content : Loc → Option (List UInt8)

namespace Fs
variable {Loc : Type} [DecidableEq Loc]

/-- `path.exists()`. -/
def has (s : Fs Loc) (p : PyPath) : Bool := (s.content (s.resolve p.str)).isSome

/-- The file is opened for writing (truncated or created) and filled. -/
def write (s : Fs Loc) (p : PyPath) (b : List UInt8) : Fs Loc :=
  { s with content := fun l => if l = s.resolve p.str then some b else s.content l }

/-- The same, for a name which is not a `Path`. -/
def writeStr (s : Fs Loc) (name : Name) (b : List UInt8) : Fs Loc :=
  { s with content := fun l => if l = s.resolve name then some b else s.content l }

end Fs

section
variable {Loc M : Type} [DecidableEq Loc]

/-- Name of the output file (_cli.py:229-234). -/
def outputName (s : Fs Loc) (fuel : Nat) (filename : Name) (outpath : Option Name) (ext : Name) :
    Option (Py PyPath) :=
  let file := PyPath.parse filename
  let file := match outpath with
    | none => removeDir file
    | some d => changeDir d file
  match file.withSuffix ext with
  | .error e => some (.error e)
  | .ok file => (findSafe s.has fuel file).map fun r => .ok r.2

/-- `output = writer(mesh); output.write_data(file.filename)` (_cli.py:246-247): a writer raises before
opening the file (`Sum.inl`), or leaves some bytes in it and possibly raises. -/
def runWriter (writer : M → PyErr ⊕ (List UInt8 × Py Unit)) (s : Fs Loc) (p : PyPath) (m : M) :
    Fs Loc × Py Name :=
  match writer m with
  | .inl e => (s, .error e)
  | .inr (b, .error e) => (s.write p b, .error e)
  | .inr (b, .ok _) => (s.write p b, .ok p.str)

/-- `write_generic` (_cli.py:203-249). `reader` reads the file and exports the mesh, `prepare` removes
data, `transform` extrudes and scales: none of them writes files. -/
def writeGeneric (reader : Fs Loc → Name → Py M) (prepare transform : M → Py M)
    (writer : M → PyErr ⊕ (List UInt8 × Py Unit)) (ext : Name)
    (s : Fs Loc) (fuel : Nat) (filename : Name) (outpath : Option Name) : Option (Fs Loc × Py Name) :=
  match (do let m ← reader s (PyPath.parse filename).str; prepare m) with
  | .error e => some (s, .error e)
  | .ok m => match outputName s fuel filename outpath ext with
    | none => none
    | some (.error e) => some (s, .error e)
    | some (.ok p) => match transform m with
      | .error e => some (s, .error e)
      | .ok m' => some (runWriter writer s p m')

/-- End of `cfdwritecube` (_cli.py:319-323): the name is used as it is. -/
def writeCube (writer : M → PyErr ⊕ (List UInt8 × Py Unit)) (s : Fs Loc) (filename : Name) (m : M) :
    Fs Loc × Py Name :=
  runWriter writer s (PyPath.parse filename) m

/-- `os.path.splitext(s)` (`genericpath._splitext`): the extension begins at the last dot of the last component, provided another
character than a dot precedes it there. -/
def splitext (s : Name) : Name × Name :=
  match lastDot s with
  | some (a, b) => if '/' ∉ b ∧ (a.reverse.takeWhile (· ≠ '/')).any (· ≠ '.') then (a, b) else (s, [])
  | none => (s, [])

/-- Name of the XMF file (_vtkList.py:154). -/
def xmfName (filepath : Name) : Name := (splitext filepath).1 ++ ".xmf".toList

/-- `DataSetList.dumphdf` (data.py:242-257) and the optional XMF file of `vtkList.dumphdf`
(_vtkList.py:119-155): `h5` and `xmf` are the contents written. -/
def dumphdf (s : Fs Loc) (fuel : Nat) (filename : Name) (overwrite xdmf : Bool)
    (h5 xmf : List UInt8) : Option (Fs Loc × Name) :=
  let file := PyPath.parse filename
  let target := if overwrite then some file else (findSafe s.has fuel file).map (·.2)
  target.map fun p =>
    let s1 := s.write p h5
    (if xdmf then s1.writeStr (xmfName p.str) xmf else s1, p.str)

end

end Cfd
