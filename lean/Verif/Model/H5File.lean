import Verif.Py

/-!
# `h5File`: opening HDF5 files with the metadata of the package (C69)

hdf5/_hdf5.py. A file on disk is absent, or has the attributes of its root and a tree `C` that this class does not look
at. Assumed of `h5py.File(path, mode)`: 'r' and 'r+' need an existing file; 'w' creates the file or empties it; 'w-' and
'x' create it and raise FileExistsError when it exists; 'a' opens it or creates it; other modes raise ValueError.
Attributes of other types than text and integers are not modelled.
-/

namespace Cfd.H5

/-- Value of an attribute. -/
inductive Attr where
  | str (s : String)
  | int (n : Int)
  deriving DecidableEq, Repr

/-- Truth value in Python. -/
def Attr.truthy : Attr → Bool
  | .str s => decide (s ≠ "")
  | .int n => decide (n ≠ 0)

/-- An HDF5 file: attributes of the root, is there a ` hdf5version` entry (CGNS files), the rest. -/
structure Content (C : Type) where
  attrs : Dict String Attr
  hdf5version : Bool
  tree : C
  deriving DecidableEq, Repr

/-- `_available_types` (_hdf5.py:16). -/
def availableTypes : List String := ["external", "dataset", "datalist", "probes", "cfdmesh"]

/-- The attributes of an `h5File` object. `_h5ver` and `_version` do not exist before a file was opened for reading
(_hdf5.py:26-30, 51-57): outer `none`. -/
structure Obj where
  openedmode : Option String
  datatype : Option Attr
  cfdtoolsVersion : Option Attr
  h5ver : Option Bool
  version : Option (Option Attr)
  deriving DecidableEq, Repr

/-- `h5File(filename)` (_hdf5.py:26-30). -/
def Obj.new : Obj := ⟨none, none, none, none, none⟩

section
variable {C : Type} (empty : C)

/-- `h5py.File(path, mode=mode)` (_hdf5.py:41): the file on disk once opened. -/
def h5pyFile (mode : String) (disk : Option (Content C)) : Py (Content C) :=
  if mode = "r" ∨ mode = "r+" then
    match disk with
    | some c => .ok c
    | none => .error .os
  else if mode = "w" then .ok ⟨[], false, empty⟩
  else if mode = "w-" ∨ mode = "x" then
    match disk with
    | some _ => .error .os
    | none => .ok ⟨[], false, empty⟩
  else if mode = "a" then .ok (disk.getD ⟨[], false, empty⟩)
  else .error .value

/-- `h5File.open` (_hdf5.py:32-60): the object, the file on disk, and the exception if any. `release` is `__version__`. -/
def Obj.open (release : String) (self : Obj) (mode : String) (datatype : Option String) (version : Option Int)
    (disk : Option (Content C)) : Obj × Option (Content C) × Py Unit :=
  match h5pyFile empty mode disk with
  | .error e => (self, disk, .error e)
  | .ok c =>
    if mode = "w" ∨ mode = "w-" ∨ mode = "x" then
      match datatype with
      | none => (self, some c, .error .assertion)
      | some t =>
        if t ∉ availableTypes then (self, some c, .error .assertion)
        else
          let c := { c with attrs := (c.attrs.set "cfdtools_version" (.str release)).set "cfd_datatype" (.str t) }
          match version with
          | none => (self, some c, .error .runtime)
          | some n =>
            ({ self with openedmode := some mode }, some { c with attrs := c.attrs.set "data_version" (.int n) }, .ok ())
    else if mode = "r" ∨ mode = "r+" then
      let datatype := c.attrs.get? "cfd_datatype"
      let typed := match datatype with
        | some a => a.truthy
        | none => false
      ({ openedmode := some mode
         datatype := datatype
         cfdtoolsVersion := c.attrs.get? "cfdtools_version"
         h5ver := some c.hdf5version
         version := some (match c.attrs.get? "data_version" with
           | some a => some a
           | none => if typed then some (.int 0) else none) }, some c, .ok ())
    else (self, some c, .error .runtime)

end

/-- `h5File.printinfo` (_hdf5.py:80-90): the lines on versions and type, printed or
not (the line of the HDF5 library apart). -/
def Obj.printinfo (self : Obj) : Py (List (Option Attr)) :=
  match self.openedmode with
  | none => .ok []
  | some _ => match self.h5ver, self.version with
    | none, _ => .error .attribute
    | some _, none => .error .attribute
    | some _, some v => .ok [self.cfdtoolsVersion.filter Attr.truthy, self.datatype.filter Attr.truthy, v.filter Attr.truthy]

/-- A sequence of calls of `open` on the same object: mode, type, version, and the file found. -/
def Obj.calls {C : Type} (empty : C) (release : String) (self : Obj) :
    List (String × Option String × Option Int × Option (Content C)) → Obj
  | [] => self
  | (mode, t, n, disk) :: rest => Obj.calls empty release (self.open empty release mode t n disk).1 rest

end Cfd.H5
