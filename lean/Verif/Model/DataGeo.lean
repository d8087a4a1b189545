import Verif.Model.Data

/-!
# Model of the geometry of a data set (cfdtools/data.py:54-75), of `DataSetList.dataSet` (data.py:182-189), and of
the entries named `time` of a list of data sets (data.py:177-180, 193-204)

Simplifications
* a coordinate argument is `None`, a Python list or a numpy array of one dimension; other types are not
  modelled;
* `_geoprop` is a dictionary from names to coordinates or to a mesh; a mesh is any value of a type `M`;
* the truth value of an empty numpy array is `False` with a warning, or a ValueError since numpy 2.2: the
  flag `strict` tells which;
* HDF5 accepts any value as attribute (it refuses arrays above 64 kB).
-/

namespace Cfd

/-- An argument of `set_nodes`. -/
inductive Coord (K : Type) where
  | none
  | list (l : List K)
  | array (l : List K)
  deriving DecidableEq, Repr

/-- `bool(c)`, as in `if y:` (data.py:69, 71): an array of one element has the truth value of its element,
one of several elements has none. -/
def Coord.truth {K : Type} [Zero K] [DecidableEq K] (strict : Bool) : Coord K → Py Bool
  | .none => .ok false
  | .list l => .ok (!l.isEmpty)
  | .array [] => if strict then .error .value else .ok false
  | .array [a] => .ok (!decide (a = 0))
  | .array (_ :: _ :: _) => .error .value

/-- A value of `_geoprop`. -/
inductive GeoVal (K M : Type) where
  | coord (c : Coord K)
  | mesh (m : M)
  deriving DecidableEq, Repr

/-- `self._geoprop` (data.py:24). -/
abbrev GeoProp (K M : Type) := Dict String (GeoVal K M)

namespace GeoProp
variable {K M : Type} [Zero K] [DecidableEq K]

/-- `if y: self._geoprop[name] = y` (data.py:69-70, 71-72). -/
def setIf (strict : Bool) (g : GeoProp K M) (name : String) (c : Coord K) : Py Unit × GeoProp K M :=
  match c.truth strict with
  | .error e => (.error e, g)
  | .ok true => (.ok (), Dict.set g name (.coord c))
  | .ok false => (.ok (), g)

/-- `set_nodes` (data.py:66-72): the result, and the dictionary it leaves, also when it raises. -/
def setNodes (strict : Bool) (g : GeoProp K M) (x y z : Coord K) : Py Unit × GeoProp K M :=
  let g1 := Dict.set g "x" (.coord x)
  match setIf strict g1 "y" y with
  | (.error e, g2) => (.error e, g2)
  | (.ok _, g2) => setIf strict g2 "z" z

/-- `set_mesh` (data.py:74-75). -/
def setMesh (g : GeoProp K M) (m : M) : GeoProp K M := Dict.set g "mesh" (.mesh m)

/-- A call that changes the geometry. -/
inductive Call (K M : Type) where
  | nodes (x y z : Coord K)
  | mesh (m : M)
  deriving DecidableEq, Repr

/-- The geometry left by a call, whether it raises or not. -/
def call (strict : Bool) (g : GeoProp K M) : Call K M → GeoProp K M
  | .nodes x y z => (g.setNodes strict x y z).2
  | .mesh m => g.setMesh m

/-- The geometry of a data set after a history of calls; exceptions are caught by the caller. It is empty
at the creation (data.py:24). -/
def history (strict : Bool) (l : List (Call K M)) : GeoProp K M := l.foldl (call strict) []

end GeoProp

/-- Methods of the classes (data.py:54-75, 86-156, 177-204) used in `DataSetList.dataSet`. -/
def DataClass.methods : DataClass → List String
  | .base => ["geoprop", "set_nodes", "set_mesh"]
  | .dataSet => ["geoprop", "set_nodes", "set_mesh", "add_data", "data", "keys", "items", "dtstats", "plot", "contourf",
      "dataSet_spectrum", "dataSet_spectrogram"]
  | .dataSetList => ["geoprop", "set_nodes", "set_mesh", "add_datalist", "dataSet", "_dumphdfgroup", "xdmf_content"]

/-- Access to a method of an object: AttributeError if its class does not have it. -/
def DataClass.method (c : DataClass) (name : String) : Py Unit :=
  if name ∈ c.methods then .ok () else .error .attribute

/-- `dataSet(datafilter)` (data.py:182-189) of an object of class `c`: the result, and the list of the caller
afterwards. `keys` are the names an existing method `keys` would give; nothing is said of the statistics. -/
def dataSetOf (c : DataClass) (keys : List String) (filter : List String) : Py Unit × List String :=
  if filter = [] then
    match c.method "keys" with
    | .error e => (.error e, filter)
    | .ok _ => match removeTime keys with
      | .error e => (.error e, filter)
      | .ok _ => (c.method "dtstats", filter)
  else match removeTime filter with
    | .error e => (.error e, filter)
    | .ok l => (c.method "dtstats", l)

/-! ## Entries named `time` -/

section
variable {V T : Type}

/-- The dictionary stored by `add_datalist` (data.py:177-180): the time is one of its entries. -/
def stepEntries [Zero T] [DecidableEq T] (l : Dict String (V ⊕ T)) (time : Option T) : Dict String (V ⊕ T) :=
  match time with
  | none => l
  | some t => if t = 0 then l else l.set "time" (.inr t)

/-- `_dumphdfgroup` (data.py:193-204), for the dictionaries of the list: group, data sets, attribute `time`
(`_property_names`, data.py:169). -/
def dumpEntries (steps : List (Dict String (V ⊕ T))) : List (String × Dict String (V ⊕ T) × Option (V ⊕ T)) :=
  steps.zipIdx.map fun p => (DataSetList.groupName p.2, p.1.filter fun q => q.1 ≠ "time", p.1.get? "time")

/-- A history of `add_datalist`, then `_dumphdfgroup`. -/
def dumpHistory [Zero T] [DecidableEq T] (l : List (Dict String (V ⊕ T) × Option T)) :
    List (String × Dict String (V ⊕ T) × Option (V ⊕ T)) :=
  dumpEntries (l.map fun p => stepEntries p.1 p.2)

end

end Cfd
