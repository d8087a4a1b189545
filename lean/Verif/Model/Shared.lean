import Verif.Model.Data

/-!
# Objects shared between the caller and the package (C78)

data.py. `add_datalist` stores a reference to the dictionary it is given and writes the time in it; the spectra remove 'time' from the
list of names they are given. The heap of the caller's dictionaries is a function of their addresses; the `time` entry of a dictionary
is kept apart from its arrays, as in `DataSetList`.
-/

namespace Cfd.Shared

variable {V T : Type}

/-- The caller's dictionaries: arrays and `time` entry. -/
abbrev Heap (V T : Type) := Nat → Dict String V × Option T

/-- The caller's dictionaries, and the addresses kept in `_datalist` (data.py:173-175). -/
structure State (V T : Type) where
  heap : Heap V T
  steps : List Nat

/-- What the caller does: give a dictionary (`add_datalist`), or put an array in one of them. -/
inductive Op (V T : Type) where
  | add (r : Nat) (time : Option T)
  | put (r : Nat) (name : String) (v : V)

/-- Change the dictionary at one address. -/
def Heap.change (h : Heap V T) (r : Nat) (f : Dict String V × Option T → Dict String V × Option T) : Heap V T :=
  fun q => if q = r then f (h q) else h q

/-- `if time: datalist['time'] = time` (data.py:178-179). -/
def stamp [Zero T] [DecidableEq T] (time : Option T) (d : Dict String V × Option T) : Dict String V × Option T :=
  match time with
  | none => d
  | some t => if t = 0 then d else (d.1, some t)

/-- `add_datalist` (data.py:177-180) on shared dictionaries, and an assignment of the caller. -/
def step [Zero T] [DecidableEq T] (s : State V T) : Op V T → State V T
  | .add r time => ⟨s.heap.change r (stamp time), s.steps ++ [r]⟩
  | .put r name v => ⟨s.heap.change r fun d => (d.1.set name v, d.2), s.steps⟩

/-- The state after the operations. -/
def run [Zero T] [DecidableEq T] (s : State V T) (ops : List (Op V T)) : State V T := ops.foldl step s

/-- `_dumphdfgroup` (data.py:193-204): what is written for each step is read at that time. -/
def dump (s : State V T) : List (Dict String V × Option T) := s.steps.map s.heap

/-- `dataSet_spectrogram` called with a list of names (data.py:135-136): its result, and the caller's list after the call. An empty
list is not used. -/
def spectrogramCall (trep : String) (samples : Dict String Nat) (names : List String) (window : Nat) :
    Py SpectroShape × List String :=
  (spectrogram trep samples names window, names.erase "time")

/-- `dataSet_spectrum` called with a list of names (data.py:120-131): 'time' is removed after the checks of `dtstats`. -/
def spectrumCall (trep : String) (samples : Dict String Nat) (names : List String) (lo hi : Option Int) :
    Py (Nat × List (String × Nat)) × List String :=
  (spectrum trep samples names lo hi,
    if trep = "timeevol" ∧ "time" ∈ samples.keys then names.erase "time" else names)

end Cfd.Shared
