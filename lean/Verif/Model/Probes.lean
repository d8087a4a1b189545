import Verif.Lemmas.Basic

/-!
# Model of probe data: `cfdtools/probes/data.py`

Arrays are one or two dimensional lists; numbers and their operations are parameters (`PhyNum`). Files are a map from
names to the result of `np.genfromtxt`. Methods return their result (or exception) and the dictionary `alldata`, which
keeps what was stored before an exception. Logs are not modelled, except the statistics of the last one
(data.py:85-90), which raise on empty arrays.
-/

namespace Cfd.Probes

/-- Operations on numbers used by the formulas; `lit` gives the literals of the code. -/
structure PhyNum (F : Type) where
  add : F → F → F
  sub : F → F → F
  mul : F → F → F
  div : F → F → F
  pow : F → F → F
  sqrt : F → F
  log : F → F
  lit : String → F
  /-- `np.allclose(rdata[0, 3:], np.average(rdata[:, 3:], axis=0))` -/
  steady : List (List F) → Bool

/-- Arrays of dimension 1 or 2. -/
inductive Val (F : Type) where
  | vec (l : List F)
  | mat (rows : List (List F))
  deriving DecidableEq, Repr

/-- Result of `np.genfromtxt`. -/
inductive Raw (F : Type) where
  | scalar (x : F)
  | arr (v : Val F)
  deriving DecidableEq, Repr

variable {F : Type}

/-- numpy broadcasting along one dimension. -/
def zipB {α β γ : Type} (f : α → β → Py γ) (a : List α) (b : List β) : Py (List γ) :=
  if a.length = b.length then (a.zip b).mapM fun p => f p.1 p.2
  else match a, b with
    | [x], b => b.mapM fun y => f x y
    | a, [y] => a.mapM fun x => f x y
    | _, _ => .error .value

/-- numpy operation on two arrays. -/
def Val.bin (f : F → F → F) : Val F → Val F → Py (Val F)
  | .vec a, .vec b => (zipB (fun x y => .ok (f x y)) a b).map .vec
  | .mat a, .mat b => (zipB (zipB fun x y => .ok (f x y)) a b).map .mat
  | .vec a, .mat b => (b.mapM (zipB (fun x y => .ok (f x y)) a)).map .mat
  | .mat a, .vec b => (a.mapM fun r => zipB (fun x y => .ok (f x y)) r b).map .mat

/-- numpy operation on one array. -/
def Val.un (f : F → F) : Val F → Val F
  | .vec a => .vec (a.map f)
  | .mat a => .mat (a.map fun r => r.map f)

/-- `minavgmax` (data.py:20-21): raises on empty arrays. -/
def Val.stats : Val F → Py Unit
  | .vec a => if a = [] then .error .value else .ok ()
  | .mat a => if a.flatten = [] then .error .value else .ok ()

abbrev Data (F : Type) := Dict String (Val F)

/-- `phydata.dependency_vars` (data.py:25-32). -/
def dependencyVars : Dict String (List String) :=
  [("Asound", ["P", "RHO"]), ("S", ["P", "RHO"]), ("Mach", ["U", "Asound"]), ("U", ["U-X", "U-Y", "U-Z"]),
    ("INVX+", ["U-X", "Asound"]), ("INVX-", ["U-X", "Asound"])]

/-- `compute_U` (data.py:48-51). -/
def computeU (N : PhyNum F) (d : Data F) : Py (Data F) := do
  let x := Val.un (fun a => N.pow a (N.lit "2")) (← d.getE "U-X")
  let y := Val.un (fun a => N.pow a (N.lit "2")) (← d.getE "U-Y")
  let xy ← Val.bin N.add x y
  let z := Val.un (fun a => N.pow a (N.lit "2")) (← d.getE "U-Z")
  return d.set "U" (Val.un N.sqrt (← Val.bin N.add xy z))

/-- `compute_Mach` (data.py:53-54). -/
def computeMach (N : PhyNum F) (d : Data F) : Py (Data F) := do
  return d.set "Mach" (← Val.bin N.div (← d.getE "U") (← d.getE "Asound"))

/-- `compute_Asound` (data.py:56-57). -/
def computeAsound (N : PhyNum F) (d : Data F) : Py (Data F) := do
  let p := Val.un (N.mul (N.lit "1.4")) (← d.getE "P")
  return d.set "Asound" (Val.un N.sqrt (← Val.bin N.div p (← d.getE "RHO")))

/-- `compute_invxp` (data.py:59-60). -/
def computeInvxp (N : PhyNum F) (d : Data F) : Py (Data F) := do
  let a := Val.un (N.mul (N.lit "5")) (← d.getE "Asound")
  return d.set "INVX+" (← Val.bin N.add a (← d.getE "U-X"))

/-- `compute_invxm` (data.py:62-63). -/
def computeInvxm (N : PhyNum F) (d : Data F) : Py (Data F) := do
  let a := Val.un (N.mul (N.lit "5")) (← d.getE "Asound")
  return d.set "INVX-" (← Val.bin N.sub a (← d.getE "U-X"))

/-- `compute_entropy` (data.py:65-66). -/
def computeEntropy (N : PhyNum F) (d : Data F) : Py (Data F) := do
  let p ← d.getE "P"
  let r := Val.un (fun a => N.pow a (N.lit "1.4")) (← d.getE "RHO")
  let l := Val.un N.log (← Val.bin N.div p r)
  return d.set "S" (Val.un (N.mul (N.div (N.lit "1.0") (N.lit "0.4"))) l)

/-- `compute_varname` (data.py:38-45), called with `self`. -/
def computeVarname (N : PhyNum F) (var : String) (d : Data F) : Py (Data F) :=
  if var = "U" then computeU N d
  else if var = "Mach" then computeMach N d
  else if var = "Asound" then computeAsound N d
  else if var = "INVX+" then computeInvxp N d
  else if var = "INVX-" then computeInvxm N d
  else if var = "S" then computeEntropy N d
  else .error .key

/-- `read_data` (data.py:93-135). -/
def readData (N : PhyNum F) (fs : String → Option (Raw F)) (pre : String) (var : String) (force : Bool) (d : Data F) :
    Py Bool × Data F :=
  match fs (pre ++ "." ++ var) with
  | none => (.ok false, d)
  | some (.arr (.vec l)) => (.ok true, d.set var (.vec (l.drop 3)))
  | some (.arr (.mat rows)) =>
      if force then
        match rows with
        | [] => (.error .index, d)
        | r :: _ =>
          let d := d.set var (.vec (r.drop 3))
          if N.steady (rows.map (·.drop 3)) then (.ok true, d) else (.error .assertion, d)
      else
        let d := d.set var (.mat (rows.map (·.drop 3)))
        if "time" ∈ d.keys then (.ok true, d)
        else match rows.mapM fun r => npGet r (1 : Int) with
          | .ok t => (.ok true, d.set "time" (.vec t))
          | .error e => (.error e, d)
  | some (.scalar _) => (.error .os, d)

/-- Number of levels of dependencies above the variable: measure for the recursion of `check_data`. -/
def rank (var : String) : Nat :=
  if var = "Mach" ∨ var = "INVX+" ∨ var = "INVX-" then 2
  else if var = "Asound" ∨ var = "S" ∨ var = "U" then 1
  else 0

/-- Largest rank of a list of variables. -/
def maxRank : List String → Nat
  | [] => 0
  | v :: t => max (rank v) (maxRank t)

theorem maxRank_deps {var : String} {ds : List String} (h : dependencyVars.get? var = some ds) :
    maxRank ds < rank var := by
  have : ∀ p ∈ dependencyVars, maxRank p.2 < rank p.1 := by decide +kernel
  exact this _ (Dict.mem_of_get? h)

/-- First part of `check_data` (data.py:72-75): the variable is there, or is read. -/
def loadData (N : PhyNum F) (fs : String → Option (Raw F)) (pre : String) (var : String) (d : Data F) :
    Py Bool × Data F :=
  if var ∈ d.keys then (.ok true, d)
  else readData N fs pre var (decide (var ∈ ["X", "Y", "Z"])) d

/-- Last part of `check_data` (data.py:85-91): the statistics of the variable. -/
def finish (var : String) (d : Data F) : Py Bool × Data F :=
  match (do (← d.getE var).stats : Py Unit) with
  | .ok _ => (.ok true, d)
  | .error e => (.error e, d)

mutual
/-- `check_data` (data.py:68-91). -/
def checkData (N : PhyNum F) (fs : String → Option (Raw F)) (pre : String) (var : String) (d : Data F) :
    Py Bool × Data F :=
  match loadData N fs pre var d with
  | (.error e, d) => (.error e, d)
  | (.ok true, d) => finish var d
  | (.ok false, d) =>
      match h : dependencyVars.get? var with
      | none => (.error .name, d)
      | some ds =>
          match checkDeps N fs pre ds d with
          | (.error e, d) => (.error e, d)
          | (.ok false, d) => (.error .name, d)
          | (.ok true, d) =>
              match computeVarname N var d with
              | .ok d => finish var d
              | .error e => (.error e, d)
termination_by (rank var, 0)
decreasing_by
  have := maxRank_deps h
  exact Prod.Lex.left _ _ this
/-- `np.all([self.check_data(depvar, prefix) for depvar in ...])` (data.py:78). -/
def checkDeps (N : PhyNum F) (fs : String → Option (Raw F)) (pre : String) (ds : List String) (d : Data F) :
    Py Bool × Data F :=
  match ds with
  | [] => (.ok true, d)
  | v :: t =>
      match checkData N fs pre v d with
      | (.error e, d) => (.error e, d)
      | (.ok b, d) =>
          match checkDeps N fs pre t d with
          | (.error e, d) => (.error e, d)
          | (.ok b', d) => (.ok (b && b'), d)
termination_by (maxRank ds, ds.length + 1)
decreasing_by
  · simp only [maxRank]
    rcases Nat.lt_or_ge (rank v) (max (rank v) (maxRank t)) with h | h
    · exact Prod.Lex.left _ _ h
    · rw [show max (rank v) (maxRank t) = rank v by omega]
      exact Prod.Lex.right _ (by omega)
  · simp only [maxRank]
    rcases Nat.lt_or_ge (maxRank t) (max (rank v) (maxRank t)) with h | h
    · exact Prod.Lex.left _ _ h
    · rw [show max (rank v) (maxRank t) = maxRank t by omega]
      exact Prod.Lex.right _ (by simp)
end

end Cfd.Probes
