import Verif.Model.Probes

/-!
# The command `ic3probe_plotline` (C75)

`ic3probe_plotline` (cfdtools/_cli.py:325-418) and cfdtools/probes/plot.py up to the arrays given to matplotlib. The result is the
figure that is saved, or the exception before it is saved; `savefig` (plot.py:59, 103) is the only effect on files, and replaces a
file of the same name. Averages, FFT, colour maps and drawing are parameters. Not represented: the lines printed (`--check` only
prints), empty arrays (they are refused by `check_data`).
-/

namespace Cfd.Probes

/-- What is saved: name of the file, labels, positions and values. -/
structure Figure (F : Type) where
  name : String
  xlabel : String
  ylabel : String
  x : List F
  y : List F
  z : List (List F)
  deriving DecidableEq, Repr

/-- What is outside of the model: `np.average`, `fftfreq(n, d)`, `np.abs(fft(v - np.average(v), axis=0))`, `normalizeCmap`, the
exceptions of the drawing itself. -/
structure PlotEnv (F : Type) extends PhyNum F where
  avg : List F → F
  freq : Nat → F → List F
  spectrum : List (List F) → List (List F)
  cmap : String → Int → Py Unit
  render : Figure F → String → Int → Py Unit

/-- Options of the command (_cli.py:338-388). -/
structure PlotArgs where
  pre : String
  verbose : Bool
  data : String
  axis : String
  /-- `--map freq`, else `time` -/
  freq : Bool
  cmap : String
  nlevels : Int

variable {F : Type}

/-- `check_axis` (plot.py:13-26): with several lines, `list(*minavgmax(err))` raises TypeError. -/
def checkAxis : Val F → Py (List F)
  | .vec l => .ok l
  | .mat _ => .error .type

/-- The tests of `plt.contourf(x, y, z)` on its arguments, for `x` of one dimension (matplotlib): all raise TypeError. -/
def contourf (x : List F) (y z : Val F) : Py (List F × List F × List (List F)) :=
  match z, y with
  | .mat rows, .vec y =>
      let n := (rows.head?.map List.length).getD 0
      if rows.length < 2 ∨ n < 2 then .error .type
      else if x.length = n ∧ y.length = rows.length then .ok (x, y, rows)
      else .error .type
  | _, _ => .error .type

/-- `kwargs.get('datalist')[0]` (plot.py:32, 66): the first character. -/
def firstChar (s : String) : Py String :=
  match s.toList with
  | [] => .error .index
  | c :: _ => .ok (String.ofList [c])

/-- The sizes that are printed (plot.py:45-51): the arrays must be there. -/
def sizes (verbose : Bool) (axis var : String) (d : Data F) : Py Unit :=
  if verbose then do
    let _ ← d.getE axis
    let _ ← d.getE "time"
    let _ ← d.getE var
  else .ok ()

/-- `plot_timemap` (plot.py:29-60). -/
def plotTimemap (env : PlotEnv F) (o : PlotArgs) (d : Data F) : Py (Figure F) := do
  let var ← firstChar o.data
  env.cmap o.cmap o.nlevels
  sizes o.verbose o.axis var d
  let x ← checkAxis (← d.getE o.axis)
  let t ← d.getE "time"
  let v ← d.getE var
  let (x, y, z) ← contourf x t v
  let fig : Figure F := ⟨o.pre ++ "." ++ var ++ ".time.png", o.axis, "time", x, y, z⟩
  env.render fig o.cmap o.nlevels
  return fig

/-- `t[1:] - t[:-1]`, all values. -/
def steps (env : PlotEnv F) : Val F → List F
  | .vec l => (l.drop 1).zipWith env.sub l
  | .mat rows => ((rows.drop 1).zipWith (fun a b => a.zipWith env.sub b) rows).flatten

/-- `len(v)` -/
def Val.rows : Val F → Nat
  | .vec l => l.length
  | .mat rows => rows.length

/-- `l[1 : n]` -/
def slice1 {α : Type} (n : Nat) (l : List α) : List α := (l.take n).drop 1

/-- `psdmap[1:n//200, :]` (plot.py:86, 94): IndexError for an array of one dimension. -/
def psd (env : PlotEnv F) (n : Nat) : Val F → Py (List (List F))
  | .vec _ => .error .index
  | .mat rows => .ok (slice1 (n / 200) (env.spectrum rows))

/-- `plot_freqmap` (plot.py:63-104). -/
def plotFreqmap (env : PlotEnv F) (o : PlotArgs) (d : Data F) : Py (Figure F) := do
  let var ← firstChar o.data
  let dt := steps env (← d.getE "time")
  -- `np.min` of an empty array
  if dt.isEmpty then .error .value else do
  let v ← d.getE var
  let n := v.rows
  env.cmap o.cmap o.nlevels
  let x ← checkAxis (← d.getE o.axis)
  let z ← psd env n v
  let (x, y, z) ← contourf x (.vec (slice1 (n / 200) (env.freq n (env.avg dt)))) (.mat z)
  let fig : Figure F := ⟨o.pre ++ "." ++ var ++ ".freq.png", o.axis, "frequency", x, y, z⟩
  env.render fig o.cmap o.nlevels
  return fig

/-- `ic3probe_plotline` (_cli.py:390-418). -/
def plotline (env : PlotEnv F) (fs : String → Option (Raw F)) (o : PlotArgs) : Py (Figure F) :=
  match checkData env.toPhyNum fs o.pre o.data [] with
  | (.error e, _) => .error e
  | (.ok _, d) => match checkData env.toPhyNum fs o.pre o.axis d with
    | (.error e, _) => .error e
    | (.ok _, d) => if o.freq then plotFreqmap env o d else plotTimemap env o d

end Cfd.Probes
