import Verif.Model.Files

/-!
# Model of the format registry, `Timer` and `memoize` (cfdtools/api.py), of the choice of a format
(cfdtools/_cli.py:54-128) and of `lazyprop` (cfdtools/utils/_dev.py)

Simplifications
* classes registered as readers and writers are opaque values of a type `C`;
* clock readings are given with the calls and have an arbitrary type `T`; the messages logged are reduced
  to the time reported by `stop`;
* the function memoized and the property evaluated do not call themselves (no reentrance), and the values
  returned are not modified by the caller.
-/

namespace Cfd

/-! ## Registry -/

/-- An entry of `_fileformat_map` (api.py:25, 42): keys `reader`, `writer` (possibly missing), `ext`. -/
structure Format (C : Type) where
  reader : Option C
  writer : Option C
  ext : Name
  deriving DecidableEq, Repr

/-- `_fileformat_map` (api.py:9). -/
abbrev Registry (C : Type) := Dict String (Format C)

/-- A use of one of the two decorators. -/
structure Registration (C : Type) where
  isReader : Bool
  name : String
  ext : Name
  cls : C
  deriving DecidableEq, Repr

/-- `fileformat_reader` and `fileformat_writer` (api.py:14-48). -/
def register {C : Type} (reg : Registry C) (r : Registration C) : Registry C :=
  match reg.get? r.name with
  | some f => reg.set r.name
      (if r.isReader then { f with reader := some r.cls, ext := r.ext }
       else { f with writer := some r.cls, ext := r.ext })
  | none => reg.set r.name
      (if r.isReader then ⟨some r.cls, none, r.ext⟩ else ⟨none, some r.cls, r.ext⟩)

/-- The formats with a reader (_cli.py:57-59), i.e. the values accepted by `--fmt`. -/
def availableReaders {C : Type} (reg : Registry C) : List String :=
  (reg.filter fun p => p.2.reader.isSome).map (·.1)

/-- Value of the option `--fmt` (_cli.py:66): other values than the choices make argparse exit; the
default value is not checked. -/
def fmtOption {C : Type} (reg : Registry C) (given default : Option String) : Py (Option String) :=
  match given with
  | none => .ok default
  | some f => if f ∈ availableReaders reg then .ok (some f) else .error .exit

/-- `parse_filenameformat` (_cli.py:115-128): format, reader and writer. -/
def parseFormat {C : Type} (reg : Registry C) (fmt : Option String) (filename : Name) :
    Py (String × Option C × Option C) :=
  let cand := match fmt with
    | none => (reg.filter fun p => decide (p.2.ext = (PyPath.parse filename).suffix)).map (·.1)
    | some f => [f]
  match cand with
  | [] => .error .runtime
  | [f] => do
      let p ← reg.getE f
      return (f, p.reader, p.writer)
  | _ :: _ :: _ => .error .runtime

/-! ## Timer -/

/-- `Timer` (api.py:119-187). -/
structure Timer (T : Type) where
  start : Option T
  elapsed : T
  nelem : Option Int
  deriving DecidableEq, Repr

/-- Methods of `Timer`. -/
inductive TimerOp where
  | start
  | pause
  | stop (nelem : Option Int)
  | reset
  deriving DecidableEq, Repr

namespace Timer
variable {T : Type} [Zero T] [Add T] [Sub T]

/-- `Timer(nelem=..)` (api.py:123-128). -/
def new (nelem : Option Int := none) : Timer T := ⟨none, 0, nelem⟩

/-- `reset` (api.py:130-134): the number of elements is kept. -/
def doReset (x : Timer T) : Timer T := { x with start := none, elapsed := 0 }

/-- `start` (api.py:140-144). -/
def doStart (x : Timer T) (t : T) : Py Unit × Timer T :=
  match x.start with
  | some _ => (.error .timer, x)
  | none => (.ok (), { x with start := some t })

/-- `pause` (api.py:146-151). -/
def doPause (x : Timer T) (t : T) : Py Unit × Timer T :=
  match x.start with
  | none => (.error .timer, x)
  | some a => (.ok (), { x with start := none, elapsed := x.elapsed + (t - a) })

/-- `stop(nelem)` (api.py:153-173): the time reported; a division by zero elements raises after the
pause and before the reset. -/
def doStop (x : Timer T) (n : Option Int) (t : T) : Py T × Timer T :=
  let x := match n with
    | none => x
    | some k => { x with nelem := some k }
  match x.doPause t with
  | (.error e, x) => (.error e, x)
  | (.ok _, x) =>
      if x.nelem = some 0 then (.error .zeroDiv, x)
      else (.ok x.elapsed, x.doReset)

/-- A call: the time reported if any, or the exception, and the timer left. -/
def call (x : Timer T) (op : TimerOp) (t : T) : Py (Option T) × Timer T :=
  match op with
  | .start => let r := x.doStart t; (r.1.map fun _ => none, r.2)
  | .pause => let r := x.doPause t; (r.1.map fun _ => none, r.2)
  | .stop n => let r := x.doStop n t; (r.1.map some, r.2)
  | .reset => (.ok none, x.doReset)

/-- The timer after a history of calls. -/
def after (x : Timer T) (h : List (TimerOp × T)) : Timer T := h.foldl (fun x c => (x.call c.1 c.2).2) x

/-- `with timer: body` (api.py:175-187): `start` at `t0`, the calls made by the body on the timer, then
`stop` at `t1`, whether the body raises or not. `__exit__` returns `None`: the exception of the body goes
on, unless `stop` raises. -/
def withBlock (x : Timer T) (t0 : T) (body : List (TimerOp × T)) (outcome : Py Unit) (t1 : T) :
    Py Unit × Timer T :=
  match x.doStart t0 with
  | (.error e, x) => (.error e, x)
  | (.ok _, x) =>
      match (x.after body).doStop none t1 with
      | (.error e, x) => (.error e, x)
      | (.ok _, x) => (outcome, x)

end Timer

/-! ## memoize -/

/-- Variables of `memoize` (api.py:190-194). -/
structure Memo (K B : Type) where
  cache : Dict K B
  hits : Nat
  misses : Nat
  deriving DecidableEq, Repr

/-- Initial state (api.py:191-193). -/
def Memo.empty {K B : Type} : Memo K B := ⟨[], 0, 0⟩

/-- `wrapper(*args)` (api.py:202-210). `key` is the equality class of the arguments (Python `==` and
`hash`), `none` for unhashable arguments, for which `args in cache` raises TypeError. The function may
read and change a state of type `σ`. -/
def Memo.call {σ A K B : Type} [DecidableEq K] (key : A → Option K) (f : σ → A → Py B × σ)
    (w : σ) (m : Memo K B) (a : A) : Py B × σ × Memo K B :=
  match key a with
  | none => (.error .type, w, m)
  | some k => match m.cache.get? k with
    | some b => (.ok b, w, { m with hits := m.hits + 1 })
    | none => match f w a with
      | (.ok b, w') => (.ok b, w', { m with misses := m.misses + 1, cache := m.cache.set k b })
      | (.error e, w') => (.error e, w', { m with misses := m.misses + 1 })

/-- A sequence of calls, each possibly raising: the outcomes, then the final states. -/
def Memo.run {σ A K B : Type} [DecidableEq K] (key : A → Option K) (f : σ → A → Py B × σ) :
    σ → Memo K B → List A → List (Py B) × σ × Memo K B
  | w, m, [] => ([], w, m)
  | w, m, a :: t =>
      let r := m.call key f w a
      let r' := Memo.run key f r.2.1 r.2.2 t
      (r.1 :: r'.1, r'.2)

/-- `cache_info().currsize` (api.py:199). -/
def Memo.currsize {K B : Type} (m : Memo K B) : Nat := m.cache.length

/-! ## lazyprop -/

/-- Attributes of the objects: `(object, attribute name)`. -/
abbrev Heap (Obj V : Type) := Dict (Obj × String) V

/-- `_lazyprop(self)` of the property `name` (_dev.py:4-14): `fn name` may read and change a state. -/
def lazyAccess {σ Obj V : Type} [DecidableEq Obj] (fn : String → σ → Obj → Py V × σ) (w : σ)
    (h : Heap Obj V) (o : Obj) (name : String) : Py V × σ × Heap Obj V :=
  let attr := "_cache_" ++ name
  match h.get? (o, attr) with
  | some v => (.ok v, w, h)
  | none => match fn name w o with
    | (.ok v, w') => (.ok v, w', h.set (o, attr) v)
    | (.error e, w') => (.error e, w', h)

/-- A sequence of accesses, each possibly raising. -/
def lazyRun {σ Obj V : Type} [DecidableEq Obj] (fn : String → σ → Obj → Py V × σ) :
    σ → Heap Obj V → List (Obj × String) → List (Py V) × σ × Heap Obj V
  | w, h, [] => ([], w, h)
  | w, h, a :: t =>
      let r := lazyAccess fn w h a.1 a.2
      let r' := lazyRun fn r.2.1 r.2.2 t
      (r.1 :: r'.1, r'.2)

end Cfd
