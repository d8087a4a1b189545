import Verif.Model.Bytes

/-!
# Model of the IC3 restart file format (cfdtools/ic3/_ic3.py)

A file is its list of bytes, an open file is that list with a position (`pos`).

Simplifications
* `header.idata[k] = v` with `v` outside 64 bits is an OverflowError in numpy and the `struct.error` of
  the later packing here: nothing is written in both cases;
* positions are unbounded (a `seek` beyond 2^63 is an OSError in Python, here the read that follows fails);
* logging is not modelled.
-/

namespace Cfd.Ic3

/-- `ic3_restart_codes` (_ic3.py:12-39). -/
def magic : Int := 123581321
def nameLen : Nat := 52
def cCounts : Int := 10
def cI0 : Int := 11
def cD0 : Int := 12
def cFaCheck : Int := 20
def cNoofa : Int := 21
def cCvofa : Int := 22
def cFaZone : Int := 23
def cFaD1 : Int := 24
def cFaD3 : Int := 25
def cFaII1 : Int := 26
def cNoCheck : Int := 30
def cXno : Int := 31
def cNoD1 : Int := 32
def cNoD3 : Int := 33
def cNoII1 : Int := 34
def cCvCheck : Int := 40
def cCvPart : Int := 41
def cCvD1 : Int := 42
def cCvD3 : Int := 43
def cCvD33 : Int := 44
def cCvII1 : Int := 45
def cData : Int := 50
def cEof : Int := 51

/-- The values of `ic3_restart_codes` (_ic3.py:12-39), all of them: `read_headers` accepts them all. -/
def allCodes : List Int :=
  [magic, -1, 52, cCounts, cI0, cD0, cFaCheck, cNoofa, cCvofa, cFaZone, cFaD1, cFaD3, cFaII1, cNoCheck,
   cXno, cNoD1, cNoD3, cNoII1, cCvCheck, cCvPart, cCvD1, cCvD3, cCvD33, cCvII1, cData, cEof]

/-- `type2zonekind` (_ic3.py:128-135). -/
def type2zonekind : Dict String Int :=
  [("boundary", 1), ("perio_cart", 2), ("perio_cylx", 3), ("perio_cyly", 4), ("perio_cylz", 5),
   ("internal", 6)]

/-- `zonekind2type` (_ic3.py:137). -/
def zonekind2type : Dict Int String := type2zonekind.map fun p => (p.2, p.1)

/-- `restartSectionHeader` (_ic3.py:209-239): 8 integers and 16 doubles. -/
structure Header where
  name : String
  id : Int
  skip : Int
  idata : List Int
  rdata : List F64
  deriving DecidableEq, Repr

/-- `hsize` (_ic3.py:233-239). -/
def hsize : Nat := 52 * 1 + 4 + 8 + 8 * 8 + 16 * 8

/-- `bytes(char, 'utf-8')`: one byte below 128, several above (only the length matters: `'c'` refuses
anything but one byte). -/
def utf8 (c : Char) : Bytes :=
  if c.toNat < 128 then [UInt8.ofNat c.toNat] else [0, 0]

/-- The 52 one-character items of the name (_ic3.py:308-312). -/
def nameItems (name : String) : List Item :=
  (List.range nameLen).map fun i =>
    match name.toList[i]? with
    | some c => .c (utf8 c)
    | none => .c [0]

/-- The values packed by `write` (_ic3.py:307-318). -/
def Header.items (h : Header) : List Item :=
  nameItems h.name ++ [.i h.id, .q h.skip] ++ h.idata.map .q ++ h.rdata.map .d

/-- `restartSectionHeader.write` (_ic3.py:300-320). -/
def Header.write (host : Order) (e : Endian) (h : Header) : Py Bytes := structPack host e h.items

/-- A header as the writers fill it: all the entries not assigned stay zero (_ic3.py:220-221). -/
def mkHeader (name : String) (id : Int) (skip : Int) (idata : List Int) (rdata : List F64 := []) :
    Header :=
  ⟨name, id, skip, idata ++ List.replicate (8 - idata.length) 0,
   rdata ++ List.replicate (16 - rdata.length) 0⟩

/-- `bfile.read(size)` when the requested number of bytes is there, otherwise `None`
(_ic3.py:162-173). -/
def readAt (file : Bytes) (pos n : Nat) : Option Bytes :=
  let r := (file.drop pos).take n
  if r.length = n then some r else none

/-- Position after `bfile.read(size)`. -/
def afterRead (file : Bytes) (pos n : Nat) : Nat :=
  if pos + n ≤ file.length then pos + n else max pos file.length

/-- The loop reading the name (_ic3.py:268-273) and `.decode()`: bytes above 127 raise. -/
def readName : Bytes → Py (List Char)
  | [] => .ok []
  | b :: t =>
      if b = 0 then .ok []
      else if b.toNat < 128 then do
        let r ← readName t
        return Char.ofNat b.toNat :: r
      else .error .unicode

/-- The header in 256 bytes (_ic3.py:265-285). -/
def parseHeader (o : Order) (b : Bytes) : Py Header := do
  let name ← readName (b.take 52)
  return ⟨String.ofList name, unpackInt o ((b.drop 52).take 4), unpackInt o ((b.drop 56).take 8),
    unpackInts o 8 8 (b.drop 64), unpackF64s o 16 (b.drop 128)⟩

/-- `self.name.startswith("DEOF")` (_ic3.py:274). -/
def isDeof (name : String) : Bool := "DEOF".toList.isPrefixOf name.toList

/-- Position of the section following a header read at `pos`: `seek(skip - 256, SEEK_CUR)` from the end
of the header when `skip > 0` (_ic3.py:259-260). -/
def nextPos (pos : Nat) (skip : Int) : Nat := if 0 < skip then pos + skip.toNat else pos + hsize

theorem nextPos_gt (pos : Nat) (skip : Int) : pos < nextPos pos skip := by
  unfold nextPos hsize; split <;> omega

/-- Outcome of `readVar`: the header found and the position of its payload, or `False` with the
position where the scan stopped. -/
inductive Scan where
  | found (h : Header) (pos : Nat)
  | absent (pos : Nat)
  deriving DecidableEq, Repr

/-- The loop of `readVar` (_ic3.py:252-289) from position `pos`, with no pending skip. A short read is
`list(None)`, a TypeError. -/
def scan (file : Bytes) (o : Order) (ids : List Int) (pos : Nat) : Py Scan :=
  match hr : readAt file pos hsize with
  | none => .error .type
  | some b => match parseHeader o b with
    | .error e => .error e
    | .ok h =>
      if isDeof h.name then .ok (.absent (pos + hsize))
      else if h.id ∈ ids then .ok (.found h (pos + hsize))
      else if h.id = cEof then .ok (.absent (pos + hsize))
      else scan file o ids (nextPos pos h.skip)
  termination_by file.length - pos
  decreasing_by
    have h1 := nextPos_gt pos h.skip
    have h2 : pos < file.length := by
      unfold readAt at hr
      simp only at hr
      split at hr
      · rename_i hl
        simp only [List.length_take, List.length_drop, hsize] at hl
        omega
      · simp at hr
    omega

/-- `readReqVar` (_ic3.py:290-298): RuntimeError when the section is missing. All calls of the package
restart from position 8. -/
def scanReq (file : Bytes) (o : Order) (ids : List Int) : Py (Header × Nat) := do
  match ← scan file o ids 8 with
  | .found h p => return (h, p)
  | .absent _ => .error .runtime

/-- `_ReadRestartHeader` (_ic3.py:391-420): byte order and version. -/
def readRestartHeader (file : Bytes) : Py (Order × Int) :=
  match readAt file 0 8 with
  | none => .error .type
  | some b =>
      let s0 := unpackInt .big (b.take 4)
      let s1 := unpackInt .big (b.drop 4)
      if s0 ≠ magic then do
        let packed ← packInt .big 4 s1
        return (.little, unpackInt .little packed)
      else return (.big, s1)

theorem readAt_length {file b : Bytes} {pos n : Nat} (h : readAt file pos n = some b) (hn : 0 < n) :
    pos + n ≤ file.length := by
  unfold readAt at h
  simp only at h
  split at h
  · rename_i hl
    simp only [List.length_take, List.length_drop] at hl
    omega
  · simp at h

theorem scan_found_pos (file : Bytes) (o : Order) (ids : List Int) (pos : Nat) (h : Header) (p : Nat)
    (hs : scan file o ids pos = .ok (.found h p)) : pos + hsize ≤ p ∧ p ≤ file.length := by
  fun_induction scan file o ids pos with
  | case1 => simp at hs
  | case2 => simp at hs
  | case3 => simp at hs
  | case4 pos b hr h' hp hd hid =>
      simp only [Except.ok.injEq, Scan.found.injEq] at hs
      have := readAt_length hr (by decide)
      omega
  | case5 => simp at hs
  | case6 pos b hr h' hp hd hid he ih =>
      have h1 := ih hs
      have := nextPos_gt pos h'.skip
      omega

/-- The loop of `read_headers` (_ic3.py:371-385): the headers printed. The next scan starts with the
skip of the header found. -/
def headersFrom (file : Bytes) (o : Order) (pos : Nat) : Py (List Header) :=
  match hr : scan file o allCodes pos with
  | .error e => .error e
  | .ok (.absent _) => .ok []
  | .ok (.found h p) =>
      if h.id = cEof then .ok [h]
      else match headersFrom file o (nextPos (p - hsize) h.skip) with
        | .error e => .error e
        | .ok r => .ok (h :: r)
  termination_by file.length - pos
  decreasing_by
    have h1 := scan_found_pos _ _ _ _ _ _ hr
    have h2 := nextPos_gt (p - hsize) h.skip
    have h3 : 0 < hsize := by decide
    omega

/-- `read_headers` (_ic3.py:353-389). -/
def readHeaders (file : Bytes) : Py (Order × Int × List Header) := do
  let (o, v) ← readRestartHeader file
  let hs ← headersFrom file o 8
  return (o, v, hs)

end Cfd.Ic3
