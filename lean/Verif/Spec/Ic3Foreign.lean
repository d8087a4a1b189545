import Verif.Spec.Ic3
import Verif.Model.Ic3Reader

/-!
# IC3 files of any origin (C84)

A file made by another program: sections in any order, sections of unknown kinds, anything after the end.
-/

namespace Cfd.Spec.Ic3
open Cfd.Ic3

/-- A file: magic number and version, sections, the header of the end, whatever follows. -/
def fileOf (o : Order) (version : Int) (l : List Sec) (last : Header) (after : Bytes) : Bytes :=
  intsBytes o 4 [123581321, version] ++ (secsBytes o l ++ (hdrBytes o last ++ after))

/-- A header that ends a file: its code is 51, or its name begins with `DEOF`. -/
structure IsEnd (h : Header) : Prop where
  good : GoodHeader h
  code : h.id = 51 ∨ endName h.name = true

/-- The first section of a kind. -/
def first (code : Int) (l : List Sec) : Option Sec := l.find? fun s => decide (s.h.id = code)

/-- The sections of some kinds. -/
def only (codes : List Int) (l : List Sec) : List Sec := l.filter fun s => decide (s.h.id ∈ codes)

/-- The sections after the first one of a kind. -/
def after (code : Int) (l : List Sec) : List Sec := (l.dropWhile fun s => decide (s.h.id ≠ code)).tail

/-- Numbers of nodes, faces, cells, and of the nodes of all faces. -/
structure Counts where
  no : Int
  fa : Int
  cv : Int
  noofa : Int

/-- The counts, in the first section of kind 10. -/
def countsOf (l : List Sec) : Counts :=
  match first 10 l with
  | some s => ⟨s.h.int 0, s.h.int 1, s.h.int 2, s.h.int 3⟩
  | none => ⟨0, 0, 0, 0⟩

/-- Degrees of freedom of a cell: one before version 3, otherwise the second integer (one if it is zero). -/
def dofs (version : Int) (h : Header) : Int := if version < 3 ∨ h.int 1 = 0 then 1 else h.int 1

/-- Number of bytes of data that go with a header, when this is fixed by the format: `none` for the kinds that are not
read, and for data that are on nothing. -/
def room (version : Int) (c : Counts) (h : Header) : Option Int :=
  if h.id = 11 ∨ h.id = 12 ∨ h.id = 23 then some 0
  else if h.id = 30 then some (4 * c.no)
  else if h.id = 20 then some (4 * c.fa)
  else if h.id = 40 ∨ h.id = 41 then some (4 * c.cv)
  else if h.id = 21 then some (4 * c.fa + 4 * c.noofa)
  else if h.id = 22 then some (8 * c.fa)
  else if h.id = 31 then some (24 * c.no)
  else if h.id ∈ [32, 34, 24, 42, 45] then
    (if h.int 0 = c.no then some (8 * c.no) else if h.int 0 = c.fa then some (8 * c.fa)
     else if h.int 0 = c.cv then some (8 * (dofs version h * c.cv)) else none)
  else if h.id ∈ [33, 25, 43] then
    (if h.int 0 = c.no then some (24 * c.no) else if h.int 0 = c.fa then some (24 * c.fa)
     else if h.int 0 = c.cv then some (24 * (dofs version h * c.cv)) else none)
  else if h.id = 44 then
    (if h.int 0 = c.cv then some (72 * (dofs version h * c.cv)) else none)
  else none

/-- The sections of a file: well-formed, none of them ends the file, the counts are not negative, and the contents of the
sections that are read have the sizes that the counts announce. -/
structure Sections (version : Int) (l : List Sec) : Prop where
  wf : ∀ s ∈ l, SecWF s
  going : ∀ s ∈ l, s.h.id ≠ 51
  counts : 0 ≤ (countsOf l).no ∧ 0 ≤ (countsOf l).fa ∧ 0 ≤ (countsOf l).cv ∧ 0 ≤ (countsOf l).noofa
  sizes : ∀ s ∈ l, ∀ n, room version (countsOf l) s.h = some n → (s.payload.length : Int) = n

/-- Two files that tell the same: the same first section of each kind of which there is one, the same zones after the
table of cells, the same parameters, scalars, vectors and tensors in the same order. -/
structure Same (l l' : List Sec) : Prop where
  one : ∀ code ∈ [(10 : Int), 20, 21, 22, 30, 31, 40, 41], first code l = first code l'
  zones : only [23] (after 22 l) = only [23] (after 22 l')
  params : only [11, 12] l = only [11, 12] l'
  scalars : only [32, 34, 24, 42, 45] l = only [32, 34, 24, 42, 45] l'
  vectors : only [33, 25, 43] l = only [33, 25, 43] l'
  tensors : only [44] l = only [44] l'

/-- Groups of kinds of sections among which the order matters. -/
def groupsOfKinds : List (List Int) :=
  [[10], [20], [21], [22, 23], [30], [31], [40], [41], [11, 12], [32, 34, 24, 42, 45], [33, 25, 43], [44]]

/-- The kinds of sections that are read. -/
def readKinds : List Int := [10, 11, 12, 20, 21, 22, 23, 24, 25, 30, 31, 32, 33, 34, 40, 41, 42, 43, 44, 45]

end Cfd.Spec.Ic3
