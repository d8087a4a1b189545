import Verif.Spec.Bytes
import Verif.Model.Ic3Format

/-!
Specification of the IC3 restart format: a file is 8 bytes (magic number and version) followed by
sections; a section is a header of 256 bytes and a payload.
-/

namespace Cfd.Spec.Ic3
open Cfd.Ic3

/-- The 52 bytes of a name: its first 52 characters, completed by zeros. -/
def nameBytes (name : String) : Bytes :=
  (name.toList.take 52).map (fun c => UInt8.ofNat c.toNat) ++
    List.replicate (52 - name.toList.length) 0

/-- The 256 bytes of a header: name, identifier (4 bytes), skip (8), 8 integers (8 each), 16 doubles. -/
def hdrBytes (o : Order) (h : Header) : Bytes :=
  nameBytes h.name ++ (intsBytes o 4 [h.id] ++ (intsBytes o 8 [h.skip] ++
    (intsBytes o 8 h.idata ++ f64sBytes o h.rdata)))

/-- Conditions under which a header can be packed. -/
def _root_.Cfd.Ic3.Header.Packable (h : Header) : Prop :=
  (∀ c ∈ h.name.toList.take 52, c.toNat < 128) ∧ FitsInt 4 h.id ∧ FitsInt 8 h.skip ∧
    ∀ n ∈ h.idata, FitsInt 8 n

/-- What is read of a name: its first 52 characters, up to the first NUL. -/
def readable (name : String) : String :=
  String.ofList ((name.toList.take 52).takeWhile fun c => decide (c ≠ '\x00'))

/-- A name which the format can hold: ASCII, at most 52 characters, no NUL. -/
def GoodName (name : String) : Prop :=
  name.toList.length ≤ 52 ∧ ∀ c ∈ name.toList, c.toNat < 128 ∧ c ≠ '\x00'

instance (name : String) : Decidable (GoodName name) := inferInstanceAs (Decidable (_ ∧ _))

/-- Names that announce the end of a file. -/
def endName (name : String) : Bool := ['D', 'E', 'O', 'F'].isPrefixOf name.toList

/-- Codes of the format (with its magic number, -1 and the length of names, which are in the same table). -/
def codes : List Int :=
  [123581321, -1, 52, 10, 11, 12, 20, 21, 22, 23, 24, 25, 26, 30, 31, 32, 33, 34, 40, 41, 42, 43, 44, 45, 50, 51]

/-- Types of zones. -/
def zoneTypes : List String := ["boundary", "perio_cart", "perio_cylx", "perio_cyly", "perio_cylz", "internal"]

/-- A header which the format can hold. -/
structure GoodHeader (h : Header) : Prop where
  name : GoodName h.name
  id : FitsInt 4 h.id
  skip : FitsInt 8 h.skip
  ints : h.idata.length = 8 ∧ ∀ n ∈ h.idata, FitsInt 8 n
  reals : h.rdata.length = 16

/-- A section: its header and its payload. -/
structure Sec where
  h : Header
  payload : Bytes
  deriving DecidableEq, Repr

/-- Bytes of a section. -/
def Sec.bytes (o : Order) (s : Sec) : Bytes := hdrBytes o s.h ++ s.payload

/-- Bytes of consecutive sections. -/
def secsBytes (o : Order) (l : List Sec) : Bytes := l.flatMap (Sec.bytes o)

/-- A well-formed section: the skip leads to the next section, the name does not begin with DEOF. -/
structure SecWF (s : Sec) : Prop where
  header : GoodHeader s.h
  skip : s.h.skip = 256 + (s.payload.length : Int)
  name : endName s.h.name = false

end Cfd.Spec.Ic3
