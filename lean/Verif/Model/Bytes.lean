import Verif.Py

/-!
# Model of the Python module `struct`, as used by the IC3 binary files

Byte strings are lists of `UInt8`; a double is its 64-bit pattern (`UInt64`): no arithmetic is done on
doubles by this code, they are only copied. Packing and unpacking a double is assumed to copy its bits.
-/

namespace Cfd

abbrev Bytes := List UInt8

/-- A double precision number given by its bits. -/
abbrev F64 := UInt64

/-- Byte order of multi-byte values. -/
inductive Order where
  | little | big
  deriving DecidableEq, Repr

/-- The keys of `struct_endian` (_ic3.py:139). -/
inductive Endian where
  | native | little | big
  deriving DecidableEq, Repr

/-- Byte order selected by `'@'`, `'<'`, `'>'` on a machine whose own order is `host`. -/
def Endian.order (host : Order) : Endian → Order
  | .native => host
  | .little => .little
  | .big => .big

/-- The `k` least significant bytes of `n`, least significant first. -/
def leBytes : Nat → Nat → Bytes
  | 0, _ => []
  | k + 1, n => UInt8.ofNat (n % 256) :: leBytes k (n / 256)

/-- Value of a byte string, least significant byte first. -/
def leNat : Bytes → Nat
  | [] => 0
  | b :: t => b.toNat + 256 * leNat t

/-- `k` bytes in the given order. -/
def natBytes (o : Order) (k n : Nat) : Bytes :=
  match o with
  | .little => leBytes k n
  | .big => (leBytes k n).reverse

/-- Value of a byte string in the given order. -/
def bytesNat (o : Order) (b : Bytes) : Nat :=
  match o with
  | .little => leNat b
  | .big => leNat b.reverse

/-- One value to pack, with its format character: `c` (a `bytes` object), `i`, `q`, `d`. -/
inductive Item where
  | c (b : Bytes)
  | i (n : Int)
  | q (n : Int)
  | d (x : F64)
  deriving DecidableEq, Repr

/-- Size of the item (standard sizes; the native ones are the same on 64-bit platforms). -/
def Item.size : Item → Nat
  | .c _ => 1
  | .i _ => 4
  | .q _ => 8
  | .d _ => 8

/-- Two's complement on `k` bytes; `struct.error` when the integer does not fit. -/
def packInt (o : Order) (k : Nat) (n : Int) : Py Bytes :=
  if -(2 ^ (8 * k - 1) : Int) ≤ n ∧ n < (2 ^ (8 * k - 1) : Int) then
    .ok (natBytes o k (n % (2 ^ (8 * k) : Int)).toNat)
  else .error .struct

/-- Packing of one value; `'c'` needs a `bytes` object of length one. -/
def Item.pack (o : Order) : Item → Py Bytes
  | .c [b] => .ok [b]
  | .c _ => .error .struct
  | .i n => packInt o 4 n
  | .q n => packInt o 8 n
  | .d x => .ok (natBytes o 8 x.toNat)

/-- Number of zero bytes inserted by the native mode before an item of size `s` at position `pos`. -/
def padding (native : Bool) (pos s : Nat) : Nat := if native then (s - pos % s) % s else 0

/-- `struct.pack` of the items from position `pos` (native mode `'@'` aligns each item). -/
def packFrom (native : Bool) (o : Order) (pos : Nat) : List Item → Py Bytes
  | [] => .ok []
  | x :: t => do
      let b ← x.pack o
      let pad := padding native pos x.size
      let r ← packFrom native o (pos + pad + x.size) t
      return List.replicate pad 0 ++ b ++ r

/-- `struct.Struct(struct_endian[endian] + form).pack(*varargs)` (_ic3.py:189-194). -/
def structPack (host : Order) (e : Endian) (items : List Item) : Py Bytes :=
  packFrom (decide (e = .native)) (e.order host) 0 items

/-- Signed value of `k` bytes. -/
def unpackInt (o : Order) (b : Bytes) : Int :=
  let n := bytesNat o b
  if n < 2 ^ (8 * b.length - 1) then (n : Int) else (n : Int) - (2 ^ (8 * b.length) : Int)

/-- The double in 8 bytes. -/
def unpackF64 (o : Order) (b : Bytes) : F64 := UInt64.ofNat (bytesNat o b)

/-- Consecutive groups of `k` bytes: the first `n` of them. -/
def groups (k : Nat) : Nat → Bytes → List Bytes
  | 0, _ => []
  | n + 1, b => b.take k :: groups k n (b.drop k)

/-- `struct.unpack` of `n` integers of `k` bytes. -/
def unpackInts (o : Order) (k n : Nat) (b : Bytes) : List Int := (groups k n b).map (unpackInt o)

/-- `struct.unpack` of `n` doubles. -/
def unpackF64s (o : Order) (n : Nat) (b : Bytes) : List F64 := (groups 8 n b).map (unpackF64 o)

end Cfd
