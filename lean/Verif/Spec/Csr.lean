import Verif.Model.Connectivity

/-! Specification of compressed connectivities (offset and value arrays). -/

namespace Cfd.Spec

/-- The nodes found between offsets `k` and `k+1`. -/
def csrSlice (z : Csr) (k : Nat) : List Int :=
  (z.value.drop (z.index.getD k 0).toNat).take (z.index.getD (k + 1) 0 - z.index.getD k 0).toNat

/-- A well-formed compressed connectivity of `n` faces: `n+1` offsets from 0, never decreasing, up to
the number of stored nodes. -/
structure CsrWF (z : Csr) (n : Nat) : Prop where
  length : z.index.length = n + 1
  first : z.index.getD 0 0 = 0
  mono : ∀ k, k < n → z.index.getD k 0 ≤ z.index.getD (k + 1) 0
  last : z.index.getD n 0 = z.value.length

end Cfd.Spec
