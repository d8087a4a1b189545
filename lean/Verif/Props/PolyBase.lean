import Verif.Lemmas.PolyBase
import Mathlib.Data.Rat.Defs
import Mathlib.Algebra.Field.Rat
import Mathlib.Tactic.FinCases
import Mathlib.Tactic.NormNum

/-!
# Interpolation and derivation weights (C49, C50)

The statements are about polynomials and points only: they do not mention the bases of the code.
-/

namespace Cfd.PolyBase
open Polynomial

variable {F : Type} [Field F] [CharZero F] [DecidableEq F]

omit [CharZero F] [DecidableEq F] in
theorem sum_lagrange {n : Nat} (roots : Fin n → F) (h : Function.Injective roots) (p : F[X]) (hp : p.degree < n) :
    p = ∑ j, C (p.eval (roots j)) * Lagrange.basis Finset.univ roots j := by
  have := Lagrange.eq_interpolate (s := Finset.univ) (v := roots) (f := p) (h.injOn) (by
    rw [Finset.card_univ, Fintype.card_fin]; exact hp)
  rw [Lagrange.interpolate_apply] at this
  exact this

/-- **C49.** For distinct points the interpolation weights are computed, and exact on polynomials of degree less than
the number of points. -/
theorem C49_exact (s : Series) {n : Nat} (roots : Fin n → F) (h : Function.Injective roots) (x : F) :
    ∃ w, interpWeights s roots x = .ok w ∧ ∀ p : F[X], p.degree < n → ∑ j, w j * p.eval (roots j) = p.eval x := by
  refine ⟨_, interp_ok s roots h x, ?_⟩
  intro p hp
  conv_rhs => rw [sum_lagrange roots h p hp]
  simp [eval_finsetSum, mul_comm]

/-- **C49, sum.** The weights sum to one. -/
theorem C49_sum (s : Series) {n : Nat} (hn : 0 < n) (roots : Fin n → F) (h : Function.Injective roots) (x : F)
    (w : Fin n → F) (hw : interpWeights s roots x = .ok w) : ∑ j, w j = 1 := by
  obtain ⟨w', hw', he⟩ := C49_exact s roots h x
  rw [hw] at hw'
  obtain rfl := Except.ok.inj hw'
  have := he 1 (by rw [degree_one]; exact_mod_cast hn)
  simpa using this

/-- **C49, at the points.** The weights at a point are one there and zero elsewhere. -/
theorem C49_kronecker (s : Series) {n : Nat} (roots : Fin n → F) (h : Function.Injective roots) (k : Fin n) :
    interpWeights s roots (roots k) = .ok fun j => if j = k then 1 else 0 := by
  rw [interp_ok s roots h]
  congr 1
  ext j
  split
  · rename_i e
    subst e
    exact Lagrange.eval_basis_self h.injOn (Finset.mem_univ _)
  · rename_i e
    exact Lagrange.eval_basis_of_ne e (Finset.mem_univ _)

/-- **C49, choice of the series.** Both series give the same weights, whatever the points. -/
theorem C49_same_series {n : Nat} (roots : Fin n → F) (x : F) :
    interpWeights .legendre roots x = interpWeights .polynomial roots x := by
  by_cases h : Function.Injective roots
  · rw [interp_ok _ roots h, interp_ok _ roots h]
  · have hd : ∀ s, linInv (vdm s roots) = .error .value := by
      intro s
      rw [linInv, if_pos]
      by_contra hne
      exact h ((det_vdm s roots).1 hne)
    simp only [interpWeights, hd]
    rfl

/-- Equal points are refused. -/
theorem C49_equal_points (s : Series) {n : Nat} (roots : Fin n → F) (h : ¬ Function.Injective roots) (x : F) :
    interpWeights s roots x = .error .value ∧ diffWeights s roots x = .error .value := by
  have hd : linInv (vdm s roots) = .error .value := by
    rw [linInv, if_pos]
    by_contra hne
    exact h ((det_vdm s roots).1 hne)
  simp only [interpWeights, diffWeights, hd]
  exact ⟨rfl, rfl⟩

/-- **C50.** For distinct points the derivation weights are computed, and give the derivative of polynomials of degree
less than the number of points. -/
theorem C50_exact (s : Series) {n : Nat} (roots : Fin n → F) (h : Function.Injective roots) (x : F) :
    ∃ w, diffWeights s roots x = .ok w ∧
      ∀ p : F[X], p.degree < n → ∑ j, w j * p.eval (roots j) = (derivative p).eval x := by
  refine ⟨_, diff_ok s roots h x, ?_⟩
  intro p hp
  conv_rhs => rw [sum_lagrange roots h p hp]
  simp [eval_finsetSum, mul_comm]

/-- **C50, sum.** The weights sum to zero. -/
theorem C50_sum (s : Series) {n : Nat} (hn : 0 < n) (roots : Fin n → F) (h : Function.Injective roots) (x : F)
    (w : Fin n → F) (hw : diffWeights s roots x = .ok w) : ∑ j, w j = 0 := by
  obtain ⟨w', hw', he⟩ := C50_exact s roots h x
  rw [hw] at hw'
  obtain rfl := Except.ok.inj hw'
  have := he 1 (by rw [degree_one]; exact_mod_cast hn)
  simpa using this

/-- **C50, choice of the series.** Both series give the same weights. -/
theorem C50_same_series {n : Nat} (roots : Fin n → F) (x : F) :
    diffWeights .legendre roots x = diffWeights .polynomial roots x := by
  by_cases h : Function.Injective roots
  · rw [diff_ok _ roots h, diff_ok _ roots h]
  · rw [(C49_equal_points _ roots h x).2, (C49_equal_points _ roots h x).2]

/-- The weights are the only ones that are exact. -/
theorem C49_unique (s : Series) {n : Nat} (roots : Fin n → F) (h : Function.Injective roots) (x : F) (w : Fin n → F)
    (hw : ∀ p : F[X], p.degree < n → ∑ j, w j * p.eval (roots j) = p.eval x) : interpWeights s roots x = .ok w := by
  rw [interp_ok s roots h]
  congr 1
  ext j
  rw [← hw (Lagrange.basis Finset.univ roots j) (by
    rw [Lagrange.degree_basis h.injOn (Finset.mem_univ _), Finset.card_univ, Fintype.card_fin]
    have := j.2
    exact_mod_cast (by omega : n - 1 < n))]
  rw [Finset.sum_eq_single j]
  · rw [Lagrange.eval_basis_self h.injOn (Finset.mem_univ _), mul_one]
  · intro i _ hij
    rw [Lagrange.eval_basis_of_ne hij.symm (Finset.mem_univ _), mul_zero]
  · intro hj
    exact absurd (Finset.mem_univ _) hj

/-! ## Three points -/

def threePoints : Fin 3 → Rat := ![-1, 0, 1]

theorem threePoints_injective : Function.Injective threePoints := by decide +kernel

/-- Weights at 1/2. -/
example (s : Series) : interpWeights s threePoints (1 / 2) = .ok ![-1 / 8, 3 / 4, 3 / 8] := by
  rw [interp_ok s _ threePoints_injective]
  congr 1
  have e0 : (Finset.univ : Finset (Fin 3)).erase 0 = {1, 2} := by decide
  have e1 : (Finset.univ : Finset (Fin 3)).erase 1 = {0, 2} := by decide
  have e2 : (Finset.univ : Finset (Fin 3)).erase 2 = {0, 1} := by decide
  ext j
  fin_cases j <;> simp [Lagrange.basis, Lagrange.basisDivisor, e0, e1, e2, threePoints] <;> norm_num

/-- Derivation weights at 1. -/
example (s : Series) : diffWeights s threePoints 1 = .ok ![1 / 2, -2, 3 / 2] := by
  rw [diff_ok s _ threePoints_injective]
  congr 1
  have e0 : (Finset.univ : Finset (Fin 3)).erase 0 = {1, 2} := by decide
  have e1 : (Finset.univ : Finset (Fin 3)).erase 1 = {0, 2} := by decide
  have e2 : (Finset.univ : Finset (Fin 3)).erase 2 = {0, 1} := by decide
  ext j
  fin_cases j <;> simp [Lagrange.basis, Lagrange.basisDivisor, e0, e1, e2, threePoints] <;> norm_num

/-- The second Legendre polynomial is `(3 x² - 1) / 2`, and the derivative of the third is `5 P2 + P0`. -/
example : legval (basis 2) (1 / 2 : Rat) = -1 / 8 ∧ legder (basis 3 : List Rat) = [1, 0, 5] := by decide +kernel

/-- C49 and C50 applied to these points, and to equal points. -/
example (s : Series) (x : Rat) := C49_exact s threePoints threePoints_injective x
example (s : Series) (x : Rat) := C50_exact s threePoints threePoints_injective x
example (s : Series) (x : Rat) : ∃ w, interpWeights s threePoints x = .ok w := by
  obtain ⟨w, -, he⟩ := C49_exact s threePoints threePoints_injective x
  exact ⟨w, C49_unique s threePoints threePoints_injective x w he⟩
example (s : Series) := C49_kronecker s threePoints threePoints_injective 1
example (s : Series) (x : Rat) : ∃ w, interpWeights s threePoints x = .ok w ∧ ∑ j, w j = 1 := by
  obtain ⟨w, hw, -⟩ := C49_exact s threePoints threePoints_injective x
  exact ⟨w, hw, C49_sum s (by decide) threePoints threePoints_injective x w hw⟩
example (s : Series) (x : Rat) : ∃ w, diffWeights s threePoints x = .ok w ∧ ∑ j, w j = 0 := by
  obtain ⟨w, hw, -⟩ := C50_exact s threePoints threePoints_injective x
  exact ⟨w, hw, C50_sum s (by decide) threePoints threePoints_injective x w hw⟩
example (s : Series) (x : Rat) := C49_equal_points s (![1, 0, 1] : Fin 3 → Rat)
  (fun h => absurd (@h 0 2 rfl) (by decide)) x

end Cfd.PolyBase
