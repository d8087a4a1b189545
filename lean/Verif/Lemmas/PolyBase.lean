import Verif.Model.PolyBase
import Verif.Lemmas.Basic
import Mathlib.LinearAlgebra.Lagrange
import Mathlib.LinearAlgebra.Vandermonde
import Mathlib.LinearAlgebra.Matrix.Block
import Mathlib.Algebra.Polynomial.Derivative
import Mathlib.Tactic.FieldSimp
import Mathlib.Tactic.LinearCombination

/-!
# Lemmas on polynomial bases
-/

namespace Cfd.PolyBase
open Polynomial

variable {F : Type} [Field F]

/-! ## Power series -/

/-- The polynomial of a list of coefficients. -/
noncomputable def ofList (c : List F) : F[X] := c.foldr (fun a p => C a + p * X) 0

theorem polyval_eq (c : List F) (x : F) : polyval c x = (ofList c).eval x := by
  have key : ∀ (t : List F) (a : F) (p : F[X]), p.eval x = a →
      t.foldl (fun c0 ci => ci + c0 * x) a = (t.foldl (fun q ci => C ci + q * X) p).eval x := by
    intro t
    induction t with
    | nil => intro a p h; exact h.symm
    | cons b t ih =>
      intro a p h
      rw [List.foldl_cons, List.foldl_cons]
      exact ih _ _ (by simp [h])
  unfold polyval ofList
  rw [← List.foldl_reverse]
  cases c.reverse with
  | nil => simp
  | cons a t =>
    simp only [List.foldl_cons]
    exact key t a _ (by simp)

theorem polyder_eq (c : List F) : ofList (polyder c) = derivative (ofList c) := by
  have key : ∀ (c : List F) (k : Nat), ofList ((c.zipIdx k).map fun p => (p.2 : F) * p.1) =
      C (k : F) * ofList c + X * derivative (ofList c) := by
    intro c
    induction c with
    | nil => intro k; simp [ofList]
    | cons a t ih =>
      intro k
      have := ih (k + 1)
      simp only [List.zipIdx_cons, List.map_cons, ofList, List.foldr_cons] at this ⊢
      rw [this]
      simp only [derivative_add, derivative_C, derivative_mul, derivative_X, C_mul, Nat.cast_add, Nat.cast_one, C_add, map_one]
      ring
  unfold polyder
  split
  · rename_i h
    match c, h with
    | [], _ => simp [ofList]
    | [a], _ => simp [ofList]
  · match c with
    | [] => simp at *
    | [a] => simp at *
    | a :: b :: t =>
      simp only [List.zipIdx_cons, List.drop_succ_cons, List.drop_zero]
      have := key (b :: t) 1
      simp only [List.zipIdx_cons] at this
      rw [this]
      simp only [ofList, List.foldr_cons, derivative_add, derivative_C, derivative_mul, derivative_X, zero_add, mul_one,
        Nat.cast_one, map_one, one_mul]
      ring

/-! ## Legendre series -/

/-- Legendre polynomials. -/
noncomputable def leg : Nat → F[X]
  | 0 => 1
  | 1 => X
  | n + 2 => C ((n + 2 : Nat) : F)⁻¹ * (C ((2 * n + 3 : Nat) : F) * X * leg (n + 1) - C ((n + 1 : Nat) : F) * leg n)

variable [CharZero F]

theorem leg_rec (n : Nat) : C ((n + 2 : Nat) : F) * leg (n + 2) =
    C ((2 * n + 3 : Nat) : F) * X * leg (n + 1) - C ((n + 1 : Nat) : F) * leg n := by
  have h : ((n + 2 : Nat) : F) ≠ 0 := Nat.cast_ne_zero.2 (by omega)
  conv_lhs => rw [leg]
  rw [← mul_assoc, ← C_mul, mul_inv_cancel₀ h, C_1, one_mul]

/-- Value of a Legendre series given by its reversed coefficients. -/
noncomputable def legsum : List F → F[X]
  | [] => 0
  | a :: t => C a * leg t.length + legsum t

omit [CharZero F] in
theorem legsum_cons (a : F) (t : List F) : legsum (a :: t) = C a * leg t.length + legsum t := rfl

theorem legLoop_eq (x : F) (t : List F) (c0 c1 : F) :
    legLoop x t (t.length + 2) c0 c1 = (legsum (c1 :: c0 :: t)).eval x := by
  induction t generalizing c0 c1 with
  | nil => simp [legLoop, legsum, leg]; ring
  | cons ci t ih =>
    rw [legLoop]
    have e : (ci :: t).length + 2 - 1 = t.length + 2 := by simp
    rw [e, ih]
    have h : ((t.length + 2 : Nat) : F) ≠ 0 := Nat.cast_ne_zero.2 (by omega)
    have hr := congrArg (Polynomial.eval x) (leg_rec (F := F) t.length)
    simp only [eval_mul, eval_C, eval_sub, eval_X] at hr
    simp only [legsum_cons, List.length_cons, eval_add, eval_mul, eval_C]
    have h2 : (leg (t.length + 2)).eval x = (((2 * t.length + 3 : Nat) : F) * x * (leg (t.length + 1)).eval x -
        ((t.length + 1 : Nat) : F) * (leg t.length).eval x) / ((t.length + 2 : Nat) : F) := by
      rw [eq_div_iff h, ← hr]; ring
    rw [show t.length + 1 + 1 = t.length + 2 from rfl, h2]
    push_cast at h ⊢
    field_simp
    ring

theorem legval_eq (c : List F) (x : F) : legval c x = (legsum c.reverse).eval x := by
  unfold legval
  have hl : c.length = c.reverse.length := by simp
  rw [hl]
  generalize c.reverse = r
  match r with
  | [] => simp [legsum]
  | [a] => simp [legsum, leg]
  | c1 :: c0 :: t => exact legLoop_eq x t c0 c1

/-- `P'(n+1) = x P'(n) + (n+1) P(n)` and `x P'(n+1) = P'(n) + (n+1) P(n+1)`. -/
theorem leg_deriv (n : Nat) :
    derivative (leg (n + 1) : F[X]) = X * derivative (leg n) + C ((n + 1 : Nat) : F) * leg n ∧
      X * derivative (leg (n + 1) : F[X]) = derivative (leg n) + C ((n + 1 : Nat) : F) * leg (n + 1) := by
  induction n with
  | zero => simp [leg]
  | succ n ih =>
    obtain ⟨h1, h2⟩ := ih
    have hr := leg_rec (F := F) n
    have hd := congrArg derivative hr
    simp only [derivative_sub, derivative_mul, derivative_C, derivative_X, zero_mul, zero_add, mul_one] at hd
    have hne : (C ((n + 2 : Nat) : F) : F[X]) ≠ 0 := by
      rw [Ne, C_eq_zero]; exact Nat.cast_ne_zero.2 (by omega)
    have g1 : derivative (leg (n + 2) : F[X]) = X * derivative (leg (n + 1)) + C ((n + 2 : Nat) : F) * leg (n + 1) := by
      apply mul_left_cancel₀ hne
      rw [hd]
      simp only [map_natCast] at *
      push_cast at *
      linear_combination ((n : F[X]) + 1) * h2
    refine ⟨g1, ?_⟩
    simp only [map_natCast] at *
    push_cast at *
    linear_combination (X : F[X]) * g1 + (X : F[X]) * h2 - h1 - hr

theorem leg_deriv_two (n : Nat) : derivative (leg (n + 2) : F[X]) =
    C ((2 * n + 3 : Nat) : F) * leg (n + 1) + derivative (leg n) := by
  obtain ⟨h1, -⟩ := leg_deriv (F := F) (n + 1)
  obtain ⟨-, h2⟩ := leg_deriv (F := F) n
  rw [h1, h2]
  simp only [map_natCast]
  push_cast
  ring

theorem legderRev_eq (l : List F) : legsum (legderRev l) = derivative (legsum l) := by
  have key : ∀ (m : Nat) (l : List F), l.length ≤ m → (legderRev l).length = l.length - 1 ∧
      legsum (legderRev l) = derivative (legsum l) := by
    intro m
    induction m with
    | zero =>
      intro l h
      obtain rfl := List.length_eq_zero_iff.1 (Nat.le_zero.1 h)
      simp [legderRev, legsum]
    | succ m ih =>
      intro l h
      match l with
      | [] => simp [legderRev, legsum]
      | [a] => simp [legderRev, legsum, leg]
      | [a, b] => simp [legderRev, legsum, leg]
      | a :: b :: c :: t =>
        obtain ⟨h1, h2⟩ := ih (b :: (c + a) :: t) (by simp at h ⊢; omega)
        rw [legderRev, legsum_cons, h1, h2]
        constructor
        · simp [h1]
        · simp only [legsum_cons, List.length_cons, derivative_add, derivative_mul, derivative_C, zero_mul, zero_add,
            Nat.add_sub_cancel]
          have := leg_deriv_two (F := F) t.length
          rw [show t.length + 1 + 1 = t.length + 2 from rfl, this]
          simp only [C_mul, C_sub, C_add, map_natCast, map_ofNat, map_one]
          push_cast
          ring
  exact (key l.length l (Nat.le_refl _)).2

/-! ## Degrees -/

theorem leg_degree (n : Nat) : (leg n : F[X]).natDegree ≤ n ∧ (leg n : F[X]).coeff n ≠ 0 := by
  have key : ∀ n, ((leg n : F[X]).natDegree ≤ n ∧ (leg n : F[X]).coeff n ≠ 0) ∧
      ((leg (n + 1) : F[X]).natDegree ≤ n + 1 ∧ (leg (n + 1) : F[X]).coeff (n + 1) ≠ 0) := by
    intro n
    induction n with
    | zero => simp [leg]
    | succ n ih =>
      obtain ⟨⟨a1, a2⟩, b1, b2⟩ := ih
      refine ⟨⟨b1, b2⟩, ?_⟩
      have hn : ((n + 2 : Nat) : F) ≠ 0 := Nat.cast_ne_zero.2 (by omega)
      have h3 : ((2 * n + 3 : Nat) : F) ≠ 0 := Nat.cast_ne_zero.2 (by omega)
      constructor
      · rw [show n + 1 + 1 = n + 2 from rfl, leg]
        refine (natDegree_C_mul_le _ _).trans ((natDegree_sub_le _ _).trans (max_le ?_ ?_))
        · rw [mul_assoc]
          refine (natDegree_C_mul_le _ _).trans (natDegree_mul_le.trans ?_)
          have := natDegree_X_le (R := F)
          omega
        · exact (natDegree_C_mul_le _ _).trans (by omega)
      · rw [show n + 1 + 1 = n + 2 from rfl, leg, coeff_C_mul, coeff_sub, mul_assoc, coeff_C_mul, coeff_C_mul,
          coeff_X_mul, coeff_eq_zero_of_natDegree_lt (show (leg n : F[X]).natDegree < n + 2 by omega), mul_zero, sub_zero]
        exact mul_ne_zero (inv_ne_zero hn) (mul_ne_zero h3 b2)
  exact (key n).1

/-- The polynomial of a basis function. -/
noncomputable def phi (s : Series) (i : Nat) : F[X] :=
  match s with
  | .legendre => leg i
  | .polynomial => X ^ i

theorem phi_degree (s : Series) (i : Nat) : (phi s i : F[X]).natDegree ≤ i ∧ (phi s i : F[X]).coeff i ≠ 0 := by
  cases s with
  | legendre => exact leg_degree i
  | polynomial => simp [phi]

omit [CharZero F] in
theorem legsum_zeros (n : Nat) : legsum (List.replicate n (0 : F)) = 0 := by
  induction n with
  | zero => rfl
  | succ n ih => rw [List.replicate_succ, legsum_cons, ih]; simp

omit [CharZero F] in
theorem legsum_basis (i : Nat) : legsum (basis i : List F).reverse = leg i := by
  unfold basis
  rw [List.reverse_append, List.reverse_replicate, List.reverse_singleton, List.singleton_append, legsum_cons, legsum_zeros]
  simp

omit [CharZero F] in
theorem ofList_basis (i : Nat) : ofList (basis i : List F) = X ^ i := by
  unfold basis
  induction i with
  | zero => simp [ofList]
  | succ i ih =>
    rw [List.replicate_succ, List.cons_append]
    simp only [ofList, List.foldr_cons] at ih ⊢
    rw [ih, pow_succ]; simp

/-- Basis functions are evaluated as their polynomials. -/
theorem eval_basis (s : Series) (i : Nat) (x : F) : seriesEval s (basis i) x = (phi s i).eval x := by
  cases s with
  | legendre => simp only [seriesEval, phi]; rw [legval_eq, legsum_basis]
  | polynomial => simp only [seriesEval, phi]; rw [polyval_eq, ofList_basis]

/-- Their derivatives as well. -/
theorem eval_gradbasis (s : Series) (i : Nat) (x : F) :
    seriesEval s (gradbasis s i) x = (derivative (phi s i)).eval x := by
  cases s with
  | legendre =>
    simp only [seriesEval, gradbasis, seriesDeriv, phi]
    rw [legval_eq, legder]
    split
    · rename_i h
      have : i = 0 := by simp [basis] at h; exact h
      subst this
      simp [legsum, leg]
    · rw [List.reverse_reverse, legderRev_eq, legsum_basis]
  | polynomial =>
    simp only [seriesEval, gradbasis, seriesDeriv, phi]
    rw [polyval_eq, polyder_eq, ofList_basis]

/-! ## Matrices -/

theorem det_vdm (s : Series) {n : Nat} (roots : Fin n → F) :
    (vdm s roots).det ≠ 0 ↔ Function.Injective roots := by
  have e : (vdm s roots).transpose = Matrix.vandermonde roots * Matrix.of (fun (i j : Fin n) => (phi s j : F[X]).coeff i) := by
    rw [← Matrix.eval_matrixOfPolynomials_eq_vandermonde_mul_matrixOfPolynomials roots (fun j : Fin n => phi s j)
      fun i => (phi_degree s i).1]
    ext i j
    simp [vdm, eval_basis]
  have htri : (Matrix.of (fun (i j : Fin n) => (phi s j : F[X]).coeff i)).BlockTriangular id := by
    intro i j hij
    simp only [Matrix.of_apply]
    exact coeff_eq_zero_of_natDegree_lt (lt_of_le_of_lt (phi_degree s j).1 hij)
  have hd : (Matrix.of (fun (i j : Fin n) => (phi s j : F[X]).coeff i)).det ≠ 0 := by
    rw [Matrix.det_of_isUpperTriangular htri]
    exact Finset.prod_ne_zero_iff.2 fun i _ => (phi_degree s i).2
  rw [← Matrix.det_transpose, e, Matrix.det_mul, ← Matrix.det_vandermonde_ne_zero_iff]
  constructor
  · intro h h0
    exact h (by rw [h0, zero_mul])
  · intro h
    exact mul_ne_zero h hd

omit [CharZero F] in
theorem linInv_mulVec [DecidableEq F] {n : Nat} {m : Matrix (Fin n) (Fin n) F} (h : m.det ≠ 0) (v w : Fin n → F)
    (hw : m.mulVec w = v) : ∃ i, linInv m = .ok i ∧ i.mulVec v = w := by
  refine ⟨_, by rw [linInv, if_neg h], ?_⟩
  rw [← hw, Matrix.mulVec_mulVec, Matrix.smul_mul, Matrix.adjugate_mul, smul_smul, inv_mul_cancel₀ h, one_smul,
    Matrix.one_mulVec]

/-- The polynomials of degree less than `n` are the sums of their values times the Lagrange polynomials. -/
theorem phi_lagrange (s : Series) {n : Nat} (roots : Fin n → F) (h : Function.Injective roots) (i : Fin n) :
    (phi s i : F[X]) = ∑ j, C ((phi s i : F[X]).eval (roots j)) * Lagrange.basis Finset.univ roots j := by
  have := Lagrange.eq_interpolate (s := Finset.univ) (v := roots) (f := (phi s i : F[X])) (h.injOn) (by
    rw [Finset.card_univ, Fintype.card_fin]
    refine lt_of_le_of_lt degree_le_natDegree ?_
    exact_mod_cast lt_of_le_of_lt (phi_degree s i).1 i.2)
  rw [Lagrange.interpolate_apply] at this
  exact this

theorem interp_ok [DecidableEq F] (s : Series) {n : Nat} (roots : Fin n → F) (h : Function.Injective roots) (x : F) :
    interpWeights s roots x = .ok fun j => (Lagrange.basis Finset.univ roots j).eval x := by
  obtain ⟨i, e, hi⟩ := linInv_mulVec ((det_vdm s roots).2 h) (fun i => seriesEval s (basis i) x)
    (fun j => (Lagrange.basis Finset.univ roots j).eval x) (by
      ext i
      rw [eval_basis]
      conv_rhs => rw [phi_lagrange s roots h i]
      simp [Matrix.mulVec, dotProduct, vdm, eval_basis, eval_finsetSum])
  unfold interpWeights
  rw [e]
  simp only [Except_bind_ok, hi]
  rfl

theorem diff_ok [DecidableEq F] (s : Series) {n : Nat} (roots : Fin n → F) (h : Function.Injective roots) (x : F) :
    diffWeights s roots x = .ok fun j => (derivative (Lagrange.basis Finset.univ roots j)).eval x := by
  obtain ⟨i, e, hi⟩ := linInv_mulVec ((det_vdm s roots).2 h) (fun i => seriesEval s (gradbasis s i) x)
    (fun j => (derivative (Lagrange.basis Finset.univ roots j)).eval x) (by
      ext i
      rw [eval_gradbasis]
      conv_rhs => rw [phi_lagrange s roots h i]
      simp [Matrix.mulVec, dotProduct, vdm, eval_basis, eval_finsetSum])
  unfold diffWeights
  rw [e]
  simp only [Except_bind_ok, hi]
  rfl

end Cfd.PolyBase
