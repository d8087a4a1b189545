import Verif.Lemmas.VtkList
import Mathlib.Algebra.Order.Group.Abs

/-!
# Lemmas on planes of cells
-/

namespace Cfd.Vtk
open Cfd.Spec Cfd.Spec.Vtk

variable {P K V T : Type} [LinearOrder K]

theorem jumps_shift [Sub K] (absK : K → K) (tol : K) (k : Nat) (l : List K) :
    jumps absK tol k l = (jumps absK tol 0 l).map (· + k) := by
  induction l generalizing k with
  | nil => rfl
  | cons a t ih =>
    cases t with
    | nil => rfl
    | cons b t =>
      simp only [jumps]
      rw [ih (k + 1), ih (0 + 1)]
      split <;> simp [Nat.add_comm, Nat.add_left_comm]

omit [LinearOrder K] in
theorem npSplit_shift {α : Type} (a : α) (l : List α) (s : Nat) (idx : List Nat) :
    npSplit (a :: l) (s + 1) (idx.map (· + 1)) = npSplit l s idx := by
  induction idx generalizing s with
  | nil => simp [npSplit]
  | cons i t ih => simp [npSplit, ih]

theorem npSplit_head {α : Type} (a : α) (l : List α) (idx : List Nat) :
    ∃ h r, npSplit l 0 idx = h :: r ∧ npSplit (a :: l) 0 (idx.map (· + 1)) = (a :: h) :: r := by
  cases idx with
  | nil => exact ⟨l, [], by simp [npSplit], by simp [npSplit]⟩
  | cons i t =>
    refine ⟨l.take i, npSplit l i t, by simp [npSplit], ?_⟩
    simp only [List.map_cons, npSplit, npSplit_shift]
    simp

/-- Cutting a list at the jumps. -/
theorem split_jumps [Sub K] (absK : K → K) (tol : K) (z : Nat → K) (l : List Nat) (h : l ≠ []) :
    let cs := npSplit l 0 (jumps absK tol 0 (l.map z))
    cs.flatten = l ∧ (∀ c ∈ cs, c ≠ []) ∧ (∀ c ∈ cs, c.IsChain fun i j => ¬ tol < absK (z j - z i)) ∧
      (cs.IsChain fun c d => ∃ i j, c.getLast? = some i ∧ d.head? = some j ∧ tol < absK (z j - z i)) ∧
      (cs.head?.bind List.head?) = l.head? ∧ cs.length = (jumps absK tol 0 (l.map z)).length + 1 := by
  induction l with
  | nil => exact absurd rfl h
  | cons a t ih =>
    cases t with
    | nil => simp [jumps, npSplit]
    | cons b t =>
      obtain ⟨h1, h2, h3, h4, h5, h6⟩ := ih (by simp)
      simp only [List.map_cons, jumps]
      simp only [List.map_cons] at h1 h2 h3 h4 h5 h6
      rw [jumps_shift absK tol (0 + 1)]
      generalize hJ : jumps absK tol 0 (z b :: t.map z) = J at *
      split
      · rename_i hlt
        simp only [npSplit]
        have e : npSplit (a :: b :: t) (0 + 1) (J.map (· + (0 + 1))) = npSplit (b :: t) 0 J := npSplit_shift a (b :: t) 0 J
        rw [e]
        refine ⟨by simp [h1], ?_, ?_, ?_, by simp, by simp [h6]⟩
        · intro c hc
          rcases List.mem_cons.1 hc with rfl | hc
          · simp
          · exact h2 c hc
        · intro c hc
          rcases List.mem_cons.1 hc with rfl | hc
          · simp
          · exact h3 c hc
        · cases hcs : npSplit (b :: t) 0 J with
          | nil => simp
          | cons d r =>
            rw [List.isChain_cons_cons]
            refine ⟨⟨a, b, by simp, ?_, hlt⟩, by rw [← hcs]; exact h4⟩
            rw [hcs] at h5
            simpa using h5
      · rename_i hlt
        obtain ⟨hd, r, e1, e2⟩ := npSplit_head a (b :: t) J
        have e3 : npSplit (a :: b :: t) 0 (J.map (· + (0 + 1))) = (a :: hd) :: r := e2
        rw [e3]
        rw [e1] at h1 h2 h3 h4 h5 h6
        have hdne := h2 hd (by simp)
        refine ⟨by simpa using h1, ?_, ?_, ?_, by simp, by simpa using h6⟩
        · intro c hc
          rcases List.mem_cons.1 hc with rfl | hc
          · simp
          · exact h2 c (List.mem_cons_of_mem _ hc)
        · intro c hc
          rcases List.mem_cons.1 hc with rfl | hc
          · have := h3 hd (by simp)
            cases hd with
            | nil => exact absurd rfl hdne
            | cons x y =>
              rw [List.isChain_cons_cons]
              have hx : x = b := by simpa using h5
              exact ⟨by rw [hx]; exact hlt, this⟩
          · exact h3 c (List.mem_cons_of_mem _ hc)
        · cases r with
          | nil => simp
          | cons d r =>
            rw [List.isChain_cons_cons] at h4 ⊢
            obtain ⟨⟨i, j, g1, g2, g3⟩, h5'⟩ := h4
            refine ⟨⟨i, j, ?_, g2, g3⟩, h5'⟩
            rw [List.getLast?_cons]
            simp [g1]

theorem gather_getD {α : Type} (z : List α) (d : α) (l : List Nat) (h : ∀ i ∈ l, i < z.length) :
    npGather z (l.map fun (i : Nat) => (i : Int)) = .ok (l.map fun i => z.getD i d) := by
  unfold npGather
  rw [List.mapM_map]
  apply mapM_ok_of_forall
  intro i hi
  have := h i hi
  rw [Function.comp_apply]
  refine npGet_nat.2 ?_
  rw [List.getD_eq_getElem?_getD, List.getElem?_eq_getElem this]; rfl

/-- The cut list gives planes in the sense of the specification. -/
theorem isPlanes_split [AddCommGroup K] [IsOrderedAddMonoid K] (tol : K) (z : List K) (d : K) (l : List Nat)
    (h : l ≠ []) (hs : IsArgsort z l) :
    IsPlanes z tol (npSplit l 0 (jumps (fun x => |x|) tol 0 (l.map fun i => z.getD i d))) ∧
    (npSplit l 0 (jumps (fun x => |x|) tol 0 (l.map fun i => z.getD i d))).length =
      (jumps (fun x => |x|) tol 0 (l.map fun i => z.getD i d)).length + 1 := by
  obtain ⟨h1, h2, h3, h4, -, h6⟩ := split_jumps (fun x => |x|) tol (fun i => z.getD i d) l h
  generalize npSplit l 0 (jumps (fun x => |x|) tol 0 (l.map fun i => z.getD i d)) = cs at *
  refine ⟨⟨by rw [h1]; exact hs.1, by rw [h1]; exact hs.2, h2, ?_, ?_⟩, h6⟩
  · intro c hc
    refine (h3 c hc).imp ?_
    rintro i j hn ⟨a, b, ha, hb, hlt⟩
    apply hn
    simp only [List.getD_eq_getElem?_getD, ha, hb, Option.getD_some]
    exact hlt.trans_le (le_abs_self _)
  · have hmem : ∀ c ∈ cs, ∀ i ∈ c, i < z.length := by
      intro c hc i hi
      have : i ∈ l := by rw [← h1]; exact List.mem_flatten.2 ⟨c, hc, hi⟩
      simpa using hs.1.mem_iff.1 this
    have hpw : cs.Pairwise fun c d => ∀ i ∈ c, ∀ j ∈ d, ∀ a b, z[i]? = some a → z[j]? = some b → a ≤ b := by
      have := hs.2
      rw [← h1, List.pairwise_flatten] at this
      exact this.2
    clear h1 h2 h3 h6
    induction cs with
    | nil => simp
    | cons c cs ih =>
      cases cs with
      | nil => simp
      | cons e cs =>
        rw [List.isChain_cons_cons] at h4 ⊢
        refine ⟨?_, ih h4.2 (fun c hc => hmem c (List.mem_cons_of_mem _ hc)) (List.pairwise_cons.1 hpw).2⟩
        obtain ⟨i, j, g1, g2, g3⟩ := h4.1
        have hi := List.mem_of_getLast? g1
        have hj : j ∈ e := List.mem_of_head? g2
        have hi' := hmem c (by simp) i hi
        have hj' := hmem e (by simp) j hj
        refine ⟨i, j, g1, g2, z[i], z[j], List.getElem?_eq_getElem hi', List.getElem?_eq_getElem hj', ?_⟩
        have hle := (List.pairwise_cons.1 hpw).1 e (by simp) i hi j hj _ _ (List.getElem?_eq_getElem hi')
          (List.getElem?_eq_getElem hj')
        simp only [List.getD_eq_getElem?_getD, List.getElem?_eq_getElem hi', List.getElem?_eq_getElem hj',
          Option.getD_some] at g3
        rwa [abs_of_nonneg (sub_nonneg.2 hle)] at g3

end Cfd.Vtk
