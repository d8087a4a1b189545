import Verif.Lemmas.VtkLocate
import Mathlib.Algebra.Order.Group.Int

/-!
# Planes of cells (C46)
-/

namespace Cfd.Vtk
open Cfd.Spec Cfd.Spec.Vtk

variable {P K V T : Type} [LinearOrder K]

/-- Distances between the average positions of consecutive planes. -/
def spacings [Sub K] (N : ZNum P K V) (z : List K) (chunks : List (List Nat)) : List K :=
  let zavg := chunks.map fun c => N.avg (positions z c)
  (zavg.drop 1).zipWith (fun a b => a - b) zavg

/-- **C46.** The cells are split into planes (each cell in exactly one plane, planes sorted, no jump of `z` larger than
the tolerance inside a plane, one between two planes); the split is accepted when there are at least two planes, with
as many cells, at regular distances, and refused otherwise. -/
theorem C46_planes [AddCommGroup K] [IsOrderedAddMonoid K] (N : ZNum P K V) (tol : K) (z : List K) (hz : z ≠ [])
    (hs : IsArgsort z (N.argsort z)) :
    ∃ chunks, IsPlanes z tol chunks ∧
      ((2 ≤ chunks.length ∧ (∀ c ∈ chunks, ∀ d ∈ chunks, c.length = d.length) ∧ N.std (spacings N z chunks) ≤ tol) →
        planes N (fun x => |x|) tol z = .ok chunks) ∧
      (¬ (2 ≤ chunks.length ∧ (∀ c ∈ chunks, ∀ d ∈ chunks, c.length = d.length) ∧ N.std (spacings N z chunks) ≤ tol) →
        planes N (fun x => |x|) tol z = .error .value) := by
  obtain ⟨d, t, hdt⟩ : ∃ d t, z = d :: t := by
    cases z with
    | nil => exact absurd rfl hz
    | cons d t => exact ⟨d, t, rfl⟩
  have hlen : (N.argsort z).length = z.length := by rw [hs.1.length_eq]; simp
  have hne : N.argsort z ≠ [] := by
    intro e
    rw [e, hdt] at hlen
    simp at hlen
  have hrange : ∀ i ∈ N.argsort z, i < z.length := fun i hi => by simpa using hs.1.mem_iff.1 hi
  obtain ⟨hp, hcl⟩ := isPlanes_split tol z d (N.argsort z) hne hs
  have hg := gather_getD z d (N.argsort z) hrange
  refine ⟨_, hp, ?_⟩
  unfold planes
  simp only [hg, Except_bind_ok]
  generalize hJ : jumps (fun x => |x|) tol 0 ((N.argsort z).map fun i => z.getD i d) = J at *
  generalize hC : npSplit (N.argsort z) 0 J = C at *
  by_cases h2 : J.length + 1 ≤ 1
  · rw [if_pos h2]
    exact ⟨fun h => absurd h.1 (by omega), fun _ => rfl⟩
  · rw [if_neg h2]
    have hiff : ((C.map List.length).any fun n => n ≠ (C.map List.length).headD 0) = true ↔
        ¬ ∀ c ∈ C, ∀ d ∈ C, c.length = d.length := by
      obtain ⟨c0, C', rfl⟩ : ∃ c0 C', C = c0 :: C' := by
        cases C with
        | nil => simp at hcl
        | cons c0 C' => exact ⟨c0, C', rfl⟩
      rw [List.any_eq_true]
      constructor
      · rintro ⟨n, hn, hne⟩ hall
        obtain ⟨c, hc, rfl⟩ := List.mem_map.1 hn
        simp only [List.map_cons, List.headD_cons, ne_eq, decide_eq_true_eq] at hne
        exact hne (hall c hc c0 (by simp))
      · intro hn
        by_contra hcon
        apply hn
        have : ∀ c ∈ c0 :: C', c.length = c0.length := by
          intro c hc
          by_contra hne
          exact hcon ⟨c.length, List.mem_map.2 ⟨c, hc, rfl⟩, by simpa using hne⟩
        intro c hc d hd
        rw [this c hc, this d hd]
    by_cases h3 : ((C.map List.length).any fun n => n ≠ (C.map List.length).headD 0) = true
    · rw [if_pos h3]
      exact ⟨fun h => absurd h.2.1 (hiff.1 h3), fun _ => rfl⟩
    · rw [if_neg h3]
      have hsame : ∀ c ∈ C, ∀ d ∈ C, c.length = d.length := by
        by_contra h
        exact h3 (hiff.2 h)
      have hav : C.mapM (fun c => do return N.avg (← npGather z (c.map fun (i : Nat) => (i : Int)))) =
          .ok (C.map fun c => N.avg (positions z c)) := by
        apply mapM_ok_of_forall
        intro c hc
        rw [gather_positions z c]
        · rfl
        · intro i hi
          have : i ∈ C.flatten := List.mem_flatten.2 ⟨c, hc, hi⟩
          simpa using hp.once.mem_iff.1 this
      rw [hav]
      simp only [Except_bind_ok]
      by_cases h4 : tol < N.std (spacings N z C)
      · have h4' := h4
        unfold spacings at h4'
        simp only at h4'
        rw [if_pos h4']
        exact ⟨fun h => absurd h4 (not_lt.2 h.2.2), fun _ => rfl⟩
      · have h4' := h4
        unfold spacings at h4'
        simp only at h4'
        rw [if_neg h4']
        exact ⟨fun _ => rfl, fun h => absurd ⟨by omega, hsame, not_lt.1 h4⟩ h⟩

/-- A mesh without cells is refused. -/
theorem C46_empty [Sub K] (N : ZNum P K V) (absK : K → K) (tol : K) (h : N.argsort [] = []) :
    planes N absK tol [] = .error .value := by
  unfold planes
  rw [h]; rfl

/-- **C46, columns.** When the cells of every plane are above those of the first one, up to the tolerance, and the
cells of the first plane are more than twice the tolerance apart, every row lists the cells of its plane once, each at
the place of the cell of the first plane it is above. The hypothesis `hstd` is a property of the standard deviation:
it is at most the largest distance to any given position. -/
theorem C46_columns [Add K] [AddLeftMono K] [AddRightMono K] (N : ZNum P K V) {dist : P → P → K} (hd : IsDist dist)
    {tol : K} {nn : List P → P → Nat} (xy : List P) (first : List Nat) (rest : List (List Nat))
    (hr : ∀ c ∈ first :: rest, ∀ i ∈ c, i < xy.length) (hne : first ≠ []) (hnd : ∀ c ∈ rest, c.Nodup)
    (hself : ∀ p ∈ xy, dist p p ≤ tol)
    (hnn : IsNearest dist (positions xy first) (nn (positions xy first)))
    (hsep : Separated dist tol (positions xy first))
    (hstd : ∀ (c : List P) (p : P), (∀ q ∈ c, dist p q ≤ tol) → N.posStd c ≤ tol)
    (hs : ∀ c ∈ rest, ∃ σ, SameCenters dist tol (positions xy first) (positions xy c) σ) :
    ∃ ik, locate N dist nn tol xy (first :: rest) = .ok ik ∧ Located dist tol xy (first :: rest) ik := by
  have hf := hr first (by simp)
  have hrows : ∀ l : List (List Nat), (∀ c ∈ l, c ∈ rest) →
      ∃ rows, l.mapM (planeRow dist (nn (positions xy first)) tol xy first) = .ok rows ∧
        List.Forall₂ (fun c r => r.Perm c) l rows ∧ ∀ r ∈ rows, r.length = first.length ∧ (∀ i ∈ r, i < xy.length) ∧
          ∀ (j i0 i : Nat) (p q : P), first[j]? = some i0 → r[j]? = some i → xy[i0]? = some p → xy[i]? = some q →
            dist p q ≤ tol := by
    intro l
    induction l with
    | nil => intro _; exact ⟨[], rfl, .nil, by simp⟩
    | cons c t ih =>
      intro hl
      have hcr := hl c (by simp)
      obtain ⟨σ, hσ⟩ := hs c hcr
      obtain ⟨r, e, h1, h2, h3⟩ := planeRow_ok hd hf (hr c (List.mem_cons_of_mem _ hcr)) hne (hnd c hcr) hnn hsep σ hσ
      obtain ⟨rows, e2, h4, h5⟩ := ih fun c' hc' => hl c' (List.mem_cons_of_mem _ hc')
      refine ⟨r :: rows, ?_, .cons h1 h4, ?_⟩
      · rw [List.mapM_cons, e]
        simp only [Except_bind_ok]
        rw [e2]; rfl
      · intro r' hr'
        rcases List.mem_cons.1 hr' with rfl | hr'
        · exact ⟨h2, fun i hi => hr c (List.mem_cons_of_mem _ hcr) i (h1.mem_iff.1 hi), h3⟩
        · exact h5 r' hr'
  obtain ⟨rows, e, h1, h2⟩ := hrows rest fun c hc => hc
  have hall : ∀ r ∈ first :: rows, r.length = first.length ∧ (∀ i ∈ r, i < xy.length) ∧
      ∀ (j i0 i : Nat) (p q : P), first[j]? = some i0 → r[j]? = some i → xy[i0]? = some p → xy[i]? = some q →
        dist p q ≤ tol := by
    intro r hrm
    rcases List.mem_cons.1 hrm with rfl | hrm
    · refine ⟨rfl, hf, ?_⟩
      intro j i0 i p q g1 g2 g3 g4
      rw [g1] at g2
      obtain rfl := Option.some.inj g2
      rw [g3] at g4
      obtain rfl := Option.some.inj g4
      exact hself p (List.mem_of_getElem? g3)
    · exact h2 r hrm
  have hcols : (List.range first.length).mapM (fun (j : Nat) => (first :: rows).mapM fun r => npGet r (j : Int)) =
      .ok ((List.range first.length).map fun j => (first :: rows).map fun r => r.getD j 0) := by
    apply mapM_ok_of_forall
    intro j hj
    apply mapM_ok_of_forall
    intro r hrm
    have := (hall r hrm).1
    have hj' := List.mem_range.1 hj
    rw [npGet_nat, List.getD_eq_getElem?_getD, List.getElem?_eq_getElem (by omega)]; rfl
  have hin : ∀ j < first.length, ∀ i ∈ (first :: rows).map (fun r => r.getD j 0), i < xy.length := by
    intro j hj i hi
    obtain ⟨r, hrm, rfl⟩ := List.mem_map.1 hi
    have := (hall r hrm).1
    rw [List.getD_eq_getElem?_getD, List.getElem?_eq_getElem (by omega), Option.getD_some]
    exact (hall r hrm).2.1 _ (List.getElem_mem _)
  have hpos : ((List.range first.length).map fun j => (first :: rows).map fun r => r.getD j 0).mapM
      (fun c => npGather xy (c.map fun (i : Nat) => (i : Int))) =
      .ok ((List.range first.length).map fun j => positions xy ((first :: rows).map fun r => r.getD j 0)) := by
    rw [List.mapM_map]
    apply mapM_ok_of_forall
    intro j hj
    rw [Function.comp_apply]
    exact gather_positions xy _ (hin j (List.mem_range.1 hj))
  refine ⟨first :: rows, ?_, ⟨.cons (List.Perm.refl _) h1, ?_⟩⟩
  · unfold locate
    simp only
    rw [gather_positions xy first hf]
    simp only [Except_bind_ok]
    rw [e]
    simp only [Except_bind_ok]
    rw [hcols]
    simp only [Except_bind_ok]
    rw [hpos]
    simp only [Except_bind_ok]
    rw [if_neg]
    · rfl
    · rw [List.any_eq_true]
      rintro ⟨c, hc, hlt⟩
      obtain ⟨j, hj, rfl⟩ := List.mem_map.1 hc
      have hj' := List.mem_range.1 hj
      have hi0 := hf first[j] (List.getElem_mem _)
      refine absurd (of_decide_eq_true hlt) (not_lt.2 (hstd _ (xy[first[j]]) ?_))
      intro q hq
      unfold positions at hq
      obtain ⟨i, hi, hxi⟩ := List.mem_filterMap.1 hq
      obtain ⟨r, hrm, rfl⟩ := List.mem_map.1 hi
      have hrl := (hall r hrm).1
      rw [List.getD_eq_getElem?_getD, List.getElem?_eq_getElem (show j < r.length by omega), Option.getD_some] at hxi
      exact (hall r hrm).2.2 j _ _ _ _ (List.getElem?_eq_getElem hj') (List.getElem?_eq_getElem (by omega))
        (List.getElem?_eq_getElem hi0) hxi
  · intro f hf' r hrm
    simp only [List.head?_cons, Option.some.injEq] at hf'
    subst hf'
    exact (hall r hrm).2.2

end Cfd.Vtk
