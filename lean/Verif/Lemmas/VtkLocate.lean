import Verif.Lemmas.VtkPlanes

/-!
# Lemmas on the columns of cells
-/

namespace Cfd.Vtk
open Cfd.Spec Cfd.Spec.Vtk

variable {P K V T : Type} [LinearOrder K]

theorem positions_eq (xy : List P) (d : P) (c : List Nat) (h : ∀ i ∈ c, i < xy.length) :
    positions xy c = c.map fun i => xy.getD i d := by
  unfold positions
  induction c with
  | nil => rfl
  | cons a t ih =>
    have ha := h a (by simp)
    rw [List.filterMap_cons, List.getElem?_eq_getElem ha]
    simp only [List.map_cons]
    rw [ih fun i hi => h i (List.mem_cons_of_mem _ hi), List.getD_eq_getElem?_getD, List.getElem?_eq_getElem ha]
    rfl

theorem gather_positions (xy : List P) (c : List Nat) (h : ∀ i ∈ c, i < xy.length) :
    npGather xy (c.map fun (i : Nat) => (i : Int)) = .ok (positions xy c) := by
  cases hx : xy with
  | nil =>
    cases c with
    | nil => rfl
    | cons a t =>
      have := h a (by simp)
      rw [hx] at this; simp at this
  | cons d t =>
    rw [← hx, gather_getD xy d c h, positions_eq xy d c h]

theorem positions_get? (xy : List P) (c : List Nat) (h : ∀ i ∈ c, i < xy.length) (j : Nat) :
    (positions xy c)[j]? = c[j]?.bind fun i => xy[i]? := by
  cases hx : xy with
  | nil =>
    cases c with
    | nil => rfl
    | cons a t =>
      have := h a (by simp)
      rw [hx] at this; simp at this
  | cons d t =>
    rw [← hx, positions_eq xy d c h, List.getElem?_map]
    cases hj : c[j]? with
    | none => rfl
    | some i =>
      have := h i (List.mem_of_getElem? hj)
      simp only [Option.map_some, Option.bind_some]
      rw [List.getD_eq_getElem?_getD, List.getElem?_eq_getElem this]; rfl

theorem positions_length (xy : List P) (c : List Nat) (h : ∀ i ∈ c, i < xy.length) :
    (positions xy c).length = c.length := by
  have h1 := gather_positions xy c h
  have := mapM_ok_length (by unfold npGather at h1; exact h1)
  simpa using this

theorem planeRow_ok [Add K] [AddLeftMono K] [AddRightMono K] {dist : P → P → K} (hd : IsDist dist) {tol : K}
    {xy : List P} {first chunk : List Nat} (hf : ∀ i ∈ first, i < xy.length) (hc : ∀ i ∈ chunk, i < xy.length)
    (hne : first ≠ []) (hnd : chunk.Nodup) {nn : P → Nat} (hnn : IsNearest dist (positions xy first) nn)
    (hsep : Separated dist tol (positions xy first)) (σ : Nat → Nat)
    (hs : SameCenters dist tol (positions xy first) (positions xy chunk) σ) :
    ∃ r, planeRow dist nn tol xy first chunk = .ok r ∧ r.Perm chunk ∧ r.length = first.length ∧
      ∀ (j i0 i : Nat) (p q : P), first[j]? = some i0 → r[j]? = some i → xy[i0]? = some p → xy[i]? = some q →
        dist p q ≤ tol := by
  have lf := positions_length xy first hf
  have lc := positions_length xy chunk hc
  have hcount := hs.count
  have hfl : 0 < first.length := List.length_pos_of_ne_nil hne
  have hlen : chunk.length = first.length := by omega
  have hstep : ∀ i, i < chunk.length → ∃ p r, (positions xy chunk)[i]? = some p ∧ (positions xy first)[σ i]? = some r ∧
      dist r p ≤ tol ∧ nn p = σ i ∧ ∃ r', (positions xy first)[nn p]? = some r' ∧ dist r' p ≤ tol := by
    intro i hi
    have h1 := hs.range i (by omega)
    have e1 : (positions xy chunk)[i]? = some (positions xy chunk)[i] := List.getElem?_eq_getElem (by omega)
    have e2 : (positions xy first)[σ i]? = some (positions xy first)[σ i] := List.getElem?_eq_getElem h1
    have h2 := hs.near i _ _ e1 e2
    exact ⟨_, _, e1, e2, h2, nearest_eq hd hnn hsep e2 h2⟩
  unfold planeRow
  rw [gather_positions xy chunk hc, gather_positions xy first hf]
  simp only [Except_bind_ok]
  obtain ⟨near, hnear, hnl, hall⟩ : ∃ near, (positions xy chunk).mapM (fun p => do
      return dist (← npGet (positions xy first) (nn p : Int)) p) = .ok near ∧
      near.length = (positions xy chunk).length ∧ ∀ x ∈ near, x ≤ tol := by
    have : ∀ l : List P, (∀ p ∈ l, ∃ r', (positions xy first)[nn p]? = some r' ∧ dist r' p ≤ tol) →
        ∃ near, l.mapM (fun p => do return dist (← npGet (positions xy first) (nn p : Int)) p) = (.ok near : Py (List K)) ∧
          near.length = l.length ∧ ∀ x ∈ near, x ≤ tol := by
      intro l
      induction l with
      | nil => intro _; exact ⟨[], rfl, rfl, by simp⟩
      | cons p t ih =>
        intro h
        obtain ⟨r', h1, h2⟩ := h p (by simp)
        obtain ⟨near, h3, h4, h5⟩ := ih fun q hq => h q (List.mem_cons_of_mem _ hq)
        refine ⟨dist r' p :: near, ?_, by simp [h4], ?_⟩
        · rw [List.mapM_cons, npGet_nat.2 h1]
          simp only [Except_bind_ok]
          rw [h3]; rfl
        · intro x hx
          rcases List.mem_cons.1 hx with rfl | hx
          · exact h2
          · exact h5 x hx
    apply this
    intro p hp
    obtain ⟨i, hi⟩ := List.getElem?_of_mem hp
    obtain ⟨hi', -⟩ := List.getElem?_eq_some_iff.1 hi
    obtain ⟨p', r, h1, -, -, -, h5⟩ := hstep i (by omega)
    rw [h1] at hi
    rw [← Option.some.inj hi]; exact h5
  rw [hnear]
  simp only [Except_bind_ok]
  obtain ⟨dm, hdm⟩ := npMax_ex (l := near) (by
    intro e
    rw [e] at hnl
    simp only [List.length_nil] at hnl
    omega)
  rw [hdm]
  simp only [Except_bind_ok]
  rw [if_neg (not_lt.2 (hall _ (npMax_ok hdm).1))]
  have hidx : (positions xy chunk).map (fun p => (nn p : Int)) =
      (List.range chunk.length).map fun i => ((σ i : Nat) : Int) := by
    apply List.ext_getElem?
    intro i
    rw [List.getElem?_map, List.getElem?_map]
    by_cases hi : i < chunk.length
    · obtain ⟨p, r, h1, -, -, h4, -⟩ := hstep i hi
      rw [h1, List.getElem?_range (by omega)]
      simp [h4]
    · rw [List.getElem?_eq_none (by omega), List.getElem?_eq_none (by simp; omega)]; rfl
  rw [hidx]
  have hfst : (((List.range chunk.length).map fun i => ((σ i : Nat) : Int)).zip chunk).map (·.1) =
      (List.range chunk.length).map fun i => ((σ i : Nat) : Int) := List.map_fst_zip (by simp)
  obtain ⟨r, e, hl, hp, -⟩ := npScatter_ok (((List.range chunk.length).map fun i => ((σ i : Nat) : Int)).zip chunk)
    (List.replicate first.length 0)
    (by
      intro p hp
      have : p.1 ∈ (List.range chunk.length).map fun i => ((σ i : Nat) : Int) := by
        rw [← hfst]; exact List.mem_map.2 ⟨p, hp, rfl⟩
      obtain ⟨i, hi', e⟩ := List.mem_map.1 this
      have := hs.range i (by have := List.mem_range.1 hi'; omega)
      rw [List.length_replicate]
      omega)
    (by
      rw [hfst]
      refine List.Nodup.map_on ?_ List.nodup_range
      intro a ha b hb e
      exact hs.inj a b (by have := List.mem_range.1 ha; omega) (by have := List.mem_range.1 hb; omega) (by omega))
  rw [List.length_replicate] at hl
  have hat : ∀ i (hi : i < chunk.length), r[σ i]? = some chunk[i] := by
    intro i hi
    have hm : (((σ i : Nat) : Int), chunk[i]) ∈ ((List.range chunk.length).map fun i => ((σ i : Nat) : Int)).zip chunk := by
      rw [List.mem_iff_getElem]
      exact ⟨i, by simp [hi], by simp⟩
    have := hp _ hm
    simpa using this
  have hsurj := surj_of_inj chunk.length σ (fun i hi => by have := hs.range i (by omega); omega)
    (fun i j hi hj => hs.inj i j (by omega) (by omega))
  refine ⟨r, e, ?_, hl, ?_⟩
  · have hmem : ∀ j (hj : j < r.length), ∃ i, ∃ hi : i < chunk.length, σ i = j ∧ r[j] = chunk[i] := by
      intro j hj
      obtain ⟨i, hi, rfl⟩ := hsurj j (by omega)
      have := hat i hi
      rw [List.getElem?_eq_getElem hj] at this
      exact ⟨i, hi, rfl, Option.some.inj this⟩
    have hrn : r.Nodup := by
      rw [List.nodup_iff_injective_getElem]
      intro a b hab
      obtain ⟨i, hi, e1, e2⟩ := hmem a.1 a.2
      obtain ⟨i', hi', e3, e4⟩ := hmem b.1 b.2
      simp only [e2, e4] at hab
      have : i = i' := (hnd.getElem_inj_iff).1 hab
      apply Fin.ext
      rw [← e1, ← e3, this]
    have hsub : r ⊆ chunk := by
      intro x hx
      obtain ⟨j, hj, rfl⟩ := List.mem_iff_getElem.1 hx
      obtain ⟨i, hi, -, e⟩ := hmem j hj
      rw [e]; exact List.getElem_mem _
    exact (hrn.subperm hsub).perm_of_length_le (by omega)
  · intro j i0 i p q h1 h2 h3 h4
    obtain ⟨hj, -⟩ := List.getElem?_eq_some_iff.1 h2
    obtain ⟨k, hk, rfl⟩ := hsurj j (by omega)
    rw [hat k hk] at h2
    obtain ⟨p', r', g1, g2, g3, -⟩ := hstep k hk
    rw [positions_get? xy chunk hc, List.getElem?_eq_getElem hk, Option.bind_some, Option.some.inj h2, h4] at g1
    rw [positions_get? xy first hf, h1, Option.bind_some, h3] at g2
    rw [Option.some.inj g1, Option.some.inj g2]; exact g3

end Cfd.Vtk
