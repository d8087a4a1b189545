import Verif.Spec.PlaneValues
import Mathlib.Data.List.Sort
import Mathlib.Data.List.Nodup
import Mathlib.Data.List.GetD
import Mathlib.Tactic.Linarith

/-! # Layers of cells are planes and columns -/

namespace Cfd.PlaneValues
open Cfd.Spec.PlaneValues Cfd.Spec.Vtk Cfd.Spec.Spectrum

/-! ## Levels -/

/-- A strictly increasing list with the members of `range n`. -/
theorem sorted_eq_range {l : List Nat} {n : Nat} (hs : l.Pairwise (· < ·)) (hm : ∀ k, k ∈ l ↔ k < n) : l = List.range n := by
  have hnd : l.Nodup := hs.imp (fun h => Nat.ne_of_lt h)
  have hp : l.Perm (List.range n) := (List.perm_ext_iff_of_nodup hnd List.nodup_range).2 fun k => by rw [hm, List.mem_range]
  exact hp.eq_of_pairwise (fun a b _ _ h1 h2 => absurd h1 (Nat.lt_asymm h2)) hs List.pairwise_lt_range

theorem levels_of_planes {z : List ℝ} {tol z0 h : ℝ} {n : Nat} {chunks : List (List Nat)} (hip : IsPlanes z tol chunks)
    (hth : tol < h) (h0 : 0 ≤ tol) (lev : Nat → Nat) (hlev : ∀ i, i < z.length → z[i]? = some (z0 + lev i * h) ∧ lev i < n)
    (hall : ∀ k, k < n → ∃ i, i < z.length ∧ lev i = k) :
    chunks.length = n ∧ ∀ k c, chunks[k]? = some c → ∀ i ∈ c, lev i = k := by
  have hpos : 0 < h := lt_of_le_of_lt h0 hth
  have hmem : ∀ c ∈ chunks, ∀ i ∈ c, i < z.length := fun c hc i hi =>
    List.mem_range.1 (hip.once.mem_iff.1 (List.mem_flatten.2 ⟨c, hc, hi⟩))
  have hsort : ∀ i j, i < z.length → j < z.length → (∀ a b, z[i]? = some a → z[j]? = some b → a ≤ b) → lev i ≤ lev j := by
    intro i j hi hj hab
    have := hab _ _ (hlev i hi).1 (hlev j hj).1
    have h2 : (lev i : ℝ) * h ≤ lev j * h := by linarith
    exact_mod_cast le_of_mul_le_mul_right h2 hpos
  have hjump : ∀ i j, i < z.length → j < z.length → (Jump z tol i j ↔ lev i < lev j) := by
    intro i j hi hj
    constructor
    · rintro ⟨a, b, ha, hb, hab⟩
      rw [(hlev i hi).1, Option.some.injEq] at ha
      rw [(hlev j hj).1, Option.some.injEq] at hb
      by_contra hc
      have : (lev j : ℝ) ≤ lev i := by exact_mod_cast not_lt.1 hc
      have := mul_le_mul_of_nonneg_right this hpos.le
      linarith
    · intro hlt
      refine ⟨_, _, (hlev i hi).1, (hlev j hj).1, ?_⟩
      have : (lev i : ℝ) + 1 ≤ lev j := by exact_mod_cast hlt
      have := mul_le_mul_of_nonneg_right this hpos.le
      linarith
  -- one level in each chunk
  have hconst : ∀ c ∈ chunks, ∀ i ∈ c, ∀ j ∈ c, lev i = lev j := by
    intro c hc
    have hp : c.Pairwise fun i j => ∀ a b, z[i]? = some a → z[j]? = some b → a ≤ b :=
      hip.sorted.sublist (List.sublist_flatten_of_mem hc)
    have hin := hip.inside c hc
    have hr := hmem c hc
    clear hc
    have hch : c.IsChain fun i j => lev i = lev j := by
      induction c with
      | nil => exact .nil
      | cons a t ih =>
        rw [List.pairwise_cons] at hp
        cases t with
        | nil => exact .singleton _
        | cons b t =>
          rw [List.isChain_cons_cons] at hin ⊢
          refine ⟨?_, ih hp.2 hin.2 (fun i hi => hr i (.tail _ hi))⟩
          have ha := hr a (.head _)
          have hb := hr b (.tail _ (.head _))
          exact le_antisymm (hsort a b ha hb (hp.1 b (.head _))) (not_lt.1 fun hlt => hin.1 ((hjump a b ha hb).2 hlt))
    have hpw : c.Pairwise fun i j => lev i = lev j := by
      have : IsTrans Nat fun i j => lev i = lev j := ⟨fun _ _ _ h1 h2 => h1.trans h2⟩
      exact List.isChain_iff_pairwise.1 hch
    intro i hi j hj
    by_cases e : i = j
    · rw [e]
    · have : Std.Symm fun i j : Nat => lev i = lev j := ⟨fun _ _ h => h.symm⟩
      exact hpw.forall hi hj e
  let f : List Nat → Nat := fun c => (c.head?.map lev).getD 0
  have hf : ∀ c ∈ chunks, ∀ i ∈ c, lev i = f c := by
    intro c hc i hi
    cases c with
    | nil => cases hi
    | cons a t => exact hconst _ hc i hi a (.head _)
  have hinc : (chunks.map f).Pairwise (· < ·) := by
    rw [List.pairwise_map, ← List.pairwise_map (f := f) (R := (· < ·)), ← List.isChain_iff_pairwise, List.isChain_map]
    refine hip.between.imp_of_mem_imp ?_
    rintro c d hc hd ⟨i, j, hi, hj, hij⟩
    have hi' : i ∈ c := List.mem_of_getLast? hi
    have hj' : j ∈ d := List.mem_of_head? hj
    rw [← hf c hc i hi', ← hf d hd j hj']
    exact (hjump i j (hmem c hc i hi') (hmem d hd j hj')).1 hij
  have heq : chunks.map f = List.range n := by
    apply sorted_eq_range hinc
    intro k
    rw [List.mem_map]
    constructor
    · rintro ⟨c, hc, rfl⟩
      obtain ⟨i, hi⟩ := List.exists_mem_of_ne_nil c (hip.nonempty c hc)
      rw [← hf c hc i hi]
      exact (hlev i (hmem c hc i hi)).2
    · intro hk
      obtain ⟨i, hi, rfl⟩ := hall k hk
      obtain ⟨c, hc, hic⟩ := List.mem_flatten.1 (hip.once.mem_iff.2 (List.mem_range.2 hi))
      exact ⟨c, hc, (hf c hc i hic).symm⟩
  have hlen : chunks.length = n := by
    have := congrArg List.length heq
    simpa using this
  refine ⟨hlen, ?_⟩
  intro k c hkc i hi
  have hk : k < n := by rw [← hlen]; exact (List.getElem?_eq_some_iff.1 hkc).1
  have h1 : (chunks.map f)[k]? = some (f c) := by rw [List.getElem?_map, hkc]; rfl
  rw [heq, List.getElem?_range hk, Option.some.injEq] at h1
  rw [hf c (List.mem_of_getElem? hkc) i hi, ← h1]

/-! ## Columns -/

theorem positions_eq_map {α : Type} (d : α) (l : List α) (c : List Nat) (hc : ∀ i ∈ c, i < l.length) :
    positions l c = c.map fun i => l.getD i d := by
  unfold positions
  rw [← List.filterMap_eq_map]
  apply List.filterMap_congr
  intro i hi
  simp [hc i hi]

theorem filterMap_range {α β : Type} (g : α → Option β) (l : List α) (F : Nat → β) (h : ∀ k r, l[k]? = some r → g r = some (F k)) :
    l.filterMap g = (List.range l.length).map F := by
  induction l generalizing F with
  | nil => rfl
  | cons a t ih =>
    rw [List.filterMap_cons_some (h 0 a rfl), List.length_cons, List.range_succ_eq_map, List.map_cons, List.map_map,
      ih (fun k => F (k + 1)) fun k r hr => h (k + 1) r (by simpa using hr)]
    rfl

/-- The cells of each layer are in the columns. -/
theorem layer_positions {cols : List (ℝ × ℝ)} {n : Nat} {z0 h : ℝ} (hh : 0 < h) {xy : List (ℝ × ℝ)} {z : List ℝ}
    (hl : Layers cols n z0 h xy z) {k : Nat} (hk : k < n) {c : List Nat} (hnd : c.Nodup)
    (hc : ∀ i, i ∈ c ↔ z[i]? = some (z0 + k * h)) : (positions xy c).Perm cols := by
  obtain ⟨hlen, hp⟩ := hl
  have hr : ∀ i ∈ c, i < xy.length := fun i hi => by
    rw [hlen]; exact (List.getElem?_eq_some_iff.1 ((hc i).1 hi)).1
  have e1 : xy.zip z = (List.range z.length).map fun i => (xy.getD i (0, 0), z.getD i 0) := by
    apply List.ext_getElem
    · simp [hlen]
    · intro i h1 h2
      simp at h1 h2
      simp [h1.1, h1.2]
  have e2 : c.Perm ((List.range z.length).filter fun i => decide (z.getD i 0 = z0 + k * h)) := by
    apply (List.perm_ext_iff_of_nodup hnd (List.nodup_range.filter _)).2
    intro i
    rw [hc, List.mem_filter, List.mem_range, decide_eq_true_eq]
    constructor
    · intro e
      have hi := (List.getElem?_eq_some_iff.1 e).1
      refine ⟨hi, ?_⟩
      rw [List.getD_eq_getElem?_getD, e]; rfl
    · rintro ⟨hi, e⟩
      rw [List.getD_eq_getElem _ _ hi] at e
      rw [List.getElem?_eq_getElem hi, e]
  rw [positions_eq_map (0, 0) xy c hr]
  refine (e2.map _).trans ?_
  have e3 : ((List.range z.length).filter fun i => decide (z.getD i 0 = z0 + k * h)).map (fun i => xy.getD i (0, 0)) =
      ((xy.zip z).filter fun q => decide (q.2 = z0 + k * h)).map Prod.fst := by
    rw [e1, List.filter_map, List.map_map]
    rfl
  rw [e3]
  refine ((hp.filter _).map _).trans ?_
  have e4 : ((cols.flatMap fun p => (List.range n).map fun k : Nat => (p, z0 + k * h)).filter
      fun q => decide (q.2 = z0 + k * h)).map Prod.fst = cols := by
    clear hp
    induction cols with
    | nil => rfl
    | cons p t ih =>
      rw [List.flatMap_cons, List.filter_append, List.map_append, ih, List.filter_map]
      have : (List.range n).filter ((fun q : (ℝ × ℝ) × ℝ => decide (q.2 = z0 + k * h)) ∘ fun k : Nat => (p, z0 + k * h)) = [k] := by
        rw [show ((fun q : (ℝ × ℝ) × ℝ => decide (q.2 = z0 + k * h)) ∘ fun k : Nat => (p, z0 + k * h)) =
          fun j => decide (j = k) from ?_]
        · clear ih
          apply List.perm_singleton.1
          apply (List.perm_ext_iff_of_nodup (List.nodup_range.filter _) (by simp)).2
          intro j
          simp only [List.mem_filter, List.mem_range, decide_eq_true_eq, List.mem_singleton]
          exact ⟨fun h => h.2, fun h => ⟨h ▸ hk, h⟩⟩
        · funext j
          simp only [Function.comp_apply, decide_eq_decide, add_right_inj]
          rw [mul_left_inj' hh.ne']
          exact Nat.cast_inj
      rw [this]
      rfl
  rw [e4]

theorem planeDist_self (p : ℝ × ℝ) : planeDist p p = 0 := by simp [planeDist]

theorem separated_nodup {tol : ℝ} (h0 : 0 ≤ tol) {cols : List (ℝ × ℝ)} (hs : Separated planeDist tol cols) : cols.Nodup := by
  rw [List.nodup_iff_injective_getElem]
  rintro ⟨i, hi⟩ ⟨j, hj⟩ e
  by_contra hne
  have hij : i ≠ j := fun h => hne (by simp [h])
  have := hs i j _ _ (List.getElem?_eq_getElem hi) (List.getElem?_eq_getElem hj) hij
  simp only at e
  rw [e, planeDist_self] at this
  linarith

theorem separated_eq {tol : ℝ} (h0 : 0 ≤ tol) {cols : List (ℝ × ℝ)} (hs : Separated planeDist tol cols) {p q : ℝ × ℝ}
    (hp : p ∈ cols) (hq : q ∈ cols) (hd : planeDist p q ≤ tol) : p = q := by
  obtain ⟨i, hi⟩ := List.mem_iff_getElem?.1 hp
  obtain ⟨j, hj⟩ := List.mem_iff_getElem?.1 hq
  by_cases e : i = j
  · subst e
    rw [hi] at hj
    exact Option.some.inj hj
  · have := hs i j p q hi hj e
    linarith

theorem planeDist_symm (p q : ℝ × ℝ) : planeDist p q = planeDist q p := by
  unfold planeDist
  congr 1
  ring

theorem planeDist_triangle (a b c : ℝ × ℝ) : planeDist a c ≤ planeDist a b + planeDist b c := by
  have key : ∀ p q : ℝ × ℝ, planeDist p q = ‖((p.1 : ℂ) + p.2 * Complex.I) - (q.1 + q.2 * Complex.I)‖ := by
    intro p q
    rw [show ((p.1 : ℂ) + p.2 * Complex.I) - (q.1 + q.2 * Complex.I) = ((p.1 - q.1 : ℝ) : ℂ) + ((p.2 - q.2 : ℝ) : ℂ) * Complex.I by
      push_cast; ring, Complex.norm_add_mul_I]
    rfl
  rw [key, key, key]
  exact norm_sub_le_norm_sub_add_norm_sub _ _ _

theorem planeDist_isDist : IsDist planeDist := ⟨planeDist_symm, planeDist_triangle⟩

theorem separated_perm {tol : ℝ} (h0 : 0 ≤ tol) {cols cols' : List (ℝ × ℝ)} (hs : Separated planeDist tol cols)
    (hp : cols'.Perm cols) : Separated planeDist tol cols' := by
  intro i j a b ha hb hij
  have hnd : cols'.Nodup := hp.nodup_iff.2 (separated_nodup h0 hs)
  have hab : a ≠ b := by
    rintro rfl
    obtain ⟨hi, ea⟩ := List.getElem?_eq_some_iff.1 ha
    obtain ⟨hj, eb⟩ := List.getElem?_eq_some_iff.1 hb
    exact hij ((List.Nodup.getElem_inj_iff hnd).1 (ea.trans eb.symm))
  obtain ⟨i', hi'⟩ := List.mem_iff_getElem?.1 (hp.mem_iff.1 (List.mem_of_getElem? ha))
  obtain ⟨j', hj'⟩ := List.mem_iff_getElem?.1 (hp.mem_iff.1 (List.mem_of_getElem? hb))
  refine hs i' j' a b hi' hj' ?_
  rintro rfl
  rw [hi'] at hj'
  exact hab (Option.some.inj hj')

theorem sameCenters_perm {tol : ℝ} (h0 : 0 ≤ tol) {ref ctr : List (ℝ × ℝ)} (hnd : ref.Nodup) (hp : ctr.Perm ref) :
    ∃ σ, SameCenters planeDist tol ref ctr σ := by
  have hnd' : ctr.Nodup := hp.nodup_iff.2 hnd
  refine ⟨fun i => ref.idxOf (ctr.getD i (0, 0)), hp.length_eq, ?_, ?_, ?_⟩
  · intro i hi
    rw [List.idxOf_lt_length_iff, List.getD_eq_getElem _ _ hi]
    exact hp.mem_iff.1 (List.getElem_mem hi)
  · intro i j hi hj e
    rw [List.getD_eq_getElem _ _ hi, List.getD_eq_getElem _ _ hj] at e
    have := (List.idxOf_inj (hp.mem_iff.1 (List.getElem_mem hi))).1 e
    exact (List.Nodup.getElem_inj_iff hnd').1 this
  · intro i p r hi hr
    obtain ⟨hi', e⟩ := List.getElem?_eq_some_iff.1 hi
    simp only [List.getD_eq_getElem _ _ hi'] at hr
    rw [e] at hr
    have hm : p ∈ ref := hp.mem_iff.1 (e ▸ List.getElem_mem hi')
    rw [List.getElem?_eq_getElem (List.idxOf_lt_length_iff.2 hm), List.getElem_idxOf] at hr
    rw [← Option.some.inj hr, planeDist_self]
    exact h0

end Cfd.PlaneValues
