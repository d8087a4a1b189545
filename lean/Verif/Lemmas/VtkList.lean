import Verif.Lemmas.VtkMesh
import Mathlib.Algebra.Order.Group.Defs
import Mathlib.Algebra.Order.Monoid.Unbundled.Basic

/-!
# Lemmas on series of VTK files
-/

namespace Cfd.Vtk
open Cfd.Spec Cfd.Spec.Vtk

variable {P K V T : Type} [LinearOrder K]

theorem distances_eq (dist : P → P → K) (a b : List P) (h : a.length = b.length) :
    distances dist a b = .ok (a.zipWith dist b) := by
  unfold distances
  split
  · rename_i x
    match b, h with
    | [y], _ => rfl
  · rename_i y _
    match a, h with
    | [x], _ => rfl
  · rw [if_pos h]

theorem npMax_ok {l : List K} {m : K} (h : npMax l = .ok m) : m ∈ l ∧ ∀ x ∈ l, x ≤ m := by
  unfold npMax at h
  cases e : l.max? with
  | none => rw [e] at h; cases h
  | some k =>
    rw [e] at h
    obtain rfl := Except.ok.inj h
    exact List.max?_eq_some_iff.1 e

theorem npMax_ex {l : List K} (h : l ≠ []) : ∃ m, npMax l = .ok m := by
  unfold npMax
  cases e : l.max? with
  | none => exact absurd (List.max?_eq_none_iff.1 e) h
  | some k => exact ⟨k, rfl⟩

/-- A file in another order: the tree finds the right cells. -/
theorem nearest_eq [Add K] [AddLeftMono K] [AddRightMono K] {dist : P → P → K} (hd : IsDist dist) {tol : K}
    {ref : List P} {nn : P → Nat} (hnn : IsNearest dist ref nn) (hsep : Separated dist tol ref) {p r : P} {j : Nat}
    (hr : ref[j]? = some r) (h : dist r p ≤ tol) :
    nn p = j ∧ ∃ r', ref[nn p]? = some r' ∧ dist r' p ≤ tol := by
  obtain ⟨r', h1, h2⟩ := hnn p
  have h3 : dist r' p ≤ tol := (h2 r (List.mem_of_getElem? hr)).trans h
  refine ⟨?_, r', h1, h3⟩
  by_contra hne
  have h4 := hsep _ _ _ _ h1 hr hne
  have h5 := hd.triangle r' p r
  rw [hd.symm p r] at h5
  exact absurd (h5.trans (add_le_add h3 h)) (not_le.2 h4)

/-- Storing the values of the variables one after the other. -/
theorem storeNames (F : String → Py (List V)) (names : List String) (hF : ∀ n ∈ names, ∃ v, F n = .ok v)
    (d : Dict String (List V)) :
    ∃ r, names.foldlM (fun (r : Dict String (List V)) n => do return r.set n (← F n)) d = .ok r ∧
      (∀ k, k ∈ r.keys ↔ k ∈ d.keys ∨ k ∈ names) ∧
      ∀ k w, r.get? k = some w → (k ∈ names ∧ F k = .ok w) ∨ (k ∉ names ∧ d.get? k = some w) := by
  induction names generalizing d with
  | nil => exact ⟨d, rfl, by simp, fun k w h => .inr ⟨by simp, h⟩⟩
  | cons n t ih =>
    obtain ⟨v, hv⟩ := hF n (by simp)
    obtain ⟨r, e, hk, hg⟩ := ih (fun m hm => hF m (List.mem_cons_of_mem _ hm)) (d.set n v)
    refine ⟨r, ?_, ?_, ?_⟩
    · rw [List.foldlM_cons, hv]
      exact e
    · intro k
      rw [hk, Dict.keys_set]
      split
      · rename_i hm
        constructor
        · rintro (h | h) <;> simp [h]
        · rintro (h | h)
          · exact .inl h
          · rcases List.mem_cons.1 h with rfl | h
            · exact .inl hm
            · exact .inr h
      · simp only [List.mem_append, List.mem_singleton, List.mem_cons]; tauto
    · intro k w h
      rcases hg k w h with ⟨h1, h2⟩ | ⟨h1, h2⟩
      · exact .inl ⟨List.mem_cons_of_mem _ h1, h2⟩
      · rw [Dict.get?_set] at h2
        split at h2
        · rename_i e1
          subst e1
          left
          refine ⟨by simp, ?_⟩
          rw [hv, Option.some.inj h2]
        · rename_i e1
          right
          refine ⟨?_, h2⟩
          rw [List.mem_cons]; push Not
          exact ⟨e1, h1⟩

theorem surj_of_inj (n : Nat) (σ : Nat → Nat) (hr : ∀ i, i < n → σ i < n)
    (hi : ∀ i j, i < n → j < n → σ i = σ j → i = j) (j : Nat) (hj : j < n) : ∃ i, i < n ∧ σ i = j := by
  have hnd : ((List.range n).map σ).Nodup := List.Nodup.map_on
    (fun a ha b hb e => hi a b (List.mem_range.1 ha) (List.mem_range.1 hb) e) List.nodup_range
  have hsub : (List.range n).map σ ⊆ List.range n := by
    intro x hx
    obtain ⟨i, hi', rfl⟩ := List.mem_map.1 hx
    exact List.mem_range.2 (hr i (List.mem_range.1 hi'))
  have hp := (hnd.subperm hsub).perm_of_length_le (by simp)
  have := hp.mem_iff.2 (List.mem_range.2 hj)
  obtain ⟨i, hi', e⟩ := List.mem_map.1 this
  exact ⟨i, List.mem_range.1 hi', e⟩

/-- The reverse index. -/
theorem rindex_ok (n : Nat) (σ : Nat → Nat) (hr : ∀ i, i < n → σ i < n)
    (hi : ∀ i j, i < n → j < n → σ i = σ j → i = j) (index : List Int)
    (hx : index = (List.range n).map fun i => ((σ i : Nat) : Int)) :
    ∃ r, npScatter index (index.zip (pyRange 0 index.length)) = .ok r ∧ r.length = n ∧
      ∀ i, i < n → r[σ i]? = some (i : Int) := by
  have hlen : index.length = n := by rw [hx]; simp
  have hfst : (index.zip (pyRange 0 index.length)).map (·.1) = index :=
    List.map_fst_zip (by rw [length_pyRange]; omega)
  obtain ⟨r, e, hl, hp, -⟩ := npScatter_ok (index.zip (pyRange 0 index.length)) index
    (by
      intro p hp
      have : p.1 ∈ index := by rw [← hfst]; exact List.mem_map.2 ⟨p, hp, rfl⟩
      rw [hx] at this
      obtain ⟨i, hi', e⟩ := List.mem_map.1 this
      have := hr i (List.mem_range.1 hi')
      omega)
    (by
      rw [hfst, hx]
      refine List.Nodup.map_on ?_ List.nodup_range
      intro a ha b hb e
      exact hi a b (List.mem_range.1 ha) (List.mem_range.1 hb) (by omega))
  refine ⟨r, e, by omega, fun i hin => ?_⟩
  have hm : (((σ i : Nat) : Int), (i : Int)) ∈ index.zip (pyRange 0 index.length) := by
    rw [List.mem_iff_getElem]
    refine ⟨i, by rw [List.length_zip, length_pyRange]; omega, ?_⟩
    rw [List.getElem_zip, getElem_pyRange]
    simp [hx]
  have := hp _ hm
  simpa using this

theorem readFile_ok [Add K] [AddLeftMono K] [AddRightMono K] {dist : P → P → K} (hd : IsDist dist) {tol : K}
    {ref : List P} (hne : ref ≠ []) {nn : P → Nat} (hnn : IsNearest dist ref nn) (hsep : Separated dist tol ref)
    (filter : List String) (f : File P V T) (σ : Nat → Nat) (hf : SameCenters dist tol ref f.centers σ)
    (hc : Complete filter f) :
    ∃ r, readFile dist nn tol ref filter f = .ok r ∧ InOrder filter f σ r := by
  have hlen := hf.count
  have hn : 0 < ref.length := List.length_pos_of_ne_nil hne
  have hstep : ∀ i, i < f.centers.length → ∃ p r, f.centers[i]? = some p ∧ ref[σ i]? = some r ∧ dist r p ≤ tol ∧
      nn p = σ i ∧ ∃ r', ref[nn p]? = some r' ∧ dist r' p ≤ tol := by
    intro i hi
    have h1 := hf.range i hi
    refine ⟨f.centers[i], ref[σ i], List.getElem?_eq_getElem hi, List.getElem?_eq_getElem h1, ?_⟩
    have h2 := hf.near i _ _ (List.getElem?_eq_getElem hi) (List.getElem?_eq_getElem h1)
    exact ⟨h2, nearest_eq hd hnn hsep (List.getElem?_eq_getElem h1) h2⟩
  unfold readFile
  rw [distances_eq _ _ _ hlen.symm]
  simp only [Except_bind_ok]
  obtain ⟨d, hd'⟩ := npMax_ex (l := ref.zipWith dist f.centers) (by
    intro e
    have := congrArg List.length e
    simp only [List.length_zipWith, List.length_nil] at this
    omega)
  rw [hd']
  simp only [Except_bind_ok]
  by_cases hdt : tol < d
  · rw [if_pos hdt]
    have hidx : f.centers.map (fun p => (nn p : Int)) = (List.range ref.length).map fun i => ((σ i : Nat) : Int) := by
      apply List.ext_getElem?
      intro i
      rw [List.getElem?_map, List.getElem?_map]
      by_cases hi : i < f.centers.length
      · obtain ⟨p, r, h1, -, -, h4, -⟩ := hstep i hi
        rw [h1, List.getElem?_range (by omega)]
        simp [h4]
      · rw [List.getElem?_eq_none (by omega), List.getElem?_eq_none (by simp; omega)]; rfl
    obtain ⟨rx, e1, l1, g1⟩ := rindex_ok ref.length σ (fun i hi => hf.range i (by omega))
      (fun i j hi hj => hf.inj i j (by omega) (by omega)) _ hidx
    rw [e1]
    simp only [Except_bind_ok]
    obtain ⟨near, hnear, hall⟩ : ∃ near, f.centers.mapM (fun p => do return dist (← npGet ref (nn p : Int)) p) = .ok near ∧
        near.length = f.centers.length ∧ ∀ x ∈ near, x ≤ tol := by
      have : ∀ l : List P, (∀ p ∈ l, ∃ r', ref[nn p]? = some r' ∧ dist r' p ≤ tol) →
          ∃ near, l.mapM (fun p => do return dist (← npGet ref (nn p : Int)) p) = (.ok near : Py (List K)) ∧
            near.length = l.length ∧ ∀ x ∈ near, x ≤ tol := by
        intro l
        induction l with
        | nil => intro _; exact ⟨[], rfl, rfl, by simp⟩
        | cons p t ih =>
          intro h
          obtain ⟨r', h1, h2⟩ := h p (by simp)
          obtain ⟨near, h3, h4, h5⟩ := ih fun q hq => h q (List.mem_cons_of_mem _ hq)
          refine ⟨dist r' p :: near, ?_, by simp [h4], ?_⟩
          · rw [List.mapM_cons, npGet_nat.2 h1]
            simp only [Except_bind_ok]
            rw [h3]; rfl
          · intro x hx
            rcases List.mem_cons.1 hx with rfl | hx
            · exact h2
            · exact h5 x hx
      apply this
      intro p hp
      obtain ⟨i, hi⟩ := List.getElem?_of_mem hp
      obtain ⟨hi', -⟩ := List.getElem?_eq_some_iff.1 hi
      obtain ⟨p', r, h1, -, -, -, h5⟩ := hstep i hi'
      rw [h1] at hi
      rw [← Option.some.inj hi]; exact h5
    rw [hnear]
    simp only [Except_bind_ok]
    obtain ⟨dm, hdm⟩ := npMax_ex (l := near) (by
      intro e
      have := hall.1
      rw [e] at this
      simp at this; omega)
    rw [hdm]
    simp only [Except_bind_ok]
    rw [if_neg (not_lt.2 (hall.2 _ (npMax_ok hdm).1))]
    have hgather : ∀ n ∈ keptNames filter f, ∃ v w, f.data.getE n = .ok v ∧ npGather v rx = .ok w ∧ w.length = ref.length ∧
        ∀ i, i < ref.length → w[σ i]? = v[i]? := by
      intro n hn
      obtain ⟨v, hv, hvl⟩ := hc n hn
      have hrx : ∀ j, j < ref.length → ∃ i : Nat, i < ref.length ∧ rx[j]? = some (i : Int) := by
        intro j hj
        obtain ⟨i, hi, e⟩ : ∃ i, i < ref.length ∧ σ i = j := by
          exact surj_of_inj ref.length σ (fun i hi => hf.range i (by omega))
            (fun i j hi hj => hf.inj i j (by omega) (by omega)) j hj
        exact ⟨i, hi, by rw [← e]; exact g1 i hi⟩
      have hb : ∀ x ∈ rx, 0 ≤ x ∧ x < v.length := by
        intro x hx
        obtain ⟨j, hj⟩ := List.getElem?_of_mem hx
        obtain ⟨hj', -⟩ := List.getElem?_eq_some_iff.1 hj
        obtain ⟨i, hi, e⟩ := hrx j (by omega)
        rw [hj] at e
        have := Option.some.inj e
        omega
      obtain ⟨w, hw⟩ : ∃ w, npGather v rx = .ok w := by
        clear e1 l1 g1 hrx
        unfold npGather
        induction rx with
        | nil => exact ⟨[], rfl⟩
        | cons x t ih =>
          obtain ⟨w, hw⟩ := ih fun y hy => hb y (List.mem_cons_of_mem _ hy)
          have hx := hb x (by simp)
          have := npGet_nonneg (a := v) hx.1 |>.2 (List.getElem?_eq_getElem (by omega))
          exact ⟨_ :: w, by rw [List.mapM_cons, this]; simp only [Except_bind_ok]; rw [hw]; rfl⟩
      refine ⟨v, w, Dict.getE_eq_ok.2 hv, hw, ?_, ?_⟩
      · unfold npGather at hw
        rw [mapM_ok_length hw]; exact l1
      · intro i hi
        unfold npGather at hw
        rw [mapM_ok_iff] at hw
        have h2 := g1 i hi
        obtain ⟨hlt, he⟩ := List.getElem?_eq_some_iff.1 h2
        have hlt2 : σ i < w.length := by rw [← hw.length_eq]; exact hlt
        have := (List.forall₂_iff_get.1 hw).2 (σ i) hlt hlt2
        simp only [List.get_eq_getElem, he] at this
        rw [npGet_nat] at this
        rw [this, List.getElem?_eq_getElem hlt2]
    obtain ⟨r, e2, hk, hg⟩ := storeNames (fun n => do let v ← f.data.getE n; npGather v rx) (keptNames filter f)
      (by
        intro n hn
        obtain ⟨v, w, h1, h2, -⟩ := hgather n hn
        exact ⟨w, by simp only [h1, Except_bind_ok, h2]⟩) []
    refine ⟨r, ?_, ?_, ?_⟩
    · rw [← e2]
      unfold keptNames
      congr 1
      funext r n
      cases f.data.getE n <;> rfl
    · intro name; rw [hk]; simp [Dict.keys]
    · intro name v w hv hw
      rcases hg name w hw with ⟨h1, h2⟩ | ⟨-, h2⟩
      · obtain ⟨v', w', h3, h4, h5, h6⟩ := hgather name h1
        rw [h3] at h2
        simp only [Except_bind_ok] at h2
        rw [h4] at h2
        obtain rfl := Except.ok.inj h2
        rw [Dict.getE_eq_ok, hv] at h3
        obtain rfl := Option.some.inj h3
        exact ⟨by omega, fun i hi => h6 i (by omega)⟩
      · simp [Dict.get?] at h2
  · rw [if_neg hdt]
    have hσ : ∀ i, i < f.centers.length → σ i = i := by
      intro i hi
      obtain ⟨p, r, h1, h2, h3, h4, -⟩ := hstep i hi
      have hi2 : i < ref.length := by omega
      have hmem : dist ref[i] p ∈ ref.zipWith dist f.centers := by
        rw [List.mem_iff_getElem]
        refine ⟨i, by simp; omega, ?_⟩
        rw [List.getElem_zipWith]
        obtain ⟨_, e⟩ := List.getElem?_eq_some_iff.1 h1
        rw [e]
      have h5 : dist ref[i] p ≤ tol := ((npMax_ok hd').2 _ hmem).trans (not_lt.1 hdt)
      rw [← h4]
      exact (nearest_eq hd hnn hsep (List.getElem?_eq_getElem hi2) h5).1
    obtain ⟨r, e2, hk, hg⟩ := storeNames (fun n => f.data.getE n) (keptNames filter f)
      (by
        intro n hn
        obtain ⟨v, h1, -⟩ := hc n hn
        exact ⟨v, Dict.getE_eq_ok.2 h1⟩) []
    refine ⟨r, e2, ?_, ?_⟩
    · intro name; rw [hk]; simp [Dict.keys]
    · intro name v w hv hw
      rcases hg name w hw with ⟨h1, h2⟩ | ⟨-, h2⟩
      · rw [Dict.getE_eq_ok, hv] at h2
        obtain rfl := Option.some.inj h2
        obtain ⟨v', hv', hl⟩ := hc name h1
        rw [hv] at hv'
        obtain rfl := Option.some.inj hv'
        exact ⟨hl, fun i hi => by rw [hσ i hi]⟩
      · simp [Dict.get?] at h2

end Cfd.Vtk
