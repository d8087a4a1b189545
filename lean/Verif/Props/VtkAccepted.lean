import Verif.Props.VtkList
import Mathlib.Analysis.Real.Sqrt
import Mathlib.Tactic.Linarith
import Mathlib.Tactic.Ring

/-!
# Series of VTK files that are accepted (C45)

`Props/VtkList` says what is stored when the files are known to have the same cells. Here nothing is known but that `read` returned:
with files whose cells are far enough from each other, it returned because the cells are the same.
-/

namespace Cfd.Vtk
open Cfd.Spec Cfd.Spec.Vtk

variable {P K V T : Type} [LinearOrder K]

/-- As many cells, far from each other, each one close to a cell of the first file: these are the same cells. -/
theorem near_centers [Add K] [AddLeftMono K] [AddRightMono K] {dist : P → P → K} (hd : IsDist dist) {tol : K} {ref ctr : List P}
    (hlen : ctr.length = ref.length) (hsep : Separated dist tol ctr) (hclose : ∀ p ∈ ctr, ∃ r ∈ ref, dist r p ≤ tol) :
    ∃ σ, SameCenters dist tol ref ctr σ := by
  have hex : ∀ p : P, ∃ k : Nat, p ∈ ctr → ∃ r, ref[k]? = some r ∧ dist r p ≤ tol := by
    intro p
    by_cases hp : p ∈ ctr
    · obtain ⟨r, hr, h⟩ := hclose p hp
      obtain ⟨k, hk⟩ := List.mem_iff_getElem?.1 hr
      exact ⟨k, fun _ => ⟨r, hk, h⟩⟩
    · exact ⟨0, fun h => absurd h hp⟩
  obtain ⟨nn, hnear⟩ := Classical.axiomOfChoice hex
  refine ⟨fun i => (ctr[i]?.map nn).getD 0, hlen, ?_, ?_, ?_⟩
  · intro i hi
    obtain ⟨r, h1, -⟩ := hnear ctr[i] (List.getElem_mem hi)
    simp only [List.getElem?_eq_getElem hi, Option.map_some, Option.getD_some]
    exact (List.getElem?_eq_some_iff.1 h1).1
  · intro i j hi hj e
    simp only [List.getElem?_eq_getElem hi, List.getElem?_eq_getElem hj, Option.map_some, Option.getD_some] at e
    by_contra hne
    obtain ⟨r, h1, h2⟩ := hnear ctr[i] (List.getElem_mem hi)
    obtain ⟨r', h3, h4⟩ := hnear ctr[j] (List.getElem_mem hj)
    rw [e, h3] at h1
    obtain rfl := Option.some.inj h1
    have h5 := hsep i j _ _ (List.getElem?_eq_getElem hi) (List.getElem?_eq_getElem hj) hne
    have h6 := hd.triangle ctr[i] r' ctr[j]
    rw [hd.symm ctr[i] r'] at h6
    exact absurd (h6.trans (add_le_add h2 h4)) (not_le.2 h5)
  · intro i p r hp hr
    simp only [hp, Option.map_some, Option.getD_some] at hr
    obtain ⟨r', h1, h2⟩ := hnear p (List.mem_of_getElem? hp)
    rw [h1] at hr
    obtain rfl := Option.some.inj hr
    exact h2

/-- A file read with as many cells as the first one, far from each other, has the same cells. -/
theorem accepted_centers [Add K] [AddLeftMono K] [AddRightMono K] {dist : P → P → K} (hd : IsDist dist) {tol : K} {nn : P → Nat}
    {ref : List P} (hnn : IsNearest dist ref nn) {filter : List String} {f : File P V T} (hlen : f.centers.length = ref.length)
    (hsep : Separated dist tol f.centers) {r : Dict String (List V)} (h : readFile dist nn tol ref filter f = .ok r) :
    ∃ σ, SameCenters dist tol ref f.centers σ := by
  refine near_centers hd hlen hsep fun p hp => ?_
  by_contra hno
  push Not at hno
  rw [C45_no_counterpart hnn filter f hlen ⟨p, hp, hno⟩] at h
  cases h

/-- A series that is read has files of as many cells, two or more in each. -/
theorem accepted_count [Zero T] [DecidableEq T] {dist : P → P → K} {nn : List P → P → Nat} {tol : K} {filter : List String}
    {f0 : File P V T} {rest : List (File P V T)} (hnn : IsNearest dist f0.centers (nn f0.centers)) {s : DataSetList (List V) T}
    (h : readSeries dist nn tol filter (f0 :: rest) = .ok s) (hn : ∀ f ∈ f0 :: rest, f.centers.length ≠ 1) :
    ∀ f ∈ f0 :: rest, f.centers.length = f0.centers.length := by
  intro f hf
  rcases List.mem_cons.1 hf with rfl | hr
  · rfl
  by_contra hne
  obtain ⟨e, he⟩ := C45_refused (tol := tol) filter f0 rest hnn ⟨f, hr, .inr ⟨hne, hn f hf, hn f0 (by simp)⟩⟩
  rw [he] at h
  cases h

/-- **C45, acceptance.** Files of two cells or more, the cells of each file more than twice the tolerance apart: if `read` returns a
series, every file has the cells of the first one in some order, up to the tolerance, and its values are stored at the places of
these cells in the first file, with its time. Nothing is assumed of how the files compare with each other. -/
theorem C45_accepted [Add K] [AddLeftMono K] [AddRightMono K] [Zero T] [DecidableEq T] {dist : P → P → K} (hd : IsDist dist) {tol : K}
    {nn : List P → P → Nat} (filter : List String) (f0 : File P V T) (rest : List (File P V T))
    (hnn : IsNearest dist f0.centers (nn f0.centers))
    (hf : ∀ f ∈ f0 :: rest, 2 ≤ f.centers.length ∧ Separated dist tol f.centers ∧ Complete filter f ∧ f.time ≠ some 0)
    {s : DataSetList (List V) T} (h : readSeries dist nn tol filter (f0 :: rest) = .ok s) :
    List.Forall₂ (fun f st => ∃ σ, SameCenters dist tol f0.centers f.centers σ ∧ InOrder filter f σ st.1 ∧ st.2 = f.time)
      (f0 :: rest) s.steps := by
  have hcount := accepted_count hnn h fun f hm => by have := (hf f hm).1; omega
  have hsame : ∀ f ∈ f0 :: rest, ∃ σ, SameCenters dist tol f0.centers f.centers σ := by
    intro f hm
    cases hr : readFile dist (nn f0.centers) tol f0.centers filter f with
    | ok r => exact accepted_centers hd hnn (hcount f hm) (hf f hm).2.1 hr
    | error e =>
      obtain ⟨e', he⟩ := readSeries_error (tol := tol) (filter := filter) ⟨f, hm, e, hr⟩
      rw [he] at h
      cases h
  classical
  let σ : File P V T → Nat → Nat := fun f => if hm : f ∈ f0 :: rest then (hsame f hm).choose else id
  have hσ : ∀ f ∈ f0 :: rest, SameCenters dist tol f0.centers f.centers (σ f) := by
    intro f hm
    simp only [σ, dif_pos hm]
    exact (hsame f hm).choose_spec
  obtain ⟨s', e, hall⟩ := C45_series hd filter f0 rest
    (by
      have := (hf f0 (by simp)).1
      rintro e
      rw [e] at this
      simp at this) hnn (hf f0 (by simp)).2.1 σ fun f hm => ⟨hσ f hm, (hf f hm).2.2⟩
  rw [h] at e
  obtain rfl := Except.ok.inj e
  refine List.forall₂_iff_get.2 ⟨hall.length_eq, fun i h1 h2 => ⟨_, hσ _ (List.get_mem _ _), ?_⟩⟩
  exact (List.forall₂_iff_get.1 hall).2 i h1 h2

/-- **C45, exactly.** Such files are read if and only if each one has the cells of the first one in some order, up to the
tolerance. -/
theorem C45_accepts_iff [Add K] [AddLeftMono K] [AddRightMono K] [Zero T] [DecidableEq T] {dist : P → P → K} (hd : IsDist dist) {tol : K}
    {nn : List P → P → Nat} (filter : List String) (f0 : File P V T) (rest : List (File P V T))
    (hnn : IsNearest dist f0.centers (nn f0.centers))
    (hf : ∀ f ∈ f0 :: rest, 2 ≤ f.centers.length ∧ Separated dist tol f.centers ∧ Complete filter f ∧ f.time ≠ some 0) :
    (∃ s, readSeries dist nn tol filter (f0 :: rest) = .ok s) ↔
      ∀ f ∈ f0 :: rest, ∃ σ, SameCenters dist tol f0.centers f.centers σ := by
  constructor
  · rintro ⟨s, h⟩ f hm
    obtain ⟨i, hi, rfl⟩ := List.mem_iff_getElem.1 hm
    have := C45_accepted hd filter f0 rest hnn hf h
    obtain ⟨σ, h1, -⟩ := (List.forall₂_iff_get.1 this).2 i hi (by rw [← this.length_eq]; exact hi)
    exact ⟨σ, h1⟩
  · intro hs
    classical
    let σ : File P V T → Nat → Nat := fun f => if hm : f ∈ f0 :: rest then (hs f hm).choose else id
    obtain ⟨s, e, -⟩ := C45_series hd filter f0 rest
      (by
        have := (hf f0 (by simp)).1
        rintro e
        rw [e] at this
        simp at this) hnn (hf f0 (by simp)).2.1 σ fun f hm => ⟨by
          simp only [σ, dif_pos hm]
          exact (hs f hm).choose_spec, (hf f hm).2.2⟩
    exact ⟨s, e⟩

/-! ## The distance of the code -/

/-- `maths.distance` (cfdtools/utils/maths.py:8-10) of two positions in space, with exact real numbers:
`np.sqrt(np.sum(np.square(b - a), axis=1))`. -/
noncomputable def spaceDist (a b : ℝ × ℝ × ℝ) : ℝ := √((b.1 - a.1) ^ 2 + (b.2.1 - a.2.1) ^ 2 + (b.2.2 - a.2.2) ^ 2)

theorem sqrt_triangle (x y z u v w : ℝ) :
    √((x + u) ^ 2 + (y + v) ^ 2 + (z + w) ^ 2) ≤ √(x ^ 2 + y ^ 2 + z ^ 2) + √(u ^ 2 + v ^ 2 + w ^ 2) := by
  have h1 : 0 ≤ x ^ 2 + y ^ 2 + z ^ 2 := by positivity
  have h2 : 0 ≤ u ^ 2 + v ^ 2 + w ^ 2 := by positivity
  have h3 : x * u + y * v + z * w ≤ √(x ^ 2 + y ^ 2 + z ^ 2) * √(u ^ 2 + v ^ 2 + w ^ 2) := by
    rw [← Real.sqrt_mul h1]
    refine (le_abs_self _).trans (Real.abs_le_sqrt ?_)
    have : (x ^ 2 + y ^ 2 + z ^ 2) * (u ^ 2 + v ^ 2 + w ^ 2) =
        (x * u + y * v + z * w) ^ 2 + ((x * v - y * u) ^ 2 + (y * w - z * v) ^ 2 + (x * w - z * u) ^ 2) := by ring
    rw [this]
    exact le_add_of_nonneg_right (by positivity)
  rw [Real.sqrt_le_iff]
  refine ⟨by positivity, ?_⟩
  have h4 := Real.sq_sqrt h1
  have h5 := Real.sq_sqrt h2
  have : (√(x ^ 2 + y ^ 2 + z ^ 2) + √(u ^ 2 + v ^ 2 + w ^ 2)) ^ 2 = √(x ^ 2 + y ^ 2 + z ^ 2) ^ 2 + √(u ^ 2 + v ^ 2 + w ^ 2) ^ 2 +
      2 * (√(x ^ 2 + y ^ 2 + z ^ 2) * √(u ^ 2 + v ^ 2 + w ^ 2)) := by ring
  rw [this, h4, h5]
  linarith

theorem spaceDist_isDist : IsDist spaceDist where
  symm a b := by
    unfold spaceDist
    congr 1
    ring
  triangle a b c := by
    have := sqrt_triangle (b.1 - a.1) (b.2.1 - a.2.1) (b.2.2 - a.2.2) (c.1 - b.1) (c.2.1 - b.2.1) (c.2.2 - b.2.2)
    unfold spaceDist
    have e : (c.1 - a.1) ^ 2 + (c.2.1 - a.2.1) ^ 2 + (c.2.2 - a.2.2) ^ 2 = (b.1 - a.1 + (c.1 - b.1)) ^ 2 +
        (b.2.1 - a.2.1 + (c.2.1 - b.2.1)) ^ 2 + (b.2.2 - a.2.2 + (c.2.2 - b.2.2)) ^ 2 := by ring
    rw [e]
    exact this

/-- Some search finds the closest positions, whatever the distance. -/
theorem exists_nearest (dist : P → P → K) {ref : List P} (h : ref ≠ []) : ∃ nn, IsNearest dist ref nn := by
  have hmin : ∀ p, ∃ k : Nat, ∃ r, ref[k]? = some r ∧ ∀ r' ∈ ref, dist r p ≤ dist r' p := by
    intro p
    have : ∃ r ∈ ref, ∀ r' ∈ ref, dist r p ≤ dist r' p := by
      induction ref with
      | nil => exact absurd rfl h
      | cons a t ih =>
        by_cases ht : t = []
        · subst ht; exact ⟨a, by simp, by simp⟩
        · obtain ⟨r, hr, hm⟩ := ih ht
          by_cases hle : dist a p ≤ dist r p
          · refine ⟨a, by simp, fun r' hr' => ?_⟩
            rcases List.mem_cons.1 hr' with rfl | hr'
            · exact le_rfl
            · exact hle.trans (hm r' hr')
          · refine ⟨r, by simp [hr], fun r' hr' => ?_⟩
            rcases List.mem_cons.1 hr' with rfl | hr'
            · exact (not_le.1 hle).le
            · exact hm r' hr'
    obtain ⟨r, hr, hm⟩ := this
    obtain ⟨k, hk⟩ := List.mem_iff_getElem?.1 hr
    exact ⟨k, r, hk, hm⟩
  exact ⟨fun p => (hmin p).choose, fun p => (hmin p).choose_spec⟩

/-- **C45, in space.** The same with the distance of the code between positions in space (exact real numbers), whichever of the closest
cells the tree returns: such files are read if and only if each one has the cells of the first one in some order, up to the
tolerance, and then the values of every file are stored at the places of these cells in the first file, with its time. -/
theorem C45_space [Zero T] [DecidableEq T] {tol : ℝ} {nn : List (ℝ × ℝ × ℝ) → ℝ × ℝ × ℝ → Nat}
    (hnn : ∀ ref, ref ≠ [] → IsNearest spaceDist ref (nn ref)) (filter : List String) (f0 : File (ℝ × ℝ × ℝ) V T)
    (rest : List (File (ℝ × ℝ × ℝ) V T))
    (hf : ∀ f ∈ f0 :: rest, 2 ≤ f.centers.length ∧ Separated spaceDist tol f.centers ∧ Complete filter f ∧ f.time ≠ some 0) :
    ((∃ s, readSeries spaceDist nn tol filter (f0 :: rest) = .ok s) ↔
      ∀ f ∈ f0 :: rest, ∃ σ, SameCenters spaceDist tol f0.centers f.centers σ) ∧
    ∀ s, readSeries spaceDist nn tol filter (f0 :: rest) = .ok s →
      List.Forall₂ (fun f st => ∃ σ, SameCenters spaceDist tol f0.centers f.centers σ ∧ InOrder filter f σ st.1 ∧ st.2 = f.time)
        (f0 :: rest) s.steps := by
  have hne : f0.centers ≠ [] := by
    have := (hf f0 (by simp)).1
    rintro e
    rw [e] at this
    simp at this
  exact ⟨C45_accepts_iff spaceDist_isDist filter f0 rest (hnn _ hne) hf,
    fun s h => C45_accepted spaceDist_isDist filter f0 rest (hnn _ hne) hf h⟩

/-- Two files in space with two cells each, in opposite orders: a search exists and the hypotheses hold. -/
example : (∃ nn : List (ℝ × ℝ × ℝ) → ℝ × ℝ × ℝ → Nat, ∀ ref, ref ≠ [] → IsNearest spaceDist ref (nn ref)) ∧
    ∀ f ∈ [(⟨[(0, 0, 0), (3, 4, 0)], [("u", ["a", "b"])], some 3⟩ : File (ℝ × ℝ × ℝ) String Nat),
      ⟨[(3, 4, 0), (0, 0, 0)], [("u", ["B", "A"])], some 4⟩],
      2 ≤ f.centers.length ∧ Separated spaceDist 1 f.centers ∧ Complete [] f ∧ f.time ≠ some 0 := by
  have h5 : spaceDist (0, 0, 0) (3, 4, 0) = 5 := by
    unfold spaceDist
    rw [show ((3 : ℝ) - 0) ^ 2 + (4 - 0) ^ 2 + (0 - 0) ^ 2 = 5 ^ 2 by norm_num]
    exact Real.sqrt_sq (by norm_num)
  have h5' : spaceDist (3, 4, 0) (0, 0, 0) = 5 := by rw [spaceDist_isDist.symm]; exact h5
  have two : ∀ a b : ℝ × ℝ × ℝ, spaceDist a b = 5 → spaceDist b a = 5 → Separated spaceDist 1 [a, b] := by
    intro a b hab hba i j x y hx hy hij
    match i, j with
    | 0, 0 => exact absurd rfl hij
    | 0, 1 => simp at hx hy; subst hx hy; rw [hab]; norm_num
    | 1, 0 => simp at hx hy; subst hx hy; rw [hba]; norm_num
    | 1, 1 => exact absurd rfl hij
    | n + 2, _ => simp at hx
    | 0, n + 2 => simp at hy
    | 1, n + 2 => simp at hy
  constructor
  · classical
    refine ⟨fun ref => if h : ref ≠ [] then (exists_nearest spaceDist h).choose else fun _ => 0, fun ref h => ?_⟩
    simp only [dif_pos h]
    exact (exists_nearest spaceDist h).choose_spec
  · intro f hf
    simp only [List.mem_cons, List.not_mem_nil, or_false] at hf
    rcases hf with rfl | rfl
    · refine ⟨by simp, two _ _ h5 h5', ?_, by simp⟩
      intro name hn
      simp only [keptNames, if_true, Dict.keys, List.map_cons, List.map_nil, List.mem_singleton] at hn
      subst hn
      exact ⟨_, rfl, rfl⟩
    · refine ⟨by simp, two _ _ h5' h5, ?_, by simp⟩
      intro name hn
      simp only [keptNames, if_true, Dict.keys, List.map_cons, List.map_nil, List.mem_singleton] at hn
      subst hn
      exact ⟨_, rfl, rfl⟩

/-- Three cells far from each other. -/
theorem three_apart (a b c : Int) (h : 2 < intDist a b ∧ 2 < intDist b c ∧ 2 < intDist a c) : Separated intDist 1 [a, b, c] := by
  intro i j x y hx hy hij
  have h3 : ∀ (i : Nat) (x : Int), [a, b, c][i]? = some x → (i = 0 ∧ x = a) ∨ (i = 1 ∧ x = b) ∨ (i = 2 ∧ x = c) := by
    intro i x h
    match i with
    | 0 => simp at h; exact .inl ⟨rfl, h.symm⟩
    | 1 => simp at h; exact .inr (.inl ⟨rfl, h.symm⟩)
    | 2 => simp at h; exact .inr (.inr ⟨rfl, h.symm⟩)
    | n + 3 => simp at h
  have hs := intDist_isDist.symm
  obtain ⟨h1, h2, h4⟩ := h
  rcases h3 i x hx with ⟨rfl, rfl⟩ | ⟨rfl, rfl⟩ | ⟨rfl, rfl⟩ <;> rcases h3 j y hy with ⟨rfl, rfl⟩ | ⟨rfl, rfl⟩ | ⟨rfl, rfl⟩ <;>
    first
      | exact absurd rfl hij
      | (show (1 : Int) + 1 < _; omega)
      | (show (1 : Int) + 1 < _; rw [hs]; omega)

/-- The hypotheses hold for the two files of `twoFiles`, which are read. -/
example : (∀ f ∈ twoFiles, 2 ≤ f.centers.length ∧ Separated intDist 1 f.centers ∧ Complete [] f ∧ f.time ≠ some 0) ∧
    IsNearest intDist [0, 10, 20] (closest [0, 10, 20]) ∧ ∃ s, readSeries intDist closest 1 [] twoFiles = .ok s := by
  refine ⟨?_, closest_isNearest _ (by decide), _, rfl⟩
  intro f hf
  simp only [twoFiles, List.mem_cons, List.not_mem_nil, or_false] at hf
  rcases hf with rfl | rfl
  all_goals
    refine ⟨by decide, three_apart _ _ _ (by decide), ?_, by decide⟩
    intro name hn
    simp only [keptNames, if_true, Dict.keys, List.map_cons, List.map_nil, List.mem_singleton] at hn
    subst hn
    exact ⟨_, rfl, rfl⟩

end Cfd.Vtk
