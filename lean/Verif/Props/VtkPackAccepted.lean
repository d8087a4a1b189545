import Verif.Props.VtkAccepted
import Verif.Props.VtkPack

/-!
# What a successful `vtkpack` has written (C73)

`C73_packs` says what is written for files known to have the same cells. Here nothing is known but that the command succeeded.
-/

namespace Cfd.VtkPack
open Cfd.Vtk Cfd.Xdmf Cfd.Spec Cfd.Spec.Vtk Cfd.Spec.VtkPack

variable {R V T K Loc : Type} [LinearOrder K] [Zero T] [DecidableEq T] [DecidableEq Loc]

/-- A file of two cells or more, more than twice the tolerance apart, with one value per cell for every variable, none of them named
`time`, and a time other than 0. Nothing is said of other files. -/
structure Usual [Add K] (env : PackEnv R V T K) (f : VtkFile R V T) : Prop where
  count : 2 ≤ (env.centers f.grid).length
  apart : Separated env.dist env.tol (env.centers f.grid)
  sizes : ∀ name v, f.data.get? name = some v → v.length = (env.centers f.grid).length
  names : f.data.keys.Nodup ∧ "time" ∉ f.data.keys
  time : f.time ≠ some 0

/-- Such a file has the cells of the first one, or is foreign. -/
theorem same_or_foreign [Add K] [AddLeftMono K] [AddRightMono K] {env : PackEnv R V T K} (hd : IsDist env.dist) {f0 f : VtkFile R V T}
    (h0 : Usual env f0) (h : Usual env f) : SameSeries env f0 f ∨ Foreign env f0 f := by
  by_cases hf : Foreign env f0 f
  · exact .inr hf
  left
  unfold Foreign at hf
  simp only [not_or, not_and] at hf
  obtain ⟨h1, h2⟩ := hf
  have hc0 := h0.count
  have hc := h.count
  have hlen : (env.centers f.grid).length = (env.centers f0.grid).length := by
    by_contra hne
    exact h1 hne (by omega) (by omega)
  refine ⟨near_centers hd hlen h.apart fun p hp => ?_, h.sizes, h.names, h.time⟩
  by_contra hno
  push Not at hno
  exact h2 hlen ⟨p, hp, hno⟩

/-- **C73, success.** Whatever files are given (two cells or more in each, more than twice the tolerance apart): if `vtkpack`
succeeds, every file has the cells of the first one up to the tolerance, the name returned is that of a new file, `dumped.h5` or the first
free `dumped(i).h5`, no other file is changed, and this file has the points and cells of the first grid and each value of each variable of
each file at the number in the first grid of the cell at the same place. -/
theorem C73_success [Add K] [AddLeftMono K] [AddRightMono K] (env : PackEnv R V T K) (s s' : Fs Loc) (fuel : Nat) (n0 name : Name)
    (names : List Name) (f0 : VtkFile R V T) (files : List (VtkFile R V T)) (hd : IsDist env.dist)
    (hc : Contents env s (n0 :: names) (f0 :: files))
    (hnn : IsNearest env.dist (env.centers f0.grid) (env.nn (env.centers f0.grid)))
    (hf : ∀ f ∈ f0 :: files, Usual env f) (hg : KnownCells f0.grid)
    (h : vtkpack env s fuel (n0 :: names) = some (s', .ok name)) :
    (∀ f ∈ f0 :: files, ∃ σ, SameCenters env.dist env.tol (env.centers f0.grid) (env.centers f.grid) σ) ∧
    ∃ changed p x, SafeName s.has (PyPath.parse "dumped.h5".toList) changed p ∧ name = p.str ∧ Packed env f0 (f0 :: files) x ∧
      s'.content (s.resolve p.str) = some (env.enc x) ∧ ∀ l, l ≠ s.resolve p.str → s'.content l = s.content l := by
  have h0 := hf f0 (by simp)
  have hs : ∀ f ∈ f0 :: files, SameSeries env f0 f := by
    intro f hm
    rcases same_or_foreign hd h0 (hf f hm) with h1 | h1
    · exact h1
    · obtain ⟨e, he⟩ := C73_foreign env s n0 names f0 files hc hnn ⟨f, hm, h1⟩
      rw [he fuel] at h
      cases h
  refine ⟨fun f hm => (hs f hm).cells, ?_⟩
  have hne : env.centers f0.grid ≠ [] := by
    have := h0.count
    rintro e
    rw [e] at this
    simp at this
  obtain ⟨d, e, hst⟩ := readList_ok hd hc hne hnn h0.apart hs
  obtain ⟨m, x, hm, hx, hp⟩ := packed_of_steps hg (fun f hf' => (hs f hf').names.2) hst
  unfold vtkpack at h
  split at h
  · rw [e] at h
    simp only at h
    unfold dumpSeries at h
    rw [hm] at h
    simp only at h
    cases hq : findSafe s.has fuel (PyPath.parse "dumped.h5".toList) with
    | none => rw [hq] at h; cases h
    | some cp =>
      obtain ⟨changed, q⟩ := cp
      rw [hq] at h
      simp only at h
      rw [hx] at h
      simp only [Option.some.injEq, Prod.mk.injEq, Except.ok.injEq] at h
      obtain ⟨rfl, rfl⟩ := h
      exact ⟨changed, q, x, C35_safe_name _ _ _ _ _ hq, rfl, hp, by simp [Fs.write], fun l hl => by simp [Fs.write, hl]⟩
  · cases h

/-- **C73, exactly.** For such files the command succeeds if and only if every file has the cells of the first one up to the
tolerance; otherwise it fails and nothing changes. -/
theorem C73_succeeds_iff [Add K] [AddLeftMono K] [AddRightMono K] (env : PackEnv R V T K) (s : Fs Loc) (n0 : Name)
    (names : List Name) (f0 : VtkFile R V T) (files : List (VtkFile R V T)) (hd : IsDist env.dist)
    (hc : Contents env s (n0 :: names) (f0 :: files))
    (hnn : IsNearest env.dist (env.centers f0.grid) (env.nn (env.centers f0.grid)))
    (hf : ∀ f ∈ f0 :: files, Usual env f) (hg : KnownCells f0.grid)
    (hfin : FiniteFolder s.has (PyPath.parse "dumped.h5".toList).parent) :
    ((∀ f ∈ f0 :: files, ∃ σ, SameCenters env.dist env.tol (env.centers f0.grid) (env.centers f.grid) σ) ↔
      ∃ fuel s' name, vtkpack env s fuel (n0 :: names) = some (s', .ok name)) ∧
    (¬ (∀ f ∈ f0 :: files, ∃ σ, SameCenters env.dist env.tol (env.centers f0.grid) (env.centers f.grid) σ) →
      ∃ e, ∀ fuel, vtkpack env s fuel (n0 :: names) = some (s, .error e)) := by
  have h0 := hf f0 (by simp)
  refine ⟨⟨fun hs => ?_, ?_⟩, fun hno => ?_⟩
  · have hne : env.centers f0.grid ≠ [] := by
      have := h0.count
      rintro e
      rw [e] at this
      simp at this
    obtain ⟨n, -, p, -, s', -, -, -, -, h⟩ := C73_packs env s n0 names f0 files hd hc hne hnn h0.apart
      (fun f hm => ⟨hs f hm, (hf f hm).sizes, (hf f hm).names, (hf f hm).time⟩) hg hfin
    exact ⟨n, s', p.str, h n le_rfl⟩
  · rintro ⟨fuel, s', name, h⟩
    exact (C73_success env s s' fuel n0 name names f0 files hd hc hnn hf hg h).1
  · refine C73_foreign env s n0 names f0 files hc hnn ?_
    by_contra hnf
    refine hno fun f hm => ?_
    rcases same_or_foreign hd h0 (hf f hm) with h1 | h1
    · exact h1.cells
    · exact absurd ⟨f, hm, h1⟩ hnf

/-- The hypotheses hold for the two files of the demonstration. -/
theorem demo_usual : ∀ f ∈ [(⟨twoGrid, [("p", ["a", "b"])], some 3⟩ : VtkFile Int String Nat),
    ⟨twoGridBack, [("p", ["c", "d"]), ("q", ["e", "f"])], none⟩], Usual demoPack f := by
  intro f hf
  simp only [List.mem_cons, List.not_mem_nil, or_false] at hf
  rcases hf with rfl | rfl
  · refine ⟨by decide, ?_, ?_, by decide, by decide⟩
    · intro i j a b
      have e : demoPack.centers twoGrid = [(0, 0, 0), (10, 0, 0)] := by decide
      simp only [e]
      rcases i with - | - | i <;> rcases j with - | - | j <;> simp <;> intros <;> subst_vars <;> decide
    · intro name v hv
      have := Dict.mem_of_get? hv
      simp only [List.mem_singleton, Prod.mk.injEq] at this
      obtain ⟨-, rfl⟩ := this
      decide
  · refine ⟨by decide, ?_, ?_, by decide, by decide⟩
    · intro i j a b
      have e : demoPack.centers twoGridBack = [(10, 0, 0), (0, 0, 0)] := by decide
      simp only [e]
      rcases i with - | - | i <;> rcases j with - | - | j <;> simp <;> intros <;> subst_vars <;> decide
    · intro name v hv
      have := Dict.mem_of_get? hv
      simp only [List.mem_cons, List.not_mem_nil, or_false, Prod.mk.injEq] at this
      rcases this with ⟨-, rfl⟩ | ⟨-, rfl⟩ <;> decide

example := C73_succeeds_iff demoPack demoFs "a.vtu".toList ["b.vtu".toList] _ _ demo_dist
  (.cons ⟨[0], by decide, rfl⟩ (.cons ⟨[1], by decide, rfl⟩ .nil)) (demo_nearest _ (by decide)) demo_usual
  (by unfold KnownCells; decide +kernel) demoFs_finite

example (s' : Fs Name) (h : vtkpack demoPack demoFs 5 ["a.vtu".toList, "b.vtu".toList] = some (s', .ok "dumped.h5".toList)) :=
  C73_success demoPack demoFs s' 5 "a.vtu".toList "dumped.h5".toList ["b.vtu".toList] _ _ demo_dist
    (.cons ⟨[0], by decide, rfl⟩ (.cons ⟨[1], by decide, rfl⟩ .nil)) (demo_nearest _ (by decide)) demo_usual
    (by unfold KnownCells; decide +kernel) h

end Cfd.VtkPack
