import Verif.Lemmas.Ic3Read
import Verif.Lemmas.Mesh

/-! From the mesh given to the state of the writer. -/

namespace Cfd.Ic3
open Spec Spec.Ic3

theorem mapM_keys {V W : Type} {d : Dict String V} {g : String × V → Py W} {r : Dict String W}
    (h : (d.mapM fun p => do let b ← g p; return (p.1, b)) = .ok r) : r.keys = d.keys := by
  induction d generalizing r with
  | nil => simp only [List.mapM_nil, Except_pure, Except.ok.injEq] at h; subst h; rfl
  | cons x t ih =>
    simp only [List.mapM_cons, bind_eq_ok] at h
    obtain ⟨y, ⟨b, _, h1⟩, ys, h2, h3⟩ := h
    simp only [Except_pure, Except.ok.injEq] at h1 h3
    subst h1 h3
    simp only [Dict.keys, List.map_cons] at ih ⊢
    rw [ih h2]

theorem bocosToFaces_keys {m m' : Mesh F64} (h : m.bocosToFaces = .ok m') :
    m'.bocos.keys = m.bocos.keys := by
  unfold Mesh.bocosToFaces at h
  split at h
  · simp at h
  · simp only [bind_eq_ok] at h
    obtain ⟨_, _, b, h1, h2⟩ := h
    simp only [Except_pure, Except.ok.injEq] at h2
    subst h2
    exact mapM_keys h1

theorem reindexBoundary_keys {m m' : Mesh F64} (h : m.reindexBoundary = .ok m') :
    m'.bocos.keys = m.bocos.keys := by
  unfold Mesh.reindexBoundary at h
  split at h
  · simp at h
  · simp only [bind_eq_ok] at h
    obtain ⟨_, _, _, _, _, _, h⟩ := h
    split at h
    · split at h
      · simp at h
      · simp only [bind_eq_ok] at h
        obtain ⟨_, _, _, _, b, h1, _, _, _, _, h2⟩ := h
        split at h2
        · simp at h2
        · simp only [bind_eq_ok] at h2
          obtain ⟨_, _, h2⟩ := h2
          simp only [Except_pure, Except.ok.injEq] at h2
          subst h2
          exact mapM_keys h1
    · simp at h

theorem makeFaces_bocos {tbl : FaceTable} {m m' : Mesh F64} (h : m.makeFaces tbl = .ok m') :
    m'.bocos = m.bocos := by
  unfold Mesh.makeFaces at h
  split at h
  · simp at h
  · simp only [bind_eq_ok] at h
    obtain ⟨r, _, m2, h1, h2⟩ := h
    unfold Mesh.addFaces at h1 h2
    simp only [Mesh.faceKinds, List.mem_cons, true_or, or_true, if_true, Except.ok.injEq] at h1 h2
    subst h1
    subst h2
    unfold Mesh.popFaces
    split <;> rfl

theorem makeUnmarked_keys {so : List Int → List Int} {m : Mesh F64} {name : String}
    {r : List Int × Mesh F64} (h : m.makeUnmarked so name = .ok r) :
    ∀ k ∈ r.2.bocos.keys, k ∈ m.bocos.keys ∨ k = name := by
  unfold Mesh.makeUnmarked at h
  split at h
  · simp only [Except.ok.injEq] at h; subst h; exact fun k hk => .inl hk
  · simp only [bind_eq_ok] at h
    obtain ⟨_, _, _, _, _, _, h⟩ := h
    split at h
    · simp only [Except_pure, Except.ok.injEq] at h; subst h; exact fun k hk => .inl hk
    · simp only [Except_pure, Except.ok.injEq] at h; subst h
      intro k hk
      simp only [Mesh.addBoco] at hk
      obtain ⟨v, hv⟩ := Dict.mem_keys_iff.1 hk
      by_cases hkn : k = name
      · exact .inr hkn
      · rw [Dict.get?_set_ne _ _ hkn] at hv
        exact .inl (Dict.mem_keys_iff.2 ⟨v, hv⟩)

/-- Completing the mesh adds at most the mark `unmarked`. -/
theorem completeMesh_keys {tbl : FaceTable} {so : List Int → List Int} {m m' : Mesh F64}
    (h : completeMesh tbl so m = .ok m') :
    ∀ k ∈ m'.bocos.keys, k ∈ m.bocos.keys ∨ k = "unmarked" := by
  unfold completeMesh at h
  simp only [bind_eq_ok] at h
  obtain ⟨m1, h1, m2, h2, m3, h3, h4⟩ := h
  have k1 : m1.bocos.keys = m.bocos.keys := by
    unfold needFaces at h1
    split at h1
    · rw [makeFaces_bocos h1]
    · simp only [Except.ok.injEq] at h1; rw [h1]
  have k2 : m2.bocos.keys = m1.bocos.keys := by
    unfold needFaceMarks at h2
    split at h2
    · exact bocosToFaces_keys h2
    · simp only [Except.ok.injEq] at h2; rw [h2]
  have k3 : ∀ k ∈ m3.bocos.keys, k ∈ m2.bocos.keys ∨ k = "unmarked" := by
    unfold needUnmarked at h3
    split at h3
    · cases h5 : m2.makeUnmarked so "unmarked" with
      | error er => rw [h5] at h3; simp [Except.map] at h3
      | ok r =>
        rw [h5] at h3
        simp only [Except.map, Except.ok.injEq] at h3
        subst h3
        exact makeUnmarked_keys h5
    · simp only [Except.ok.injEq] at h3; rw [h3]; exact fun k hk => .inl hk
  have k4 : m'.bocos.keys = m3.bocos.keys := by
    unfold needReindex at h4
    split at h4
    · exact reindexBoundary_keys h4
    · simp only [Except.ok.injEq] at h4; rw [h4]
  intro k hk
  rw [k4] at hk
  have := k3 k hk
  rwa [k2, k1] at this

/-- Completing the mesh changes neither nodes nor cells. -/
theorem completeMesh_cells {tbl : FaceTable} {so : List Int → List Int} {m m' : Mesh F64}
    (h : completeMesh tbl so m = .ok m') :
    m'.cell2node = m.cell2node ∧ m'.coords = m.coords ∧ m'.ncell = m.ncell ∧ m'.nnode = m.nnode := by
  unfold completeMesh at h
  simp only [bind_eq_ok] at h
  obtain ⟨m1, h1, m2, h2, m3, h3, h4⟩ := h
  have k1 : m1.cell2node = m.cell2node ∧ m1.coords = m.coords ∧ m1.ncell = m.ncell ∧ m1.nnode = m.nnode := by
    unfold needFaces at h1
    split at h1
    · unfold Mesh.makeFaces at h1
      split at h1
      · simp at h1
      · simp only [bind_eq_ok] at h1
        obtain ⟨r, _, m2, h1, h2⟩ := h1
        unfold Mesh.addFaces at h1 h2
        simp only [Mesh.faceKinds, List.mem_cons, true_or, or_true, if_true, Except.ok.injEq] at h1 h2
        subst h1
        subst h2
        unfold Mesh.popFaces
        split <;> exact ⟨rfl, rfl, rfl, rfl⟩
    · simp only [Except.ok.injEq] at h1; rw [h1]; exact ⟨rfl, rfl, rfl, rfl⟩
  have k2 : m2.cell2node = m1.cell2node ∧ m2.coords = m1.coords ∧ m2.ncell = m1.ncell ∧ m2.nnode = m1.nnode := by
    unfold needFaceMarks at h2
    split at h2
    · unfold Mesh.bocosToFaces at h2
      split at h2
      · simp at h2
      · simp only [bind_eq_ok] at h2
        obtain ⟨_, _, b, _, h2⟩ := h2
        simp only [Except_pure, Except.ok.injEq] at h2
        rw [← h2]
        exact ⟨rfl, rfl, rfl, rfl⟩
    · simp only [Except.ok.injEq] at h2; rw [h2]; exact ⟨rfl, rfl, rfl, rfl⟩
  have k3 : m3.cell2node = m2.cell2node ∧ m3.coords = m2.coords ∧ m3.ncell = m2.ncell ∧ m3.nnode = m2.nnode := by
    unfold needUnmarked at h3
    split at h3
    · cases h5 : m2.makeUnmarked so "unmarked" with
      | error er => rw [h5] at h3; simp [Except.map] at h3
      | ok r =>
        rw [h5] at h3
        simp only [Except.map, Except.ok.injEq] at h3
        subst h3
        unfold Mesh.makeUnmarked at h5
        split at h5
        · simp only [Except.ok.injEq] at h5; rw [← h5]; exact ⟨rfl, rfl, rfl, rfl⟩
        · simp only [bind_eq_ok] at h5
          obtain ⟨_, _, _, _, _, _, h5⟩ := h5
          split at h5 <;>
            (simp only [Except_pure, Except.ok.injEq] at h5; rw [← h5]; exact ⟨rfl, rfl, rfl, rfl⟩)
    · simp only [Except.ok.injEq] at h3; rw [h3]; exact ⟨rfl, rfl, rfl, rfl⟩
  have k4 : m'.cell2node = m3.cell2node ∧ m'.coords = m3.coords ∧ m'.ncell = m3.ncell ∧ m'.nnode = m3.nnode := by
    unfold needReindex at h4
    split at h4
    · unfold Mesh.reindexBoundary at h4
      split at h4
      · simp at h4
      · simp only [bind_eq_ok] at h4
        obtain ⟨_, _, _, _, _, _, h⟩ := h4
        split at h
        · split at h
          · simp at h
          · simp only [bind_eq_ok] at h
            obtain ⟨_, _, _, _, b, _, _, _, _, _, h2⟩ := h
            split at h2
            · simp at h2
            · simp only [bind_eq_ok] at h2
              obtain ⟨_, _, h2⟩ := h2
              simp only [Except_pure, Except.ok.injEq] at h2
              rw [← h2]
              exact ⟨rfl, rfl, rfl, rfl⟩
        · simp at h
    · simp only [Except.ok.injEq] at h4; rw [h4]; exact ⟨rfl, rfl, rfl, rfl⟩
  obtain ⟨a1, a2, a3, a4⟩ := k1
  obtain ⟨b1, b2, b3, b4⟩ := k2
  obtain ⟨c1, c2, c3, c4⟩ := k3
  obtain ⟨d1, d2, d3, d4⟩ := k4
  exact ⟨d1.trans (c1.trans (b1.trans a1)), d2.trans (c2.trans (b2.trans a2)), d3.trans (c3.trans (b3.trans a3)),
    d4.trans (c4.trans (b4.trans a4))⟩

/-- What `set_mesh` puts in the writer. -/
theorem setMesh_ok {f : FullMesh} {m : Mesh F64} {w : WState} (h : setMesh f m = .ok w) :
    ∃ c zf, m.coords = some c ∧ (stackCoords c).length = m.nnode ∧ writerFaces m = .ok zf ∧
      w = { nno := m.nnode, nfa := m.nface, ncv := m.ncell, coords := stackCoords c
            noofa := ElemConn.diffs zf.1.index, noofaV := zf.1.value, f2e := zf.2
            part := (match f.partition with
              | none => some ⟨some 1, .arr (List.replicate m.ncell 0)⟩
              | some p => p)
            bocos := m.bocos.filter fun p => decide (p.2.type ≠ "internal")
            sim := setSimstate f.params, cells := f.cells, nodes := f.nodes } := by
  unfold setMesh at h
  split at h
  · simp at h
  · rename_i c hc
    simp only [bind_eq_ok, pyAssert_eq_ok, decide_eq_true_eq] at h
    obtain ⟨_, h1, zf, h2, h3⟩ := h
    simp only [Except_pure, Except.ok.injEq] at h3
    exact ⟨c, zf, hc, h1, h2, h3.symm⟩

theorem namesOK_of_fit {tbl : FaceTable} {so : List Int → List Int} {f : FullMesh} {m : Mesh F64}
    {w : WState} (hn : NamesFit f) (h1 : completeMesh tbl so f.mesh = .ok m) (h2 : setMesh f m = .ok w) :
    NamesOK w := by
  obtain ⟨c, zf, _, _, _, rfl⟩ := setMesh_ok h2
  refine ⟨?_, ?_, hn.nodes, hn.cells⟩
  · intro p hp
    have hp := (List.mem_filter.1 hp).1
    have hk : p.1 ∈ m.bocos.keys := List.mem_map.2 ⟨p, hp, rfl⟩
    rcases completeMesh_keys h1 _ hk with hk | hk
    · obtain ⟨q, hq, e⟩ := List.mem_map.1 hk
      rw [← e]
      exact hn.marks q hq
    · rw [hk]; decide
  · intro p hp
    simp only [setSimstate] at hp
    cases hg : f.params.get? "wgt" with
    | none => rw [hg] at hp; simp [wgtsOf] at hp
    | some s =>
      rw [hg] at hp
      cases s with
      | int n => simp [wgtsOf] at hp
      | f64 n => simp [wgtsOf] at hp
      | wgts d => exact hn.weights d hg p hp

end Cfd.Ic3
