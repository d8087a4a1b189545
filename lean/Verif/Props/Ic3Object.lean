import Verif.Spec.Ic3Object
import Verif.Props.Ic3Cells

/-!
# One mesh object given to several IC3 writers (C79)
-/

namespace Cfd.Ic3
open Spec ElemConn

/-- A mesh that has everything is left as it is. -/
theorem complete_fixed (tbl : FaceTable) {so : List Int → List Int} (hso : Reorders so) {m : Mesh F64} (hf : m.faces ≠ [])
    (hn : ∀ p ∈ m.bocos, p.2.nodebased = false) (hl : ∀ p ∈ m.bocos, isListIndex p.2.index = false)
    (hb : ∀ fs, m.faces.get? "boundary" = some fs → ConnWF fs.f2n ∧ MarksSet m ∧ MarksOnFaces m ∧
      ∀ i ∈ allIndices fs.f2n, i ∈ marked m) :
    completeMesh tbl so m = .ok m := by
  unfold completeMesh needFaces
  rw [if_neg (by simpa using hf), Except_bind_ok]
  unfold needFaceMarks
  rw [if_neg (by
    rw [List.any_eq_true]
    rintro ⟨p, hp, h⟩
    rw [hn p hp] at h
    simp at h), Except_bind_ok]
  have h3 : needUnmarked so m = .ok m := by
    unfold needUnmarked
    split
    · cases hfs : m.faces.get? "boundary" with
      | none => unfold Mesh.makeUnmarked; rw [hfs]; rfl
      | some fs =>
        obtain ⟨h1, h2, h3, h4⟩ := hb fs hfs
        obtain ⟨missing, hm, hu⟩ := makeUnmarked_ok so hfs h1.entries h2 h3 "unmarked"
        have : missing = [] := by
          rw [List.eq_nil_iff_forall_not_mem]
          intro i hi
          rw [hm, (hso _).mem_iff, List.mem_filter, List.mem_dedup] at hi
          have := h4 i hi.1
          simp [this] at hi
        rw [hu, if_pos this]
        rfl
    · rfl
  rw [h3, Except_bind_ok]
  unfold needReindex
  rw [if_neg (by
    rw [List.any_eq_true]
    rintro ⟨p, hp, h⟩
    rw [hl p hp] at h
    simp at h)]

theorem source_of_mapped {α β : Type} {S : α → β → Prop} {l : List α} {l' : List β} (h : List.Forall₂ S l l') {b : β} (hb : b ∈ l') :
    ∃ a ∈ l, S a b := by
  induction h with
  | nil => cases hb
  | cons h0 _ ih =>
    rcases List.mem_cons.1 hb with rfl | hb
    · exact ⟨_, List.mem_cons_self, h0⟩
    · obtain ⟨a, ha, hs⟩ := ih hb
      exact ⟨a, List.mem_cons_of_mem _ ha, hs⟩

/-- What the first two steps give. -/
theorem completed_start {tbl : FaceTable} (ht : TableWF tbl) {m m1 m2 : Mesh F64} (hm : GivenMesh m)
    (h1 : needFaces tbl m = .ok m1) (h2 : needFaceMarks m1 = .ok m2) :
    m2.faces ≠ [] ∧ (∀ fs, m2.faces.get? "boundary" = some fs → ∃ rows, FaceSetWF fs rows) ∧ MarksSet m2 ∧
    ∀ p ∈ m2.bocos, p.2.nodebased = false := by
  have k1 : m1.faces ≠ [] ∧ (∀ fs, m1.faces.get? "boundary" = some fs → ∃ rows, FaceSetWF fs rows) ∧ MarksSet m1 := by
    unfold needFaces at h1
    split at h1
    · rename_i hf
      have hf : m.faces = [] := by simpa using hf
      have hbo := makeFaces_bocos h1
      unfold Mesh.makeFaces at h1
      split at h1
      · simp at h1
      · rename_i c hc
        obtain ⟨hcw, hcn⟩ := hm.cells hf c hc
        simp only [bind_eq_ok] at h1
        obtain ⟨r, hr, m2, e1, e2⟩ := h1
        unfold Mesh.addFaces at e1 e2
        simp only [Mesh.faceKinds, List.mem_cons, true_or, or_true, if_true, Except.ok.injEq] at e1 e2
        have hset : m1.faces.get? "boundary" = some ⟨r.boundary, some r.b2c⟩ := by
          rw [← e2]
          exact Dict.get?_set_self _ _ _
        refine ⟨?_, ?_, ?_⟩
        · intro h0
          rw [h0] at hset
          cases hset
        · intro fs hfs
          rw [hset] at hfs
          cases hfs
          exact ⟨_, (faceSetWF_generated ht hcw hcn hr).1⟩
        · intro p hp
          rw [hbo] at hp
          exact hm.marks p hp
    · rename_i hf
      simp only [Except.ok.injEq] at h1
      rw [← h1]
      exact ⟨by simpa using hf, hm.boundary, hm.marks⟩
  obtain ⟨a, b, c⟩ := k1
  unfold needFaceMarks at h2
  split at h2
  · unfold Mesh.bocosToFaces at h2
    split at h2
    · simp at h2
    · simp only [bind_eq_ok] at h2
      obtain ⟨tuples, _, bs, hbs, h2⟩ := h2
      simp only [Except_pure, Except.ok.injEq] at h2
      rw [← h2]
      have hF := mapM_ok_iff.1 hbs
      have key : ∀ p ∈ bs, p.2.index ≠ .unset ∧ p.2.nodebased = false := by
        intro p hp
        obtain ⟨q, hq, hqp⟩ := source_of_mapped hF hp
        simp only [bind_eq_ok, Except_pure, Except.ok.injEq] at hqp
        obtain ⟨b', hb', rfl⟩ := hqp
        unfold Mesh.markToFace at hb'
        split at hb'
        · simp only [bind_eq_ok, Except_pure, Except.ok.injEq] at hb'
          obtain ⟨_, _, hb'⟩ := hb'
          rw [← hb']
          exact ⟨by simp, by simp [Mark.nodebased]⟩
        · rename_i hnb
          simp only [Except.ok.injEq] at hb'
          rw [← hb']
          exact ⟨c q hq, by simpa using hnb⟩
      exact ⟨a, b, fun p hp => (key p hp).1, fun p hp => (key p hp).2⟩
  · rename_i hno
    simp only [Except.ok.injEq] at h2
    rw [← h2]
    refine ⟨a, b, c, fun p hp => ?_⟩
    cases hb : p.2.nodebased with
    | false => rfl
    | true => exact absurd (List.any_eq_true.2 ⟨p, hp, hb⟩) hno

/-- A completed mesh has everything. -/
theorem completed_facts {tbl : FaceTable} (ht : TableWF tbl) {so : List Int → List Int} (hso : Reorders so)
    {m m' : Mesh F64} (hm : GivenMesh m) (h : completeMesh tbl so m = .ok m') :
    m'.faces ≠ [] ∧ (∀ p ∈ m'.bocos, p.2.nodebased = false) ∧ (∀ p ∈ m'.bocos, isListIndex p.2.index = false) ∧
    ∀ fs, m'.faces.get? "boundary" = some fs → ConnWF fs.f2n ∧ MarksSet m' ∧ MarksOnFaces m' ∧
      ∀ i ∈ allIndices fs.f2n, i ∈ marked m' := by
  unfold completeMesh at h
  simp only [bind_eq_ok] at h
  obtain ⟨m1, h1, m2, h2, m3, h3, h4⟩ := h
  obtain ⟨k1, k2, k3, k4⟩ := completed_start ht hm h1 h2
  by_cases hl : m3.bocos.any (fun p => isListIndex p.2.index) = true
  · -- the faces are renumbered
    unfold needReindex at h4
    rw [if_pos hl] at h4
    have hfs : ∃ fs, m3.faces.get? "boundary" = some fs := by
      unfold Mesh.reindexBoundary at h4
      split at h4
      · simp at h4
      · exact ⟨_, by assumption⟩
    obtain ⟨fs, hfs⟩ := hfs
    obtain ⟨hset3, hf3⟩ : MarksSet m3 ∧ m3.faces = m2.faces := by
      unfold needUnmarked at h3
      split at h3
      · cases h5 : m2.makeUnmarked so "unmarked" with
        | error er => rw [h5] at h3; simp [Except.map] at h3
        | ok r =>
          rw [h5] at h3
          simp only [Except.map, Except.ok.injEq] at h3
          unfold Mesh.makeUnmarked at h5
          split at h5
          · simp only [Except.ok.injEq] at h5
            rw [← h5] at h3
            rw [← h3]
            exact ⟨k3, rfl⟩
          · simp only [bind_eq_ok] at h5
            obtain ⟨_, _, _, _, _, _, h5⟩ := h5
            split at h5
            · simp only [Except_pure, Except.ok.injEq] at h5
              rw [← h5] at h3
              rw [← h3]
              exact ⟨k3, rfl⟩
            · simp only [Except_pure, Except.ok.injEq] at h5
              rw [← h5] at h3
              rw [← h3]
              refine ⟨fun p hp => ?_, rfl⟩
              rcases mem_set hp with hp | hp
              · rw [hp]; simp
              · exact k3 p hp
      · simp only [Except.ok.injEq] at h3
        rw [← h3]
        exact ⟨k3, rfl⟩
    obtain ⟨rows, wf⟩ := k2 fs (by rw [← hf3]; exact hfs)
    obtain ⟨hne, hnon, hperm, hon⟩ := C18_reindex_refuses m3 m' fs rows hfs wf hset3 h4
    obtain ⟨m5, σ, fs', rows', e1, e2, e3, e4, e5, e6, e7, e8, e9, e10⟩ :=
      C18_reindex_consistent m3 fs rows hfs wf hset3 hon hne hnon hperm
    rw [h4] at e1
    simp only [Except.ok.injEq] at e1
    rw [← e1] at e2 e3 e4 e9 e10
    have mark : ∀ p ∈ m'.bocos, ∃ q ∈ m3.bocos, p.2 = { q.2 with index := p.2.index } ∧
        markItems p.2 = (markItems q.2).map σ ∧ ∃ a b, p.2.index = .range a b := by
      intro p hp
      obtain ⟨k, hk, hkp⟩ := List.mem_iff_getElem.1 hp
      have hk3 : k < m3.bocos.length := by omega
      obtain ⟨b', start, g1, g2, g3, _, g5⟩ := e10 k m3.bocos[k].1 m3.bocos[k].2 (by rw [List.getElem?_eq_getElem hk3])
      rw [List.getElem?_eq_getElem hk, hkp] at g1
      simp only [Option.some.injEq] at g1
      rw [g1]
      exact ⟨m3.bocos[k], List.getElem_mem hk3, g2, g3, _, _, g5⟩
    refine ⟨?_, ?_, ?_, ?_⟩
    · intro h0
      rw [h0] at e4
      cases e4
    · intro p hp
      obtain ⟨q, hq, g, -⟩ := mark p hp
      have := hon q hq
      rw [g]
      unfold Mark.nodebased
      rcases this with h | h <;> simp [h]
    · intro p hp
      obtain ⟨q, hq, -, -, a, b, g⟩ := mark p hp
      rw [g]; rfl
    · intro gs hgs
      rw [e4] at hgs
      simp only [Option.some.injEq] at hgs
      rw [← hgs]
      refine ⟨e5.conn, ?_, ?_, ?_⟩
      · intro p hp
        obtain ⟨q, hq, -, -, a, b, g⟩ := mark p hp
        rw [g]; simp
      · intro p hp
        obtain ⟨q, hq, g, -⟩ := mark p hp
        rw [g]
        exact hon q hq
      · intro i hi
        have hall : allIndices fs'.f2n = (allIndices fs.f2n).map σ := by
          unfold allIndices
          rw [e7, List.map_map, List.map_map]
          rfl
        rw [hall, List.mem_map] at hi
        obtain ⟨j, hj, rfl⟩ := hi
        rw [← hperm.mem_iff] at hj
        unfold marked at hj ⊢
        rw [List.mem_flatMap] at hj ⊢
        obtain ⟨q, hq, hjq⟩ := hj
        obtain ⟨k, hk, hkq⟩ := List.mem_iff_getElem.1 hq
        obtain ⟨b', start, g1, g2, g3, _, g5⟩ := e10 k m3.bocos[k].1 m3.bocos[k].2 (by rw [List.getElem?_eq_getElem hk])
        refine ⟨_, List.mem_of_getElem? g1, ?_⟩
        rw [g3, hkq]
        exact List.mem_map_of_mem hjq
  · -- nothing is renumbered: no mark was made for unmarked faces
    unfold needReindex at h4
    rw [if_neg hl] at h4
    simp only [Except.ok.injEq] at h4
    rw [← h4]
    have hl' : ∀ p ∈ m3.bocos, isListIndex p.2.index = false := by
      intro p hp
      cases hb : isListIndex p.2.index with
      | false => rfl
      | true => exact absurd (List.any_eq_true.2 ⟨p, hp, hb⟩) hl
    cases hfs : m2.faces.get? "boundary" with
    | none =>
      have : m3 = m2 := by
        unfold needUnmarked Mesh.makeUnmarked at h3
        rw [hfs] at h3
        split at h3 <;> simpa [Except.map] using h3.symm
      rw [this] at hl' ⊢
      exact ⟨k1, k4, hl', fun fs h => by rw [hfs] at h; cases h⟩
    | some fs =>
      obtain ⟨rows, wf⟩ := k2 fs hfs
      unfold needUnmarked at h3
      rw [if_pos (by
        rw [List.contains_iff_mem]
        exact Dict.mem_keys_iff.2 ⟨fs, hfs⟩)] at h3
      have hon : MarksOnFaces m2 := by
        cases h5 : m2.makeUnmarked so "unmarked" with
        | error er => rw [h5] at h3; simp [Except.map] at h3
        | ok r =>
          unfold Mesh.makeUnmarked at h5
          rw [hfs] at h5
          simp only [bind_eq_ok] at h5
          obtain ⟨_, h5, _⟩ := h5
          rw [pyAssert_eq_ok, List.all_eq_true] at h5
          intro p hp
          have := h5 p hp
          unfold Mark.onFaces at this
          simpa using this
      obtain ⟨missing, hmiss, hu⟩ := makeUnmarked_ok so hfs wf.conn.entries k3 hon "unmarked"
      rw [hu] at h3
      simp only [Except.map, Except.ok.injEq] at h3
      by_cases he : missing = []
      · rw [if_pos he] at h3
        rw [← h3] at hl' ⊢
        refine ⟨k1, k4, hl', fun gs hgs => ?_⟩
        rw [hfs] at hgs
        simp only [Option.some.injEq] at hgs
        rw [← hgs]
        refine ⟨wf.conn, k3, hon, fun i hi => ?_⟩
        by_contra hn
        have : i ∈ missing := by
          rw [hmiss, (hso _).mem_iff, List.mem_filter, List.mem_dedup]
          exact ⟨hi, by simpa using hn⟩
        rw [he] at this
        cases this
      · rw [if_neg he] at h3
        have hmem : ("unmarked", (⟨"unmarked", .bdface, "boundary", .list missing, none⟩ : Mark)) ∈ m3.bocos := by
          rw [← h3]
          exact Dict.mem_of_get? (Dict.get?_set_self _ _ _)
        have := hl' _ hmem
        cases this

/-- Completing a completed mesh changes nothing, whatever the face table and the order of sets. -/
theorem complete_again {tbl : FaceTable} (ht : TableWF tbl) {so so' : List Int → List Int} (hso : Reorders so)
    (hso' : Reorders so') {m m' : Mesh F64} (hm : GivenMesh m) (h : completeMesh tbl so m = .ok m') (tbl' : FaceTable) :
    completeMesh tbl' so' m' = .ok m' := by
  obtain ⟨h1, h2, h3, h4⟩ := completed_facts ht hso hm h
  exact complete_fixed tbl' hso' h1 h2 h3 h4

/-- C79: when the first writer could be constructed, all files written from the mesh object (V2, V3 or V4, any byte order) are those
that would be written first from the mesh as it was given. -/
theorem C79_write_again {tbl : FaceTable} (ht : TableWF tbl) (host : Order) (h5 : H5) (cv : Conv) {so : List Int → List Int}
    (hso : Reorders so) (f : FullMesh) (hm : GivenMesh f.mesh) (m' : Mesh F64) (hc : completeMesh tbl so f.mesh = .ok m') (j : Job)
    (later : List ((List Int → List Int) × Job)) (hl : ∀ q ∈ later, Reorders q.1) :
    runJobs tbl host h5 cv f ((so, j) :: later) =
      runJob tbl host h5 cv so f j :: later.map fun q => runJob tbl host h5 cv so f q.2 := by
  have hjob : ∀ (so' : List Int → List Int) (j : Job), Reorders so' →
      runJob tbl host h5 cv so' { f with mesh := m' } j = runJob tbl host h5 cv so f j := by
    intro so' j hso'
    have he := complete_again ht hso hso' hm hc tbl
    cases j with
    | legacy e v =>
      simp only [runJob, writeIc3, he, hc]
      rfl
    | v4 sol =>
      simp only [runJob, writeV4, he, hc]
      rfl
  have hafter : ∀ so' : List Int → List Int, Reorders so' →
      afterWriter tbl so' { f with mesh := m' } = { f with mesh := m' } := by
    intro so' hso'
    simp only [afterWriter, complete_again ht hso hso' hm hc tbl]
  rw [runJobs]
  have h0 : afterWriter tbl so f = { f with mesh := m' } := by simp only [afterWriter, hc]
  rw [h0]
  congr 1
  clear h0 j
  induction later with
  | nil => rfl
  | cons q t ih =>
    obtain ⟨so', j⟩ := q
    have hq : Reorders so' := hl (so', j) List.mem_cons_self
    rw [runJobs, hafter so' hq, hjob so' j hq, ih fun q hq => hl q (List.mem_cons_of_mem _ hq)]
    rfl

/-- C79: the cells and the nodes of the mesh object are never changed by a writer. -/
theorem C79_cells_kept (tbl : FaceTable) (so : List Int → List Int) (f : FullMesh) :
    (afterWriter tbl so f).mesh.cell2node = f.mesh.cell2node ∧ (afterWriter tbl so f).mesh.coords = f.mesh.coords ∧
    (afterWriter tbl so f).mesh.ncell = f.mesh.ncell ∧ (afterWriter tbl so f).mesh.nnode = f.mesh.nnode := by
  unfold afterWriter
  cases h : completeMesh tbl so f.mesh with
  | error e => exact ⟨rfl, rfl, rfl, rfl⟩
  | ok m => exact completeMesh_cells h

/-- C79: a mesh that has marks once it was given to a writer cannot be extruded any more. -/
theorem C79_no_extrusion [Add F64] [Mul F64] {tbl : FaceTable} (ht : TableWF tbl) {so : List Int → List Int} (hso : Reorders so)
    (m m' : Mesh F64) (hm : GivenMesh m) (hc : completeMesh tbl so m = .ok m') (hb : m'.bocos ≠ [])
    (so' : List Int → List Int) (direction : F64 × F64 × F64) (planes : List F64) (domain : String) :
    ∃ e, m'.exportExtruded so' direction planes domain = .error e := by
  obtain ⟨-, hn, -⟩ := completed_facts ht hso hm hc
  cases h : m'.exportExtruded so' direction planes domain with
  | error e => exact ⟨e, rfl⟩
  | ok r =>
    exfalso
    unfold Mesh.exportExtruded at h
    simp only [bind_eq_ok] at h
    obtain ⟨_, _, nd, _, new, _, h⟩ := h
    split at h
    · cases h
    · simp only [bind_eq_ok] at h
      obtain ⟨c', _, new', h, _⟩ := h
      obtain ⟨p, t, hp⟩ := List.exists_cons_of_ne_nil hb
      have hpn := hn p (by rw [hp]; simp)
      rw [hp, List.foldlM_cons] at h
      simp only [bind_eq_ok] at h
      obtain ⟨_, ⟨_, h, _⟩, _⟩ := h
      unfold Mesh.extrudeMark at h
      simp only [bind_eq_ok] at h
      obtain ⟨_, h, _⟩ := h
      rw [pyAssert_eq_ok, hpn] at h
      cases h

/-- Two tetrahedra with node marks. -/
theorem tetPair_given : GivenMesh tetPair.mesh where
  marks := by unfold MarksSet; decide
  boundary := by intro fs h; cases h
  cells := by
    intro _ c h
    cases h
    exact ⟨exTetras_wf, by decide⟩

theorem tetPair_completes : ∃ m', completeMesh cgnsElem2faces id tetPair.mesh = .ok m' ∧ m'.bocos ≠ [] := by
  have h : (match completeMesh cgnsElem2faces id tetPair.mesh with
    | .ok m => !m.bocos.isEmpty
    | .error _ => false) = true := by decide +kernel
  split at h
  · rename_i m hm
    exact ⟨m, hm, by simpa using h⟩
  · cases h

/-- V3, then V2 in the other byte order, then V4. -/
example (h5 : H5) := fun m' hc => C79_write_again cgnsTable_wf .little h5 noConv (so := id) (fun l => List.Perm.refl l) tetPair
  tetPair_given m' hc (.legacy .native .v3) [(List.reverse, .legacy .big .v2), (id, .v4 false)]
  (by simp only [List.mem_cons, List.not_mem_nil, or_false]
      rintro q (rfl | rfl)
      · exact fun l => List.reverse_perm l
      · exact fun l => List.Perm.refl l)
example := tetPair_completes
example (direction : F64 × F64 × F64) : ∃ m' e, completeMesh cgnsElem2faces id tetPair.mesh = .ok m' ∧
    m'.exportExtruded id direction [0, 1] "d" = .error e := by
  obtain ⟨m', hc, hb⟩ := tetPair_completes
  obtain ⟨e, he⟩ := C79_no_extrusion cgnsTable_wf (fun l => List.Perm.refl l) tetPair.mesh m' tetPair_given hc hb id direction [0, 1] "d"
  exact ⟨m', e, hc, he⟩

/-- A plane square: it can be extruded, but no more once it was given to a writer. -/
def square : Mesh F64 where
  ncell := 1
  nnode := 4
  nface := 0
  cell2node := some ⟨1, [("quad4", ⟨.range 0 0, ⟨some 4, [[0, 1, 2, 3]]⟩⟩)]⟩
  faces := []
  coords := some ([0, 1, 1, 0], [0, 0, 1, 1], [0, 0, 0, 0])
  bocos := [("in", ⟨"in", .bdnode, "boundary", .list [0, 1], none⟩)]
example : (square.exportExtruded id (0, 0, 1) [0, 1] "d").isOk = true ∧
    ((completeMesh cgnsElem2faces id square).bind fun m => m.exportExtruded id (0, 0, 1) [0, 1] "d") = .error .assertion := by
  decide +kernel

end Cfd.Ic3
