import Verif.Props.Exact

/-!
# What an accepted `Mesh.check()` says (C76)
-/

namespace Cfd
open Spec

variable {R : Type}

theorem onFaces_of_all {m : Mesh R} (h : (m.bocos.all fun p => p.2.onFaces) = true) : MarksOnFaces m := by
  intro p hp
  have := List.all_eq_true.1 h p hp
  unfold Mark.onFaces at this
  simpa using this

/-- C76: `check()` accepts exactly the meshes with a cell and a node, with as many cells as their cell connectivity (if any)
holds and, if they have boundary faces, whose marks are all on faces and cover all these faces. The mesh is then unchanged.
All others are refused by an assertion. -/
theorem C76_accept_iff (so : List Int → List Int) (hso : Reorders so) (m : Mesh R) (hset : MarksSet m)
    (hwf : ∀ fs, m.faces.get? "boundary" = some fs → ConnWF fs.f2n) :
    ((m.check so).1 = .ok true ↔
      m.ncell ≠ 0 ∧ m.nnode ≠ 0 ∧ (∀ c, m.cell2node = some c → c.nelem = m.ncell) ∧
      ∀ fs, m.faces.get? "boundary" = some fs → MarksOnFaces m ∧ ∀ i ∈ allIndices fs.f2n, i ∈ marked m) ∧
    ((m.check so).1 = .ok true → (m.check so).2 = m) ∧
    ((m.check so).1 ≠ .ok true → (m.check so).1 = .error .assertion) := by
  refine ⟨?_, fun h => (C17_success_stable_partial so m h).1, ?_⟩
  all_goals
    unfold Mesh.check
    by_cases h1 : m.ncell = 0
    · simp [h1]
    rw [if_neg h1]
    by_cases h2 : m.nnode = 0
    · simp [h2]
    rw [if_neg h2]
    by_cases hcc : ∀ c, m.cell2node = some c → c.nelem = m.ncell
    rotate_left
    · simp only [not_forall] at hcc
      obtain ⟨c, hc, hn⟩ := hcc
      have he : m.checkCell2node = .error .assertion := by
        unfold Mesh.checkCell2node
        simp [hc, pyAssert, Ne.symm hn]
      simp only [he]
      simp [hc, hn]
    have hok : m.checkCell2node = .ok () := by
      unfold Mesh.checkCell2node
      cases hc : m.cell2node with
      | none => rfl
      | some c => simp [pyAssert, hcc c hc]
    rw [hok]
    simp only
    cases hf : m.faces.get? "boundary" with
    | none => unfold Mesh.makeUnmarked; simp [hf, h1, h2]; try exact hcc
    | some fs =>
      by_cases hon : MarksOnFaces m
      · obtain ⟨missing, hmiss, hu⟩ := makeUnmarked_ok so hf (hwf fs hf).entries hset hon "unmarked_faces"
        have hmem : ∀ i, i ∈ missing ↔ i ∈ allIndices fs.f2n ∧ i ∉ marked m := by
          intro i
          rw [hmiss, (hso _).mem_iff, List.mem_filter, List.mem_dedup]
          simp
        rw [hu]
        simp only
        by_cases hm : missing = []
        · have : ∀ i ∈ allIndices fs.f2n, i ∈ marked m := by
            intro i hi
            by_contra hn
            have := (hmem i).2 ⟨hi, hn⟩
            rw [hm] at this; cases this
          simp [hm, h1, h2]
          try exact ⟨hcc, hon, this⟩
        · have : ¬ ∀ i ∈ allIndices fs.f2n, i ∈ marked m := by
            intro h
            apply hm
            rw [List.eq_nil_iff_forall_not_mem]
            intro i hi
            exact ((hmem i).1 hi).2 (h i ((hmem i).1 hi).1)
          simp [List.isEmpty_iff, hm]
          try exact fun _ _ _ _ => by simpa using this
      · have hb : (m.bocos.all fun p => p.2.onFaces) = false := by
          rw [Bool.eq_false_iff]
          exact fun h => hon (onFaces_of_all h)
        unfold Mesh.makeUnmarked
        simp only [hf, hb, pyAssert]
        simp [bind, Except.bind]
        try exact fun _ _ _ h => absurd h hon

/-- The faces of `exMarks`, all marked, and with one unmarked face. -/
example := C76_accept_iff id (fun l => List.Perm.refl l) (exVerdicts [("wall", [0, 1, 2, 3])])
  (by unfold MarksSet; decide) (fun _ h => by cases h; exact exBoundary_wf.conn)
example : ((exVerdicts [("wall", [0, 1, 2, 3])]).check id).1 = .ok true ∧
    ((exVerdicts [("wall", [0, 1, 2])]).check id).1 = .error .assertion := by decide +kernel

/-- C76: an accepted mesh may be inconsistent in every other way. Here no coordinates, a cell on a node that does not exist,
two cells with the same number and a mark on a face that does not exist. -/
theorem C76_unchecked_witness :
    ∃ m : Mesh Int, (m.check id).1 = .ok true ∧ m.coords = none ∧
      (∃ c, m.cell2node = some c ∧ ¬ ValidNumbering (allIndices c) ∧
        ∃ x ∈ elements c, ∃ n ∈ x.2.2, (m.nnode : Int) ≤ n) ∧
      (∃ fs, m.faces.get? "boundary" = some fs ∧ ∃ i ∈ marked m, i ∉ allIndices fs.f2n) := by
  refine ⟨⟨2, 5, 0, some ⟨2, [("tri3", ⟨.list [0, 0], ⟨some 3, [[0, 1, 2], [0, 2, 9]]⟩⟩)]⟩,
    [("boundary", ⟨⟨1, [("bar2", ⟨.range 0 0, ⟨some 2, [[0, 1]]⟩⟩)]⟩, some (some [(0, -1)])⟩)], none,
    [("wall", ⟨"wall", .bdface, "boundary", .list [0, 7], none⟩)]⟩, by decide +kernel, rfl,
    ⟨_, rfl, ?_, ("tri3", 0, [0, 2, 9]), by decide +kernel, 9, by decide, by decide⟩, _, rfl, 7, by decide +kernel, by decide +kernel⟩
  intro h
  have : ¬ [(0 : Int), 0].Nodup := by decide
  exact this h.1

end Cfd
