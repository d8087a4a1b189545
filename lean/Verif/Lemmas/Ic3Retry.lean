import Verif.Spec.Ic3Retry
import Verif.Lemmas.Ic3Cells
import Verif.Props.Mesh

namespace Cfd
open Spec Spec.Ic3

theorem seen_unharmed {α : Type} (x : α) (r : Py α) : seen (unharmed x r) = r := by
  cases r <;> rfl

theorem seen_onValue {κ α : Type} {step : α → Left α} {f : α → Py α} (h : ∀ x, seen (step x) = f x) (p : κ × α) :
    seen (onValue step p) = (do let y ← f p.2; return (p.1, y)) := by
  rw [← h]
  unfold seen onValue
  cases (step p.2).2 <;> rfl

theorem seen_loop {α : Type} {step : α → Left α} {f : α → Py α} (h : ∀ x, seen (step x) = f x) (l : List α) :
    seen (loopState step l) = l.mapM f := by
  induction l with
  | nil => rfl
  | cons x t ih =>
    rw [List.mapM_cons, ← ih, ← h]
    unfold seen
    rw [loopState]
    rcases step x with ⟨y, _ | _⟩
    · rfl
    · simp only [Except_bind_ok]
      cases (loopState step t).2 <;> rfl

theorem seen_fst {α : Type} {s : Left α} {x : α} (h : seen s = .ok x) : s = (x, .ok ()) := by
  unfold seen at h
  rcases s with ⟨y, _ | _⟩
  · cases h
  · simp only [Except.ok.injEq] at h
    rw [h]

theorem seen_error {α : Type} {s : Left α} {e : PyErr} (h : seen s = .error e) : s.2 = .error e := by
  unfold seen at h
  rcases s with ⟨y, _ | _⟩
  · simp only [Except.error.injEq] at h
    rw [h]
  · cases h

namespace Mesh
variable {R : Type}

theorem seen_reindexMark (newindex : List Int) (b : Mark) : seen (reindexMarkState newindex b) = reindexMark newindex b := by
  unfold reindexMarkState reindexMark
  cases b.index.toList with
  | error e => rfl
  | ok l =>
    simp only [Except_bind_ok]
    cases npGather newindex l with
    | error e => rfl
    | ok nl =>
      simp only [Except_bind_ok]
      cases (IndexList.list nl).compress <;> rfl

theorem seen_bocosToFaces (m : Mesh R) : seen m.bocosToFacesState = m.bocosToFaces := by
  unfold bocosToFacesState bocosToFaces
  cases m.faces.get? "boundary" with
  | none => rfl
  | some fs =>
    dsimp only
    cases fs.f2n.indexElemTuples with
    | error e => rfl
    | ok tuples =>
      simp only [Except_bind_ok]
      rw [← seen_loop (step := onValue fun b => unharmed b (markToFace tuples b))
        (fun p => seen_onValue (fun b => seen_unharmed b (markToFace tuples b)) p)]
      unfold seen
      cases (loopState (onValue fun b => unharmed b (markToFace tuples b)) m.bocos).2 <;> rfl

theorem reindexBoundary_eq (m : Mesh R) : m.reindexBoundary = (match m.faces.get? "boundary" with
    | none => .error .assertion
    | some fs => do
        let t ← reindexTable m
        let bocos ← m.bocos.mapM fun p => do
          let b ← reindexMark t.2 p.2
          return (p.1, b)
        let tbl ← fs.f2n.tbl.mapM fun p => do
          let e ← reindexEntry t.2 p.2
          return (p.1, e)
        let rows ← reindexRows t.1 fs.f2c
        return { m with bocos := bocos, faces := m.faces.set "boundary" ⟨⟨fs.f2n.nelem, tbl⟩, some (some rows)⟩ }) := by
  unfold reindexBoundary reindexTable
  cases m.faces.get? "boundary" with
  | none => rfl
  | some fs =>
    dsimp only
    cases pyAssert (m.bocos.all fun p => p.2.onFaces) with
    | error e => rfl
    | ok _ =>
    simp only [Except_bind_ok]
    cases m.listBocoIndex with
    | error e => rfl
    | ok old =>
    simp only [Except_bind_ok]
    cases ElemConn.npAllEq (ElemConn.npUnique old) (sortInts old) with
    | error e => rfl
    | ok cu =>
    simp only [Except_bind_ok]
    cases old.min? with
    | none => rfl
    | some mn =>
    cases old.max? with
    | none => rfl
    | some mx =>
    dsimp only
    split
    · rfl
    · cases npScatter (List.replicate old.length (-1 : Int)) (old.zip (pyRange 0 old.length)) with
      | error e => rfl
      | ok ni =>
        simp only [Except_bind_ok]
        cases pyAssert (ni.all fun i => decide (0 ≤ i)) with
        | error e => rfl
        | ok _ =>
          simp only [Except_bind_ok, Except_pure]
          cases (m.bocos.mapM fun p => do
              let b ← reindexMark ni p.2
              Except.ok (p.1, b) : Py (List (String × Mark))) with
          | error e => rfl
          | ok bocos =>
            simp only [Except_bind_ok]
            cases (fs.f2n.tbl.mapM fun p => do
                let e ← reindexEntry ni p.2
                Except.ok (p.1, e) : Py (List (String × Entry))) with
            | error e => rfl
            | ok t =>
              simp only [Except_bind_ok]
              unfold reindexRows
              cases f2cConn fs.f2c with
              | error e => rfl
              | ok c =>
                cases c with
                | none => rfl
                | some rows =>
                  simp only [Except_bind_ok]

theorem seen_reindex (m : Mesh R) : seen m.reindexState = m.reindexBoundary := by
  rw [reindexBoundary_eq]
  unfold reindexState
  cases m.faces.get? "boundary" with
  | none => rfl
  | some fs =>
    dsimp only
    cases reindexTable m with
    | error e => rfl
    | ok t =>
      obtain ⟨old, ni⟩ := t
      simp only [Except_bind_ok]
      have h1 := seen_loop (step := onValue (reindexMarkState ni)) (fun p => seen_onValue (seen_reindexMark ni) p) m.bocos
      have h2 := seen_loop (step := onValue fun e => unharmed e (reindexEntry ni e))
        (fun p => seen_onValue (fun e => seen_unharmed e (reindexEntry ni e)) p) fs.f2n.tbl
      rw [← h1, ← h2]
      generalize loopState (onValue (reindexMarkState ni)) m.bocos = a
      generalize loopState (onValue fun e => unharmed e (reindexEntry ni e)) fs.f2n.tbl = b
      rcases a with ⟨a, _ | _⟩
      · rfl
      · rcases b with ⟨b, _ | _⟩
        · rfl
        · dsimp only [seen]
          simp only [Except_bind_ok]
          cases reindexRows old fs.f2c <;> rfl

/-- When the marked faces can be renumbered, they are 0, 1, ... once each. -/
theorem reindexTable_ok {m : Mesh R} {t : List Int × List Int} (hset : MarksSet m) (h : reindexTable m = .ok t) :
    (marked m).Perm (pyRange 0 (marked m).length) := by
  unfold reindexTable at h
  simp only [listBocoIndex_ok hset, Except_bind_ok] at h
  rw [bind_eq_ok] at h
  obtain ⟨_, _, h⟩ := h
  rw [bind_eq_ok] at h
  obtain ⟨cu, _, h⟩ := h
  split at h
  · rename_i mn mx hmn hmx
    split at h
    · simp at h
    rename_i hcond
    simp only [Bool.not_eq_true', Bool.not_eq_false, Bool.and_eq_true, decide_eq_true_eq] at hcond
    simp only [bind_eq_ok] at h
    obtain ⟨newindex, hsc, _, hall, _⟩ := h
    rw [pyAssert_eq_ok, List.all_eq_true] at hall
    have hnn : ∀ i ∈ marked m, 0 ≤ i := by
      intro i hi
      have := (List.min?_eq_some_iff.1 hmn).2 i hi
      omega
    obtain ⟨hl, hun⟩ := npScatter_untouched hsc (by
      intro p hp
      exact hnn _ (List.of_mem_zip hp).1)
    have hfst : ((marked m).zip (pyRange 0 ((marked m).length : Int))).map (·.1) = marked m := by
      rw [List.map_fst_zip (by simp)]
    rw [hfst] at hun
    rw [List.length_replicate] at hl
    have hsub : pyRange 0 ((marked m).length : Int) ⊆ marked m := by
      intro i hi
      rw [mem_pyRange] at hi
      by_contra hn
      have h1 := hun i.toNat (by rw [Int.toNat_of_nonneg hi.1]; exact hn)
      rw [List.getElem?_replicate, if_pos (by omega)] at h1
      have h2 := hall _ (List.mem_of_getElem? h1)
      simp at h2
    exact (((nodup_pyRange _ _).subperm hsub).perm_of_length_le (by simp)).symm
  · simp at h

/-- A loop over the marks leaves each one as it was, or changed. -/
theorem loop_mem {α : Type} {step : α → Left α} {l : List α} {x : α} (h : x ∈ l) :
    x ∈ (loopState step l).1 ∨ (step x).1 ∈ (loopState step l).1 := by
  induction l with
  | nil => cases h
  | cons y t ih =>
    rw [loopState]
    rcases hs : step y with ⟨z, e | _⟩
    · rcases List.mem_cons.1 h with rfl | h
      · right; rw [hs]; simp
      · left; simp [h]
    · rcases List.mem_cons.1 h with rfl | h
      · right; rw [hs]; simp
      · rcases ih h with h | h
        · left; simp [h]
        · right; simp [h]

theorem mem_loop {α : Type} {step : α → Left α} {l : List α} {y : α} (h : y ∈ (loopState step l).1) :
    ∃ x ∈ l, y = x ∨ y = (step x).1 := by
  induction l with
  | nil => cases h
  | cons z t ih =>
    rw [loopState] at h
    rcases hs : step z with ⟨w, e | _⟩
    · rw [hs] at h
      rcases List.mem_cons.1 h with rfl | h
      · exact ⟨z, by simp, .inr (by rw [hs])⟩
      · exact ⟨y, by simp [h], .inl rfl⟩
    · rw [hs] at h
      rcases List.mem_cons.1 h with rfl | h
      · exact ⟨z, by simp, .inr (by rw [hs])⟩
      · obtain ⟨x, hx, hy⟩ := ih h
        exact ⟨x, by simp [hx], hy⟩

theorem reindexMarkState_geodim (ni : List Int) (b : Mark) : (reindexMarkState ni b).1.geodim = b.geodim := by
  unfold reindexMarkState
  repeat' split
  all_goals rfl

theorem reindexMarkState_empty (ni : List Int) (b : Mark) (h : b.index = .list []) : (reindexMarkState ni b).1 = b := by
  unfold reindexMarkState
  rw [h]
  cases b
  simp_all [IndexList.toList, npGather, IndexList.compress]

end Mesh

namespace Ic3

theorem seen_next {s : Left (Mesh F64)} {f : Mesh F64 → Left (Mesh F64)} {r : Py (Mesh F64)} {g : Mesh F64 → Py (Mesh F64)}
    (h : seen s = r) (hf : ∀ m, seen (f m) = g m) : seen (next s f) = r >>= g := by
  subst h
  rcases s with ⟨x, _ | _⟩
  · rfl
  · exact hf x

theorem seen_faceMarks (m : Mesh F64) : seen (needFaceMarksState m) = needFaceMarks m := by
  unfold needFaceMarksState needFaceMarks
  split
  · exact Mesh.seen_bocosToFaces m
  · rfl

theorem seen_complete (tbl : FaceTable) (so : List Int → List Int) (m : Mesh F64) :
    seen (completeState tbl so m) = completeMesh tbl so m := by
  have : completeMesh tbl so m = (((needFaces tbl m >>= needFaceMarks) >>= needUnmarked so) >>= needReindex) := by
    unfold completeMesh
    cases needFaces tbl m with
    | error e => rfl
    | ok m1 =>
      simp only [Except_bind_ok]
      cases needFaceMarks m1 with
      | error e => rfl
      | ok m2 => rfl
  rw [this]
  unfold completeState
  refine seen_next (seen_next (seen_next (seen_unharmed _ _) ?_) ?_) ?_
  · intro m
    unfold needFaceMarksState needFaceMarks
    split
    · exact Mesh.seen_bocosToFaces m
    · rfl
  · exact fun m => seen_unharmed _ _
  · intro m
    unfold needReindexState needReindex
    split
    · exact Mesh.seen_reindex m
    · rfl

/-- A mark of faces without any face, which is not the one made by the writers. -/
structure EmptyMark (m : Mesh F64) : Prop where
  faces : m.faces ≠ []
  onFaces : ∀ p ∈ m.bocos, p.2.nodebased = false
  mark : ∃ p ∈ m.bocos, p.1 ≠ "unmarked" ∧ p.2.index = .list []

theorem needFaces_skip {tbl : FaceTable} {m : Mesh F64} (h : m.faces ≠ []) : needFaces tbl m = .ok m := by
  unfold needFaces
  rw [if_neg]
  simpa using h

theorem nodebased_skip {m : Mesh F64} (h : ∀ p ∈ m.bocos, p.2.nodebased = false) :
    (m.bocos.any fun p => p.2.nodebased) = false := by
  rw [List.any_eq_false]
  intro p hp
  rw [h p hp]
  simp

theorem next_ok (m : Mesh F64) (f : Mesh F64 → Left (Mesh F64)) : next (m, .ok ()) f = f m := rfl
theorem next_error (m : Mesh F64) (e : PyErr) (f : Mesh F64 → Left (Mesh F64)) : next (m, .error e) f = (m, .error e) := rfl

theorem skip_eq {tbl : FaceTable} {so : List Int → List Int} {m : Mesh F64} (hf : m.faces ≠ [])
    (hn : ∀ p ∈ m.bocos, p.2.nodebased = false) :
    completeState tbl so m = next (unharmed m (needUnmarked so m)) needReindexState := by
  unfold completeState
  rw [needFaces_skip hf]
  have : needFaceMarksState m = (m, .ok ()) := by
    unfold needFaceMarksState
    rw [nodebased_skip hn]
    rfl
  rw [show unharmed m (.ok m) = (m, .ok ()) from rfl, next_ok, this, next_ok]

theorem mem_set_other {K V : Type} [DecidableEq K] {d : Dict K V} {k : K} {v : V} {p : K × V} (h : p ∈ d) (hk : p.1 ≠ k) :
    p ∈ d.set k v := by
  induction d with
  | nil => cases h
  | cons q t ih =>
    unfold Dict.set
    split
    · rename_i hq
      rcases List.mem_cons.1 h with rfl | h
      · exact absurd hq hk
      · exact List.mem_cons_of_mem _ h
    · rcases List.mem_cons.1 h with rfl | h
      · simp
      · exact List.mem_cons_of_mem _ (ih h)

theorem emptyMark_unmarked {so : List Int → List Int} {m m' : Mesh F64} (h : EmptyMark m) (hu : needUnmarked so m = .ok m') :
    EmptyMark m' := by
  unfold needUnmarked at hu
  split at hu
  · unfold Mesh.makeUnmarked at hu
    split at hu
    · simp only [Except.map, Except.ok.injEq] at hu
      exact hu ▸ h
    · cases hc : (do
          pyAssert (m.bocos.all fun p => p.2.onFaces)
          let marked ← m.listBocoIndex
          let all ← ElemConn.allIndex _
          let missing := so (all.dedup.filter fun i => !marked.contains i)
          if missing.isEmpty then return (missing, m)
          else return (missing, m.addBoco ⟨"unmarked", .bdface, "boundary", .list missing, none⟩) : Py (List Int × Mesh F64)) with
      | error e => rw [hc] at hu; cases hu
      | ok q =>
        rw [hc] at hu
        simp only [Except.map, Except.ok.injEq] at hu
        subst hu
        simp only [bind_eq_ok] at hc
        obtain ⟨_, _, marked, _, all, _, hc⟩ := hc
        split at hc
        · simp only [Except_pure, Except.ok.injEq] at hc
          subst hc
          exact h
        · simp only [Except_pure, Except.ok.injEq] at hc
          subst hc
          obtain ⟨p, hp, h1, h2⟩ := h.mark
          refine ⟨h.faces, ?_, p, ?_, h1, h2⟩
          · intro q hq
            rcases mem_set hq with rfl | hq
            · rfl
            · exact h.onFaces q hq
          · exact mem_set_other hp h1
  · simp only [Except.ok.injEq] at hu
    exact hu ▸ h

theorem emptyMark_list {m : Mesh F64} (h : EmptyMark m) : (m.bocos.any fun p => isListIndex p.2.index) = true := by
  obtain ⟨p, hp, _, h2⟩ := h.mark
  exact List.any_eq_true.2 ⟨p, hp, by rw [h2]; rfl⟩

theorem emptyMark_reindex {m : Mesh F64} (h : EmptyMark m) : EmptyMark m.reindexState.1 := by
  have hloop : ∀ (ni : List Int) (faces : Dict String FaceSet), faces ≠ [] →
      EmptyMark { m with bocos := (loopState (onValue (Mesh.reindexMarkState ni)) m.bocos).1, faces := faces } := by
    intro ni faces hf
    obtain ⟨p, hp, h1, h2⟩ := h.mark
    refine ⟨hf, ?_, p, ?_, h1, h2⟩
    · intro q hq
      obtain ⟨x, hx, rfl | rfl⟩ := Mesh.mem_loop hq
      · exact h.onFaces _ hx
      · have := h.onFaces x hx
        unfold Mark.nodebased at this ⊢
        rw [show (onValue (Mesh.reindexMarkState ni) x).1.2.geodim = x.2.geodim from Mesh.reindexMarkState_geodim ni x.2]
        exact this
    · rcases Mesh.loop_mem (step := onValue (Mesh.reindexMarkState ni)) hp with hq | hq
      · exact hq
      · have : (onValue (Mesh.reindexMarkState ni) p).1 = p := by
          unfold onValue
          rw [Mesh.reindexMarkState_empty ni p.2 h2]
        rwa [this] at hq
  have hset : ∀ x, (m.faces.set "boundary" x) ≠ [] := by
    intro x
    cases m.faces with
    | nil => simp [Dict.set]
    | cons a t => unfold Dict.set; split <;> simp
  unfold Mesh.reindexState
  split
  · exact h
  · split
    · exact h
    · dsimp only
      split
      · exact hloop _ m.faces h.faces
      · split
        · exact hloop _ _ (hset _)
        · split
          · exact hloop _ _ (hset _)
          · exact hloop _ _ (hset _)

theorem emptyMark_refused {tbl : FaceTable} {so : List Int → List Int} {m : Mesh F64} (h : EmptyMark m) :
    ∃ e, completeMesh tbl so m = .error e := by
  cases hc : completeMesh tbl so m with
  | error e => exact ⟨e, rfl⟩
  | ok m' =>
    exfalso
    unfold completeMesh at hc
    rw [needFaces_skip h.faces, Except_bind_ok] at hc
    have hm : needFaceMarks m = .ok m := by
      unfold needFaceMarks
      rw [nodebased_skip h.onFaces]
      rfl
    rw [hm, Except_bind_ok, bind_eq_ok] at hc
    obtain ⟨m2, h2, h3⟩ := hc
    have hm2 := emptyMark_unmarked h h2
    unfold needReindex at h3
    rw [if_pos (emptyMark_list hm2), Mesh.reindexBoundary_eq] at h3
    split at h3
    · cases h3
    · simp only [bind_eq_ok] at h3
      obtain ⟨t, _, bocos, hb, _⟩ := h3
      obtain ⟨p, hp, _, hpe⟩ := hm2.mark
      obtain ⟨q, _, hq⟩ := mapM_mem_ok hb hp
      rw [bind_eq_ok] at hq
      obtain ⟨b', hb', _⟩ := hq
      unfold Mesh.reindexMark at hb'
      rw [hpe] at hb'
      simp [IndexList.toList, npGather, IndexList.compress] at hb'

theorem emptyMark_stays {tbl : FaceTable} {so : List Int → List Int} {m : Mesh F64} (h : EmptyMark m) :
    EmptyMark (completeState tbl so m).1 := by
  rw [skip_eq h.faces h.onFaces]
  cases hu : needUnmarked so m with
  | error e => exact h
  | ok m2 =>
    have hm2 := emptyMark_unmarked h hu
    show EmptyMark (needReindexState m2).1
    unfold needReindexState
    rw [if_pos (emptyMark_list hm2)]
    exact emptyMark_reindex hm2

/-! ### Meshes of cells and node marks -/

/-- The mesh after the transfer of its marks to the faces. -/
def marksMesh (m : Mesh F64) (r : FacesResult) : Mesh F64 :=
  { m with
    faces := [("internal", ⟨r.internal, some r.i2c⟩), ("boundary", ⟨r.boundary, some r.b2c⟩)]
    nface := r.internal.nelem + r.boundary.nelem
    bocos := m.bocos.map fun p => (p.1, toFaces r.boundary p.2) }

theorem unmarked_eq {tbl : FaceTable} (ht : TableWF tbl) (so : List Int → List Int) {m : Mesh F64} {c : ElemConn}
    (hm : NodeCells m c) {r : FacesResult} (hr : createFaces tbl c = .ok r) :
    needUnmarked so (marksMesh m r) = .ok (facedMesh so m r) := by
  have hwf := (createFaces_wf ht hm.conn hr).1
  generalize hm2 : marksMesh m r = m2
  have hb2 : m2.bocos = m.bocos.map fun p => (p.1, toFaces r.boundary p.2) := by rw [← hm2]; rfl
  have hfb2 : m2.faces.get? "boundary" = some ⟨r.boundary, some r.b2c⟩ := by rw [← hm2]; rfl
  have hset : MarksSet m2 := by
    intro p hp
    rw [hb2] at hp
    obtain ⟨q, _, rfl⟩ := List.mem_map.1 hp
    simp [toFaces]
  have hon : MarksOnFaces m2 := by
    intro p hp
    rw [hb2] at hp
    obtain ⟨q, _, rfl⟩ := List.mem_map.1 hp
    exact .inr rfl
  obtain ⟨missing, hmiss, hok⟩ := makeUnmarked_ok so hfb2 hwf.entries hset hon "unmarked"
  have hmiss' : missing = missingFaces so r.boundary m.bocos := by
    rw [hmiss]
    unfold missingFaces marked
    rw [hb2, List.flatMap_map]
  have hkey : "unmarked" ∉ m2.bocos.keys := by
    rw [hb2]
    intro h
    apply hm.notReserved.1
    unfold Dict.keys at h ⊢
    rw [List.map_map] at h
    exact h
  unfold needUnmarked
  rw [if_pos]
  · rw [hok]
    simp only [Except.map, hmiss']
    congr 1
    unfold facedMesh faceMarks
    split
    · rw [List.append_nil, ← hm2]; rfl
    · unfold Mesh.addBoco
      simp only [restMark]
      rw [Dict.set_of_not_mem _ hkey, hb2, ← hm2]
      rfl
  · rw [← hm2]; rfl

/-- The writers go from the marks on faces to the renumbering. -/
theorem faced_notNode {so : List Int → List Int} {m : Mesh F64} {r : FacesResult} :
    ∀ p ∈ (facedMesh so m r).bocos, p.2.nodebased = false := by
  intro p hp
  have := (faceMarks_mem hp).1
  unfold Mark.nodebased
  rw [this]
  rfl

theorem faceMarks_eq {tbl : FaceTable} (ht : TableWF tbl) {m : Mesh F64} {c : ElemConn} (hm : NodeCells m c)
    {r : FacesResult} (hr : createFaces tbl c = .ok r) : needFaceMarks { m with
      faces := [("internal", ⟨r.internal, some r.i2c⟩), ("boundary", ⟨r.boundary, some r.b2c⟩)]
      nface := r.internal.nelem + r.boundary.nelem } = .ok (marksMesh m r) := by
  have hwf := (createFaces_wf ht hm.conn hr).1
  have hnb : ∀ p ∈ m.bocos, p.2.nodebased = true := by
    intro p hp
    have := hm.onNodes p hp
    unfold Mark.nodebased
    cases hb : p.2.geodim <;> simp_all
  unfold needFaceMarks
  split
  · have hg : ∀ p ∈ m.bocos, (do
        let b ← Mesh.markToFace ((elements r.boundary).map (·.2)) p.2
        return (p.1, b) : Py (String × Mark)) = .ok (p.1, toFaces r.boundary p.2) := by
      intro p hp
      unfold Mesh.markToFace
      rw [if_pos (hnb p hp), toList_markItems (hm.marksSet p hp)]
      simp only [Except_bind_ok, Except_pure, toFaces]
      rw [List.filter_map, List.map_map]
      rfl
    unfold Mesh.bocosToFaces
    have hfb : Dict.get? [("internal", (⟨r.internal, some r.i2c⟩ : FaceSet)), ("boundary", ⟨r.boundary, some r.b2c⟩)] "boundary" =
        some ⟨r.boundary, some r.b2c⟩ := rfl
    simp only [hfb, indexElemTuples_of_wf hwf.entries, Except_bind_ok]
    rw [mapM_ok_of_forall hg]; rfl
  · rename_i hany
    have : m.bocos = [] := by
      cases hb : m.bocos with
      | nil => rfl
      | cons p t =>
        refine absurd ?_ hany
        show (m.bocos.any _) = true
        rw [hb, List.any_cons, hnb p (by simp [hb])]
        rfl
    unfold marksMesh
    rw [this]
    rfl

theorem state_eq {tbl : FaceTable} (ht : TableWF tbl) (so : List Int → List Int) {m : Mesh F64}
    {c : ElemConn} (hm : NodeCells m c) {r : FacesResult} (hr : createFaces tbl c = .ok r) :
    completeState tbl so m = needReindexState (facedMesh so m r) := by
  have h1 : needFaces tbl m = m.makeFaces tbl := by
    unfold needFaces
    rw [hm.noFaces]; rfl
  unfold completeState
  rw [h1, makeFaces_new hm hr, unharmed, next_ok]
  have h2 := faceMarks_eq ht hm hr
  rw [← seen_faceMarks] at h2
  rw [seen_fst h2, next_ok, unmarked_eq ht so hm hr]
  rfl

theorem allIndices_faced {tbl : FaceTable} (ht : TableWF tbl) {so : List Int → List Int} (hso : Reorders so) {m : Mesh F64}
    {r : FacesResult} (i : Int) :
    i ∈ marked (facedMesh so m r) ↔ i ∈ allIndices r.boundary := by
  unfold marked
  rw [List.mem_flatMap]
  constructor
  · rintro ⟨p, hp, hi⟩
    replace hp : p ∈ faceMarks so r.boundary m.bocos := hp
    unfold faceMarks at hp
    rw [List.mem_append] at hp
    rcases hp with hp | hp
    · obtain ⟨q, _, rfl⟩ := List.mem_map.1 hp
      obtain ⟨x, hx, rfl, _⟩ := mem_toFaces.1 hi
      exact List.mem_map.2 ⟨x, hx, rfl⟩
    · split at hp
      · cases hp
      · rw [List.mem_singleton] at hp
        subst hp
        have hi : i ∈ missingFaces so r.boundary m.bocos := by simpa [markItems, restMark, IndexList.toList] using hi
        exact ((mem_missing hso).1 hi).1
  · intro hi
    by_cases hm : ∃ p ∈ m.bocos, i ∈ markItems (toFaces r.boundary p.2)
    · obtain ⟨p, hp, h⟩ := hm
      refine ⟨(p.1, toFaces r.boundary p.2), ?_, h⟩
      show _ ∈ faceMarks so r.boundary m.bocos
      unfold faceMarks
      exact List.mem_append_left _ (List.mem_map.2 ⟨p, hp, rfl⟩)
    · have : i ∈ missingFaces so r.boundary m.bocos :=
        (mem_missing hso).2 ⟨hi, fun p hp h => hm ⟨p, hp, h⟩⟩
      refine ⟨("unmarked", restMark (missingFaces so r.boundary m.bocos)), ?_, by simpa [markItems, restMark, IndexList.toList]⟩
      show _ ∈ faceMarks so r.boundary m.bocos
      unfold faceMarks
      rw [if_neg (List.ne_nil_of_mem this)]
      simp

/-- A mesh with faces that cannot be renumbered: nothing changes. -/
structure Overlap (m : Mesh F64) : Prop where
  onFaces : ∀ p ∈ m.bocos, p.2.nodebased = false
  list : (m.bocos.any fun p => isListIndex p.2.index) = true
  boundary : ∃ fs, m.faces.get? "boundary" = some fs ∧ (∀ p ∈ fs.f2n.tbl, EntryWF p.2) ∧ ∀ i ∈ allIndices fs.f2n, i ∈ marked m
  set : MarksSet m
  on : MarksOnFaces m
  table : ∃ e, Mesh.reindexTable m = .error e

theorem overlap_state {tbl : FaceTable} {so : List Int → List Int} (hso : Reorders so) {m : Mesh F64} (h : Overlap m) :
    ∃ e, completeState tbl so m = (m, .error e) := by
  obtain ⟨fs, hfs, hwf, hall⟩ := h.boundary
  have hf : m.faces ≠ [] := by
    intro h0
    rw [h0] at hfs
    cases hfs
  have hu : needUnmarked so m = .ok m := by
    unfold needUnmarked
    split
    · obtain ⟨missing, hm, hu⟩ := makeUnmarked_ok so hfs hwf h.set h.on "unmarked"
      have : missing = [] := by
        rw [List.eq_nil_iff_forall_not_mem]
        intro i hi
        rw [hm, (hso _).mem_iff, List.mem_filter, List.mem_dedup] at hi
        have := hall i hi.1
        simp [this] at hi
      rw [hu, if_pos this]
      rfl
    · rfl
  obtain ⟨e, he⟩ := h.table
  refine ⟨e, ?_⟩
  rw [skip_eq hf h.onFaces, hu, unharmed, next_ok]
  unfold needReindexState
  rw [if_pos h.list]
  unfold Mesh.reindexState
  rw [hfs]
  dsimp only
  rw [he]

/-- The mesh left by a refusal. -/
theorem refused_cases {tbl : FaceTable} (ht : TableWF tbl) {so : List Int → List Int} (hso : Reorders so) {m : Mesh F64}
    {c : ElemConn} (hm : NodeCells m c) {r : FacesResult} (hr : createFaces tbl c = .ok r) {e : PyErr}
    (h : completeMesh tbl so m = .error e) :
    ((∃ p ∈ m.bocos, markItems (toFaces r.boundary p.2) = []) ∧ EmptyMark (completeState tbl so m).1) ∨
    (completeState tbl so m = (facedMesh so m r, .error e) ∧ Overlap (facedMesh so m r)) := by
  obtain ⟨wb, _⟩ := faceSetWF_generated ht hm.conn (conn_ne_nil hm) hr
  have hset : MarksSet (facedMesh so m r) := by
    intro p hp
    obtain ⟨_, l, hl⟩ := faceMarks_mem hp
    rw [hl]; simp
  have hon : MarksOnFaces (facedMesh so m r) := fun p hp => .inr (faceMarks_mem hp).1
  have hfb : (facedMesh so m r).faces.get? "boundary" = some ⟨r.boundary, some r.b2c⟩ := rfl
  have hseen := seen_complete tbl so m
  rw [h, state_eq ht so hm hr] at hseen
  rw [complete_eq ht so hm hr] at h
  rw [state_eq ht so hm hr]
  unfold needReindex at h
  split at h
  swap
  · cases h
  rename_i hlist
  have hst : needReindexState (facedMesh so m r) = (facedMesh so m r).reindexState := by
    unfold needReindexState
    rw [if_pos hlist]
  rw [hst] at hseen ⊢
  by_cases he : ∃ p ∈ m.bocos, markItems (toFaces r.boundary p.2) = []
  · left
    refine ⟨he, ?_⟩
    obtain ⟨p, hp, hpe⟩ := he
    apply emptyMark_reindex
    refine ⟨by simp [facedMesh], faced_notNode, (p.1, toFaces r.boundary p.2), ?_, ?_, ?_⟩
    · show _ ∈ faceMarks so r.boundary m.bocos
      unfold faceMarks
      exact List.mem_append_left _ (List.mem_map.2 ⟨p, hp, rfl⟩)
    · intro hn
      apply hm.notReserved.1
      rw [← hn]
      exact List.mem_map.2 ⟨p, hp, rfl⟩
    · simpa [markItems, toFaces, IndexList.toList] using hpe
  · right
    have htab : ∃ e', Mesh.reindexTable (facedMesh so m r) = .error e' := by
      cases hti : Mesh.reindexTable (facedMesh so m r) with
      | error e' => exact ⟨e', rfl⟩
      | ok t =>
        exfalso
        have hp := Mesh.reindexTable_ok hset hti
        have hnd : (marked (facedMesh so m r)).Nodup := hp.nodup_iff.2 (nodup_pyRange _ _)
        have hperm : (marked (facedMesh so m r)).Perm (allIndices r.boundary) :=
          (List.perm_ext_iff_of_nodup hnd wb.numbering.1).2 (allIndices_faced ht hso)
        obtain ⟨m', hm'⟩ := (C18_reindex_iff _ _ _ hfb wb hset hon).2 ⟨by
            intro h0
            rw [h0] at hlist
            exact absurd hlist (by decide), by
            intro p hp
            replace hp : p ∈ faceMarks so r.boundary m.bocos := hp
            unfold faceMarks at hp
            rw [List.mem_append] at hp
            rcases hp with hp | hp
            · obtain ⟨q, hq, rfl⟩ := List.mem_map.1 hp
              exact fun h0 => he ⟨q, hq, h0⟩
            · split at hp
              · cases hp
              · rename_i hne
                rw [List.mem_singleton] at hp
                subst hp
                exact (by simpa [markItems, restMark, IndexList.toList] using hne), hperm⟩
        rw [hm'] at h
        cases h
    have hov : Overlap (facedMesh so m r) := ⟨faced_notNode, hlist, ⟨_, hfb, wb.conn.entries, fun i hi =>
      (allIndices_faced ht hso i).2 hi⟩, hset, hon, htab⟩
    refine ⟨?_, hov⟩
    obtain ⟨e', he'⟩ := htab
    have : (facedMesh so m r).reindexState = (facedMesh so m r, .error e') := by
      unfold Mesh.reindexState
      rw [hfb]
      dsimp only
      rw [he']
    rw [this] at hseen ⊢
    simp only [seen, Except.error.injEq] at hseen
    rw [hseen]

theorem faces_refused {tbl : FaceTable} (so : List Int → List Int) {m : Mesh F64} {c : ElemConn} (hm : NodeCells m c)
    {e : PyErr} (hr : createFaces tbl c = .error e) : completeState tbl so m = (m, .error e) := by
  have h1 : needFaces tbl m = .error e := by
    unfold needFaces
    rw [hm.noFaces]
    show m.makeFaces tbl = _
    unfold Mesh.makeFaces
    rw [hm.cells]
    dsimp only
    rw [hr]
    rfl
  unfold completeState
  rw [h1]
  rfl

/-- Every state after a refusal is refused. -/
inductive Stuck (tbl : FaceTable) (m : Mesh F64) : Prop
  | faces (c : ElemConn) (e : PyErr) : NodeCells m c → createFaces tbl c = .error e → Stuck tbl m
  | empty : EmptyMark m → Stuck tbl m
  | overlap : Overlap m → Stuck tbl m

theorem stuck_of_refused {tbl : FaceTable} (ht : TableWF tbl) {so : List Int → List Int} (hso : Reorders so) {m : Mesh F64}
    {c : ElemConn} (hm : NodeCells m c) {e : PyErr} (h : completeMesh tbl so m = .error e) :
    Stuck tbl (completeState tbl so m).1 := by
  cases hr : createFaces tbl c with
  | error e =>
    rw [faces_refused so hm hr]
    exact .faces c e hm hr
  | ok r =>
    rcases refused_cases ht hso hm hr h with ⟨_, h⟩ | ⟨h, h'⟩
    · exact .empty h
    · rw [h]
      exact .overlap h'

theorem stuck_stays {tbl : FaceTable} {so : List Int → List Int} (hso : Reorders so) {m : Mesh F64} (h : Stuck tbl m) :
    Stuck tbl (completeState tbl so m).1 := by
  cases h with
  | faces c e hm hr =>
    rw [faces_refused so hm hr]
    exact .faces c e hm hr
  | empty h => exact .empty (emptyMark_stays h)
  | overlap h =>
    obtain ⟨e, he⟩ := overlap_state (tbl := tbl) hso h
    rw [he]
    exact .overlap h

theorem stuck_refused {tbl : FaceTable} {so : List Int → List Int} (hso : Reorders so) {m : Mesh F64} (h : Stuck tbl m) :
    ∃ e, completeMesh tbl so m = .error e := by
  cases h with
  | faces c e hm hr =>
    rw [← seen_complete, faces_refused so hm hr]
    exact ⟨e, rfl⟩
  | empty h => exact emptyMark_refused h
  | overlap h =>
    obtain ⟨e, he⟩ := overlap_state (tbl := tbl) hso h
    rw [← seen_complete, he]
    exact ⟨e, rfl⟩

theorem stuck_attempts {tbl : FaceTable} {sos : List (List Int → List Int)} (hso : ∀ so ∈ sos, Reorders so) {m : Mesh F64}
    (h : Stuck tbl m) : Stuck tbl (attempts tbl m sos) := by
  induction sos generalizing m with
  | nil => exact h
  | cons so t ih => exact ih (fun s hs => hso s (List.mem_cons_of_mem _ hs)) (stuck_stays (hso so (by simp)) h)

/-! ### Removing marks after a refusal -/

theorem nodeCells_without {m : Mesh F64} {c : ElemConn} (hm : NodeCells m c) (names : List String) :
    NodeCells (without names m) c where
  cells := hm.cells
  conn := hm.conn
  some := hm.some
  noFaces := hm.noFaces
  coords := hm.coords
  markKeys := by
    unfold Dict.keys without
    exact hm.markKeys.sublist (List.filter_sublist.map _)
  onNodes := fun p hp => hm.onNodes p (List.mem_filter.1 hp).1
  marksSet := fun p hp => hm.marksSet p (List.mem_filter.1 hp).1
  notInternal := fun p hp => hm.notInternal p (List.mem_filter.1 hp).1
  notReserved := by
    have hs : (without names m).bocos.keys ⊆ m.bocos.keys := by
      intro k hk
      obtain ⟨p, hp, rfl⟩ := List.mem_map.1 hk
      exact List.mem_map.2 ⟨p, (List.mem_filter.1 hp).1, rfl⟩
    exact ⟨fun h => hm.notReserved.1 (hs h), fun h => hm.notReserved.2 (hs h)⟩

theorem without_unmarked {m : Mesh F64} {c : ElemConn} (hm : NodeCells m c) (names : List String) :
    without ("unmarked" :: names) m = without names m := by
  unfold without
  congr 1
  apply List.filter_congr
  intro p hp
  have : p.1 ≠ "unmarked" := fun h => hm.notReserved.1 (by rw [← h]; exact List.mem_map.2 ⟨p, hp, rfl⟩)
  simp [this]

theorem without_faced {so : List Int → List Int} {m : Mesh F64} {c : ElemConn} (hm : NodeCells m c) {r : FacesResult}
    (names : List String) : without ("unmarked" :: names) (facedMesh so m r) = marksMesh (without names m) r := by
  unfold without marksMesh
  unfold facedMesh
  congr 1
  unfold faceMarks
  rw [List.filter_append]
  have h2 : (if missingFaces so r.boundary m.bocos = [] then [] else
      [("unmarked", restMark (missingFaces so r.boundary m.bocos))]).filter
        (fun p => decide (p.1 ∉ "unmarked" :: names)) = [] := by
    split <;> simp
  rw [h2, List.append_nil, List.filter_map]
  congr 1
  apply List.filter_congr
  intro p hp
  have : p.1 ≠ "unmarked" := fun h => hm.notReserved.1 (by rw [← h]; exact List.mem_map.2 ⟨p, hp, rfl⟩)
  simp [this]

theorem marksMesh_complete {tbl : FaceTable} (ht : TableWF tbl) (so : List Int → List Int) {m : Mesh F64} {c : ElemConn}
    (hm : NodeCells m c) {r : FacesResult} (hr : createFaces tbl c = .ok r) :
    completeMesh tbl so (marksMesh m r) = completeMesh tbl so m := by
  rw [complete_eq ht so hm hr]
  unfold completeMesh
  rw [needFaces_skip (by simp [marksMesh]), Except_bind_ok]
  have : needFaceMarks (marksMesh m r) = .ok (marksMesh m r) := by
    unfold needFaceMarks
    rw [nodebased_skip]
    · rfl
    · intro p hp
      obtain ⟨q, _, rfl⟩ := List.mem_map.1 hp
      rfl
  rw [this, Except_bind_ok, unmarked_eq ht so hm hr, Except_bind_ok]

end Ic3
end Cfd
