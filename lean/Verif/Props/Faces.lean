import Verif.Lemmas.Faces

/-! C08-C10: face generation. -/

namespace Cfd
open Spec ElemConn

/-- Two tetrahedra on a common triangle (nodes 1 2 3). -/
def exTetras : ElemConn := ⟨2, [("tetra4", ⟨.range 0 1, ⟨some 4, [[0, 1, 2, 3], [4, 1, 3, 2]]⟩⟩)]⟩

theorem exTetras_wf : ConnWF exTetras := by
  refine ⟨by decide, ?_, by decide⟩
  intro p hp
  simp only [exTetras, List.mem_singleton] at hp
  subst hp
  exact ⟨⟨[0, 1], by decide, rfl⟩, by simp [Arr2.WF]⟩

/-- Number of nodes of a face type. -/
def faceWidth (t : String) : Nat :=
  if t = "bar2" then 2 else if t = "tri3" then 3 else if t = "quad4" then 4 else 9

/-- Check of a face table entry by entry. -/
def tableOk (tbl : FaceTable) : Bool :=
  tbl.all fun p => p.2.all (fun q => q.2.all fun f => f.length = faceWidth q.1) &&
    p.2.any (fun q => !q.2.isEmpty)

theorem tableWF_of_ok {tbl : FaceTable} (h : tableOk tbl = true) : TableWF tbl := by
  unfold tableOk at h
  simp only [List.all_eq_true, Bool.and_eq_true, decide_eq_true_eq, List.any_eq_true,
    Bool.not_eq_true', List.isEmpty_eq_false_iff] at h
  refine ⟨⟨faceWidth, ?_⟩, ?_⟩
  · intro et q hq f hf
    cases hg : tbl.get? et with
    | none => simp [hg] at hq
    | some fs =>
      simp only [hg, Option.getD_some] at hq
      exact (h _ (Dict.mem_of_get? hg)).1 q hq f hf
  · intro et fs hg
    exact (h _ (Dict.mem_of_get? hg)).2

/-- The two tables of the package are well formed: the theorems below apply to both. -/
theorem cgnsTable_wf : TableWF cgnsElem2faces := tableWF_of_ok (by decide)
theorem gmshTable_wf : TableWF gmshElem2faces := tableWF_of_ok (by decide)

/-! ## C08 -/

/-- The face computation succeeds on the two tetrahedra. -/
theorem exTetras_faces : ∃ r, createFaces cgnsElem2faces exTetras = .ok r :=
  exists_of_isOk (by decide +kernel)

theorem exTetras_known : CellsKnown cgnsElem2faces exTetras := by
  intro p hp
  simp only [exTetras, List.mem_singleton] at hp
  subst hp
  exact ⟨_, 4, rfl, rfl, by decide⟩

/-- C08: whatever the node set `n`, it appears once among the boundary faces of type `ft` if exactly
one cell face of this type has these nodes, otherwise never; and once among the internal faces if at
least two cell faces have these nodes, otherwise never. -/
theorem C08_faces_exactly_once (tbl : FaceTable) (ht : TableWF tbl) (c : ElemConn) (hc : ConnWF c)
    (r : FacesResult) (h : createFaces tbl c = .ok r) (ft : String) (n : List Int) :
    facesWith r.boundary ft n = (if occurrences tbl c ft n = 1 then 1 else 0) ∧
    facesWith r.internal ft n = (if 2 ≤ occurrences tbl c ft n then 1 else 0) := by
  have inv := facesInv_of_ok ht hc.entries h
  have hnd := nodup_firstUse ((buildEvents tbl c).map (·.1))
  have hlen := grp_length (tbl := tbl) hc.entries ft n
  set L := codeFaces tbl c ft with hL
  have hzero : ft ∉ firstUse ((buildEvents tbl c).map (·.1)) → occurrences tbl c ft n = 0 := by
    intro hft
    rw [mem_firstUse, mem_buildEvents_keys] at hft
    unfold occurrences
    rw [cellFaces_nil_of_not_mem hft]; rfl
  have hkey : sortInts n ∈ firstUse (L.map occKey) ↔ 0 < occurrences tbl c ft n := by
    rw [mem_firstUse_key, hlen]
  constructor
  · have e1 : facesWith r.boundary ft n =
        ((elementsOf r.boundary ft).map (·.2)).countP fun m => m.isPerm n := by
      unfold facesWith; rw [List.countP_map]; rfl
    rw [e1, elementsOf_of_numberFrom inv.bwf.keys inv.bel, List.filter_map, List.map_map,
      List.countP_map]
    have e2 : (bFaces (facesByType tbl c)).filter
        ((fun x : String × List Int => decide (x.1 = ft)) ∘ fun x => (x.1, x.2.1)) =
        (bFaces (facesByType tbl c)).filter fun x => decide (x.1 = ft) := rfl
    rw [e2, bFaces_eq, tagged_filter _ hnd]
    by_cases hft : ft ∈ firstUse ((buildEvents tbl c).map (·.1))
    · rw [if_pos hft, List.countP_map]
      have := countP_hd (L := L) (ks := uniqKeys L) ((nodup_firstUse _).filter _)
        (fun k hk => (List.mem_filter.1 hk).1) n
      rw [← hL]
      refine Eq.trans ?_ (this.trans ?_)
      · rfl
      · have : sortInts n ∈ uniqKeys L ↔ occurrences tbl c ft n = 1 := by
          unfold uniqKeys
          rw [List.mem_filter, hkey, decide_eq_true_eq, hlen]; omega
        simp only [this]
    · rw [if_neg hft, hzero hft]; rfl
  · have e1 : facesWith r.internal ft n =
        ((elementsOf r.internal ft).map (·.2)).countP fun m => m.isPerm n := by
      unfold facesWith; rw [List.countP_map]; rfl
    rw [e1, elementsOf_of_numberFrom inv.iwf.keys inv.iel, List.filter_map, List.map_map,
      List.countP_map]
    have e2 : (iFaces (facesByType tbl c)).filter
        ((fun x : String × List Int => decide (x.1 = ft)) ∘ fun x => (x.1, x.2.1.1)) =
        (iFaces (facesByType tbl c)).filter fun x => decide (x.1 = ft) := rfl
    rw [e2, iFaces_eq, tagged_filter _ hnd]
    by_cases hft : ft ∈ firstUse ((buildEvents tbl c).map (·.1))
    · rw [if_pos hft, List.countP_map, ← hL]
      have := countP_hd (L := L) (ks := dupKeys L) ((nodup_firstUse _).filter _)
        (fun k hk => (List.mem_filter.1 hk).1) n
      rw [List.countP_map] at this ⊢
      refine Eq.trans ?_ (this.trans ?_)
      · rfl
      · have : sortInts n ∈ dupKeys L ↔ 2 ≤ occurrences tbl c ft n := by
          unfold dupKeys
          rw [List.mem_filter, hkey]
          simp only [decide_not, Bool.not_eq_true', decide_eq_false_iff_not]
          rw [hlen]; omega
        simp only [this]
    · rw [if_neg hft, hzero hft]; rfl

/-- Two tetrahedra meet the hypotheses: the face computation of this mesh succeeds. -/
example : ∃ r, createFaces cgnsElem2faces exTetras = .ok r ∧ facesWith r.internal "tri3" [3, 1, 2] = 1 := by
  obtain ⟨r, hr⟩ := exTetras_faces
  have h := (C08_faces_exactly_once _ cgnsTable_wf _ exTetras_wf r hr "tri3" [3, 1, 2]).2
  rw [if_pos (by decide +kernel)] at h
  exact ⟨r, hr, h⟩

/-- Two tetrahedra: 6 boundary triangles, one internal triangle. -/
example : (createFaces cgnsElem2faces exTetras).map
    (fun r => (facesWith r.boundary "tri3" [3, 1, 2], facesWith r.internal "tri3" [3, 1, 2],
      (elementsOf r.boundary "tri3").length, (elementsOf r.internal "tri3").length)) =
    .ok (0, 1, 6, 1) := by decide +kernel

/-! ## C09 -/

/-- C09, boundary faces: faces are numbered from 0; row k of the face-to-cell table is that of face
k; it is `(c, -1)` where `c` is the cell of the only cell face with these nodes, and the node order of
the face is that of the reversed table entry of `c`. -/
theorem C09_boundary_cells (tbl : FaceTable) (ht : TableWF tbl) (c : ElemConn) (hc : ConnWF c)
    (r : FacesResult) (h : createFaces tbl c = .ok r) :
    (allIndices r.boundary = pyRange 0 (elements r.boundary).length ∧
      (r.b2c.getD []).length = (elements r.boundary).length) ∧
    ∀ t k nodes, (t, k, nodes) ∈ elements r.boundary →
      ∃ cell, (r.b2c.getD [])[k.toNat]? = some (cell, -1) ∧
        ((cellFaces tbl c t).filter fun o => o.1.isPerm nodes) = [(nodes, cell)] := by
  have inv := facesInv_of_ok ht hc.entries h
  refine ⟨⟨?_, ?_⟩, ?_⟩
  · unfold allIndices
    rw [inv.bel, numberFrom_idx]; simp [numberFrom]
  · rw [inv.b2c, inv.bel]; simp [numberFrom]
  · intro t k nodes hm
    rw [inv.bel, mem_numberFrom] at hm
    obtain ⟨i, hk, hi⟩ := hm
    simp only at hk
    rw [List.getElem?_map, Option.map_eq_some_iff] at hi
    obtain ⟨x, hx, hxe⟩ := hi
    simp only [Prod.mk.injEq] at hxe
    refine ⟨x.2.2, ?_, ?_⟩
    · rw [inv.b2c, hk, Int.toNat_natCast, List.getElem?_map, hx]; rfl
    · have hmem : x ∈ bFaces (facesByType tbl c) := List.mem_of_getElem? hx
      rw [bFaces_eq] at hmem
      simp only [List.mem_flatMap, List.mem_map] at hmem
      obtain ⟨ft, _, o, ⟨key, hkey, rfl⟩, rfl⟩ := hmem
      simp only at hxe
      obtain ⟨rfl, rfl⟩ := hxe
      have h1 := (hd_mem (List.mem_filter.1 hkey).1).2
      obtain ⟨o, ho⟩ := grp_of_uniq hkey
      have hhd : hd (codeFaces tbl c ft) key = o := by simp [hd, ho]
      have hperm := grp_perm_filter (tbl := tbl) hc.entries ft (hd (codeFaces tbl c ft) key).1
      have hs : sortInts (hd (codeFaces tbl c ft) key).1 = key := h1
      rw [hs, ho, hhd] at hperm
      simp only [hhd]
      exact List.perm_singleton.1 hperm.symm

example : ∃ r, createFaces cgnsElem2faces exTetras = .ok r ∧
    (r.b2c.getD []).length = (elements r.boundary).length := by
  obtain ⟨r, hr⟩ := exTetras_faces
  exact ⟨r, hr, (C09_boundary_cells _ cgnsTable_wf _ exTetras_wf r hr).1.2⟩

/-- C09, internal faces: row k of the table is `(c1, c2)`, the cells of two different cell faces with
these nodes, and the node order of the face is that of the reversed table entry of `c1`. When no
third cell face has these nodes, there is nothing else. -/
theorem C09_internal_cells (tbl : FaceTable) (ht : TableWF tbl) (c : ElemConn) (hc : ConnWF c)
    (r : FacesResult) (h : createFaces tbl c = .ok r) :
    (allIndices r.internal = pyRange 0 (elements r.internal).length ∧
      (r.i2c.getD []).length = (elements r.internal).length) ∧
    ∀ t k nodes, (t, k, nodes) ∈ elements r.internal →
      ∃ c1 c2 nodes2 rest, (r.i2c.getD [])[k.toNat]? = some (c1, c2) ∧
        ((cellFaces tbl c t).filter fun o => o.1.isPerm nodes).Perm
          ((nodes, c1) :: (nodes2, c2) :: rest) := by
  have inv := facesInv_of_ok ht hc.entries h
  refine ⟨⟨?_, ?_⟩, ?_⟩
  · unfold allIndices
    rw [inv.iel, numberFrom_idx]; simp [numberFrom]
  · rw [inv.i2c, inv.iel]; simp [numberFrom]
  · intro t k nodes hm
    rw [inv.iel, mem_numberFrom] at hm
    obtain ⟨i, hk, hi⟩ := hm
    simp only at hk
    rw [List.getElem?_map, Option.map_eq_some_iff] at hi
    obtain ⟨x, hx, hxe⟩ := hi
    simp only [Prod.mk.injEq] at hxe
    have hmem : x ∈ iFaces (facesByType tbl c) := List.mem_of_getElem? hx
    rw [iFaces_eq] at hmem
    simp only [List.mem_flatMap, List.mem_map] at hmem
    obtain ⟨ft, _, o, ⟨key, hkey, rfl⟩, rfl⟩ := hmem
    simp only at hxe
    obtain ⟨rfl, rfl⟩ := hxe
    obtain ⟨o1, o2, rest, ho⟩ := grp_of_dup hkey
    have h1 := (hd_mem (List.mem_filter.1 hkey).1).2
    have hhd : hd (codeFaces tbl c ft) key = o1 := by simp [hd, ho]
    have hsnd : snd (codeFaces tbl c ft) key = o2 := by simp [snd, ho]
    refine ⟨o1.2, o2.2, o2.1, rest, ?_, ?_⟩
    · rw [inv.i2c, hk, Int.toNat_natCast, List.getElem?_map, hx]
      simp [hhd, hsnd]
    · have hperm := grp_perm_filter (tbl := tbl) hc.entries ft (hd (codeFaces tbl c ft) key).1
      have hs : sortInts (hd (codeFaces tbl c ft) key).1 = key := h1
      rw [hs, ho] at hperm
      rw [hhd] at hperm ⊢
      exact hperm.symm

example : ∃ r, createFaces cgnsElem2faces exTetras = .ok r ∧
    (r.i2c.getD []).length = (elements r.internal).length := by
  obtain ⟨r, hr⟩ := exTetras_faces
  exact ⟨r, hr, (C09_internal_cells _ cgnsTable_wf _ exTetras_wf r hr).1.2⟩

/-- The internal triangle of the two tetrahedra: outward from cell 0, neighbours 0 and 1. -/
example : (createFaces cgnsElem2faces exTetras).map (fun r => (elements r.internal, r.i2c)) =
    .ok ([("tri3", 0, [2, 3, 1])], some [(0, 1)]) := by decide +kernel

/-- The generated connectivities are consistent (used by the other properties). -/
theorem createFaces_wf {tbl : FaceTable} (ht : TableWF tbl) {c : ElemConn} (hc : ConnWF c)
    {r : FacesResult} (h : createFaces tbl c = .ok r) : ConnWF r.boundary ∧ ConnWF r.internal :=
  ⟨(facesInv_of_ok ht hc.entries h).bwf, (facesInv_of_ok ht hc.entries h).iwf⟩

/-! ## C10 -/

theorem firstUse_length_perm {α : Type} [DecidableEq α] {l m : List α} (h : l.Perm m) :
    (firstUse l).length = (firstUse m).length := by
  apply List.Perm.length_eq
  rw [List.perm_ext_iff_of_nodup (nodup_firstUse _) (nodup_firstUse _)]
  intro a
  rw [mem_firstUse, mem_firstUse, h.mem_iff]

theorem accepted_iff {tbl : FaceTable} {c : ElemConn} (hc : ConnWF c) (ft : String) :
    Accepted (codeFaces tbl c ft) ↔
      distinctFaces tbl c ft < (cellFaces tbl c ft).length ∧
      (cellFaces tbl c ft).length ≤ 2 * distinctFaces tbl c ft := by
  have hp := codeFaces_perm (tbl := tbl) hc.entries ft
  have h2 : (firstUse ((codeFaces tbl c ft).map occKey)).length = distinctFaces tbl c ft :=
    firstUse_length_perm (hp.map occKey)
  unfold Accepted
  rw [h2, hp.length_eq]

/-- C10 (exact acceptance condition, all that the code checks): for cells known to the table, faces
are generated exactly when each face type has fewer distinct faces than cell faces, and at most twice
as many cell faces as distinct faces; otherwise AssertionError. -/
theorem C10_acceptance_partial (tbl : FaceTable) (ht : TableWF tbl) (c : ElemConn) (hc : ConnWF c)
    (hk : CellsKnown tbl c) :
    ((∃ r, createFaces tbl c = .ok r) ↔
      ∀ ft ∈ faceTypes tbl c, distinctFaces tbl c ft < (cellFaces tbl c ft).length ∧
        (cellFaces tbl c ft).length ≤ 2 * distinctFaces tbl c ft) ∧
    ((¬ ∃ r, createFaces tbl c = .ok r) → createFaces tbl c = .error .assertion) := by
  have hiff : (∀ p ∈ facesByType tbl c, Accepted p.2) ↔
      ∀ ft ∈ faceTypes tbl c, distinctFaces tbl c ft < (cellFaces tbl c ft).length ∧
        (cellFaces tbl c ft).length ≤ 2 * distinctFaces tbl c ft := by
    unfold facesByType
    simp only [List.mem_map, forall_exists_index, and_imp, forall_apply_eq_imp_iff₂]
    constructor
    · intro h ft hft
      exact (accepted_iff hc ft).1 (h ft (mem_firstUse.2 (mem_buildEvents_keys.2 hft)))
    · intro h ft hft
      exact (accepted_iff hc ft).2 (h ft (mem_buildEvents_keys.1 (mem_firstUse.1 hft)))
  rcases createFaces_cases ht hc.entries hk with ⟨h1, r, h2, _⟩ | ⟨h1, h2⟩
  · exact ⟨⟨fun _ => hiff.1 h1, fun _ => ⟨r, h2⟩⟩, fun h => absurd ⟨r, h2⟩ h⟩
  · refine ⟨⟨?_, fun h => absurd (hiff.2 h) h1⟩, fun _ => h2⟩
    rintro ⟨r, hr⟩
    rw [h2] at hr; simp at hr

example := C10_acceptance_partial _ cgnsTable_wf _ exTetras_wf exTetras_known

/-- C10: a cell type unknown to the table is refused. -/
theorem C10_unknown_type_refused (tbl : FaceTable) (c : ElemConn) (hc : ConnWF c)
    (t : String) (ht : t ∈ c.tbl.keys) (hu : tbl.get? t = none) :
    ¬ ∃ r, createFaces tbl c = .ok r := by
  rintro ⟨r, h⟩
  obtain ⟨p, hp, rfl⟩ := List.mem_map.1 ht
  obtain ⟨fs, h1, _⟩ := createFaces_ok_known hc.entries h p hp
  rw [hu] at h1; simp at h1

/-- A cell of a type that is in no table. -/
example := C10_unknown_type_refused cgnsElem2faces
  ⟨1, [("tetra10", ⟨.range 0 0, ⟨some 4, [[0, 1, 2, 3]]⟩⟩)]⟩ (connWF_of_ok (by decide)) "tetra10" (by decide)
  (by decide)

/-- Face counts of a conforming mesh. -/
theorem conforming_lengths {L : List FaceOcc} (h : ∀ k, (grp L k).length ≤ 2) :
    L.length = (uniqKeys L).length + 2 * (dupKeys L).length := by
  rw [sum_grp_length]
  unfold uniqKeys dupKeys
  have hpos : ∀ k ∈ firstUse (L.map occKey), 0 < (grp L k).length := fun k hk => mem_firstUse_key.1 hk
  generalize firstUse (L.map occKey) = ks at hpos
  induction ks with
  | nil => rfl
  | cons k ks ih =>
    have h1 := hpos k (by simp)
    have h2 := h k
    have h3 := ih fun k' hk' => hpos k' (by simp [hk'])
    simp only [List.map_cons, List.sum_cons, List.filter_cons]
    by_cases hk : (grp L k).length = 1
    · simp only [hk, decide_true, if_true, not_true_eq_false, decide_false, List.length_cons]
      simp only [Bool.false_eq_true, if_false]
      omega
    · simp only [hk, decide_false, Bool.false_eq_true, if_false, not_false_eq_true, decide_true, if_true,
        List.length_cons]
      omega

/-- C10: a mesh in which no node set is shared by more than two cell faces, and in which each face
type has at least one shared face, is accepted; the number of cell faces is the number of boundary
faces plus twice the number of internal faces. -/
theorem C10_conforming_accepted (tbl : FaceTable) (ht : TableWF tbl) (c : ElemConn) (hc : ConnWF c)
    (hk : CellsKnown tbl c) (hconf : ∀ ft, ∀ o ∈ cellFaces tbl c ft, occurrences tbl c ft o.1 ≤ 2)
    (hshared : ∀ ft ∈ faceTypes tbl c, ∃ n, occurrences tbl c ft n = 2) :
    ∃ r, createFaces tbl c = .ok r ∧ ∀ ft, (cellFaces tbl c ft).length =
      (elementsOf r.boundary ft).length + 2 * (elementsOf r.internal ft).length := by
  have hgrp : ∀ ft k, (grp (codeFaces tbl c ft) k).length ≤ 2 := by
    intro ft k
    by_cases h0 : (grp (codeFaces tbl c ft) k).length = 0
    · omega
    · obtain ⟨o, ho⟩ := List.length_pos_iff_exists_mem.1 (Nat.pos_of_ne_zero h0)
      have := (mem_grp.1 ho).2
      rw [← this]
      unfold occKey
      rw [grp_length hc.entries]
      exact hconf ft _ ((codeFaces_perm hc.entries ft).mem_iff.1 (mem_grp.1 ho).1)
  have hlen : ∀ ft, (codeFaces tbl c ft).length = (uniqKeys (codeFaces tbl c ft)).length +
      2 * (dupKeys (codeFaces tbl c ft)).length := fun ft => conforming_lengths (hgrp ft)
  have hok : ∃ r, createFaces tbl c = .ok r := by
    rw [(C10_acceptance_partial tbl ht c hc hk).1]
    intro ft hft
    rw [← accepted_iff hc ft]
    unfold Accepted
    rw [hlen ft, uniq_dup_length]
    obtain ⟨n, hn⟩ := hshared ft hft
    rw [← grp_length hc.entries] at hn
    have hmem : sortInts n ∈ dupKeys (codeFaces tbl c ft) := by
      unfold dupKeys
      rw [List.mem_filter, mem_firstUse_key]
      simp [hn]
    have := List.length_pos_of_mem hmem
    omega
  obtain ⟨r, hr⟩ := hok
  refine ⟨r, hr, ?_⟩
  intro ft
  have inv := facesInv_of_ok ht hc.entries hr
  have hnd := nodup_firstUse ((buildEvents tbl c).map (·.1))
  have hb : (elementsOf r.boundary ft).length =
      if ft ∈ firstUse ((buildEvents tbl c).map (·.1)) then (uniqKeys (codeFaces tbl c ft)).length else 0 := by
    have := congrArg List.length (elementsOf_of_numberFrom inv.bwf.keys inv.bel ft)
    rw [List.length_map, List.filter_map, List.length_map, List.length_map] at this
    rw [this]
    have e2 : (bFaces (facesByType tbl c)).filter
        ((fun x : String × List Int => decide (x.1 = ft)) ∘ fun x => (x.1, x.2.1)) =
        (bFaces (facesByType tbl c)).filter fun x => decide (x.1 = ft) := rfl
    rw [e2, bFaces_eq, tagged_filter _ hnd]
    split <;> simp
  have hi : (elementsOf r.internal ft).length =
      if ft ∈ firstUse ((buildEvents tbl c).map (·.1)) then (dupKeys (codeFaces tbl c ft)).length else 0 := by
    have := congrArg List.length (elementsOf_of_numberFrom inv.iwf.keys inv.iel ft)
    rw [List.length_map, List.filter_map, List.length_map, List.length_map] at this
    rw [this]
    have e2 : (iFaces (facesByType tbl c)).filter
        ((fun x : String × List Int => decide (x.1 = ft)) ∘ fun x => (x.1, x.2.1.1)) =
        (iFaces (facesByType tbl c)).filter fun x => decide (x.1 = ft) := rfl
    rw [e2, iFaces_eq, tagged_filter _ hnd]
    split <;> simp
  rw [← (codeFaces_perm (tbl := tbl) hc.entries ft).length_eq, hb, hi]
  by_cases hft : ft ∈ firstUse ((buildEvents tbl c).map (·.1))
  · rw [if_pos hft, if_pos hft, hlen ft]
  · rw [if_neg hft, if_neg hft, (codeFaces_perm (tbl := tbl) hc.entries ft).length_eq]
    rw [mem_firstUse, mem_buildEvents_keys] at hft
    rw [cellFaces_nil_of_not_mem hft]; rfl

example : ∃ r, createFaces cgnsElem2faces exTetras = .ok r ∧
    ∀ ft, (cellFaces cgnsElem2faces exTetras ft).length =
      (elementsOf r.boundary ft).length + 2 * (elementsOf r.internal ft).length := by
  refine C10_conforming_accepted _ cgnsTable_wf _ exTetras_wf exTetras_known ?_
    (fun ft h => ⟨[1, 2, 3], ?_⟩)
  · intro ft o ho
    have hft : ft = "tri3" := by
      by_contra hne
      have : cellFaces cgnsElem2faces exTetras ft = [] := by
        have h4 : cgnsElem2faces.get? "tetra4" = some (groupFacesByType connTetra4) := by decide
        have h5 : localFaces cgnsElem2faces "tetra4" ft = [] := by
          have h6 : ∀ q ∈ groupFacesByType connTetra4, q.1 = "tri3" ∨ q.2 = [] := by decide
          simp only [localFaces, h4, Option.getD_some, List.flatMap_eq_nil_iff]
          intro q hq
          split
          · rename_i h; exact (h6 q hq).resolve_left (fun h' => hne (h ▸ h'))
          · rfl
        simp [cellFaces,
          show elements exTetras = [("tetra4", 0, [0, 1, 2, 3]), ("tetra4", 1, [4, 1, 3, 2])] by decide, h5]
      simp [this] at ho
    subst hft
    revert o
    decide +kernel
  · have : ft = "tri3" := by
      have h2 : faceTypes cgnsElem2faces exTetras = ["tri3"] := by decide +kernel
      simpa [h2] using h
    subst this
    decide +kernel

/-- Three quadrangles around the edge (0, 1). -/
def exThree : ElemConn := ⟨3, [("quad4", ⟨.range 0 2, ⟨some 4, [[0, 1, 2, 3], [0, 1, 4, 5], [0, 1, 6, 7]]⟩⟩)]⟩

/-- C10 refuted: an edge shared by three cells is accepted, and the third cell is nowhere in the
face-to-cell table of the internal faces. -/
theorem C10_nonconforming_refuted :
    ∃ c, ConnWF c ∧ occurrences cgnsElem2faces c "bar2" [0, 1] = 3 ∧
      (createFaces cgnsElem2faces c).map (·.i2c) = .ok (some [(0, 1)]) := by
  refine ⟨exThree, ⟨by decide, ?_, by decide⟩, by decide +kernel, by decide +kernel⟩
  intro p hp
  simp only [exThree, List.mem_singleton] at hp
  subst hp
  exact ⟨⟨[0, 1, 2], by decide, rfl⟩, by simp [Arr2.WF]⟩

/-- Hypotheses of `C10_conforming_accepted` on the two tetrahedra (one face type, faces counted). -/
example : CellsKnown cgnsElem2faces exTetras := by
  intro p hp
  simp only [exTetras, List.mem_singleton] at hp
  subst hp
  exact ⟨_, 4, rfl, rfl, by decide⟩
example : faceTypes cgnsElem2faces exTetras = ["tri3"] ∧
    occurrences cgnsElem2faces exTetras "tri3" [1, 2, 3] = 2 ∧
    ∀ o ∈ cellFaces cgnsElem2faces exTetras "tri3",
      occurrences cgnsElem2faces exTetras "tri3" o.1 ≤ 2 := by decide +kernel

/-- A single cell has no shared face and is refused. -/
example : createFaces cgnsElem2faces
    ⟨1, [("tetra4", ⟨.range 0 0, ⟨some 4, [[0, 1, 2, 3]]⟩⟩)]⟩ = .error .assertion := by decide +kernel

end Cfd
