import Mathlib.Data.List.Induction
import Verif.Lemmas.Merge

/-! C03-C07: element connectivities. -/

namespace Cfd
open Spec ElemConn

/-! ## C03 default numbering -/

/-- A history of `add_elems` calls without index; `w t` is the row width of type `t`. -/
def addHistory (w : String → Nat) (calls : List (String × List (List Int))) : Py ElemConn :=
  calls.foldlM (fun c p => c.addElems p.1 ⟨some (w p.1), p.2⟩) ElemConn.empty

/-- Triangles and quadrilaterals whose numbers interleave. -/
def exInterleaved : ElemConn := ⟨3, [("tri3", ⟨.list [0, 2], ⟨some 3, [[0, 1, 2], [1, 2, 3]]⟩⟩),
  ("quad4", ⟨.list [1], ⟨some 4, [[4, 5, 6, 7]]⟩⟩)]⟩

/-- Triangles, then a quadrilateral. -/
def exOrdered : ElemConn := ⟨3, [("tri3", ⟨.range 0 1, ⟨some 3, [[0, 1, 2], [1, 2, 3]]⟩⟩),
  ("quad4", ⟨.list [2], ⟨some 4, [[4, 5, 6, 7]]⟩⟩)]⟩

theorem exInterleaved_wf : ConnWF exInterleaved := connWF_of_ok (by decide)
theorem exOrdered_wf : ConnWF exOrdered := connWF_of_ok (by decide)

theorem exInterleaved_valid : ValidNumbering (allIndices exInterleaved) :=
  valid_of_perm_pyRange (n := 3) (by decide)

/-- C03: after any history, the k-th row ever added has index k under its type and keeps its nodes;
rows of a type keep their order; types are listed once in first-use order; `nelem` counts the rows. -/
theorem C03_default_numbering (w : String → Nat) (calls : List (String × List (List Int)))
    (hw : ∀ p ∈ calls, ∀ r ∈ p.2, r.length = w p.1) :
    ∃ c, addHistory w calls = .ok c ∧
      (∀ t, elementsOf c t = ((numbered calls).filter fun x => x.1 = t).map (·.2)) ∧
      c.nelem = (calls.map fun p => p.2.length).sum ∧
      c.tbl.keys = firstUse (calls.map (·.1)) ∧
      (elements c).Perm (numbered calls) ∧
      ValidNumbering (allIndices c) := by
  have main : ∃ c, addHistory w calls = .ok c ∧ ConnWF c ∧
      (∀ t, elementsOf c t = ((numbered calls).filter fun x => x.1 = t).map (·.2)) ∧
      c.nelem = (calls.map fun p => p.2.length).sum ∧
      c.tbl.keys = firstUse (calls.map (·.1)) ∧
      (∀ t e, c.tbl.get? t = some e → e.e2n.ncol = some (w t)) := by
    unfold addHistory
    induction calls using List.reverseRecOn with
    | nil =>
      exact ⟨_, rfl, connWF_empty, fun t => rfl, rfl, rfl, by simp [ElemConn.empty, Dict.get?]⟩
    | append_singleton calls p ih =>
      obtain ⟨c, h, hwf, hel, hn, hk, hcol⟩ := ih (fun q hq => hw q (by simp [hq]))
      rw [List.foldlM_append, h, Except_bind_ok]
      obtain ⟨c', h', hwf', hn', hk', hel', hg', e', he', hc'⟩ := addElems_ok hwf p.1
        ⟨some (w p.1), p.2⟩ (fun r hr => hw p (by simp) r hr) none
        (pyRange c.nelem (c.nelem + p.2.length))
        (by simp only [newIndex, IndexList.toList]; congr 2; omega)
        (by rw [length_pyRange]; simp only; omega)
        (fun e he => hcol _ _ he)
      refine ⟨c', by simp only [List.foldlM_cons, List.foldlM_nil, h', Except_bind_ok, Except_pure],
        hwf', ?_, ?_, ?_, ?_⟩
      · intro t
        rw [hel', hel]
        unfold numbered
        rw [List.flatMap_append, List.zipIdx_append, List.map_append, List.filter_append,
          List.map_append]
        congr 1
        have hlen : (calls.flatMap fun p => p.2.map fun r => (p.1, r)).length = c.nelem := by
          rw [hn, List.length_flatMap]; simp
        simp only [List.flatMap_cons, List.flatMap_nil, List.append_nil, hlen, Nat.zero_add]
        by_cases ht : t = p.1
        · subst ht
          simp only [if_true]
          rw [List.filter_eq_self.2 (by
            intro x hx
            simp only [List.mem_map, List.zipIdx_map] at hx
            obtain ⟨y, ⟨z, _, rfl⟩, rfl⟩ := hx
            simp)]
          apply List.ext_getElem
          · simp only [List.length_zip, length_pyRange, List.length_map, List.length_zipIdx]; omega
          · intro i h1 h2
            simp [getElem_pyRange]
        · rw [if_neg ht, List.filter_eq_nil_iff.2 (by
            intro x hx
            simp only [List.mem_map, List.zipIdx_map] at hx
            obtain ⟨y, ⟨z, _, rfl⟩, rfl⟩ := hx
            simp only [Prod.map_apply, decide_eq_true_eq]
            exact fun h => ht h.symm)]
          rfl
      · rw [hn', hn]; simp
      · rw [hk', hk, List.map_append, List.map_cons, List.map_nil, firstUse_append_singleton]
        simp only [mem_firstUse]
      · intro t e he
        by_cases ht : t = p.1
        · subst ht
          rw [he'] at he
          obtain rfl := Option.some.inj he
          exact hc'
        · exact hcol t e (hg' t e he ht)
  obtain ⟨c, h, hwf, hel, hn, hk, _⟩ := main
  have hperm := elements_perm_of_elementsOf hwf.keys _ hel
  refine ⟨c, h, hel, hn, hk, hperm, ?_⟩
  have h2 : (allIndices c).Perm ((numbered calls).map fun x => x.2.1) := hperm.map _
  have h3 : (numbered calls).map (fun x => x.2.1) = pyRange 0 (numbered calls).length := by
    unfold numbered
    apply List.ext_getElem
    · simp
    · intro i h1 h2
      simp [getElem_pyRange]
  rw [h3] at h2
  exact valid_of_perm_pyRange h2

/-- A case meeting the hypothesis. -/
example := C03_default_numbering (fun t => if t = "tri3" then 3 else 4)
  [("quad4", [[0, 1, 2, 3]]), ("tri3", [[1, 2, 4], [2, 4, 5]]), ("quad4", [[7, 8, 9, 6]])] (by decide)

example : (addHistory (fun t => if t = "tri3" then 3 else 4)
    [("quad4", [[0, 1, 2, 3]]), ("tri3", [[1, 2, 4], [2, 4, 5]]), ("quad4", [[7, 8, 9, 6]])]).map
      (fun c => (elementsOf c "quad4", elementsOf c "tri3", c.nelem, c.tbl.keys)) =
    .ok ([(0, [0, 1, 2, 3]), (3, [7, 8, 9, 6])], [(1, [1, 2, 4]), (2, [2, 4, 5])], 4,
      ["quad4", "tri3"]) := by decide

/-! ## C04 check -/

theorem npUnique_of_pairwise {l : List Int} (h : l.Pairwise (· < ·)) : npUnique l = l := by
  unfold npUnique
  rw [sortInts_of_pairwise (h.imp (fun h => by omega))]
  exact List.Nodup.dedup (h.imp (fun h => by omega))

theorem pairwise_npUnique (l : List Int) : (npUnique l).Pairwise (· < ·) := by
  unfold npUnique
  have h1 : (sortInts l).dedup.Pairwise (· ≤ ·) :=
    (pairwise_sortInts l).sublist (List.dedup_sublist _)
  have h2 : (sortInts l).dedup.Nodup := List.nodup_dedup _
  exact (h1.and h2).imp (fun h => by have := h.1; have := h.2; omega)

/-- C04 (exact condition): `check()` accepts exactly when there is at least one element and the
indices, listed type after type, are 0, 1, ..., n-1 in this order. -/
theorem C04_check_iff (c : ElemConn) (hc : ConnWF c) :
    c.check = .ok true ↔
      elements c ≠ [] ∧ ∀ (k : Nat) (h : k < (allIndices c).length), (allIndices c)[k] = k := by
  have key : c.check = .ok true ↔ elements c ≠ [] ∧ allIndices c = pyRange 0 (allIndices c).length := by
    unfold check
    rw [indexLists_of_wf hc.entries, Except_bind_ok]
    rw [allIndices_eq_flatten hc.entries]
    have hne : elements c = [] ↔ (c.tbl.map fun p => indicesOf p.2).flatten = [] := by
      rw [← allIndices_eq_flatten hc.entries]; unfold allIndices; simp
    rw [ne_eq, hne]
    generalize hL : (c.tbl.map fun p => indicesOf p.2) = ls
    by_cases hemp : ls.isEmpty
    · have : ls = [] := by simpa using hemp
      subst this
      simp
    · rw [if_neg hemp]
      simp only
      generalize ls.flatten = l
      cases hl : l with
      | nil => simp
      | cons a t =>
        rw [← hl]
        have hlne : l ≠ [] := by simp [hl]
        obtain ⟨mn, hmn⟩ : ∃ m, l.min? = some m := by
          rw [← Option.isSome_iff_exists, List.isSome_min?_iff]; exact hlne
        obtain ⟨mx, hmx⟩ : ∃ m, l.max? = some m := by
          rw [← Option.isSome_iff_exists, List.isSome_max?_iff]; exact hlne
        have hmn' := List.min?_eq_some_iff.1 hmn
        have hmx' := List.max?_eq_some_iff.1 hmx
        simp only [hmn, hmx, bind_eq_ok, pyAssert_eq_ok, decide_eq_true_eq]
        constructor
        · rintro ⟨_, h1, _, h2, b, h3, _, h4, _⟩
          refine ⟨hlne, ?_⟩
          subst h4
          have hu : npUnique l = l := by
            unfold npAllEq at h3
            by_cases hlen : (npUnique l).length = l.length
            · rw [if_pos hlen] at h3
              simpa using h3
            · rw [if_neg hlen] at h3
              split at h3
              · rename_i x hx
                simp only [Except.ok.injEq, List.all_eq_true, decide_eq_true_eq] at h3
                have e1 := h3 mn hmn'.1
                have e2 := h3 mx hmx'.1
                exact absurd (by rw [hx, List.length_singleton]; omega) hlen
              · rename_i x hx
                subst_vars
                exact npUnique_of_pairwise (by simp)
              · simp at h3
          have hpw := pairwise_npUnique l
          rw [hu] at hpw
          have := eq_pyRange_of_pairwise (a := 0) hpw (by
            intro i hi
            have e1 := hmn'.2 i hi
            have e2 := hmx'.2 i hi
            omega)
          simpa using this
        · rintro ⟨_, h⟩
          have hpw : l.Pairwise (· < ·) := by rw [h]; exact pairwise_pyRange _ _
          have hmem : ∀ i, i ∈ l ↔ 0 ≤ i ∧ i < l.length := by
            intro i; conv_lhs => rw [h]
            exact mem_pyRange
          have hpos : 0 < l.length := List.length_pos_iff.2 hlne
          have e1 := hmn'.2 0 ((hmem 0).2 ⟨by omega, by omega⟩)
          have e2 := ((hmem mn).1 hmn'.1)
          have e3 := hmx'.2 ((l.length : Int) - 1) ((hmem _).2 ⟨by omega, by omega⟩)
          have e4 := ((hmem mx).1 hmx'.1)
          refine ⟨(), by omega, (), by omega, true, ?_, (), rfl, rfl⟩
          rw [npUnique_of_pairwise hpw]
          simp [npAllEq]
  rw [key]
  apply and_congr_right
  intro _
  constructor
  · intro h k hk
    have : (allIndices c)[k]? = (pyRange 0 (allIndices c).length)[k]? := by rw [← h]
    rw [List.getElem?_eq_getElem hk, List.getElem?_eq_getElem (by simpa using hk)] at this
    rw [Option.some.inj this, getElem_pyRange]; omega
  · intro h
    apply List.ext_getElem
    · simp
    · intro i h1 h2
      rw [h i h1, getElem_pyRange]; omega

/-- Both sides of the equivalence occur. -/
example := C04_check_iff exInterleaved exInterleaved_wf
example := C04_check_iff exOrdered exOrdered_wf

/-- C04 (soundness): what `check()` accepts is a valid numbering. Missing: the converse, which is refuted
below (`check()` rejects valid numberings whose types interleave; the exact condition is `C04_check_iff`). -/
theorem C04_check_sound_partial (c : ElemConn) (hc : ConnWF c) (h : c.check = .ok true) :
    ValidNumbering (allIndices c) := by
  have h2 := ((C04_check_iff c hc).1 h).2
  apply valid_of_perm_pyRange (n := (allIndices c).length)
  apply List.Perm.of_eq
  apply List.ext_getElem
  · simp
  · intro i h1 h3
    rw [h2 i h1, getElem_pyRange]; omega

example := C04_check_sound_partial exOrdered exOrdered_wf (by decide +kernel)

/-- C04: `check()` never answers anything but "accepted" or an exception. -/
theorem C04_check_never_false (c : ElemConn) : c.check ≠ .ok false := by
  unfold check
  intro h
  rw [bind_eq_ok] at h
  obtain ⟨ls, _, h⟩ := h
  split at h
  · simp at h
  · simp only at h
    split at h
    · simp [bind_eq_ok] at h
    · simp at h

example : ElemConn.check ⟨3, [("tri3", ⟨.range 0 1, ⟨some 3, [[0, 1, 2], [1, 2, 3]]⟩⟩),
    ("quad4", ⟨.list [2], ⟨some 4, [[4, 5, 6, 7]]⟩⟩)]⟩ = .ok true := by decide +kernel

/-- C04, English claim refuted: a valid numbering whose types interleave is rejected. -/
theorem C04_check_complete_refuted :
    ∃ c : ElemConn, ConnWF c ∧ elements c ≠ [] ∧ ValidNumbering (allIndices c) ∧
      c.check = .error .assertion := by
  refine ⟨⟨3, [("tri3", ⟨.list [0, 2], ⟨some 3, [[0, 1, 2], [1, 2, 3]]⟩⟩),
    ("quad4", ⟨.list [1], ⟨some 4, [[4, 5, 6, 7]]⟩⟩)]⟩, ⟨by decide, ?_, by decide⟩, by decide, ?_,
    by decide +kernel⟩
  · intro p hp
    simp only [List.mem_cons, List.not_mem_nil, or_false] at hp
    rcases hp with rfl | rfl
    · exact ⟨⟨[0, 2], rfl, rfl⟩, by simp [Arr2.WF]⟩
    · exact ⟨⟨[1], rfl, rfl⟩, by simp [Arr2.WF]⟩
  · exact valid_of_perm_pyRange (n := 3) (by decide)

/-! ## C05, C06 compressed connectivities -/

/-- C05: importing a compressed face connectivity whose faces have 1 to 4 nodes and exporting it
again gives back the same offsets and values. -/
theorem C05_import_export (z : Csr) (n : Nat) (hz : CsrWF z n)
    (hs : ∀ k, k < n → 1 ≤ (csrSlice z k).length ∧ (csrSlice z k).length ≤ 4) :
    ∃ c, importCompressed ElemConn.empty z = .ok c ∧ exportCompressed c = .ok z := by
  have hf : ∀ f ∈ (List.range n).map (csrSlice z), 1 ≤ f.length ∧ f.length ≤ 4 := by
    intro f hf
    obtain ⟨k, hk, rfl⟩ := List.mem_map.1 hf
    exact hs k (List.mem_range.1 hk)
  obtain ⟨c, h1, h2, h3, h4, _⟩ := import_ok _ hf
  rw [csrOf_slices hz] at h1
  have h5 := export_of_perm (indexElemTuples_of_wf h2) h4
  rw [csrOf_slices hz] at h5
  exact ⟨c, h1, h5⟩

/-- A triangle, a quadrilateral, a segment and a triangle. -/
example := C05_import_export ⟨[0, 3, 7, 9, 12], [0, 1, 2, 5, 6, 7, 8, 3, 4, 9, 8, 7]⟩ 4
  ⟨rfl, rfl, by decide, rfl⟩ (by decide)

/-- C05: the imported connectivity holds face k with exactly the nodes of slice k, under the type
having that number of nodes, and nothing else. -/
theorem C05_import_elements (z : Csr) (n : Nat) (hz : CsrWF z n)
    (hs : ∀ k, k < n → 1 ≤ (csrSlice z k).length ∧ (csrSlice z k).length ≤ 4) :
    ∃ c, importCompressed ElemConn.empty z = .ok c ∧
      (∀ k nodes, (∃ t, (t, k, nodes) ∈ elements c) ↔
        ∃ j : Nat, j < n ∧ k = j ∧ nodes = csrSlice z j) ∧
      (∀ t k nodes, (t, k, nodes) ∈ elements c → nnodeElem.get? t = some nodes.length) := by
  have hf : ∀ f ∈ (List.range n).map (csrSlice z), 1 ≤ f.length ∧ f.length ≤ 4 := by
    intro f hf
    obtain ⟨k, hk, rfl⟩ := List.mem_map.1 hf
    exact hs k (List.mem_range.1 hk)
  obtain ⟨c, h1, h2, h3, h4, h5, _⟩ := import_ok _ hf
  rw [csrOf_slices hz] at h1
  refine ⟨c, h1, ?_, ?_⟩
  · intro k nodes
    have : (∃ t, (t, k, nodes) ∈ elements c) ↔ (k, nodes) ∈ (elements c).map (·.2) := by
      simp
    rw [this, h4.mem_iff, mem_enumFaces]
    constructor
    · rintro ⟨j, hj, hg⟩
      obtain ⟨hlt, hg⟩ := List.getElem?_eq_some_iff.1 hg
      simp only [List.length_map, List.length_range] at hlt
      refine ⟨j, hlt, hj, ?_⟩
      simpa using hg.symm
    · rintro ⟨j, hj, rfl, rfl⟩
      exact ⟨j, rfl, by simp [hj]⟩
  · intro t k nodes hm
    have hfn := h5 _ hm
    simp only at hfn
    have hlen : 1 ≤ nodes.length ∧ nodes.length ≤ 4 := by
      have : (k, nodes) ∈ (elements c).map (·.2) := by simpa using ⟨t, hm⟩
      rw [h4.mem_iff, mem_enumFaces] at this
      obtain ⟨j, _, hg⟩ := this
      exact hf _ (List.mem_of_getElem? hg)
    have : nodes.length = 1 ∨ nodes.length = 2 ∨ nodes.length = 3 ∨ nodes.length = 4 := by omega
    rcases this with h | h | h | h <;> rw [h] at hfn ⊢
    · rw [show faceName ((1 : Nat) : Int) = some "node1" by decide] at hfn
      obtain rfl := Option.some.inj hfn; decide
    · rw [show faceName ((2 : Nat) : Int) = some "bar2" by decide] at hfn
      obtain rfl := Option.some.inj hfn; decide
    · rw [show faceName ((3 : Nat) : Int) = some "tri3" by decide] at hfn
      obtain rfl := Option.some.inj hfn; decide
    · rw [show faceName ((4 : Nat) : Int) = some "quad4" by decide] at hfn
      obtain rfl := Option.some.inj hfn; decide

example := C05_import_elements ⟨[0, 3, 7, 9, 12], [0, 1, 2, 5, 6, 7, 8, 3, 4, 9, 8, 7]⟩ 4
  ⟨rfl, rfl, by decide, rfl⟩ (by decide)

example : CsrWF ⟨[0, 3, 7, 9, 12], [0, 1, 2, 5, 6, 7, 8, 3, 4, 9, 8, 7]⟩ 4 :=
  ⟨rfl, rfl, by decide, rfl⟩
example : (importCompressed ElemConn.empty
      ⟨[0, 3, 7, 9, 12], [0, 1, 2, 5, 6, 7, 8, 3, 4, 9, 8, 7]⟩ >>= exportCompressed) =
    .ok ⟨[0, 3, 7, 9, 12], [0, 1, 2, 5, 6, 7, 8, 3, 4, 9, 8, 7]⟩ := by decide +kernel

/-- C05: a face with any other number of nodes is a KeyError. -/
theorem C05_import_refuses (z : Csr) (n : Nat) (hz : CsrWF z n)
    (k : Nat) (hk : k < n) (hs : ¬ (1 ≤ (csrSlice z k).length ∧ (csrSlice z k).length ≤ 4)) :
    importCompressed ElemConn.empty z = .error .key := by
  unfold importCompressed
  have hidx : z.index = offsets 0 (((List.range n).map (csrSlice z)).map fun f => (f.length : Int)) :=
    (congrArg Csr.index (csrOf_slices hz)).symm
  rw [← csrOf_slices hz]
  refine importFold_key _ _ (nodup_npUnique _) ⟨((csrSlice z k).length : Int), ?_, by omega⟩ _
    (by simp [ElemConn.empty, Dict.keys])
  rw [csrOf_slices hz, mem_npUnique, hidx, diffs_offsets]
  simp only [List.map_map, List.mem_map, List.mem_range, Function.comp_apply]
  exact ⟨k, hk, rfl⟩

/- a five node face after a triangle -/
example : importCompressed ElemConn.empty ⟨[0, 3, 8], [0, 1, 2, 0, 1, 2, 3, 4]⟩ = .error .key := by decide +kernel

/-- The second face is a pentagon. -/
example := C05_import_refuses ⟨[0, 3, 8], [0, 1, 2, 0, 1, 2, 3, 4]⟩ 2 ⟨rfl, rfl, by decide, rfl⟩ 1
  (by decide) (by decide)

/-- C06: for a validly numbered connectivity, in any type order, the export is well formed and its
slice k is the node list of the element of index k. -/
theorem C06_export_slices (c : ElemConn) (hc : ConnWF c) (hv : ValidNumbering (allIndices c)) :
    ∃ z, exportCompressed c = .ok z ∧ CsrWF z (elements c).length ∧
      ∀ t (k : Nat) nodes, (t, (k : Int), nodes) ∈ elements c → csrSlice z k = nodes := by
  have htup := indexElemTuples_of_wf hc.entries
  have hv' : ValidNumbering (((elements c).map (·.2)).map (·.1)) := by
    unfold allIndices at hv
    rw [List.map_map]; exact hv
  obtain ⟨faces, hf⟩ := exists_enumFaces hv'
  have hlen : faces.length = (elements c).length := by
    have := hf.length_eq
    rw [enumFaces_length, List.length_map] at this
    exact this.symm
  refine ⟨_, export_of_perm htup hf, by rw [← hlen]; exact csrOf_wf faces, ?_⟩
  intro t k nodes hm
  have hm2 : ((k : Int), nodes) ∈ (elements c).map (·.2) := by simpa using ⟨t, hm⟩
  rw [hf.mem_iff, mem_enumFaces] at hm2
  obtain ⟨j, hj, hg⟩ := hm2
  simp only at hj hg
  have : k = j := by omega
  subst this
  obtain ⟨hlt, hg⟩ := List.getElem?_eq_some_iff.1 hg
  rw [csrSlice_csrOf faces k hlt, hg]

example := C06_export_slices exInterleaved exInterleaved_wf exInterleaved_valid

example : exportCompressed ⟨3, [("tri3", ⟨.list [0, 2], ⟨some 3, [[0, 1, 2], [1, 2, 3]]⟩⟩),
    ("quad4", ⟨.list [1], ⟨some 4, [[4, 5, 6, 7]]⟩⟩)]⟩ =
    .ok ⟨[0, 3, 7, 10], [0, 1, 2, 4, 5, 6, 7, 1, 2, 3]⟩ := by decide +kernel

/-- C06: re-importing the export gives the same (index, nodes) pairs when elements have 1..4 nodes. -/
theorem C06_export_import (c : ElemConn) (hc : ConnWF c) (hv : ValidNumbering (allIndices c))
    (hs : ∀ x ∈ elements c, 1 ≤ x.2.2.length ∧ x.2.2.length ≤ 4) :
    ∃ z c', exportCompressed c = .ok z ∧ importCompressed ElemConn.empty z = .ok c' ∧
      ((elements c').map (·.2)).Perm ((elements c).map (·.2)) := by
  have htup := indexElemTuples_of_wf hc.entries
  have hv' : ValidNumbering (((elements c).map (·.2)).map (·.1)) := by
    unfold allIndices at hv
    rw [List.map_map]; exact hv
  obtain ⟨faces, hf⟩ := exists_enumFaces hv'
  obtain ⟨c', h1, _, _, h4, _⟩ := import_ok faces (by
    intro f hfm
    obtain ⟨i, hi, rfl⟩ := List.mem_iff_getElem.1 hfm
    have : ((i : Int), faces[i]) ∈ enumFaces faces := mem_enumFaces.2 ⟨i, rfl, by simp [hi]⟩
    rw [← hf.mem_iff] at this
    obtain ⟨x, hx, hxe⟩ := List.mem_map.1 this
    have := hs x hx
    rw [hxe] at this
    exact this)
  exact ⟨_, c', export_of_perm htup hf, h1, h4.trans hf.symm⟩

example := C06_export_import exInterleaved exInterleaved_wf exInterleaved_valid (by decide)

/-! ## C07 merge -/

/-- Two (or more) connectivities give the same width to each type. -/
def SameWidths (l : List ElemConn) : Prop :=
  ∃ w : String → Option Nat, ∀ c ∈ l, ∀ p ∈ c.tbl, p.2.e2n.ncol = w p.1

/-- C07 for two connectivities: element j of the first keeps index j, element j of the second gets
index j + (number of elements of the first), nodes and types are unchanged, and the result is validly
numbered. -/
theorem C07_merge_two_partial (c1 c2 : ElemConn) (h1 : ConnWF c1) (h2 : ConnWF c2)
    (hw : SameWidths [c1, c2]) :
    ∃ c, importMerge ElemConn.empty [c1, c2] = .ok c ∧ ConnWF c ∧
      (∀ t, elementsOf c t = elementsOf c1 t ++
        (elementsOf c2 t).map fun q => (q.1 + ((elements c1).length : Int), q.2)) ∧
      (elements c).Perm (elements c1 ++
        (elements c2).map fun x => (x.1, x.2.1 + ((elements c1).length : Int), x.2.2)) ∧
      (ValidNumbering (allIndices c1) → ValidNumbering (allIndices c2) →
        ValidNumbering (allIndices c)) := by
  obtain ⟨w, hw⟩ := hw
  obtain ⟨c, h, hwf, hel⟩ := importMerge_ok [c1, c2]
    (by intro c hc; simp only [List.mem_cons, List.not_mem_nil, or_false] at hc
        rcases hc with rfl | rfl <;> assumption) hw
  have hel' : ∀ t, elementsOf c t = elementsOf c1 t ++
        (elementsOf c2 t).map fun q => (q.1 + ((elements c1).length : Int), q.2) := by
    intro t
    rw [hel]
    simp [shiftElems]
  have hperm : (elements c).Perm (elements c1 ++
        (elements c2).map fun x => (x.1, x.2.1 + ((elements c1).length : Int), x.2.2)) := by
    apply elements_perm_of_elementsOf hwf.keys
    intro t
    rw [hel', List.filter_append, List.map_append, filter_elements h1.keys, List.filter_map,
      List.map_map, ← filter_elements h2.keys, List.map_map]
    rfl
  refine ⟨c, h, hwf, hel', hperm, ?_⟩
  intro hv1 hv2
  have p1 := perm_pyRange_of_valid hv1
  have p2 := perm_pyRange_of_valid hv2
  have l1 : (allIndices c1).length = (elements c1).length := by simp [allIndices]
  have l2 : (allIndices c2).length = (elements c2).length := by simp [allIndices]
  rw [l1] at p1
  rw [l2] at p2
  have hp : (allIndices c).Perm (pyRange 0 (((elements c1).length + (elements c2).length : Nat) : Int)) := by
    unfold allIndices at p1 p2 ⊢
    refine (hperm.map _).trans ?_
    rw [List.map_append, List.map_map]
    have e2 : ((elements c2).map ((fun x : String × Int × List Int => x.2.1) ∘
        fun x => (x.1, x.2.1 + ((elements c1).length : Int), x.2.2))) =
        ((elements c2).map fun x => x.2.1).map (· + ((elements c1).length : Int)) := by
      rw [List.map_map]; rfl
    rw [e2]
    refine (p1.append (p2.map _)).trans ?_
    rw [pyRange_shift, Int.zero_add]
    rw [pyRange_append (by omega) (by omega)]
    apply List.Perm.of_eq
    congr 1
    push_cast; omega
  exact valid_of_perm_pyRange hp

/-- Two connectivities with a common type meet the hypotheses. -/
example := C07_merge_two_partial exInterleaved exOrdered exInterleaved_wf exOrdered_wf
  ⟨fun t => if t = "tri3" then some 3 else some 4, by decide⟩

/-- C07 for two connectivities, without condition on the widths: a merge that returns is right. -/
theorem C07_merge_two_returned (c1 c2 c : ElemConn) (h1 : ConnWF c1) (h2 : ConnWF c2)
    (h : importMerge ElemConn.empty [c1, c2] = .ok c) :
    ConnWF c ∧
      (elements c).Perm (elements c1 ++
        (elements c2).map fun x => (x.1, x.2.1 + ((elements c1).length : Int), x.2.2)) ∧
      (ValidNumbering (allIndices c1) → ValidNumbering (allIndices c2) →
        ValidNumbering (allIndices c)) := by
  obtain ⟨c', h', a, _, b, d⟩ := C07_merge_two_partial c1 c2 h1 h2 (widths_of_merge h)
  rw [h] at h'
  obtain rfl := Except.ok.inj h'
  exact ⟨a, b, d⟩

example : ∃ c, importMerge ElemConn.empty [exInterleaved, exOrdered] = .ok c ∧ ConnWF c :=
  (C07_merge_two_partial exInterleaved exOrdered exInterleaved_wf exOrdered_wf
    ⟨fun t => if t = "tri3" then some 3 else some 4, by decide⟩).elim fun c h =>
      ⟨c, h.1, (C07_merge_two_returned _ _ c exInterleaved_wf exOrdered_wf h.1).1⟩

/-- C07 for one connectivity: nothing changes. -/
theorem C07_merge_one (c1 : ElemConn) (h1 : ConnWF c1) (hw : SameWidths [c1]) :
    ∃ c, importMerge ElemConn.empty [c1] = .ok c ∧ ConnWF c ∧
      ∀ t, elementsOf c t = elementsOf c1 t := by
  obtain ⟨w, hw⟩ := hw
  obtain ⟨c, h, hwf, hel⟩ := importMerge_ok [c1] (by simpa using h1) hw
  refine ⟨c, h, hwf, ?_⟩
  intro t
  rw [hel]
  simp [shiftElems]

example := C07_merge_one exInterleaved exInterleaved_wf ⟨fun t => if t = "tri3" then some 3 else some 4, by decide⟩

/-- Two validly numbered connectivities sharing a type. -/
example : (importMerge ElemConn.empty
      [⟨3, [("tri3", ⟨.list [0, 2], ⟨some 3, [[0, 1, 2], [1, 2, 3]]⟩⟩),
        ("quad4", ⟨.list [1], ⟨some 4, [[4, 5, 6, 7]]⟩⟩)]⟩,
       ⟨2, [("quad4", ⟨.range 0 1, ⟨some 4, [[1, 2, 3, 4], [9, 8, 7, 6]]⟩⟩)]⟩]).map
      (fun c => (elementsOf c "tri3", elementsOf c "quad4")) =
    .ok ([(0, [0, 1, 2]), (2, [1, 2, 3])],
      [(1, [4, 5, 6, 7]), (3, [1, 2, 3, 4]), (4, [9, 8, 7, 6])]) := by decide +kernel

/-- C07 refuted for three: the third connectivity reuses indices of the second. -/
theorem C07_merge_three_refuted :
    ∃ (c1 c2 c3 c : ElemConn), ConnWF c1 ∧ ConnWF c2 ∧ ConnWF c3 ∧ SameWidths [c1, c2, c3] ∧
      ValidNumbering (allIndices c1) ∧ ValidNumbering (allIndices c2) ∧
      ValidNumbering (allIndices c3) ∧
      importMerge ElemConn.empty [c1, c2, c3] = .ok c ∧ ¬ ValidNumbering (allIndices c) := by
  have hwf : ∀ r : List Int, r.length = 2 → ConnWF ⟨1, [("bar2", ⟨.range 0 0, ⟨some 2, [r]⟩⟩)]⟩ := by
    intro r hr
    refine ⟨by simp [Dict.keys], ?_, rfl⟩
    intro p hp
    simp only [List.mem_singleton] at hp
    subst hp
    exact ⟨⟨[0], rfl, rfl⟩, by simpa [Arr2.WF] using hr⟩
  refine ⟨⟨1, [("bar2", ⟨.range 0 0, ⟨some 2, [[0, 1]]⟩⟩)]⟩,
    ⟨1, [("bar2", ⟨.range 0 0, ⟨some 2, [[1, 2]]⟩⟩)]⟩,
    ⟨1, [("bar2", ⟨.range 0 0, ⟨some 2, [[2, 3]]⟩⟩)]⟩,
    ⟨3, [("bar2", ⟨.list [0, 1, 1], ⟨some 2, [[0, 1], [1, 2], [2, 3]]⟩⟩)]⟩,
    hwf _ rfl, hwf _ rfl, hwf _ rfl, ⟨fun _ => some 2, by simp⟩, ?_, ?_, ?_, by decide +kernel, ?_⟩
  · exact valid_of_perm_pyRange (n := 1) (by decide)
  · exact valid_of_perm_pyRange (n := 1) (by decide)
  · exact valid_of_perm_pyRange (n := 1) (by decide)
  · intro h; exact absurd h.1 (by decide)

end Cfd
