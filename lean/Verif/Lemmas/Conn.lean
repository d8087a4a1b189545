import Verif.Lemmas.Csr
import Verif.Spec.Conn

/-! Helper lemmas on element connectivities. -/

namespace Cfd
open Spec ElemConn

theorem indicesOf_eq {e : Entry} {l : List Int} (h : e.index.toList = .ok l) : indicesOf e = l := by
  simp [indicesOf, h]

theorem Spec.EntryWF.length {e : Entry} (h : EntryWF e) : (indicesOf e).length = e.e2n.rows.length := by
  obtain ⟨⟨l, hl, hlen⟩, _⟩ := h
  rw [indicesOf_eq hl, hlen]

theorem Spec.EntryWF.toList {e : Entry} (h : EntryWF e) : e.index.toList = .ok (indicesOf e) := by
  obtain ⟨⟨l, hl, hlen⟩, _⟩ := h
  rw [indicesOf_eq hl, hl]

theorem entryTuples_of_wf {e : Entry} (h : EntryWF e) :
    entryTuples e = .ok ((indicesOf e).zip e.e2n.rows) := by
  unfold entryTuples
  rw [h.toList, Except_bind_ok, if_neg (by rw [h.length]; omega)]
  rfl

theorem indexElemTuples_of_wf {c : ElemConn} (h : ∀ p ∈ c.tbl, EntryWF p.2) :
    c.indexElemTuples = .ok ((elements c).map (·.2)) := by
  unfold indexElemTuples
  rw [mapM_ok_of_forall (g := fun p => (indicesOf p.2).zip p.2.e2n.rows)
    (fun p hp => entryTuples_of_wf (h p hp))]
  simp only [Except_bind_ok, Except_pure, elements]
  congr 1
  rw [List.map_flatMap, List.flatMap]
  congr 1
  apply List.map_congr_left
  intro p _
  simp [Function.comp_def]

theorem indexLists_of_wf {c : ElemConn} (h : ∀ p ∈ c.tbl, EntryWF p.2) :
    c.indexLists = .ok (c.tbl.map fun p => indicesOf p.2) := by
  unfold indexLists
  exact mapM_ok_of_forall (fun p hp => (h p hp).toList)

theorem zip_map_fst_of_length {α β : Type} {l : List α} {m : List β} (h : l.length = m.length) :
    (l.zip m).map Prod.fst = l := by
  rw [List.map_fst_zip]; omega

theorem allIndices_eq_flatten {c : ElemConn} (h : ∀ p ∈ c.tbl, EntryWF p.2) :
    allIndices c = (c.tbl.map fun p => indicesOf p.2).flatten := by
  unfold allIndices elements
  rw [List.map_flatMap, List.flatMap]
  congr 1
  apply List.map_congr_left
  intro p hp
  rw [List.map_map]
  have := zip_map_fst_of_length (h p hp).length
  simpa [Function.comp_def] using this

theorem elements_filter {c : ElemConn} (h : c.tbl.keys.Nodup) (t : String) :
    (elements c).filter (fun x => x.1 = t) = (elementsOf c t).map fun q => (t, q) := by
  unfold elements elementsOf
  generalize c.tbl = d at h
  induction d with
  | nil => simp [Dict.get?]
  | cons p d ih =>
    obtain ⟨k, e⟩ := p
    simp only [Dict.keys, List.map_cons, List.nodup_cons] at h
    simp only [List.flatMap_cons, List.filter_append, Dict.get?]
    by_cases hk : k = t
    · subst hk
      simp only [if_true]
      have h1 : (List.map (fun q => (k, q)) ((indicesOf e).zip e.e2n.rows)).filter
          (fun x => decide (x.1 = k)) = List.map (fun q => (k, q)) ((indicesOf e).zip e.e2n.rows) := by
        rw [List.filter_eq_self]; intro x hx; obtain ⟨q, _, rfl⟩ := List.mem_map.1 hx; simp
      have h2 : (d.flatMap fun p => List.map (fun q => (p.1, q)) ((indicesOf p.2).zip p.2.e2n.rows)).filter
          (fun x => decide (x.1 = k)) = [] := by
        rw [List.filter_eq_nil_iff]
        intro x hx
        simp only [List.mem_flatMap, List.mem_map] at hx
        obtain ⟨p, hp, q, _, rfl⟩ := hx
        simp only [decide_eq_true_eq]
        rintro rfl
        exact h.1 (List.mem_map.2 ⟨p, hp, rfl⟩)
      rw [h1, h2, List.append_nil]
    · simp only [hk, if_false]
      have h1 : (List.map (fun q => (k, q)) ((indicesOf e).zip e.e2n.rows)).filter
          (fun x => decide (x.1 = t)) = [] := by
        rw [List.filter_eq_nil_iff]; intro x hx; obtain ⟨q, _, rfl⟩ := List.mem_map.1 hx; simp [hk]
      rw [h1, List.nil_append]
      exact ih h.2

theorem mem_elements {c : ElemConn} (h : c.tbl.keys.Nodup) {t : String} {q : Int × List Int} :
    (t, q) ∈ elements c ↔ q ∈ elementsOf c t := by
  have := elements_filter h t
  have h2 : (t, q) ∈ (elements c).filter (fun x => x.1 = t) ↔ (t, q) ∈ elements c := by
    simp [List.mem_filter]
  rw [← h2, this]; simp

/-- Two typed lists with the same elements of each type are permutations of one another. -/
theorem perm_of_filter_eq {α : Type} [DecidableEq α] {l m : List (String × α)}
    (h : ∀ t, l.filter (fun x => x.1 = t) = m.filter (fun x => x.1 = t)) : l.Perm m := by
  rw [List.perm_iff_count]
  intro x
  have h1 := congrArg (List.count x) (h x.1)
  rw [List.count_filter (by simp), List.count_filter (by simp)] at h1
  exact h1

/-- Grouping by a key that takes its values in a duplicate free list loses nothing. -/
theorem flatten_filter_perm {α β : Type} [DecidableEq β] (f : α → β) (S : List β) (hS : S.Nodup)
    (l : List α) (h : ∀ x ∈ l, f x ∈ S) :
    (S.map fun s => l.filter fun x => f x = s).flatten.Perm l := by
  induction S generalizing l with
  | nil =>
    cases l with
    | nil => simp
    | cons a t => exact absurd (h a (by simp)) (by simp)
  | cons s S ih =>
    simp only [List.nodup_cons] at hS
    simp only [List.map_cons, List.flatten_cons]
    have h1 : (S.map fun s' => l.filter fun x => f x = s') =
        (S.map fun s' => (l.filter fun x => ¬ f x = s).filter fun x => f x = s') := by
      apply List.map_congr_left
      intro s' hs'
      rw [List.filter_filter]
      apply List.filter_congr
      intro x _
      by_cases hx : f x = s'
      · have : f x ≠ s := by rintro e; exact hS.1 (e ▸ hx ▸ hs')
        simp [hx]; rw [← hx]; exact this
      · simp [hx]
    rw [h1]
    have h2 := ih hS.2 (l.filter fun x => ¬ f x = s) (by
      intro x hx
      simp only [List.mem_filter, decide_eq_true_eq] at hx
      exact (List.mem_cons.1 (h x hx.1)).resolve_left hx.2)
    refine (List.Perm.append_left _ h2).trans ?_
    have := List.filter_append_perm (fun x => decide (f x = s)) l
    convert this using 3
    simp

/-! ### addElems -/

/-- Total number of rows of a dictionary of entries. -/
def totalRows (d : Dict String Entry) : Nat := (d.map fun p => p.2.e2n.rows.length).sum

theorem elements_length {c : ElemConn} (h : ∀ p ∈ c.tbl, EntryWF p.2) :
    (elements c).length = totalRows c.tbl := by
  unfold elements totalRows
  rw [List.length_flatMap]
  congr 1
  apply List.map_congr_left
  intro p hp
  simp [(h p hp).length]

theorem totalRows_set_of_not_mem {d : Dict String Entry} {k : String} (e : Entry)
    (h : k ∉ d.keys) : totalRows (d.set k e) = totalRows d + e.e2n.rows.length := by
  rw [Dict.set_of_not_mem e h]; simp [totalRows]

theorem totalRows_set_of_get {d : Dict String Entry} {k : String} {old : Entry} (e : Entry)
    (h : d.get? k = some old) :
    totalRows (d.set k e) + old.e2n.rows.length = totalRows d + e.e2n.rows.length := by
  induction d with
  | nil => simp [Dict.get?] at h
  | cons p t ih =>
    obtain ⟨k', e'⟩ := p
    by_cases hk : k' = k
    · simp only [Dict.get?, hk, if_true, Option.some.injEq] at h
      subst h
      simp [Dict.set, hk, totalRows]; omega
    · simp only [Dict.get?, hk, if_false] at h
      have := ih h
      simp only [totalRows, Dict.set, hk, if_false, List.map_cons, List.sum_cons] at this ⊢
      omega

theorem mem_set {K V : Type} [DecidableEq K] {d : Dict K V} {k : K} {v : V} {p : K × V}
    (h : p ∈ d.set k v) : p = (k, v) ∨ p ∈ d := by
  induction d with
  | nil => left; simpa [Dict.set] using h
  | cons q t ih =>
    obtain ⟨k', v'⟩ := q
    by_cases hk : k' = k
    · simp only [Dict.set, hk, if_true, List.mem_cons] at h
      rcases h with h | h
      · left; exact h
      · right; exact List.mem_cons_of_mem _ h
    · simp only [Dict.set, hk, if_false, List.mem_cons] at h
      rcases h with h | h
      · right; rw [h]; simp
      · rcases ih h with h | h
        · left; exact h
        · right; exact List.mem_cons_of_mem _ h

theorem elementsOf_set (n : Nat) (d : Dict String Entry) (k t : String) (e : Entry) :
    elementsOf ⟨n, d.set k e⟩ t =
      if t = k then (indicesOf e).zip e.e2n.rows else elementsOf ⟨n, d⟩ t := by
  unfold elementsOf
  simp only [Dict.get?_set]
  by_cases h : t = k <;> simp [h]

theorem elementsOf_nelem (n m : Nat) (d : Dict String Entry) (t : String) :
    elementsOf ⟨n, d⟩ t = elementsOf ⟨m, d⟩ t := rfl

theorem addElems_ok {c : ElemConn} (hc : ConnWF c) (t : String) (arr : Arr2) (harr : arr.WF)
    (idx : Option IndexList) (l : List Int)
    (hl : (newIndex c arr.rows.length idx).toList = .ok l) (hlen : l.length = arr.rows.length)
    (hcol : ∀ e, c.tbl.get? t = some e → e.e2n.ncol = arr.ncol) :
    ∃ c', c.addElems t arr idx = .ok c' ∧ ConnWF c' ∧ c'.nelem = c.nelem + arr.rows.length ∧
      c'.tbl.keys = (if t ∈ c.tbl.keys then c.tbl.keys else c.tbl.keys ++ [t]) ∧
      (∀ t', elementsOf c' t' = elementsOf c t' ++ if t' = t then l.zip arr.rows else []) ∧
      (∀ t' e, c'.tbl.get? t' = some e → t' ≠ t → c.tbl.get? t' = some e) ∧
      (∃ e, c'.tbl.get? t = some e ∧ e.e2n.ncol = arr.ncol) := by
  unfold addElems
  cases hget : c.tbl.get? t with
  | none =>
    have hnk : t ∉ c.tbl.keys := Dict.get?_eq_none_iff.1 hget
    have hwf' : ∀ p ∈ c.tbl.set t ⟨newIndex c arr.rows.length idx, arr⟩, EntryWF p.2 := by
      intro p hp
      rcases mem_set hp with rfl | hp
      · exact ⟨⟨l, hl, hlen⟩, harr⟩
      · exact hc.entries p hp
    refine ⟨_, rfl, ⟨Dict.nodup_keys_set hc.keys _ _, hwf', ?_⟩, rfl, ?_, ?_, ?_, ?_⟩
    · rw [elements_length (c := ⟨_, _⟩) hwf']
      simp only
      rw [totalRows_set_of_not_mem _ hnk, hc.nelem, elements_length hc.entries]
    · exact Dict.keys_set _ _ _
    · intro t'
      rw [elementsOf_set]
      by_cases ht : t' = t
      · subst ht
        have : elementsOf c t' = [] := by simp [elementsOf, hget]
        simp only [if_true, this, List.nil_append]
        rw [indicesOf_eq (e := ⟨c.newIndex arr.rows.length idx, arr⟩) hl]
      · simp only [ht, if_false, List.append_nil]; rfl
    · intro t' e he hne
      simp only [Dict.get?_set, hne, if_false] at he
      exact he
    · exact ⟨_, Dict.get?_set_self _ _ _, rfl⟩
  | some old =>
    have hold : EntryWF old := hc.entries (t, old) (Dict.mem_of_get? hget)
    have hcol' := hcol old hget
    simp only [hl, Except_bind_ok, IndexList.append, hold.toList, Arr2.concat, hcol', if_true,
      Except_pure]
    have hnew : EntryWF ⟨.list (indicesOf old ++ l), ⟨arr.ncol, old.e2n.rows ++ arr.rows⟩⟩ := by
      refine ⟨⟨_, rfl, by simp [hold.length, hlen]⟩, ?_⟩
      have h1 := hold.2
      unfold Arr2.WF at h1 harr ⊢
      rw [hcol'] at h1
      cases hn : arr.ncol with
      | none => simp only [hn] at h1 harr ⊢; rw [h1, harr]; rfl
      | some k =>
        simp only [hn] at h1 harr ⊢
        intro r hr
        rcases List.mem_append.1 hr with hr | hr
        · exact h1 r hr
        · exact harr r hr
    have hwf' : ∀ p ∈ c.tbl.set t ⟨.list (indicesOf old ++ l), ⟨arr.ncol, old.e2n.rows ++ arr.rows⟩⟩,
        EntryWF p.2 := by
      intro p hp
      rcases mem_set hp with rfl | hp
      · exact hnew
      · exact hc.entries p hp
    have hk : t ∈ c.tbl.keys := Dict.mem_keys_iff.2 ⟨_, hget⟩
    refine ⟨_, rfl, ⟨Dict.nodup_keys_set hc.keys _ _, hwf', ?_⟩, rfl, ?_, ?_, ?_, ?_⟩
    · rw [elements_length (c := ⟨_, _⟩) hwf']
      simp only
      have := totalRows_set_of_get ⟨.list (indicesOf old ++ l), ⟨arr.ncol, old.e2n.rows ++ arr.rows⟩⟩ hget
      rw [hc.nelem, elements_length hc.entries]
      simp only [List.length_append] at this
      omega
    · exact Dict.keys_set _ _ _
    · intro t'
      rw [elementsOf_set]
      by_cases ht : t' = t
      · subst ht
        have : elementsOf c t' = (indicesOf old).zip old.e2n.rows := by simp [elementsOf, hget]
        simp only [if_true, this]
        rw [indicesOf_eq (e := ⟨.list (indicesOf old ++ l), _⟩) rfl]
        exact List.zip_append hold.length
      · simp only [ht, if_false, List.append_nil]; rfl
    · intro t' e he hne
      simp only [Dict.get?_set, hne, if_false] at he
      exact he
    · exact ⟨_, Dict.get?_set_self _ _ _, rfl⟩

theorem connWF_empty : ConnWF ElemConn.empty := ⟨by simp [empty, Dict.keys], by simp [empty], rfl⟩

/-! ### import of a compressed connectivity -/

theorem npGather_pyRange {v : List Int} {s n : Nat} (h : s + n ≤ v.length) :
    npGather v (pyRange s (s + n)) = .ok ((v.drop s).take n) := by
  unfold npGather
  rw [mapM_ok_iff]
  rw [List.forall₂_iff_get]
  refine ⟨by simp; omega, ?_⟩
  intro i h1 h2
  simp only [List.get_eq_getElem, getElem_pyRange, List.getElem_take, List.getElem_drop]
  rw [show ((s : Int) + (i : Int)) = ((s + i : Nat) : Int) by push_cast; rfl]
  apply npGet_of_lt

theorem argwhereEq_enum (faces : List (List Int)) (s : Int) :
    argwhereEq (faces.map fun f => (f.length : Int)) s =
      ((enumFaces faces).filter fun p => (p.2.length : Int) = s).map (·.1) := by
  unfold argwhereEq enumFaces
  rw [List.zipIdx_map, List.filter_map, List.filter_map, List.map_map, List.map_map]
  rfl

/-- Name of the face type with `n` nodes. -/
def faceName (n : Int) : Option String := faceFromNnode.get? n

theorem faceName_some {n : Int} (h : 1 ≤ n ∧ n ≤ 4) : ∃ s, faceName n = some s := by
  have : n = 1 ∨ n = 2 ∨ n = 3 ∨ n = 4 := by omega
  rcases this with rfl | rfl | rfl | rfl
  · exact ⟨"node1", by decide⟩
  · exact ⟨"bar2", by decide⟩
  · exact ⟨"tri3", by decide⟩
  · exact ⟨"quad4", by decide⟩

theorem faceName_none {n : Int} (h : ¬ (1 ≤ n ∧ n ≤ 4)) : faceName n = none := by
  have h1 : faceFromNnode = [(1, "node1"), (2, "bar2"), (3, "tri3"), (4, "quad4")] := by decide
  unfold faceName
  rw [h1]
  simp only [Dict.get?]
  rw [if_neg (by omega), if_neg (by omega), if_neg (by omega), if_neg (by omega)]

theorem faceName_inj {m n : Int} {s : String} (h1 : faceName m = some s) (h2 : faceName n = some s) :
    m = n := by
  have key : ∀ {k : Int} {t : String}, faceName k = some t → (k = 1 ∧ t = "node1") ∨
      (k = 2 ∧ t = "bar2") ∨ (k = 3 ∧ t = "tri3") ∨ (k = 4 ∧ t = "quad4") := by
    intro k t hk
    by_cases hr : 1 ≤ k ∧ k ≤ 4
    · have : k = 1 ∨ k = 2 ∨ k = 3 ∨ k = 4 := by omega
      rcases this with rfl | rfl | rfl | rfl
      · left; exact ⟨rfl, by
          rw [show faceName 1 = some "node1" by decide] at hk; exact (Option.some.inj hk).symm⟩
      · right; left; exact ⟨rfl, by
          rw [show faceName 2 = some "bar2" by decide] at hk; exact (Option.some.inj hk).symm⟩
      · right; right; left; exact ⟨rfl, by
          rw [show faceName 3 = some "tri3" by decide] at hk; exact (Option.some.inj hk).symm⟩
      · right; right; right; exact ⟨rfl, by
          rw [show faceName 4 = some "quad4" by decide] at hk; exact (Option.some.inj hk).symm⟩
    · rw [faceName_none hr] at hk; exact absurd hk (by simp)
  rcases key h1 with ⟨h, ht⟩ | ⟨h, ht⟩ | ⟨h, ht⟩ | ⟨h, ht⟩ <;>
    rcases key h2 with ⟨h', ht'⟩ | ⟨h', ht'⟩ | ⟨h', ht'⟩ | ⟨h', ht'⟩ <;>
    first
      | exact h.trans h'.symm
      | exact absurd (ht.symm.trans ht') (by decide)

/-- The faces with `n` nodes, numbered. -/
def facesOfSize (faces : List (List Int)) (n : Int) : List (Int × List Int) :=
  (enumFaces faces).filter fun p => (p.2.length : Int) = n

/-- Entry made by the import for the faces of `n` nodes. -/
def importEntry (faces : List (List Int)) (n : Int) : Entry :=
  ⟨.list ((facesOfSize faces n).map (·.1)), ⟨some n.toNat, (facesOfSize faces n).map (·.2)⟩⟩

theorem importStep_ok (faces : List (List Int)) (c : ElemConn) (n : Int) {s : String}
    (hs : faceName n = some s) (hns : s ∉ c.tbl.keys) :
    importStep (csrOf faces) c n =
      .ok ⟨c.nelem + (facesOfSize faces n).length, c.tbl ++ [(s, importEntry faces n)]⟩ := by
  unfold importStep
  rw [show faceFromNnode.getE n = .ok s from Dict.getE_eq_ok.2 hs]
  have hd : diffs (csrOf faces).index = faces.map fun f => (f.length : Int) := diffs_offsets _ _
  simp only [Except_bind_ok, hd, argwhereEq_enum]
  change (npGather (csrOf faces).index ((facesOfSize faces n).map (·.1)) >>= _) = _
  let off : Int × List Int → Int := fun p =>
    (((faces.take p.1.toNat).flatten.length : Nat) : Int)
  have h1 : npGather (csrOf faces).index ((facesOfSize faces n).map (·.1)) =
      .ok ((facesOfSize faces n).map off) := by
    unfold npGather
    rw [List.mapM_map]
    apply mapM_ok_of_forall
    intro p hp
    obtain ⟨k, hk, hf⟩ := mem_enumFaces.1 (List.mem_filter.1 hp).1
    have hlt : k < faces.length := (List.getElem?_eq_some_iff.1 hf).1
    simp only [Function.comp_apply, off, hk]
    rw [npGet_nat]
    exact csrOf_offset faces k (by omega)
  have h2 : ((facesOfSize faces n).map off).mapM
      (fun s => npGather (csrOf faces).value (pyRange s (s + n))) =
      .ok ((facesOfSize faces n).map (·.2)) := by
    rw [List.mapM_map]
    apply mapM_ok_of_forall
    intro p hp
    obtain ⟨hp1, hp2⟩ := List.mem_filter.1 hp
    obtain ⟨k, hk, hf⟩ := mem_enumFaces.1 hp1
    obtain ⟨hlt, hf⟩ := List.getElem?_eq_some_iff.1 hf
    simp only [decide_eq_true_eq] at hp2
    simp only [Function.comp_apply, off, hk, Int.toNat_natCast]
    rw [← hp2]
    have := take_succ_flatten_length faces k hlt
    have hle : (faces.take (k + 1)).flatten.length ≤ faces.flatten.length := by
      conv_rhs => rw [← List.take_append_drop (k + 1) faces, List.flatten_append]
      simp
    rw [npGather_pyRange (by unfold csrOf; simp only; rw [← hf]; omega)]
    rw [← hf]
    exact congrArg Except.ok (drop_take_flatten faces k hlt)
  rw [h1, Except_bind_ok, h2, Except_bind_ok]
  unfold addElems
  rw [Dict.get?_eq_none_iff.2 hns]
  simp only [Except.ok.injEq, ElemConn.mk.injEq, List.length_map, true_and]
  rw [Dict.set_of_not_mem _ hns]
  rfl

theorem importFold_ok (faces : List (List Int)) (S : List Int) (hS : S.Nodup)
    (hr : ∀ n ∈ S, 1 ≤ n ∧ n ≤ 4) (c : ElemConn)
    (hd : ∀ n ∈ S, ∀ s, faceName n = some s → s ∉ c.tbl.keys) :
    ∃ N, S.foldlM (importStep (csrOf faces)) c =
      .ok ⟨N, c.tbl ++ S.map fun n => ((faceName n).getD "", importEntry faces n)⟩ ∧
      N = c.nelem + (S.map fun n => (facesOfSize faces n).length).sum := by
  induction S generalizing c with
  | nil => exact ⟨c.nelem, by simp, by simp⟩
  | cons n S ih =>
    simp only [List.nodup_cons] at hS
    obtain ⟨s, hs⟩ := faceName_some (hr n (by simp))
    rw [List.foldlM_cons, importStep_ok faces c n hs (hd n (by simp) s hs), Except_bind_ok]
    obtain ⟨N, hN, hNs⟩ := ih hS.2 (fun m hm => hr m (by simp [hm]))
      ⟨c.nelem + (facesOfSize faces n).length, c.tbl ++ [(s, importEntry faces n)]⟩ (by
        intro m hm t ht
        simp only [Dict.keys, List.map_append, List.map_cons, List.map_nil, List.mem_append,
          List.mem_singleton, not_or]
        refine ⟨hd m (by simp [hm]) t ht, ?_⟩
        rintro rfl
        have := faceName_inj hs ht
        subst this
        exact hS.1 hm)
    exact ⟨N, by rw [hN]; simp [hs], by rw [hNs]; simp only [List.map_cons, List.sum_cons]; omega⟩

/-- One unknown face size is a KeyError, wherever it stands. -/
theorem importFold_key (faces : List (List Int)) (S : List Int) (hS : S.Nodup)
    (hr : ∃ n ∈ S, ¬ (1 ≤ n ∧ n ≤ 4)) (c : ElemConn)
    (hd : ∀ n ∈ S, ∀ s, faceName n = some s → s ∉ c.tbl.keys) :
    S.foldlM (importStep (csrOf faces)) c = .error .key := by
  induction S generalizing c with
  | nil => simp at hr
  | cons n S ih =>
    simp only [List.nodup_cons] at hS
    by_cases hn : 1 ≤ n ∧ n ≤ 4
    · obtain ⟨s, hs⟩ := faceName_some hn
      rw [List.foldlM_cons, importStep_ok faces c n hs (hd n (by simp) s hs), Except_bind_ok]
      refine ih hS.2 ?_ _ ?_
      · obtain ⟨m, hm, hbad⟩ := hr
        rcases List.mem_cons.1 hm with rfl | hm
        · exact absurd hn hbad
        · exact ⟨m, hm, hbad⟩
      · intro m hm t ht
        simp only [Dict.keys, List.map_append, List.map_cons, List.map_nil, List.mem_append,
          List.mem_singleton, not_or]
        refine ⟨hd m (by simp [hm]) t ht, ?_⟩
        rintro rfl
        have := faceName_inj hs ht
        subst this
        exact hS.1 hm
    · have : faceFromNnode.getE n = .error .key := by
        have h := faceName_none hn
        unfold faceName at h
        simp [Dict.getE, h]
      rw [List.foldlM_cons]
      unfold importStep
      rw [this]
      rfl

theorem mem_npUnique {l : List Int} {x : Int} : x ∈ npUnique l ↔ x ∈ l := by
  unfold npUnique sortInts; rw [List.mem_dedup, List.mem_insertionSort]

theorem nodup_npUnique (l : List Int) : (npUnique l).Nodup := List.nodup_dedup _

/-- Importing faces of 1 to 4 nodes succeeds and holds exactly the numbered faces. -/
theorem import_ok (faces : List (List Int)) (hf : ∀ f ∈ faces, 1 ≤ f.length ∧ f.length ≤ 4) :
    ∃ c, importCompressed ElemConn.empty (csrOf faces) = .ok c ∧ (∀ p ∈ c.tbl, EntryWF p.2) ∧
      c.tbl.keys.Nodup ∧
      ((elements c).map (·.2)).Perm (enumFaces faces) ∧
      (∀ x ∈ elements c, faceName (x.2.2.length) = some x.1) ∧ c.nelem = (elements c).length := by
  unfold importCompressed
  have hd : diffs (csrOf faces).index = faces.map fun f => (f.length : Int) := diffs_offsets _ _
  rw [hd]
  set S := npUnique (faces.map fun f => (f.length : Int)) with hSdef
  have hSmem : ∀ n, n ∈ S ↔ ∃ f ∈ faces, (f.length : Int) = n := by
    intro n; rw [hSdef, mem_npUnique, List.mem_map]
  have hr : ∀ n ∈ S, 1 ≤ n ∧ n ≤ 4 := by
    intro n hn
    obtain ⟨f, hf1, rfl⟩ := (hSmem n).1 hn
    have := hf f hf1; omega
  have hSnd : S.Nodup := nodup_npUnique _
  obtain ⟨N, hN, hNs⟩ := importFold_ok faces S hSnd hr ElemConn.empty
    (by intro n _ s _; simp [ElemConn.empty, Dict.keys])
  have hzip : ∀ n, (indicesOf (importEntry faces n)).zip (importEntry faces n).e2n.rows =
      facesOfSize faces n := by
    intro n
    have : indicesOf (importEntry faces n) = (facesOfSize faces n).map (·.1) := rfl
    rw [this]
    simp only [importEntry]
    rw [List.zip_map']
    simp
  have hel : elements ⟨N, ElemConn.empty.tbl ++ S.map fun n => ((faceName n).getD "", importEntry faces n)⟩
      = S.flatMap fun n => (facesOfSize faces n).map fun q => ((faceName n).getD "", q) := by
    simp only [elements, ElemConn.empty, List.nil_append, List.flatMap_map, hzip]
  refine ⟨_, hN, ?_, ?_, ?_, ?_, ?_⟩
  · intro p hp
    simp only [ElemConn.empty, List.nil_append, List.mem_map] at hp
    obtain ⟨n, hn, rfl⟩ := hp
    refine ⟨⟨_, rfl, by simp [importEntry]⟩, ?_⟩
    simp only [Arr2.WF, importEntry, List.mem_map]
    rintro r ⟨q, hq, rfl⟩
    have := (List.mem_filter.1 hq).2
    simp only [decide_eq_true_eq] at this
    omega
  · simp only [ElemConn.empty, List.nil_append, Dict.keys, List.map_map, Function.comp_def]
    refine List.Nodup.map_on ?_ hSnd
    intro m hm n hn h
    obtain ⟨s, hs⟩ := faceName_some (hr m hm)
    obtain ⟨t, ht⟩ := faceName_some (hr n hn)
    simp only [hs, ht, Option.getD_some] at h
    subst h
    exact faceName_inj hs ht
  · rw [hel, List.map_flatMap]
    simp only [List.map_map, Function.comp_def, List.map_id']
    have := flatten_filter_perm (fun p : Int × List Int => (p.2.length : Int)) S hSnd (enumFaces faces)
      (by
        intro p hp
        obtain ⟨k, _, hf1⟩ := mem_enumFaces.1 hp
        exact (hSmem _).2 ⟨p.2, List.mem_of_getElem? hf1, rfl⟩)
    rw [List.flatMap]
    exact this
  · intro x hx
    rw [hel] at hx
    simp only [List.mem_flatMap, List.mem_map] at hx
    obtain ⟨n, hn, q, hq, rfl⟩ := hx
    have := (List.mem_filter.1 hq).2
    simp only [decide_eq_true_eq] at this
    simp only [this]
    obtain ⟨s, hs⟩ := faceName_some (hr n hn)
    simp [hs]
  · rw [hel, List.length_flatMap]
    simp only [List.length_map]
    rw [hNs]
    simp [ElemConn.empty]

/-- Exporting a connectivity whose tuples are the numbered faces gives their encoding. -/
theorem export_of_perm {c : ElemConn} {tups : List (Int × List Int)} {faces : List (List Int)}
    (h : c.indexElemTuples = .ok tups) (hp : tups.Perm (enumFaces faces)) :
    exportCompressed c = .ok (csrOf faces) := by
  unfold exportCompressed
  rw [h, Except_bind_ok, sort_tuples_eq hp (enumFaces_pairwise faces)]
  have h2 := enumFaces_map_snd faces
  have h3 : (enumFaces faces).map (fun p => (p.2.length : Int)) =
      faces.map fun f => (f.length : Int) := by
    conv_rhs => rw [← h2, List.map_map]
    rfl
  simp only [Except_pure, csrOf, h2, h3]

instance (a : Arr2) : Decidable a.WF := by
  unfold Arr2.WF
  cases a.ncol <;> infer_instance

/-- Decision of `ConnWF`, for the examples. -/
def connOk (c : ElemConn) : Bool :=
  decide c.tbl.keys.Nodup && decide (c.nelem = (elements c).length) &&
    c.tbl.all fun p => (match p.2.index.toList with
      | .ok l => l.length == p.2.e2n.rows.length
      | .error _ => false) && decide p.2.e2n.WF

theorem connWF_of_ok {c : ElemConn} (h : connOk c = true) : ConnWF c := by
  simp only [connOk, Bool.and_eq_true, decide_eq_true_eq, List.all_eq_true] at h
  refine ⟨h.1.1, fun p hp => ⟨?_, (h.2 p hp).2⟩, h.1.2⟩
  have h1 := (h.2 p hp).1
  cases hl : p.2.index.toList with
  | error e => simp [hl] at h1
  | ok l => exact ⟨l, rfl, by simpa [hl] using h1⟩

end Cfd
