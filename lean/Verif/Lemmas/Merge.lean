import Verif.Lemmas.Conn

/-! Lemmas on histories of `add_elems`, `check` and `importfrom_merge`. -/

namespace Cfd
open Spec ElemConn

/-- Elements shifted by `s`. -/
def shiftElems (s : Int) (l : List (Int × List Int)) : List (Int × List Int) :=
  l.map fun q => (q.1 + s, q.2)

theorem indicesOf_shift {e : Entry} (h : EntryWF e) (s : Int) :
    (e.index.shift s).toList = .ok ((indicesOf e).map (· + s)) := by
  have := h.toList
  generalize indicesOf e = l at this
  cases hi : e.index with
  | unset => simp [hi, IndexList.toList] at this
  | range a b =>
    simp only [hi, IndexList.toList, Except.ok.injEq] at this
    subst this
    simp only [IndexList.shift, IndexList.toList, pyRange_shift]
    congr 2; omega
  | list m =>
    simp only [hi, IndexList.toList, Except.ok.injEq] at this
    subst this
    simp [IndexList.shift, IndexList.toList]

theorem zip_map_shift (s : Int) (l : List Int) (rows : List (List Int)) :
    (l.map (· + s)).zip rows = shiftElems s (l.zip rows) := by
  unfold shiftElems
  rw [List.zip_map_left]
  rfl

/-- The dictionary of merged entries is consistent for widths `w`. -/
structure DictWF (w : String → Option Nat) (m : Dict String Entry) : Prop where
  keys : m.keys.Nodup
  entries : ∀ p ∈ m, EntryWF p.2
  width : ∀ p ∈ m, p.2.e2n.ncol = w p.1

/-- Elements of type `t` in a dictionary. -/
def dictElems (m : Dict String Entry) (t : String) : List (Int × List Int) := elementsOf ⟨0, m⟩ t

theorem dictElems_nil (t : String) : dictElems [] t = [] := rfl

theorem dictElems_cons {m : Dict String Entry} {p : String × Entry}
    (h : (Dict.keys (p :: m)).Nodup) (t : String) :
    dictElems (p :: m) t = (if t = p.1 then (indicesOf p.2).zip p.2.e2n.rows else []) ++ dictElems m t := by
  obtain ⟨k, e⟩ := p
  simp only [Dict.keys, List.map_cons, List.nodup_cons] at h
  unfold dictElems elementsOf
  simp only [Dict.get?]
  by_cases hk : t = k
  · subst hk
    have : Dict.get? m t = none := Dict.get?_eq_none_iff.2 h.1
    simp [this]
  · rw [if_neg hk, if_neg (by rintro rfl; exact hk rfl)]; simp

theorem mergeEntry_ok {w : String → Option Nat} {m : Dict String Entry} (hm : DictWF w m)
    (s : Int) (p : String × Entry) (hp : EntryWF p.2) (hw : p.2.e2n.ncol = w p.1) :
    ∃ m', mergeEntry s m p = .ok m' ∧ DictWF w m' ∧
      ∀ t, dictElems m' t = dictElems m t ++
        if t = p.1 then shiftElems s ((indicesOf p.2).zip p.2.e2n.rows) else [] := by
  have hsh := indicesOf_shift hp s
  unfold mergeEntry
  cases hget : m.get? p.1 with
  | none =>
    refine ⟨_, rfl, ⟨Dict.nodup_keys_set hm.keys _ _, ?_, ?_⟩, ?_⟩
    · intro q hq
      rcases mem_set hq with rfl | hq
      · exact ⟨⟨_, hsh, by simp [hp.length]⟩, hp.2⟩
      · exact hm.entries q hq
    · intro q hq
      rcases mem_set hq with rfl | hq
      · exact hw
      · exact hm.width q hq
    · intro t
      unfold dictElems
      rw [elementsOf_set]
      by_cases ht : t = p.1
      · subst ht
        rw [indicesOf_eq (e := ⟨p.2.index.shift s, p.2.e2n⟩) hsh]
        simp [elementsOf, hget, zip_map_shift]
      · simp [ht]
  | some old =>
    have hmem := Dict.mem_of_get? hget
    have ho := hm.entries _ hmem
    have hadd : old.index.add (p.2.index.shift s) =
        .ok (.list (indicesOf old ++ (indicesOf p.2).map (· + s))) := by
      unfold IndexList.add
      rw [ho.toList, hsh]; rfl
    have hcat : old.e2n.concat p.2.e2n = .ok ⟨old.e2n.ncol, old.e2n.rows ++ p.2.e2n.rows⟩ := by
      unfold Arr2.concat
      rw [if_pos (by rw [hw, hm.width _ hmem])]
    simp only [hadd, hcat, Except_bind_ok, Except_pure]
    have hlo := ho.length
    have hlp := hp.length
    refine ⟨_, rfl, ⟨Dict.nodup_keys_set hm.keys _ _, ?_, ?_⟩, ?_⟩
    · intro q hq
      rcases mem_set hq with rfl | hq
      · refine ⟨⟨_, rfl, by simp [hlo, hlp]⟩, ?_⟩
        have h1 := ho.2
        have h2 := hp.2
        have hc : old.e2n.ncol = p.2.e2n.ncol := by rw [hw, hm.width _ hmem]
        unfold Arr2.WF at h1 h2 ⊢
        rw [← hc] at h2
        cases hnc : old.e2n.ncol with
        | none =>
          simp only [hnc] at h1 h2 ⊢
          simp [h1, h2]
        | some k =>
          simp only [hnc] at h1 h2 ⊢
          intro r hr
          rcases List.mem_append.1 hr with hr | hr
          · exact h1 r hr
          · exact h2 r hr
      · exact hm.entries q hq
    · intro q hq
      rcases mem_set hq with rfl | hq
      · exact hm.width (p.1, old) hmem
      · exact hm.width q hq
    · intro t
      unfold dictElems
      rw [elementsOf_set]
      by_cases ht : t = p.1
      · subst ht
        have e1 : indicesOf (⟨.list (indicesOf old ++ (indicesOf p.2).map (· + s)),
            ⟨old.e2n.ncol, old.e2n.rows ++ p.2.e2n.rows⟩⟩ : Entry) =
            indicesOf old ++ (indicesOf p.2).map (· + s) := rfl
        rw [e1]
        simp only [if_true]
        rw [List.zip_append hlo, zip_map_shift]
        simp [elementsOf, hget]
      · simp [ht]

theorem mergeEntries_ok {w : String → Option Nat} {m : Dict String Entry} (hm : DictWF w m)
    (s : Int) (d : Dict String Entry) (hd : DictWF w d) :
    ∃ m', d.foldlM (mergeEntry s) m = .ok m' ∧ DictWF w m' ∧
      ∀ t, dictElems m' t = dictElems m t ++ shiftElems s (dictElems d t) := by
  induction d generalizing m with
  | nil => exact ⟨m, rfl, hm, by simp [dictElems_nil, shiftElems]⟩
  | cons p d ih =>
    obtain ⟨m1, h1, hw1, he1⟩ := mergeEntry_ok hm s p (hd.entries p (by simp)) (hd.width p (by simp))
    obtain ⟨m2, h2, hw2, he2⟩ := ih hw1 ⟨by have := hd.keys; simp only [Dict.keys, List.map_cons, List.nodup_cons] at this; exact this.2,
      fun q hq => hd.entries q (by simp [hq]), fun q hq => hd.width q (by simp [hq])⟩
    refine ⟨m2, by rw [List.foldlM_cons, h1, Except_bind_ok, h2], hw2, ?_⟩
    intro t
    rw [he2, he1, dictElems_cons hd.keys]
    by_cases ht : t = p.1
    · simp [ht, shiftElems]
    · simp [ht]

theorem mergeList_ok {w : String → Option Nat} (l : List (Int × ElemConn))
    (hl : ∀ p ∈ l, DictWF w p.2.tbl) {m : Dict String Entry} (hm : DictWF w m) :
    ∃ m', l.foldlM (fun (m : Dict String Entry) (p : Int × ElemConn) =>
        p.2.tbl.foldlM (mergeEntry p.1) m) m = .ok m' ∧ DictWF w m' ∧
      ∀ t, dictElems m' t = dictElems m t ++ l.flatMap fun p => shiftElems p.1 (elementsOf p.2 t) := by
  induction l generalizing m with
  | nil => exact ⟨m, rfl, hm, by simp⟩
  | cons p l ih =>
    obtain ⟨m1, h1, hw1, he1⟩ := mergeEntries_ok hm p.1 p.2.tbl (hl p (by simp))
    obtain ⟨m2, h2, hw2, he2⟩ := ih (fun q hq => hl q (by simp [hq])) hw1
    refine ⟨m2, by rw [List.foldlM_cons, h1, Except_bind_ok, h2], hw2, ?_⟩
    intro t
    rw [he2, he1]
    simp only [List.flatMap_cons, List.append_assoc]
    rfl

theorem addEntries_ok {w : String → Option Nat} (m : Dict String Entry) (hm : DictWF w m)
    {c : ElemConn} (hc : ConnWF c) (hcw : ∀ p ∈ c.tbl, p.2.e2n.ncol = w p.1) :
    ∃ c', m.foldlM (fun (c : ElemConn) (p : String × Entry) =>
        c.addElems p.1 p.2.e2n (some p.2.index)) c = .ok c' ∧ ConnWF c' ∧
      (∀ p ∈ c'.tbl, p.2.e2n.ncol = w p.1) ∧
      ∀ t, elementsOf c' t = elementsOf c t ++ dictElems m t := by
  induction m generalizing c with
  | nil => exact ⟨c, rfl, hc, hcw, by simp [dictElems_nil]⟩
  | cons p m ih =>
    have hp := hm.entries p (by simp)
    obtain ⟨c1, h1, hwf1, _, _, he1, hk1, e1, hg1, hn1⟩ := addElems_ok hc p.1 p.2.e2n hp.2
      (some p.2.index) (indicesOf p.2) hp.toList hp.length (by
        intro e he
        rw [hcw _ (Dict.mem_of_get? he), hm.width p (by simp)])
    obtain ⟨c2, h2, hwf2, hw2, he2⟩ := ih ⟨by
        have := hm.keys
        simp only [Dict.keys, List.map_cons, List.nodup_cons] at this
        exact this.2, fun q hq => hm.entries q (by simp [hq]), fun q hq => hm.width q (by simp [hq])⟩
      hwf1 (by
        intro q hq
        have hgq := Dict.get?_of_mem hwf1.keys (k := q.1) (v := q.2) hq
        by_cases hqp : q.1 = p.1
        · rw [hqp, hg1] at hgq
          obtain rfl := Option.some.inj hgq
          rw [hn1, hqp, hm.width p (by simp)]
        · exact hcw _ (Dict.mem_of_get? (hk1 q.1 q.2 hgq hqp)))
    refine ⟨c2, by rw [List.foldlM_cons, h1, Except_bind_ok, h2], hwf2, hw2, ?_⟩
    intro t
    rw [he2, he1, dictElems_cons hm.keys, List.append_assoc]

theorem indexCount_of_wf {c : ElemConn} (h : ∀ p ∈ c.tbl, EntryWF p.2) :
    indexCount c = .ok ((elements c).length : Int) := by
  unfold indexCount
  rw [indexLists_of_wf h, Except_bind_ok, elements_length h, Except_pure]
  unfold totalRows
  congr 1
  rw [List.map_map]
  generalize c.tbl = d at h
  induction d with
  | nil => rfl
  | cons p t ih =>
    have h1 := (h p (by simp)).length
    have h2 := ih (fun q hq => h q (by simp [hq]))
    simp only [List.map_cons, List.sum_cons, Function.comp_apply, h1, h2]
    push_cast
    rfl

theorem importMerge_ok {w : String → Option Nat} (l : List ElemConn) (hl : ∀ c ∈ l, ConnWF c)
    (hw : ∀ c ∈ l, ∀ p ∈ c.tbl, p.2.e2n.ncol = w p.1) :
    ∃ c, importMerge ElemConn.empty l = .ok c ∧ ConnWF c ∧
      ∀ t, elementsOf c t =
        (((0 : Int) :: (l.map fun c => ((elements c).length : Int)).dropLast).zip l).flatMap
          fun p => shiftElems p.1 (elementsOf p.2 t) := by
  unfold importMerge
  rw [mapM_ok_of_forall (g := fun c => ((elements c).length : Int))
    (fun c hc => indexCount_of_wf (hl c hc).entries), Except_bind_ok]
  obtain ⟨m, h1, hwf1, he1⟩ := mergeList_ok (w := w)
    (((0 : Int) :: (l.map fun c => ((elements c).length : Int)).dropLast).zip l) (by
      intro p hp
      have hmem := (List.of_mem_zip hp).2
      exact ⟨(hl _ hmem).keys, (hl _ hmem).entries, hw _ hmem⟩)
    (m := []) ⟨by simp [Dict.keys], by simp, by simp⟩
  obtain ⟨c, h2, hwf2, _, he2⟩ := addEntries_ok m hwf1 connWF_empty (by simp [ElemConn.empty])
  refine ⟨c, by simp only [h1, Except_bind_ok, h2], hwf2, ?_⟩
  intro t
  rw [he2, he1]
  simp [dictElems_nil, elementsOf, ElemConn.empty, Dict.get?]

/-- The elements of all types together, from the elements of each type. -/
theorem elements_perm_of_elementsOf {c : ElemConn} (hc : c.tbl.keys.Nodup)
    (l : List (String × Int × List Int))
    (h : ∀ t, elementsOf c t = (l.filter fun x => x.1 = t).map (·.2)) : (elements c).Perm l := by
  apply perm_of_filter_eq
  intro t
  rw [elements_filter hc, h t, List.map_map]
  conv_rhs => rw [← List.map_id (l.filter fun x => x.1 = t)]
  apply List.map_congr_left
  intro x hx
  have := (List.mem_filter.1 hx).2
  simp only [decide_eq_true_eq] at this
  subst this
  rfl

theorem filter_elements {c : ElemConn} (hc : c.tbl.keys.Nodup) (t : String) :
    ((elements c).filter fun x => x.1 = t).map (·.2) = elementsOf c t := by
  rw [elements_filter hc, List.map_map]; simp [Function.comp_def]

/-! ## What a successful merge tells about widths -/

/-- All types of `m` are in `m'` with the same width. -/
def Keeps (m m' : Dict String Entry) : Prop :=
  ∀ t e, m.get? t = some e → ∃ e', m'.get? t = some e' ∧ e'.e2n.ncol = e.e2n.ncol

theorem Keeps.refl (m : Dict String Entry) : Keeps m m := fun _ e h => ⟨e, h, rfl⟩

theorem Keeps.trans {a b c : Dict String Entry} (h1 : Keeps a b) (h2 : Keeps b c) : Keeps a c := by
  intro t e h
  obtain ⟨e1, h3, h4⟩ := h1 t e h
  obtain ⟨e2, h5, h6⟩ := h2 t e1 h3
  exact ⟨e2, h5, h6.trans h4⟩

theorem mergeEntry_keeps {s : Int} {m m' : Dict String Entry} {p : String × Entry}
    (h : mergeEntry s m p = .ok m') :
    Keeps m m' ∧ ∃ e', m'.get? p.1 = some e' ∧ e'.e2n.ncol = p.2.e2n.ncol := by
  unfold mergeEntry at h
  split at h
  · rename_i old hold
    simp only [bind_eq_ok] at h
    obtain ⟨idx, _, arr, h2, h3⟩ := h
    simp only [Except_pure, Except.ok.injEq] at h3
    subst h3
    unfold Arr2.concat at h2
    split at h2
    · rename_i hw
      obtain rfl := Except.ok.inj h2
      refine ⟨?_, _, Dict.get?_set_self _ _ _, hw⟩
      intro t e ht
      by_cases hk : t = p.1
      · subst hk
        rw [hold] at ht
        obtain rfl := Option.some.inj ht
        exact ⟨_, Dict.get?_set_self _ _ _, rfl⟩
      · exact ⟨e, by rw [Dict.get?_set_ne _ _ hk]; exact ht, rfl⟩
    · simp at h2
  · rename_i hold
    obtain rfl := Except.ok.inj h
    refine ⟨?_, _, Dict.get?_set_self _ _ _, rfl⟩
    intro t e ht
    have hk : t ≠ p.1 := by rintro rfl; rw [hold] at ht; simp at ht
    exact ⟨e, by rw [Dict.get?_set_ne _ _ hk]; exact ht, rfl⟩

theorem mergeEntries_keeps {s : Int} {d m m' : Dict String Entry} (h : d.foldlM (mergeEntry s) m = .ok m') :
    Keeps m m' ∧ ∀ p ∈ d, ∃ e', m'.get? p.1 = some e' ∧ e'.e2n.ncol = p.2.e2n.ncol := by
  induction d generalizing m with
  | nil => obtain rfl := Except.ok.inj h; exact ⟨Keeps.refl _, by simp⟩
  | cons q d ih =>
    rw [List.foldlM_cons, bind_eq_ok] at h
    obtain ⟨m1, h1, h2⟩ := h
    obtain ⟨k1, e1, g1, w1⟩ := mergeEntry_keeps h1
    obtain ⟨k2, a2⟩ := ih h2
    refine ⟨k1.trans k2, ?_⟩
    intro p hp
    rcases List.mem_cons.1 hp with rfl | hp
    · obtain ⟨e2, g2, w2⟩ := k2 _ _ g1
      exact ⟨e2, g2, w2.trans w1⟩
    · exact a2 p hp

theorem mergeList_keeps {l : List (Int × ElemConn)} {m m' : Dict String Entry}
    (h : l.foldlM (fun (m : Dict String Entry) (p : Int × ElemConn) => p.2.tbl.foldlM (mergeEntry p.1) m) m = .ok m') :
    Keeps m m' ∧ ∀ q ∈ l, ∀ p ∈ q.2.tbl, ∃ e', m'.get? p.1 = some e' ∧ e'.e2n.ncol = p.2.e2n.ncol := by
  induction l generalizing m with
  | nil => obtain rfl := Except.ok.inj h; exact ⟨Keeps.refl _, by simp⟩
  | cons q d ih =>
    rw [List.foldlM_cons, bind_eq_ok] at h
    obtain ⟨m1, h1, h2⟩ := h
    obtain ⟨k1, a1⟩ := mergeEntries_keeps h1
    obtain ⟨k2, a2⟩ := ih h2
    refine ⟨k1.trans k2, ?_⟩
    intro r hr p hp
    rcases List.mem_cons.1 hr with rfl | hr
    · obtain ⟨e1, g1, w1⟩ := a1 p hp
      obtain ⟨e2, g2, w2⟩ := k2 _ _ g1
      exact ⟨e2, g2, w2.trans w1⟩
    · exact a2 r hr p hp

/-- A merge that returns had, for each type, the same width everywhere. -/
theorem widths_of_merge {l : List ElemConn} {c c' : ElemConn} (h : importMerge c l = .ok c') :
    ∃ w : String → Option Nat, ∀ c ∈ l, ∀ p ∈ c.tbl, p.2.e2n.ncol = w p.1 := by
  unfold importMerge at h
  simp only [bind_eq_ok] at h
  obtain ⟨sizes, h1, m, h2, _⟩ := h
  have hlen : sizes.length = l.length := by
    have : ∀ (l : List ElemConn) (sizes : List Int), l.mapM indexCount = .ok sizes → sizes.length = l.length := by
      intro l
      induction l with
      | nil => intro s h; obtain rfl := Except.ok.inj h; rfl
      | cons a t ih =>
        intro s h
        rw [List.mapM_cons] at h
        simp only [bind_eq_ok] at h
        obtain ⟨x, _, y, hy, h3⟩ := h
        obtain rfl := Except.ok.inj h3
        simp [ih _ hy]
    exact this _ _ h1
  obtain ⟨_, ha⟩ := mergeList_keeps h2
  refine ⟨fun t => (m.get? t).bind (·.e2n.ncol), ?_⟩
  intro c hc p hp
  obtain ⟨k, hk, rfl⟩ := List.mem_iff_getElem.1 hc
  have hz : k < (((0 : Int) :: sizes.dropLast).zip l).length := by
    simp only [List.length_zip, List.length_cons, List.length_dropLast, hlen]; omega
  obtain ⟨e, he, hw⟩ := ha ((((0 : Int) :: sizes.dropLast).zip l)[k]) (List.getElem_mem hz) p
    (by rw [List.getElem_zip]; exact hp)
  simp only [he, Option.bind_some, hw]

end Cfd
