import Verif.Spec.Cgns
import Verif.Lemmas.Conn
import Verif.Lemmas.Mesh

/-! # Lemmas on the CGNS reader -/

namespace Cfd
open Cfd.Spec

/-! ## `nodes_of_indexlist` -/

theorem zip_flatten {α β γ : Type} (l : List γ) (f : γ → List α) (g : γ → List β) (h : ∀ x ∈ l, (f x).length = (g x).length) :
    ((l.map f).flatten).zip ((l.map g).flatten) = (l.map fun x => (f x).zip (g x)).flatten := by
  induction l with
  | nil => rfl
  | cons a t ih =>
    simp only [List.map_cons, List.flatten_cons]
    rw [List.zip_append (h a (by simp)), ih fun x hx => h x (by simp [hx])]

theorem lastBinding_of_nodup {pairs : List (Int × List Int)} (hn : (pairs.map (·.1)).Nodup) {i : Int} {r : List Int} :
    ElemConn.lastBinding pairs i = some r ↔ (i, r) ∈ pairs := by
  unfold ElemConn.lastBinding
  have hn' : (pairs.reverse.map (·.1)).Nodup := by rw [List.map_reverse]; exact List.nodup_reverse.2 hn
  rw [show ((i, r) ∈ pairs) = ((i, r) ∈ pairs.reverse) by rw [List.mem_reverse]]
  revert hn'
  generalize pairs.reverse = l
  intro hl
  induction l with
  | nil => simp
  | cons a t ih =>
    rw [List.map_cons, List.nodup_cons] at hl
    rw [List.find?_cons]
    by_cases ha : a.1 = i
    · simp only [ha, decide_true, Option.map_some, Option.some.injEq, List.mem_cons]
      constructor
      · rintro rfl; exact .inl (by rw [← ha])
      · rintro (h | h)
        · rw [← h]
        · exact absurd (List.mem_map.2 ⟨_, h, rfl⟩) (ha ▸ hl.1)
    · simp only [ha, decide_false, List.mem_cons]
      refine (ih hl.2).trans ?_
      constructor
      · exact .inr
      · rintro (h | h)
        · rw [← h] at ha; exact absurd rfl ha
        · exact h

theorem nodesOfIndexlist_ok (so : List Int → List Int) (hso : ∀ l, (so l).Perm l) {c : ElemConn} (hc : ConnWF c)
    (hn : (allIndices c).Nodup) (ids : List Int) (hids : ∀ e ∈ ids, e ∈ allIndices c) :
    ∃ nodes, c.nodesOfIndexlist so ids = .ok nodes ∧ nodes.Nodup ∧
      ∀ n, n ∈ nodes ↔ ∃ e ∈ ids, ∃ t r, (t, e, r) ∈ elements c ∧ n ∈ r := by
  have hidx : c.indexLists = .ok (c.tbl.map fun p => indicesOf p.2) := by
    unfold ElemConn.indexLists
    exact mapM_ok_of_forall (g := fun p : String × Entry => indicesOf p.2) fun p hp => (hc.entries p hp).toList
  have hz : ((c.tbl.map fun p => indicesOf p.2).flatten).zip ((c.tbl.map fun p => p.2.e2n.rows).flatten) =
      (elements c).map (·.2) := by
    rw [zip_flatten _ (fun p : String × Entry => indicesOf p.2) (fun p => p.2.e2n.rows) fun p hp => (hc.entries p hp).length]
    unfold elements
    rw [List.map_flatMap, List.flatMap_def]
    congr 1
    apply List.map_congr_left
    intro p _
    rw [List.map_map]
    exact (List.map_id _).symm
  have hnp : (((elements c).map (·.2)).map (·.1)).Nodup := by
    rw [List.map_map]; exact hn
  have hex : ∀ e ∈ ids, ∃ r, ElemConn.lastBinding ((elements c).map (·.2)) e = some r := by
    intro e he
    obtain ⟨x, hx, e1⟩ := List.mem_map.1 (hids e he)
    exact ⟨x.2.2, (lastBinding_of_nodup hnp).2 (List.mem_map.2 ⟨x, hx, by rw [← e1]⟩)⟩
  unfold ElemConn.nodesOfIndexlist
  rw [hidx]
  simp only [Except_bind_ok, hz]
  rw [mapM_ok_of_forall (g := fun e => (ElemConn.lastBinding ((elements c).map (·.2)) e).getD [])]
  · refine ⟨_, rfl, (hso _).nodup_iff.2 (List.nodup_dedup _), fun n => ?_⟩
    rw [(hso _).mem_iff, List.mem_dedup, List.mem_flatten]
    constructor
    · rintro ⟨r, hr, hnr⟩
      obtain ⟨e, he, rfl⟩ := List.mem_map.1 hr
      obtain ⟨r, hr⟩ := hex e he
      rw [hr] at hnr
      obtain ⟨x, hx, e1⟩ := List.mem_map.1 ((lastBinding_of_nodup hnp).1 hr)
      exact ⟨e, he, x.1, r, by rw [← e1]; exact hx, hnr⟩
    · rintro ⟨e, he, t, r, hm, hnr⟩
      refine ⟨r, List.mem_map.2 ⟨e, he, ?_⟩, hnr⟩
      rw [(lastBinding_of_nodup hnp).2 (List.mem_map.2 ⟨_, hm, rfl⟩)]
      rfl
  · intro e he
    obtain ⟨r, hr⟩ := hex e he
    rw [hr]; rfl

end Cfd

namespace Cfd.Cgns
open Cfd.Spec Cfd.Spec.Cgns

variable {R : Type}

/-! ## Sections -/

theorem kinds_codes : ∀ k ∈ kinds, eleCgns2local.get? k.code = some k.name ∧ nnodeElem.get? k.name = some k.nodes ∧
    dimElem.get? k.name = some k.dim ∧ 0 < k.nodes := by decide

theorem kinds_inj : ∀ k ∈ kinds, ∀ k' ∈ kinds, (k.name = k'.name → k = k') ∧ (k.code = k'.code → k = k') := by decide

theorem kinds_names : (kinds.map (·.name)).Nodup := by decide

/-- The table given to `add_elems`. -/
def sectionRows (k : Kind) (s : Section) : Arr2 := ⟨some k.nodes, (sectionElems k s).map (·.2)⟩

theorem addSection_eq (dim : Int) (c : ElemConn) (p : String × Section) (k : Kind) (hk : k ∈ kinds) (hs : SectionOk k p.2) :
    addSection dim c p = if (k.dim : Int) = dim then
      c.addElems k.name (sectionRows k p.2) (some (.range (p.2.first - 1) (p.2.last - 1))) else .ok c := by
  obtain ⟨h1, h2, h3, h4⟩ := kinds_codes k hk
  unfold addSection
  rw [hs.code, Dict.getE_eq_ok.2 h1]
  simp only [Except_bind_ok]
  rw [Dict.getE_eq_ok.2 h2, Dict.getE_eq_ok.2 h3]
  simp only [Except_bind_ok]
  have hpos : 0 ≤ p.2.last - p.2.first + 1 := by
    have := hs.size
    by_contra hneg
    have : (p.2.last - p.2.first + 1) * (k.nodes : Int) < 0 := by
      apply Int.mul_neg_of_neg_of_pos <;> omega
    omega
  obtain ⟨n, hn⟩ := Int.eq_ofNat_of_zero_le hpos
  have hlen : p.2.conn.length = n * k.nodes := by
    have := hs.size
    rw [hn] at this
    exact_mod_cast this
  have hre : reshape k.nodes p.2.conn = .ok ⟨some k.nodes, (List.range n).map fun j =>
      (p.2.conn.drop (j * k.nodes)).take k.nodes⟩ := by
    unfold reshape
    rw [if_pos (by rw [hlen]; exact Nat.mul_mod_left _ _), hlen, Nat.mul_div_cancel _ h4]
  rw [hre]
  simp only [Except_bind_ok]
  split
  · congr 1
    unfold sectionRows sectionElems
    rw [hn]
    simp
  · rfl

theorem sectionElems_zip (k : Kind) (s : Section) :
    (sectionElems k s).map (·.1) = pyRange (s.first - 1) (s.last - 1 + 1) := by
  unfold sectionElems pyRange
  rw [List.map_map]
  have : s.last - 1 + 1 - (s.first - 1) = s.last - s.first + 1 := by omega
  rw [this]
  apply List.map_congr_left
  intro j _
  simp only [Function.comp_apply]
  omega

theorem sectionRows_WF {k : Kind} {s : Section} (hk : 0 < k.nodes) (hs : SectionOk k s) : (sectionRows k s).WF := by
  unfold sectionRows Arr2.WF
  simp only
  intro r hr
  unfold sectionElems at hr
  rw [List.map_map, List.mem_map] at hr
  obtain ⟨j, hj, rfl⟩ := hr
  rw [List.mem_range] at hj
  have hsz := hs.size
  simp only [Function.comp_apply, List.length_map, List.length_take, List.length_drop]
  have : (j + 1) * k.nodes ≤ s.conn.length := by
    have h1 : ((j : Int) + 1) ≤ s.last - s.first + 1 := by omega
    have h2 := Int.mul_le_mul_of_nonneg_right h1 (Int.natCast_nonneg k.nodes)
    rw [← hsz] at h2
    exact_mod_cast h2
  rw [Nat.add_mul, Nat.one_mul] at this
  omega

theorem elemcon_fold (dim : Int) (l : List (String × Section)) (c : ElemConn) (hc : ConnWF c)
    (hcol : ∀ k ∈ kinds, ∀ e, c.tbl.get? k.name = some e → e.e2n.ncol = some k.nodes)
    (hkeys : ∀ t ∈ c.tbl.keys, ∃ k ∈ kinds, (k.dim : Int) = dim ∧ k.name = t)
    (hl : ∀ p ∈ l, ∃ k ∈ kinds, SectionOk k p.2) :
    ∃ c', l.foldlM (addSection dim) c = .ok c' ∧ ConnWF c' ∧
      (∀ t ∈ c'.tbl.keys, ∃ k ∈ kinds, (k.dim : Int) = dim ∧ k.name = t) ∧
      ∀ k ∈ kinds, elementsOf c' k.name = elementsOf c k.name ++
        if (k.dim : Int) = dim then (l.filter fun p => p.2.cgtype = k.code).flatMap fun p => sectionElems k p.2 else [] := by
  induction l generalizing c with
  | nil => exact ⟨c, rfl, hc, hkeys, by simp⟩
  | cons p l ih =>
    obtain ⟨k, hk, hs⟩ := hl p (by simp)
    rw [List.foldlM_cons, addSection_eq dim c p k hk hs]
    have hpos := (kinds_codes k hk).2.2.2
    split
    · rename_i hd
      obtain ⟨c1, e1, w1, -, k1, el1, oth, ⟨en, hen, hcn⟩⟩ := addElems_ok hc k.name (sectionRows k p.2)
        (sectionRows_WF hpos hs) (some (.range (p.2.first - 1) (p.2.last - 1))) ((sectionElems k p.2).map (·.1))
        (by rw [sectionElems_zip]; rfl) (by simp [sectionRows])
        (fun e he => hcol k hk e he)
      rw [e1]
      simp only [Except_bind_ok]
      obtain ⟨c', e2, w2, k2, el2⟩ := ih c1 w1 (by
          intro k' hk' e he
          by_cases hkk : k'.name = k.name
          · have := (kinds_inj k' hk' k hk).1 hkk
            subst this
            rw [hen] at he
            cases he
            exact hcn
          · exact hcol k' hk' e (oth _ _ he hkk))
        (by
          intro t ht
          rw [k1] at ht
          split at ht
          · exact hkeys t ht
          · rw [List.mem_append, List.mem_singleton] at ht
            rcases ht with ht | rfl
            · exact hkeys t ht
            · exact ⟨k, hk, hd, rfl⟩)
        (fun q hq => hl q (by simp [hq]))
      refine ⟨c', e2, w2, k2, ?_⟩
      intro k' hk'
      rw [el2 k' hk', el1]
      by_cases hkk : k'.name = k.name
      · have := (kinds_inj k' hk' k hk).1 hkk
        subst this
        have hzz : ((sectionElems k' p.2).map (·.1)).zip (sectionRows k' p.2).rows = sectionElems k' p.2 := by
          unfold sectionRows
          simp only
          rw [List.zip_map']
          simp
        simp only [if_true, hd, hzz, List.append_assoc, List.filter_cons, hs.code, decide_true, List.flatMap_cons]
      · have hcode : p.2.cgtype ≠ k'.code := by
          rw [hs.code]; intro e; exact hkk (by rw [(kinds_inj k hk k' hk').2 e])
        simp only [hkk, if_false, List.append_nil, List.filter_cons, hcode, decide_false]
        rfl
    · rename_i hd
      simp only [Except_bind_ok]
      obtain ⟨c', e2, w2, k2, el2⟩ := ih c hc hcol hkeys (fun q hq => hl q (by simp [hq]))
      refine ⟨c', e2, w2, k2, ?_⟩
      intro k' hk'
      rw [el2 k' hk']
      congr 1
      split
      · rename_i hd'
        have hcode : p.2.cgtype ≠ k'.code := by
          rw [hs.code]; intro e
          rw [(kinds_inj k hk k' hk').2 e] at hd
          exact hd hd'
        simp only [List.filter_cons, hcode, decide_false]
        rfl
      · rfl

theorem elements_snd {c : ElemConn} (hc : ConnWF c) : (elements c).map (·.2) = c.tbl.keys.flatMap (elementsOf c) := by
  unfold elements Dict.keys
  rw [List.map_flatMap, List.flatMap_map, List.flatMap_def, List.flatMap_def]
  congr 1
  apply List.map_congr_left
  intro p hp
  rw [List.map_map]
  unfold elementsOf
  rw [Dict.get?_of_mem hc.keys hp]
  exact List.map_id _

/-- What the reader makes of the sections of one dimension. -/
theorem elemcon_ok (z : Zone R) (dim : Int) (h : SectionsOk z) :
    ∃ c, elemcon z dim = .ok c ∧ ConnWF c ∧ (∀ t ∈ c.tbl.keys, ∃ k ∈ kinds, (k.dim : Int) = dim ∧ k.name = t) ∧
      (∀ k ∈ kinds, elementsOf c k.name = if (k.dim : Int) = dim then elemsOfKind z k else []) ∧
      List.Perm ((elements c).map (·.2)) (elemsOfDim z dim) := by
  obtain ⟨c, e, w, hk, el⟩ := elemcon_fold dim z.sections ElemConn.empty connWF_empty
    (by intro k _ e he; simp [ElemConn.empty, Dict.get?] at he) (by intro t ht; simp [ElemConn.empty, Dict.keys] at ht) h
  have el' : ∀ k ∈ kinds, elementsOf c k.name = if (k.dim : Int) = dim then elemsOfKind z k else [] := by
    intro k hk
    rw [el k hk]
    simp [elementsOf, ElemConn.empty, Dict.get?, elemsOfKind]
  refine ⟨c, e, w, hk, el', ?_⟩
  rw [elements_snd w]
  have hdim : elemsOfDim z dim = ((kinds.filter fun k => (k.dim : Int) = dim).map (·.name)).flatMap (elementsOf c) := by
    unfold elemsOfDim
    rw [List.flatMap_map, List.flatMap_def, List.flatMap_def]
    congr 1
    apply List.map_congr_left
    intro k hk
    rw [List.mem_filter] at hk
    rw [el' k hk.1, if_pos (by simpa using hk.2)]
  rw [hdim]
  generalize hN : ((kinds.filter fun k => (k.dim : Int) = dim).map (·.name)) = N
  have hNn : N.Nodup := by
    rw [← hN]
    exact kinds_names.sublist (List.Sublist.map _ List.filter_sublist)
  have hsub : ∀ t ∈ c.tbl.keys, t ∈ N := by
    intro t ht
    obtain ⟨k, hk, hd, rfl⟩ := hk t ht
    rw [← hN]
    exact List.mem_map.2 ⟨k, List.mem_filter.2 ⟨hk, by simpa using hd⟩, rfl⟩
  have hp := List.filter_append_perm (fun t => decide (t ∈ c.tbl.keys)) N
  have hp1 : List.Perm (N.filter fun t => decide (t ∈ c.tbl.keys)) c.tbl.keys := by
    rw [List.perm_ext_iff_of_nodup (hNn.sublist List.filter_sublist) w.keys]
    intro t
    rw [List.mem_filter]
    simp only [decide_eq_true_eq]
    exact ⟨fun h => h.2, fun h => ⟨hsub t h, h⟩⟩
  refine List.Perm.trans ?_ (hp.flatMap_right _)
  rw [List.flatMap_append]
  have hnil : (N.filter fun t => !decide (t ∈ c.tbl.keys)).flatMap (elementsOf c) = [] := by
    rw [List.flatMap_eq_nil_iff]
    intro t ht
    rw [List.mem_filter] at ht
    unfold elementsOf
    rw [Dict.get?_eq_none_iff.2 (by simpa using ht.2)]
  rw [hnil, List.append_nil]
  exact (hp1.flatMap_right _).symm

end Cfd.Cgns
