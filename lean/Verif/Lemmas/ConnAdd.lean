import Verif.Lemmas.Faces
import Verif.Lemmas.Ic3ReadVars

/-! Adding tables of new types to a connectivity. -/

namespace Cfd
open Cfd.Spec Cfd.ElemConn

theorem addPlain_fold (calls : List (String × Arr2)) (c : ElemConn)
    (hn : (c.tbl.keys ++ calls.map (·.1)).Nodup) (hc : ConnWF c) (hw : ∀ p ∈ calls, p.2.WF) :
    ∃ c', calls.foldlM (fun (c : ElemConn) p => c.addElems p.1 p.2) c = .ok c' ∧ ConnWF c' ∧
      c'.nelem = c.nelem + (calls.map fun p => p.2.rows.length).sum ∧
      c'.tbl.keys = c.tbl.keys ++ calls.map (·.1) ∧
      (∀ t, (elementsOf c' t).map (·.2) = (elementsOf c t).map (·.2) ++
        match Dict.get? calls t with | some a => a.rows | none => []) ∧
      allIndices c' = allIndices c ++ pyRange c.nelem c'.nelem := by
  induction calls generalizing c with
  | nil =>
    refine ⟨c, rfl, hc, by simp, by simp, by simp [Dict.get?], ?_⟩
    rw [pyRange_eq_nil (by omega)]; simp
  | cons p rest ih =>
    obtain ⟨t, a⟩ := p
    have hnt : t ∉ c.tbl.keys := by
      intro h
      rw [List.nodup_append] at hn
      exact hn.2.2 t h t (by simp) rfl
    have hget : c.tbl.get? t = none := Dict.get?_eq_none_iff.2 hnt
    have hidx : (newIndex c a.rows.length none).toList = .ok (pyRange c.nelem (c.nelem + a.rows.length : Nat)) := by
      unfold newIndex
      simp only [IndexList.toList]
      congr 2
      omega
    obtain ⟨c1, e1, w1, n1, k1, el1, -, -⟩ := addElems_ok hc t a (hw (t, a) (by simp)) none
      _ hidx (by rw [length_pyRange]; omega) (by intro e he; rw [hget] at he; cases he)
    have hc1 : c1 = ⟨c.nelem + a.rows.length, c.tbl ++ [(t, ⟨newIndex c a.rows.length none, a⟩)]⟩ := by
      unfold addElems at e1
      simp only [hget] at e1
      rw [Dict.set_of_not_mem _ hnt] at e1
      exact (Except.ok.inj e1).symm
    have hall : allIndices c1 = allIndices c ++ pyRange c.nelem c1.nelem := by
      rw [hc1]
      unfold allIndices elements
      rw [List.flatMap_append, List.map_append]
      congr 1
      simp only [List.flatMap_cons, List.flatMap_nil, List.append_nil, indicesOf, hidx, List.map_map]
      have hl : (pyRange (c.nelem : Int) ((c.nelem + a.rows.length : Nat) : Int)).length ≤ a.rows.length := by
        rw [length_pyRange]; omega
      have := List.map_fst_zip (l₁ := pyRange (c.nelem : Int) ((c.nelem + a.rows.length : Nat) : Int))
        (l₂ := a.rows) hl
      conv_rhs => rw [← this]
      rfl
    rw [if_neg hnt] at k1
    obtain ⟨c', e', w', n', k', el', al'⟩ := ih c1
      (by rw [k1]; simpa using hn) w1
      (fun p hp => hw p (List.mem_cons_of_mem _ hp))
    refine ⟨c', ?_, w', ?_, ?_, ?_, ?_⟩
    · rw [List.foldlM_cons]
      simp only [e1, Except_bind_ok]
      exact e'
    · rw [n', n1]; simp; omega
    · rw [k', k1]; simp
    · intro t'
      rw [el', el1, List.map_append, List.append_assoc]
      congr 1
      by_cases ht : t' = t
      · subst ht
        have hno : Dict.get? rest t' = none := by
          apply Dict.get?_eq_none_iff.2
          intro h
          rw [List.nodup_append] at hn
          exact (List.nodup_cons.1 hn.2.1).1 h
        rw [hno, if_pos rfl]
        simp only [List.append_nil, Dict.get?, if_true]
        exact List.map_snd_zip (by rw [length_pyRange]; omega)
      · rw [if_neg ht]
        simp only [Dict.get?, if_neg (fun h => ht h.symm : ¬ t = t')]
        rfl
    · rw [al', hall, List.append_assoc, pyRange_append (by omega) (by omega)]

end Cfd
