import Verif.Spec.Probes
import Verif.Lemmas.Lists

/-!
# Lemmas on probe data
-/

namespace Cfd.Probes
open Cfd.Spec.Probes

variable {F : Type}

/-! ## Point by point operations -/

theorem zipB_same (f : F → F → F) (a b : List F) (h : a.length = b.length) :
    zipB (fun x y => (.ok (f x y) : Py F)) a b = .ok (a.zipWith f b) := by
  unfold zipB
  rw [if_pos h]
  have : ∀ l : List (F × F), l.mapM (fun p => (.ok (f p.1 p.2) : Py F)) = .ok (l.map fun p => f p.1 p.2) := by
    intro l
    exact mapM_ok_of_forall fun _ _ => rfl
  rw [this, List.zip, List.map_zipWith]

theorem un_shape (f : F → F) {sh : Shape} {v : Val F} (h : HasShape sh v) : HasShape sh (Val.un f v) := by
  cases sh <;> cases v <;> simp_all [HasShape, Val.un]

theorem un_entry (f : F → F) (v : Val F) (i j : Nat) : entry (Val.un f v) i j = (entry v i j).map f := by
  cases v with
  | vec l =>
    simp only [Val.un, entry]
    split <;> simp
  | mat rows =>
    simp only [Val.un, entry, List.getElem?_map]
    cases rows[i]? <;> simp

theorem bin_same (f : F → F → F) {sh : Shape} {a b : Val F} (ha : HasShape sh a) (hb : HasShape sh b) :
    ∃ v, Val.bin f a b = .ok v ∧ HasShape sh v ∧
      ∀ i j x y, entry a i j = some x → entry b i j = some y → entry v i j = some (f x y) := by
  cases sh with
  | vec n =>
    cases a with
    | mat _ => exact absurd ha id
    | vec a =>
    cases b with
    | mat _ => exact absurd hb id
    | vec b =>
    simp only [HasShape] at ha hb
    refine ⟨.vec (a.zipWith f b), ?_, ?_, ?_⟩
    · simp only [Val.bin]
      rw [zipB_same f a b (by omega)]; rfl
    · simp [HasShape, ha, hb]
    · intro i j x y hx hy
      simp only [entry] at hx hy ⊢
      split at hx
      · rename_i hi
        subst hi
        simp only [if_true] at hy
        rw [if_pos rfl, List.getElem?_zipWith, hx, hy]
      · cases hx
  | mat m n =>
    cases a with
    | vec _ => exact absurd ha id
    | mat a =>
    cases b with
    | vec _ => exact absurd hb id
    | mat b =>
    obtain ⟨ha1, ha2⟩ := ha
    obtain ⟨hb1, hb2⟩ := hb
    refine ⟨.mat (a.zipWith (fun r s => r.zipWith f s) b), ?_, ?_, ?_⟩
    · simp only [Val.bin]
      unfold zipB
      rw [if_pos (by omega)]
      have : (a.zip b).mapM (fun p => zipB (fun x y => (.ok (f x y) : Py F)) p.1 p.2) =
          .ok ((a.zip b).map fun p => p.1.zipWith f p.2) := by
        apply mapM_ok_of_forall
        intro p hp
        obtain ⟨h1, h2⟩ := List.of_mem_zip hp
        exact zipB_same f _ _ (by rw [ha2 _ h1, hb2 _ h2])
      unfold zipB at this
      rw [this, List.zip, List.map_zipWith]
      rfl
    · constructor
      · simp [ha1, hb1]
      · intro r hr
        obtain ⟨k, hk, rfl⟩ := List.getElem_of_mem hr
        simp only [List.length_zipWith] at hk
        simp only [List.getElem_zipWith, List.length_zipWith]
        rw [ha2 _ (List.getElem_mem _), hb2 _ (List.getElem_mem _)]
        omega
    · intro i j x y hx hy
      simp only [entry] at hx hy ⊢
      rw [List.getElem?_zipWith]
      cases hai : a[i]? with
      | none => simp [hai] at hx
      | some r =>
        cases hbi : b[i]? with
        | none => simp [hbi] at hy
        | some s =>
          simp only [hai, hbi, Option.bind_some] at hx hy ⊢
          rw [List.getElem?_zipWith, hx, hy]

theorem stats_ok {sh : Shape} (hs : sh.NonEmpty) {v : Val F} (h : HasShape sh v) : v.stats = .ok () := by
  cases sh with
  | vec n =>
    cases v with
    | mat _ => exact absurd h id
    | vec l =>
      simp only [HasShape, Shape.NonEmpty] at h hs
      simp only [Val.stats]
      rw [if_neg]
      rintro rfl
      simp at h; omega
  | mat m n =>
    cases v with
    | vec _ => exact absurd h id
    | mat rows =>
      obtain ⟨h1, h2⟩ := h
      obtain ⟨g1, g2⟩ := hs
      simp only [Val.stats]
      rw [if_neg]
      intro e
      cases rows with
      | nil => simp at h1; omega
      | cons r t =>
        have := h2 r (by simp)
        rw [List.flatten_cons] at e
        have := (List.append_eq_nil_iff.1 e).1
        subst this
        simp at *; omega

/-! ## Formulas -/

theorem needs_deps (var : String) :
    dependencyVars.get? var = if needs var = [] then none else some (needs var) := by
  unfold needs
  by_cases h1 : var = "Asound"
  · subst h1; decide +kernel
  by_cases h2 : var = "S"
  · subst h2; decide +kernel
  by_cases h3 : var = "U"
  · subst h3; decide +kernel
  by_cases h4 : var = "Mach"
  · subst h4; decide +kernel
  by_cases h5 : var = "INVX+"
  · subst h5; decide +kernel
  by_cases h6 : var = "INVX-"
  · subst h6; decide +kernel
  simp only [h1, h2, h3, h4, h5, h6, if_false, if_true]
  rw [Dict.get?_eq_none_iff]
  simp [dependencyVars, Dict.keys, h1, h2, h3, h4, h5, h6]

theorem needs_cases {var : String} (h : needs var ≠ []) :
    var = "Asound" ∨ var = "S" ∨ var = "U" ∨ var = "Mach" ∨ var = "INVX+" ∨ var = "INVX-" := by
  by_contra hc
  simp only [not_or] at hc
  apply h
  simp [needs, hc]

/-- The computations follow the formulas when the arrays have the same shape. -/
theorem compute_ok (N : PhyNum F) (var : String) (hn : needs var ≠ []) (d : Data F) (sh : Shape) (val : String → Val F)
    (hd : ∀ k ∈ needs var, d.get? k = some (val k)) (hsh : ∀ k ∈ needs var, HasShape sh (val k)) :
    ∃ v, computeVarname N var d = .ok (d.set var v) ∧ HasShape sh v ∧
      ∀ i j (x : String → F), (∀ k ∈ needs var, entry (val k) i j = some (x k)) →
        entry v i j = some (formula N var x) := by
  rcases needs_cases hn with rfl | rfl | rfl | rfl | rfl | rfl
  · have hne : needs "Asound" = ["P", "RHO"] := by decide +kernel
    rw [hne] at hd hsh ⊢
    obtain ⟨v, e, s, hv⟩ := bin_same N.div (un_shape (N.mul (N.lit "1.4")) (hsh "P" (by simp))) (hsh "RHO" (by simp))
    refine ⟨Val.un N.sqrt v, ?_, un_shape _ s, ?_⟩
    · rw [computeVarname, if_neg (by decide), if_neg (by decide), if_pos rfl]
      simp only [computeAsound, Dict.getE_eq_ok.2 (hd "P" (by simp)), Dict.getE_eq_ok.2 (hd "RHO" (by simp)), Except_bind_ok, e]
      rfl
    · intro i j x hx
      rw [un_entry, hv i j _ _ (by rw [un_entry, hx "P" (by simp)]; rfl) (hx "RHO" (by simp))]
      simp [formula]
  · have hne : needs "S" = ["P", "RHO"] := by decide +kernel
    rw [hne] at hd hsh ⊢
    obtain ⟨v, e, s, hv⟩ := bin_same N.div (hsh "P" (by simp)) (un_shape (fun a => N.pow a (N.lit "1.4")) (hsh "RHO" (by simp)))
    refine ⟨Val.un (N.mul (N.div (N.lit "1.0") (N.lit "0.4"))) (Val.un N.log v), ?_, un_shape _ (un_shape _ s), ?_⟩
    · rw [computeVarname, if_neg (by decide), if_neg (by decide), if_neg (by decide), if_neg (by decide),
        if_neg (by decide), if_pos rfl]
      simp only [computeEntropy, Dict.getE_eq_ok.2 (hd "P" (by simp)), Dict.getE_eq_ok.2 (hd "RHO" (by simp)), Except_bind_ok, e]
      rfl
    · intro i j x hx
      rw [un_entry, un_entry, hv i j _ _ (hx "P" (by simp)) (by rw [un_entry, hx "RHO" (by simp)]; rfl)]
      simp [formula]
  · have hne : needs "U" = ["U-X", "U-Y", "U-Z"] := by decide +kernel
    rw [hne] at hd hsh ⊢
    obtain ⟨v, e, s, hv⟩ := bin_same N.add (un_shape (fun a => N.pow a (N.lit "2")) (hsh "U-X" (by simp)))
      (un_shape (fun a => N.pow a (N.lit "2")) (hsh "U-Y" (by simp)))
    obtain ⟨w, e2, s2, hw⟩ := bin_same N.add s (un_shape (fun a => N.pow a (N.lit "2")) (hsh "U-Z" (by simp)))
    refine ⟨Val.un N.sqrt w, ?_, un_shape _ s2, ?_⟩
    · rw [computeVarname, if_pos rfl]
      simp only [computeU, Dict.getE_eq_ok.2 (hd "U-X" (by simp)), Dict.getE_eq_ok.2 (hd "U-Y" (by simp)),
        Dict.getE_eq_ok.2 (hd "U-Z" (by simp)), Except_bind_ok, e, e2]
      rfl
    · intro i j x hx
      rw [un_entry, hw i j _ _ (hv i j _ _ (by rw [un_entry, hx "U-X" (by simp)]; rfl)
        (by rw [un_entry, hx "U-Y" (by simp)]; rfl)) (by rw [un_entry, hx "U-Z" (by simp)]; rfl)]
      simp [formula]
  · have hne : needs "Mach" = ["U", "Asound"] := by decide +kernel
    rw [hne] at hd hsh ⊢
    obtain ⟨v, e, s, hv⟩ := bin_same N.div (hsh "U" (by simp)) (hsh "Asound" (by simp))
    refine ⟨v, ?_, s, ?_⟩
    · rw [computeVarname, if_neg (by decide), if_pos rfl]
      simp only [computeMach, Dict.getE_eq_ok.2 (hd "U" (by simp)), Dict.getE_eq_ok.2 (hd "Asound" (by simp)), Except_bind_ok, e]
      rfl
    · intro i j x hx
      rw [hv i j _ _ (hx "U" (by simp)) (hx "Asound" (by simp))]
      simp [formula]
  · have hne : needs "INVX+" = ["U-X", "Asound"] := by decide +kernel
    rw [hne] at hd hsh ⊢
    obtain ⟨v, e, s, hv⟩ := bin_same N.add (un_shape (N.mul (N.lit "5")) (hsh "Asound" (by simp))) (hsh "U-X" (by simp))
    refine ⟨v, ?_, s, ?_⟩
    · rw [computeVarname, if_neg (by decide), if_neg (by decide), if_neg (by decide), if_pos rfl]
      simp only [computeInvxp, Dict.getE_eq_ok.2 (hd "U-X" (by simp)), Dict.getE_eq_ok.2 (hd "Asound" (by simp)), Except_bind_ok, e]
      rfl
    · intro i j x hx
      rw [hv i j _ _ (by rw [un_entry, hx "Asound" (by simp)]; rfl) (hx "U-X" (by simp))]
      simp [formula]
  · have hne : needs "INVX-" = ["U-X", "Asound"] := by decide +kernel
    rw [hne] at hd hsh ⊢
    obtain ⟨v, e, s, hv⟩ := bin_same N.sub (un_shape (N.mul (N.lit "5")) (hsh "Asound" (by simp))) (hsh "U-X" (by simp))
    refine ⟨v, ?_, s, ?_⟩
    · rw [computeVarname, if_neg (by decide), if_neg (by decide), if_neg (by decide), if_neg (by decide), if_pos rfl]
      simp only [computeInvxm, Dict.getE_eq_ok.2 (hd "U-X" (by simp)), Dict.getE_eq_ok.2 (hd "Asound" (by simp)), Except_bind_ok, e]
      rfl
    · intro i j x hx
      rw [hv i j _ _ (by rw [un_entry, hx "Asound" (by simp)]; rfl) (hx "U-X" (by simp))]
      simp [formula]

/-! ## Values -/

theorem available_of_value {N : PhyNum F} {loaded : Data F} {file : String → Option (Raw F)} {var : String} {v : Val F}
    (h : HasValue N loaded file var v) : Available loaded file var := by
  induction h with
  | loaded var v h => exact .loaded var v h
  | file var r v _ h _ => exact .file var r h
  | computed var v sh val _ _ hn _ _ _ _ ih => exact .computed var hn ih

theorem shape_of_value {N : PhyNum F} {loaded : Data F} {file : String → Option (Raw F)} {sh : Shape}
    (hc : Consistent N loaded file sh) {var : String} {v : Val F} (h : HasValue N loaded file var v) :
    v.stats = .ok () ∧ (¬ isCoordinate var → var ≠ "time" → HasShape sh v) := by
  have hnt : ∀ var, ∀ d ∈ needs var, ¬ isCoordinate d ∧ d ≠ "time" := by
    intro var d hd
    have hne : needs var ≠ [] := by intro e; rw [e] at hd; cases hd
    rcases needs_cases hne with rfl | rfl | rfl | rfl | rfl | rfl <;> revert d <;> decide +kernel
  have key : ∀ {s s' : Shape} {w : Val F}, s.NonEmpty → HasShape s w → HasShape s' w → HasShape s' = (HasShape s : Val F → Prop) := by
    intro s s' w hne h h'
    cases s <;> cases s' <;> cases w <;> simp only [HasShape] at h h'
    · rw [← h, ← h']
    · rename_i m n m' n' rows
      obtain ⟨h1, h2⟩ := h
      obtain ⟨h3, h4⟩ := h'
      cases rows with
      | nil => simp only [Shape.NonEmpty] at hne; simp at h1; omega
      | cons r t =>
        have e1 := h2 r (by simp)
        have e2 := h4 r (by simp)
        rw [← h1, ← h3, ← e1, ← e2]
  induction h with
  | loaded var v h => exact hc.loaded var v h
  | file var r v _ h1 h2 =>
    obtain ⟨w, e, hs, hw⟩ := hc.files var r h1
    rw [e] at h2
    obtain rfl := Option.some.inj h2
    exact ⟨hs, fun h _ => hw h⟩
  | computed var v sh' val _ _ hn _ hsv hsd _ ih =>
    obtain ⟨d, hd⟩ := List.exists_mem_of_ne_nil _ hn
    have := (ih d hd).2 (hnt var d hd).1 (hnt var d hd).2
    have e := key hc.nonempty this (hsd d hd)
    rw [e] at hsv
    exact ⟨stats_ok hc.nonempty hsv, fun _ _ => hsv⟩

/-- Arrays of the same shape have values at the same points. -/
theorem entry_same {sh : Shape} {a b : Val F} (ha : HasShape sh a) (hb : HasShape sh b) {i j : Nat} {y : F}
    (h : entry b i j = some y) : ∃ x, entry a i j = some x := by
  cases sh with
  | vec n =>
    cases a with
    | mat _ => exact absurd ha id
    | vec a =>
    cases b with
    | mat _ => exact absurd hb id
    | vec b =>
      simp only [HasShape, entry] at *
      split at h
      · rename_i hi
        rw [if_pos hi]
        obtain ⟨hj, -⟩ := List.getElem?_eq_some_iff.1 h
        exact ⟨a[j], List.getElem?_eq_getElem (by omega)⟩
      · cases h
  | mat m n =>
    cases a with
    | vec _ => exact absurd ha id
    | mat a =>
    cases b with
    | vec _ => exact absurd hb id
    | mat b =>
      obtain ⟨ha1, ha2⟩ := ha
      obtain ⟨hb1, hb2⟩ := hb
      simp only [entry] at *
      cases hbi : b[i]? with
      | none => simp [hbi] at h
      | some r =>
        simp only [hbi, Option.bind_some] at h
        obtain ⟨hj, -⟩ := List.getElem?_eq_some_iff.1 h
        obtain ⟨hi, -⟩ := List.getElem?_eq_some_iff.1 hbi
        have hr := hb2 r (List.mem_of_getElem? hbi)
        have hai : i < a.length := by omega
        have har := ha2 a[i] (List.getElem_mem _)
        rw [List.getElem?_eq_getElem hai, Option.bind_some]
        exact ⟨a[i][j]'(by omega), List.getElem?_eq_getElem _⟩

/-- Arrays of the same shape with the same values are equal. -/
theorem val_ext {sh : Shape} {a b : Val F} (ha : HasShape sh a) (hb : HasShape sh b)
    (h : ∀ i j x y, entry a i j = some x → entry b i j = some y → x = y) : a = b := by
  cases sh with
  | vec n =>
    cases a with
    | mat _ => exact absurd ha id
    | vec a =>
    cases b with
    | mat _ => exact absurd hb id
    | vec b =>
      simp only [HasShape] at ha hb
      congr 1
      apply List.ext_getElem (by omega)
      intro j h1 h2
      exact h 0 j _ _ (by simp [entry]) (by simp [entry])
  | mat m n =>
    cases a with
    | vec _ => exact absurd ha id
    | mat a =>
    cases b with
    | vec _ => exact absurd hb id
    | mat b =>
      obtain ⟨ha1, ha2⟩ := ha
      obtain ⟨hb1, hb2⟩ := hb
      congr 1
      apply List.ext_getElem (by omega)
      intro i h1 h2
      apply List.ext_getElem (by rw [ha2 _ (List.getElem_mem _), hb2 _ (List.getElem_mem _)])
      intro j h3 h4
      exact h i j _ _ (by simp [entry, h1, h3]) (by simp [entry, h2, h4])

theorem needs_plain {var d : String} (hd : d ∈ needs var) : ¬ isCoordinate d ∧ d ≠ "time" := by
  have hne : needs var ≠ [] := by intro e; rw [e] at hd; cases hd
  rcases needs_cases hne with rfl | rfl | rfl | rfl | rfl | rfl <;> revert d <;> decide +kernel

theorem needs_self {var : String} (h : needs var ≠ []) : ¬ isCoordinate var ∧ var ≠ "time" := by
  rcases needs_cases h with rfl | rfl | rfl | rfl | rfl | rfl <;> decide +kernel

/-- The value of a variable is unique. -/
theorem value_unique {N : PhyNum F} {loaded : Data F} {file : String → Option (Raw F)} {sh : Shape}
    (hc : Consistent N loaded file sh) {var : String} {v : Val F} (h : HasValue N loaded file var v) :
    ∀ w, HasValue N loaded file var w → v = w := by
  induction h with
  | loaded var v h =>
    intro w hw
    cases hw with
    | loaded _ _ h' => rw [h] at h'; exact Option.some.inj h'
    | file _ _ _ h' _ _ => rw [h] at h'; cases h'
    | computed _ _ _ _ h' _ _ _ _ _ _ => rw [h] at h'; cases h'
  | file var r v h1 h2 h3 =>
    intro w hw
    cases hw with
    | loaded _ _ h' => rw [h1] at h'; cases h'
    | file _ r' _ _ g2 g3 =>
      rw [h2] at g2
      obtain rfl := Option.some.inj g2
      rw [h3] at g3
      exact Option.some.inj g3
    | computed _ _ _ _ _ h' _ _ _ _ _ => rw [h2] at h'; cases h'
  | computed var v sh1 val h1 h2 hn hd hsv hsd hf ih =>
    intro w hw
    have hv : HasValue N loaded file var v := .computed var v sh1 val h1 h2 hn hd hsv hsd hf
    have hvs := (shape_of_value hc hv).2 (needs_self hn).1 (needs_self hn).2
    have hws := (shape_of_value hc hw).2 (needs_self hn).1 (needs_self hn).2
    cases hw with
    | loaded _ _ h' => rw [h1] at h'; cases h'
    | file _ _ _ _ h' _ => rw [h2] at h'; cases h'
    | computed _ _ sh2 val2 _ _ _ gd gsv gsd gf =>
      have hsame : ∀ d ∈ needs var, val d = val2 d := fun d hdm => ih d hdm _ (gd d hdm)
      apply val_ext hvs hws
      intro i j x y hx hy
      have hx' := hf i j (fun d => (entry (val d) i j).getD x) (fun d hdm => by
        have := (shape_of_value hc (hd d hdm)).2 (needs_plain hdm).1 (needs_plain hdm).2
        obtain ⟨z, hz⟩ := entry_same this hvs hx
        rw [hz]; rfl)
      have hy' := gf i j (fun d => (entry (val d) i j).getD x) (fun d hdm => by
        have := (shape_of_value hc (hd d hdm)).2 (needs_plain hdm).1 (needs_plain hdm).2
        obtain ⟨z, hz⟩ := entry_same this hvs hx
        rw [← hsame d hdm, hz]; rfl)
      rw [hx] at hx'
      rw [hy] at hy'
      rw [Option.some.inj hx', Option.some.inj hy']

end Cfd.Probes
