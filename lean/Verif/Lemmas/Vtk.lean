import Verif.Spec.Vtk
import Verif.Lemmas.Csr
import Verif.Lemmas.Mesh
import Verif.Lemmas.Ic3Again

/-!
# Lemmas on VTK grids
-/

namespace Cfd.Vtk
open Cfd.Spec.Vtk ElemConn

variable {P : Type}

theorem pySlice_nonneg {α : Type} (l : List α) (a b : Int) (ha : 0 ≤ a) (hb : 0 ≤ b) :
    pySlice l (some a) (some b) = (l.take b.toNat).drop a.toNat := by
  unfold pySlice sliceBounds
  simp only
  rw [if_neg (by omega), if_neg (by omega)]
  have h1 : l.take (min b.toNat l.length) = l.take b.toNat := by
    rw [List.take_eq_take_iff]; omega
  rw [h1]
  by_cases h : a.toNat ≤ l.length
  · rw [Nat.min_eq_left h]
  · rw [Nat.min_eq_right (by omega), List.drop_of_length_le (by rw [List.length_take]; omega),
      List.drop_of_length_le (by rw [List.length_take]; omega)]

/-- The array VTK shows for a list of cells. -/
def legacy (l : List (List Int)) : List Int := l.flatMap fun c => (c.length : Int) :: c

theorem cells_eq (g : Grid P) : g.cells = legacy (g.items.map (·.2)) := by
  simp [Grid.cells, legacy, List.flatMap_map]

theorem legacy_append (a b : List (List Int)) : legacy (a ++ b) = legacy a ++ legacy b := by
  simp [legacy]

theorem length_legacy (l : List (List Int)) : (legacy l).length = (l.map List.length).sum + l.length := by
  induction l with
  | nil => rfl
  | cons c t ih =>
    have : legacy (c :: t) = ((c.length : Int) :: c) ++ legacy t := rfl
    rw [this, List.length_append, ih]; simp; omega

theorem sum_cast (l : List (List Int)) : (l.map fun c => (c.length : Int)).sum = ((l.map List.length).sum : Nat) := by
  induction l with
  | nil => rfl
  | cons c t ih => simp [ih]

theorem parseCells_legacy (l : List (List Int)) : parseCells (legacy l) = .ok l := by
  induction l with
  | nil => simp [legacy, parseCells]
  | cons c t ih =>
    have : legacy (c :: t) = (c.length : Int) :: (c ++ legacy t) := rfl
    rw [this, parseCells, if_neg (by simp)]
    simp only [Int.toNat_natCast, List.drop_left, List.take_left, ih, Except_bind_ok]
    rfl

theorem offset_at (g : Grid P) (k : Nat) (h : k ≤ g.items.length) :
    npGet g.offset (k : Int) = .ok ((((g.items.take k).map (·.2)).map List.length).sum : Nat) := by
  rw [npGet_nat, Grid.offset, offsets_getElem? _ _ _ (by simpa using h), ← sum_cast, ← List.map_take]
  simp [List.map_map, Function.comp_def]

/-- Number of values shown before cell `k`. -/
theorem cellPoints_ok (g : Grid P) (k : Nat) (c : Int × List Int) (h : g.items[k]? = some c) :
    cellPoints g (k : Int) = .ok c.2 ∧ cellSize g (k : Int) = .ok ((c.2.length : Int) % 256) := by
  obtain ⟨hk, hc⟩ := List.getElem?_eq_some_iff.1 h
  have e0 := offset_at g k (by omega)
  have e1 := offset_at g (k + 1) (by omega)
  have hsplit : g.items = g.items.take k ++ c :: g.items.drop (k + 1) := by
    rw [← hc, ← List.drop_eq_getElem_cons hk, List.take_append_drop]
  have hA : (legacy ((g.items.take k).map (·.2))).length =
      (((g.items.take k).map (·.2)).map List.length).sum + k := by
    rw [length_legacy]; simp; omega
  have hcells : g.cells = legacy ((g.items.take k).map (·.2)) ++
      ((c.2.length : Int) :: (c.2 ++ legacy ((g.items.drop (k + 1)).map (·.2)))) := by
    rw [cells_eq]
    conv_lhs => rw [hsplit]
    rw [List.map_append, legacy_append]; rfl
  have hs : (((g.items.take (k + 1)).map (·.2)).map List.length).sum =
      (((g.items.take k).map (·.2)).map List.length).sum + c.2.length := by
    rw [List.take_add_one, h]; simp
  rw [hs] at e1
  generalize (((g.items.take k).map (·.2)).map List.length).sum = s at *
  generalize legacy ((g.items.take k).map (·.2)) = A at *
  constructor
  · unfold cellPoints
    rw [e0, show ((k : Int) + 1) = ((k + 1 : Nat) : Int) by omega, e1]
    simp only [Except_bind_ok, Except_pure, Except.ok.injEq]
    rw [pySlice_nonneg _ _ _ (by omega) (by omega), hcells,
      show (((s + c.2.length : Nat) : Int) + k + 1).toNat = A.length + (1 + c.2.length) by omega,
      show ((s : Int) + k + 1).toNat = A.length + 1 by omega,
      List.take_length_add_append, List.drop_length_add_append, Nat.add_comm 1]
    simp
  · unfold cellSize
    rw [e0]
    simp only [Except_bind_ok]
    rw [show npGet g.cells ((s : Int) + k) = .ok (c.2.length : Int) by
      rw [show ((s : Int) + k) = ((s + k : Nat) : Int) by omega, npGet_nat, hcells, ← hA]
      simp]
    rfl

/-! ### Renumbering of the points -/

theorem pointIdMap_get? (used : List Int) (h : used.Nodup) (q : Int) (hq : q ∈ used) :
    (pointIdMap used).get? q = some (used.idxOf q : Int) := by
  have key : ∀ (l : List Int) (s : Nat) (d : Dict Int Int), l.Nodup →
      ((l.zipIdx s).foldl (fun (d : Dict Int Int) p => d.set p.1 (p.2 : Int)) d).get? q =
        if q ∈ l then some ((s + l.idxOf q : Nat) : Int) else d.get? q := by
    intro l
    induction l with
    | nil => intro s d _; simp
    | cons a t ih =>
      intro s d hnd
      rw [List.nodup_cons] at hnd
      rw [List.zipIdx_cons, List.foldl_cons, ih _ _ hnd.2]
      by_cases hqt : q ∈ t
      · have hne : a ≠ q := fun e => hnd.1 (e ▸ hqt)
        rw [if_pos hqt, if_pos (List.mem_cons_of_mem _ hqt), List.idxOf_cons_ne _ hne]
        congr 1; omega
      · rw [if_neg hqt]
        by_cases e : a = q
        · subst e
          rw [if_pos (by simp), Dict.get?_set_self]; simp
        · rw [if_neg (by simp [hqt, Ne.symm e]), Dict.get?_set_ne _ _ (Ne.symm e)]
  have := key used 0 [] h
  rw [if_pos hq] at this
  simpa [pointIdMap] using this

/-! ### Filling the array of cells -/

theorem setSlice_mid {α : Type} (a b v old : List α) (lo hi : Int) (hl : lo = a.length) (hh : hi = lo + v.length)
    (ho : old.length = v.length) : setSlice (a ++ old ++ b) lo hi v = .ok (a ++ v ++ b) := by
  unfold setSlice sliceBounds
  simp only
  rw [if_neg (by omega), if_neg (by omega)]
  have e1 : min lo.toNat (a ++ old ++ b).length = a.length := by simp; omega
  have e2 : min hi.toNat (a ++ old ++ b).length = a.length + v.length := by simp; omega
  rw [e1, e2]
  have e3 : a.length + v.length - a.length = v.length := by omega
  rw [e3]
  have t1 : (a ++ old ++ b).take a.length = a := by simp [List.append_assoc]
  have t2 : (a ++ old ++ b).drop (a.length + v.length) = b := by
    rw [← ho, ← List.length_append, List.drop_left]
  split
  · simp only [List.length_singleton] at *
    rw [t1, t2]; rfl
  · rw [if_pos rfl, t1, t2]

theorem fill_ok (parts : List (List Int)) : ∀ (done rest vd : List Int) (vtex : List Int),
    rest.length = (parts.map List.length).sum + parts.length → vtex = vd ++ parts.flatten →
    (parts.map fun c => (c.length : Int)).foldlM (fillStep vtex) (done ++ rest, (done.length : Int), (vd.length : Int)) =
      .ok (done ++ legacy parts, ((done ++ legacy parts).length : Int), (vtex.length : Int)) := by
  induction parts with
  | nil =>
    intro done rest vd vtex hr hv
    have hv' : vtex = vd := by simpa using hv
    have : rest = [] := by simpa using hr
    subst this; subst hv'
    simp [legacy, pure, Except.pure]
  | cons c t ih =>
    intro done rest vd vtex hr hv
    simp only [List.map_cons, List.sum_cons, List.length_cons] at hr
    obtain ⟨x, rest', rfl⟩ : ∃ x r, rest = x :: r := by
      cases rest with
      | nil => simp at hr
      | cons x r => exact ⟨x, r, rfl⟩
    simp only [List.length_cons] at hr
    rw [List.map_cons, List.foldlM_cons]
    have hstep : fillStep vtex (done ++ x :: rest', (done.length : Int), (vd.length : Int)) (c.length : Int) =
        .ok ((done ++ (c.length : Int) :: c) ++ rest'.drop c.length,
          ((done ++ (c.length : Int) :: c).length : Int), ((vd ++ c).length : Int)) := by
      unfold fillStep
      simp only
      rw [npSet_ok _ (by omega) (by simp; omega)]
      simp only [Except_bind_ok]
      have e1 : (done ++ x :: rest').set ((done.length : Int)).toNat (c.length : Int) =
          (done ++ [(c.length : Int)]) ++ rest'.take c.length ++ rest'.drop c.length := by
        rw [Int.toNat_natCast, List.append_assoc, List.take_append_drop]
        simp [List.set_append]
      have e2 : pySlice vtex (some (vd.length : Int)) (some ((vd.length : Int) + c.length)) = c := by
        rw [pySlice_nonneg _ _ _ (by omega) (by omega), hv,
          show ((vd.length : Int) + c.length).toNat = vd.length + c.length by omega, Int.toNat_natCast,
          List.take_length_add_append, List.drop_left]
        simp [List.flatten_cons]
      rw [e1, e2, setSlice_mid _ _ _ _ _ _ (by simp) rfl (by rw [List.length_take]; omega)]
      simp only [Except_bind_ok, Except_pure, Except.ok.injEq, Prod.mk.injEq]
      refine ⟨by simp, by simp; omega, by simp⟩
    rw [hstep]
    simp only [Except_bind_ok]
    rw [ih _ _ _ _ (by rw [List.length_drop]; omega) (by rw [hv]; simp)]
    have : legacy (c :: t) = ((c.length : Int) :: c) ++ legacy t := rfl
    rw [this, ← List.append_assoc]

theorem ofLegacy_ok (types : List Int) (parts : List (List Int)) (pts : List P) (h : parts.length = types.length) :
    Grid.ofLegacy (legacy parts) types pts = .ok ⟨types.zip parts, pts⟩ := by
  unfold Grid.ofLegacy
  rw [parseCells_legacy]
  simp only [Except_bind_ok]
  rw [if_pos h]; rfl

/-- The result of the extraction, for selected cells `cs`. -/
theorem extract_ok (so : List Int → List Int) (junk : Nat → Int) (g : Grid P) (ids : List Int)
    (cs : List (Int × List Int)) (hso : ∀ l, (so l).Perm l) (hg : GridWF g)
    (hsel : List.Forall₂ (fun id c => 0 ≤ id ∧ g.items[id.toNat]? = some c) ids cs) (hne : ids ≠ [])
    (hsz : ∀ c ∈ cs, c.2.length < 255) (pts : List P)
    (hpts : List.Forall₂ (fun q p => pointAt g q = some p) (setList so (cs.flatMap (·.2))) pts) :
    extractCells so junk g ids =
      .ok ⟨cs.map fun c => (c.1, c.2.map fun q => ((setList so (cs.flatMap (·.2))).idxOf q : Int)), pts⟩ := by
  unfold extractCells
  have hmem : ∀ c ∈ cs, c ∈ g.items := by
    intro c hc
    obtain ⟨i, hi, rfl⟩ := List.mem_iff_getElem.1 hc
    have := (List.forall₂_iff_get.1 hsel).2 i (by rw [hsel.length_eq]; exact hi) hi
    exact List.mem_of_getElem? this.2
  have h1 : ids.mapM (npGet g.celltypes) = .ok (cs.map (·.1)) := by
    rw [mapM_ok_iff, List.forall₂_map_right_iff]
    refine hsel.imp fun id c h => ?_
    rw [npGet_nonneg h.1, Grid.celltypes, List.getElem?_map, h.2]; rfl
  have h2 : ids.mapM (cellPoints g) = .ok (cs.map (·.2)) := by
    rw [mapM_ok_iff, List.forall₂_map_right_iff]
    refine hsel.imp fun id c h => ?_
    have := (cellPoints_ok g id.toNat c h.2).1
    rwa [Int.toNat_of_nonneg h.1] at this
  have h3 : ids.mapM (cellSize g) = .ok (cs.map fun c => (c.2.length : Int) % 256) := by
    rw [mapM_ok_iff, List.forall₂_map_right_iff]
    refine hsel.imp fun id c h => ?_
    have := (cellPoints_ok g id.toNat c h.2).2
    rwa [Int.toNat_of_nonneg h.1] at this
  have hcs : cs ≠ [] := by
    intro e; subst e
    have := hsel.length_eq
    simp at this; exact hne this
  rw [h1, h2, h3]
  simp only [Except_bind_ok]
  rw [if_neg (by simpa using hcs)]
  have hflat : (cs.map (·.2)).flatten = cs.flatMap (·.2) := by rw [List.flatMap_def]
  rw [hflat]
  generalize hu : setList so (cs.flatMap (·.2)) = used at hpts ⊢
  have hnd : used.Nodup := by rw [← hu]; exact (hso _).nodup_iff.2 (List.nodup_dedup _)
  have hin : ∀ q ∈ cs.flatMap (·.2), q ∈ used := by
    intro q hq; rw [← hu]; exact (hso _).mem_iff.2 (List.mem_dedup.2 hq)
  have h4 : (cs.flatMap (·.2)).mapM (pointIdMap used).getE =
      .ok ((cs.flatMap (·.2)).map fun q => (used.idxOf q : Int)) := by
    apply mapM_ok_of_forall
    intro q hq
    rw [Dict.getE_eq_ok]
    exact pointIdMap_get? used hnd q (hin q hq)
  rw [h4]
  simp only [Except_bind_ok]
  have hsz' : (cs.map fun c => (c.2.length : Int) % 256) =
      ((cs.map fun c => c.2.map fun q => (used.idxOf q : Int)).map fun c => (c.length : Int)) := by
    rw [List.map_map]
    apply List.map_congr_left
    intro c hc
    have := hsz c hc
    simp only [Function.comp_apply, List.length_map]
    omega
  have hvt : (cs.flatMap (·.2)).map (fun q => (used.idxOf q : Int)) =
      (cs.map fun c => c.2.map fun q => (used.idxOf q : Int)).flatten := by
    rw [List.map_flatMap, List.flatMap_def]
  rw [hsz', hvt]
  generalize hpn : (cs.map fun c => c.2.map fun q => (used.idxOf q : Int)) = parts
  have hlen : parts.length = cs.length := by rw [← hpn]; simp
  have := fill_ok parts [] ((List.range (parts.flatten.length + (cs.map (·.1)).length)).map junk) [] parts.flatten
    (by simp [List.length_flatten, hlen]) (by simp)
  simp only [List.nil_append, List.length_nil] at this
  rw [show ((0 : Nat) : Int) = 0 from rfl] at this
  rw [this]
  simp only [Except_bind_ok]
  have h5 : npGather g.points used = .ok pts := by
    unfold npGather
    rw [mapM_ok_iff]
    refine hpts.imp fun q p h => ?_
    unfold pointAt at h
    split at h
    · rename_i h0; rw [npGet_nonneg h0]; exact h
    · simp at h
  rw [h5]
  simp only [Except_bind_ok]
  rw [ofLegacy_ok _ _ _ (by simp [hlen])]
  congr 2
  rw [← hpn, List.map_map, List.zip_map', ]
  apply List.map_congr_left
  intro c hc
  have := (hg c (hmem c hc)).1
  simp only [Function.comp_apply, Prod.mk.injEq, and_true]
  omega

end Cfd.Vtk
