import Verif.Spec.VtkPack
import Verif.Lemmas.VtkList
import Mathlib.Algebra.Order.Group.Int
import Verif.Lemmas.Xdmf
import Verif.Lemmas.Files

/-!
# Lemmas on packed series
-/

namespace Cfd.VtkPack
open Cfd.Vtk Cfd.Xdmf Cfd.Spec Cfd.Spec.Vtk Cfd.Spec.VtkPack

/-! ## Cells sorted by type -/

section Sorted
variable {α κ : Type} [LinearOrder κ]

/-- The elements of each key, key after key. -/
def grouped (key : α → κ) (L : List κ) (l : List α) : List α := L.flatMap fun k => l.filter fun a => key a = k

theorem grouped_cons (key : α → κ) (L : List κ) (hL : L.Pairwise (· < ·)) (x : α) (xs : List α) (hx : key x ∈ L)
    (hle : ∀ y ∈ xs, key x ≤ key y) : grouped key L (x :: xs) = x :: grouped key L xs := by
  unfold grouped
  induction L with
  | nil => cases hx
  | cons k L ih =>
    rw [List.pairwise_cons] at hL
    rw [List.flatMap_cons, List.flatMap_cons]
    rcases lt_trichotomy k (key x) with h | h | h
    · have h1 : (x :: xs).filter (fun a => decide (key a = k)) = [] := by
        rw [List.filter_eq_nil_iff]
        intro a ha
        rcases List.mem_cons.1 ha with rfl | ha
        · simpa using h.ne'
        · simpa using (lt_of_lt_of_le h (hle a ha)).ne'
      have h2 : xs.filter (fun a => decide (key a = k)) = [] := by
        rw [List.filter_eq_nil_iff] at h1 ⊢
        exact fun a ha => h1 a (List.mem_cons_of_mem _ ha)
      rw [h1, h2]
      have hx' : key x ∈ L := by
        rcases List.mem_cons.1 hx with e | e
        · exact absurd e.symm h.ne
        · exact e
      simpa using ih hL.2 hx'
    · subst h
      have h1 : (x :: xs).filter (fun a => decide (key a = key x)) = x :: xs.filter (fun a => decide (key a = key x)) := by
        simp
      have h2 : (L.flatMap fun k => (x :: xs).filter fun a => decide (key a = k)) =
          L.flatMap fun k => xs.filter fun a => decide (key a = k) := by
        refine List.flatMap_congr fun k hk => ?_
        rw [List.filter_cons_of_neg]
        simpa using (hL.1 k hk).ne
      rw [h1, h2]
      rfl
    · exfalso
      rcases List.mem_cons.1 hx with e | e
      · exact absurd e h.ne
      · exact absurd (hL.1 _ e) (not_lt_of_gt h)

/-- Grouping changes nothing exactly when the keys are already in order. -/
theorem grouped_eq (key : α → κ) (L : List κ) (hL : L.Pairwise (· < ·)) (l : List α) (hl : ∀ a ∈ l, key a ∈ L) :
    grouped key L l = l ↔ l.Pairwise fun a b => key a ≤ key b := by
  constructor
  · intro h
    rw [← h]
    unfold grouped
    rw [List.pairwise_flatMap]
    refine ⟨fun k _ => ?_, hL.imp ?_⟩
    · rw [List.pairwise_iff_forall_sublist]
      intro a b hab
      have ha := hab.subset (List.mem_cons_self ..)
      have hb := hab.subset (List.mem_cons_of_mem _ (List.mem_cons_self ..))
      simp only [List.mem_filter, decide_eq_true_eq] at ha hb
      rw [ha.2, hb.2]
    · intro k k' hk a ha b hb
      simp only [List.mem_filter, decide_eq_true_eq] at ha hb
      rw [ha.2, hb.2]
      exact hk.le
  · intro h
    induction l with
    | nil => simp [grouped]
    | cons x xs ih =>
      rw [List.pairwise_cons] at h
      rw [grouped_cons key L hL x xs (hl x (by simp)) h.1, ih (fun a ha => hl a (List.mem_cons_of_mem _ ha)) h.2]

end Sorted

theorem npUnique_sorted (l : List Int) : (ElemConn.npUnique l).Pairwise (· < ·) := by
  have h1 : (ElemConn.npUnique l).Pairwise (· ≤ ·) := by
    unfold ElemConn.npUnique sortInts
    exact (List.pairwise_insertionSort (α := Int) (· ≤ ·) l).sublist (List.dedup_sublist _)
  exact (h1.and (nodup_npUnique l)).imp fun ⟨h, h'⟩ => lt_of_le_of_ne h h'

/-! ## The mesh of a grid -/

/-- The elements of a connectivity, type after type. -/
theorem elements_rows (c : ElemConn) (hc : ConnWF c) :
    (elements c).map (fun e => (codeOf e.1, e.2.2)) =
      c.tbl.keys.flatMap fun t => (rowsOfType c t).map fun r => (codeOf t, r) := by
  unfold elements Dict.keys
  rw [List.map_flatMap, List.flatMap_map]
  refine List.flatMap_congr fun p hp => ?_
  have hg : c.tbl.get? p.1 = some p.2 := Dict.get?_of_mem hc.keys hp
  unfold rowsOfType elementsOf
  rw [hg]
  simp only [List.map_map]
  rfl

/-- The cells of the mesh in order of their numbers: those of the grid, type after type. -/
theorem exportMesh_elements {R : Type} {g : Grid (R × R × R)} (hg : KnownCells g) :
    ∃ m c, exportMesh g = .ok m ∧ m.cell2node = some c ∧ allIndices c = pyRange 0 g.items.length ∧
      (∀ t ∈ c.tbl.keys, ∃ y ∈ vtkTypes, y.1 = t) ∧
      (elements c).map (fun e => (codeOf e.1, e.2.2)) = grouped (·.1) (uniqueTypes g) g.items := by
  obtain ⟨m, c, e, hc, w, s, k, al, -, -, -, -, ke⟩ := exportMesh_ok hg
  refine ⟨m, c, e, hc, al, k, ?_⟩
  rw [elements_rows c w, ke]
  have e1 : ((cellsDict g).map fun p => nameOf p.1) = (uniqueTypes g).map nameOf := by
    rw [← cellsDict_keys]; simp [Dict.keys]
  rw [e1, List.flatMap_map]
  unfold grouped
  refine List.flatMap_congr fun t ht => ?_
  have ht' := ht
  unfold uniqueTypes at ht'
  rw [mem_npUnique] at ht'
  obtain ⟨cell, hcell, rfl⟩ := List.mem_map.1 ht'
  obtain ⟨⟨y, hy, ey, -⟩, -⟩ := hg cell hcell
  rw [ey, nameOf_code hy, codeOf_name hy, ← s.1 y hy]
  unfold cellsOfType
  rw [List.map_map]
  refine Eq.trans (List.map_congr_left ?_) (List.map_id _)
  intro a ha
  simp only [List.mem_filter, decide_eq_true_eq] at ha
  simp [← ha.2]

/-! ## Times -/

section
variable {R V T : Type}

theorem mkGroup_times {f f' : H5 R V T} {p : String} (h : f.mkGroup p = .ok f') : f'.times = f.times := by
  unfold H5.mkGroup at h
  split at h
  · cases h
  · cases h; rfl

theorem mkSet_times {f f' : H5 R V T} {p : String} {x : Xdmf.Item R V} (h : f.mkSet p x = .ok f') : f'.times = f.times := by
  unfold H5.mkSet at h
  split at h
  · cases h
  · cases h; rfl

theorem mkSets_times {α : Type} (l : List α) (pth : α → String) (it : α → Xdmf.Item R V) {f f' : H5 R V T}
    (h : l.foldlM (fun f a => f.mkSet (pth a) (it a)) f = .ok f') : f'.times = f.times := by
  induction l generalizing f with
  | nil => cases h; rfl
  | cons a t ih =>
    rw [List.foldlM_cons] at h
    obtain ⟨f1, h1, h2⟩ := bind_eq_ok.1 h
    rw [ih h2, mkSet_times h1]

/-- The time of a step. -/
def stepTimes (p : (Dict String V × Option T) × Nat) : List (String × T) := p.1.2.toList.map fun t => (gpath p.2, t)

theorem dumpStep_times {f f' : H5 R V T} {p : (Dict String V × Option T) × Nat} (h : dumpStep f p = .ok f') :
    f'.times = f.times ++ stepTimes p := by
  unfold dumpStep at h
  obtain ⟨f1, h1, h2⟩ := bind_eq_ok.1 h
  rw [mkSets_times _ _ _ h2]
  have := mkGroup_times h1
  unfold H5.setTime stepTimes
  cases p.1.2 <;> simp [this, gpath]

theorem dumpSteps_times (l : List ((Dict String V × Option T) × Nat)) {f f' : H5 R V T} (h : l.foldlM dumpStep f = .ok f') :
    f'.times = f.times ++ l.flatMap stepTimes := by
  induction l generalizing f with
  | nil => cases h; simp
  | cons a t ih =>
    rw [List.foldlM_cons] at h
    obtain ⟨f1, h1, h2⟩ := bind_eq_ok.1 h
    rw [ih h2, dumpStep_times h1, List.flatMap_cons, List.append_assoc]

theorem dumpHdf_times {m : Mesh R} {d : DataSetList V T} {h : H5 R V T} (hh : dumpHdf m d = .ok h) :
    h.times = d.steps.zipIdx.flatMap stepTimes := by
  unfold dumpHdf at hh
  obtain ⟨cells, -, hh⟩ := bind_eq_ok.1 hh
  obtain ⟨nodes, -, hh⟩ := bind_eq_ok.1 hh
  obtain ⟨f1, h1, hh⟩ := bind_eq_ok.1 hh
  obtain ⟨f2, h2, hh⟩ := bind_eq_ok.1 hh
  have e1 : f1.times = [] := by
    unfold H5.writeUnsmesh at h1
    obtain ⟨a, ha, h1⟩ := bind_eq_ok.1 h1
    obtain ⟨b, hb, h1⟩ := bind_eq_ok.1 h1
    obtain ⟨c, hc, h1⟩ := bind_eq_ok.1 h1
    rw [mkSets_times _ (fun p : String × Arr2 => "/mesh/cells/" ++ p.1) (fun p => Xdmf.Item.cells p.2) h1, mkGroup_times hc,
      mkSet_times hb, mkGroup_times ha]
  rw [dumpSteps_times _ hh, mkGroup_times h2, e1]
  simp

end

/-! ## Reading the series -/

section
variable {R V T K Loc : Type} [LinearOrder K]

theorem foldlM_set_nodup {K' : Type} {l : List String} {F : String → Py K'} {d r : Dict String K'}
    (h : l.foldlM (fun (r : Dict String K') n => do return r.set n (← F n)) d = .ok r) (hd : d.keys.Nodup) :
    r.keys.Nodup := by
  induction l generalizing d with
  | nil => cases h; exact hd
  | cons n t ih =>
    rw [List.foldlM_cons] at h
    obtain ⟨d1, h1, h2⟩ := bind_eq_ok.1 h
    obtain ⟨v, -, h1⟩ := bind_eq_ok.1 h1
    cases h1
    exact ih h2 (Dict.nodup_keys_set hd _ _)

theorem readFile_nodup {P : Type} {dist : P → P → K} {nn : P → Nat} {tol : K} {ref : List P} {filter : List String}
    {f : File P V T} {r : Dict String (List V)} (h : readFile dist nn tol ref filter f = .ok r) : r.keys.Nodup := by
  unfold readFile at h
  obtain ⟨d, -, h⟩ := bind_eq_ok.1 h
  obtain ⟨d', -, h⟩ := bind_eq_ok.1 h
  split at h
  · obtain ⟨x, -, h⟩ := bind_eq_ok.1 h
    obtain ⟨y, -, h⟩ := bind_eq_ok.1 h
    obtain ⟨z, -, h⟩ := bind_eq_ok.1 h
    split at h
    · cases h
    · refine foldlM_set_nodup (F := fun n => do
        let v ← f.data.getE n
        npGather v x) (l := if filter = [] then f.data.keys else filter) (d := []) ?_ (by simp [Dict.keys])
      rw [← h]
      congr 1
      funext r n
      cases f.data.getE n <;> rfl
  · exact foldlM_set_nodup h (by simp [Dict.keys])

end

section
variable {R V T K Loc : Type} [LinearOrder K] [Zero T] [DecidableEq T] [DecidableEq Loc]

theorem load_ok {env : PackEnv R V T K} {s : Fs Loc} {n : Name} {f : VtkFile R V T} {b : List UInt8}
    (h : s.content (s.resolve (PyPath.parse n).str) = some b) (h' : env.read n b = .ok f) : env.load s n = .ok f := by
  unfold PackEnv.load
  rw [h]
  exact h'

/-- The steps of a series: one per file, with the values in place. -/
theorem readList_ok [Add K] [AddLeftMono K] [AddRightMono K] {env : PackEnv R V T K} {s : Fs Loc} {n0 : Name}
    {names : List Name} {f0 : VtkFile R V T} {files : List (VtkFile R V T)} (hd : IsDist env.dist)
    (hc : Contents env s (n0 :: names) (f0 :: files)) (hne : env.centers f0.grid ≠ [])
    (hnn : IsNearest env.dist (env.centers f0.grid) (env.nn (env.centers f0.grid)))
    (hsep : Separated env.dist env.tol (env.centers f0.grid)) (hf : ∀ f ∈ f0 :: files, SameSeries env f0 f) :
    ∃ d, readList env s (n0 :: names) = .ok (f0.grid, d) ∧
      List.Forall₂ (fun f (st : Dict String (List V) × Option T) => st.2 = f.time ∧ st.1.keys.Nodup ∧
        (∀ name, name ∈ st.1.keys ↔ name ∈ f.data.keys) ∧
        ∀ name v w, f.data.get? name = some v → st.1.get? name = some w → Placed env f0 f v w) (f0 :: files) d.steps := by
  have one : ∀ f, SameSeries env f0 f → ∃ r,
      readFile env.dist (env.nn (env.centers f0.grid)) env.tol (env.centers f0.grid) [] (env.file f) = .ok r ∧ r.keys.Nodup ∧
      (∀ name, name ∈ r.keys ↔ name ∈ f.data.keys) ∧
        ∀ name v w, f.data.get? name = some v → r.get? name = some w → Placed env f0 f v w := by
    intro f hs
    obtain ⟨σ, hσ⟩ := hs.cells
    obtain ⟨r, e, h1, h2⟩ := readFile_ok hd hne hnn hsep [] (env.file f) σ hσ (by
      intro name hname
      have hm : name ∈ f.data.keys := by simpa [keptNames, PackEnv.file] using hname
      obtain ⟨v, hv⟩ : ∃ v, f.data.get? name = some v := by
        cases h : f.data.get? name with
        | none => exact absurd hm (Dict.get?_eq_none_iff.1 h)
        | some v => exact ⟨v, rfl⟩
      exact ⟨v, hv, hs.sizes name v hv⟩)
    refine ⟨r, e, readFile_nodup e, fun name => ?_, fun name v w hv hw => ?_⟩
    · rw [h1]; simp [keptNames, PackEnv.file]
    · obtain ⟨h3, h4⟩ := h2 name v w hv hw
      refine ⟨h3.trans (hs.sizes name v hv).symm, fun k j p r hp hr hdist => ?_⟩
      have hk : k < (env.centers f.grid).length := (List.getElem?_eq_some_iff.1 hp).1
      have hσk := hσ.range k hk
      have hr' : (env.centers f0.grid)[σ k]? = some (env.centers f0.grid)[σ k] := List.getElem?_eq_getElem hσk
      have hnear := hσ.near k p _ hp hr'
      have hj : j = σ k := by
        by_contra hne
        have h5 := hsep j (σ k) _ _ hr hr' hne
        have h6 := hd.triangle r p (env.centers f0.grid)[σ k]
        rw [hd.symm p] at h6
        exact absurd h5 (not_lt_of_ge (h6.trans (add_le_add hdist hnear)))
      rw [hj]
      exact h4 k hk
  have key : ∀ (names : List Name) (files : List (VtkFile R V T)) (d0 : DataSetList (List V) T),
      Contents env s names files → (∀ f ∈ files, SameSeries env f0 f) →
      ∃ d, names.foldlM (fun (d : DataSetList (List V) T) n => do
          let f ← env.load s n
          let l ← readFile env.dist (env.nn (env.centers f0.grid)) env.tol (env.centers f0.grid) [] (env.file f)
          return d.addDatalist l f.time) d0 = .ok d ∧
        ∃ new, d.steps = d0.steps ++ new ∧
          List.Forall₂ (fun f (st : Dict String (List V) × Option T) => st.2 = f.time ∧ st.1.keys.Nodup ∧
            (∀ name, name ∈ st.1.keys ↔ name ∈ f.data.keys) ∧
            ∀ name v w, f.data.get? name = some v → st.1.get? name = some w → Placed env f0 f v w) files new := by
    intro names files d0 hc
    unfold Contents at hc
    induction hc generalizing d0 with
    | nil => intro _; exact ⟨d0, rfl, [], by simp, .nil⟩
    | @cons n f names files h hc ih =>
      intro hf
      obtain ⟨b, hb, hr⟩ := h
      have hs := hf f (by simp)
      obtain ⟨r, e, h1, h2, h3⟩ := one f hs
      obtain ⟨d, e2, new, e3, h4⟩ := ih (d0.addDatalist r f.time) fun f' hf' => hf f' (List.mem_cons_of_mem _ hf')
      refine ⟨d, ?_, (r, f.time) :: new, ?_, .cons ⟨rfl, h1, h2, h3⟩ h4⟩
      · rw [List.foldlM_cons, load_ok hb hr]
        simp only [Except_bind_ok]
        rw [e]
        exact e2
      · rw [e3]
        unfold DataSetList.addDatalist
        cases ht : f.time with
        | none => simp
        | some t =>
          have : t ≠ 0 := fun e => hs.time (by rw [ht, e])
          simp [this]
  have hc' := hc
  unfold Contents at hc'
  obtain ⟨⟨b, hb, hr⟩, -⟩ := List.forall₂_cons.1 hc'
  have ha : DataAttrs.init .dataSetList "cellaverage" 1 "instant" = .ok ⟨.dataSetList, "cellaverage", 1, "instant"⟩ := by
    decide
  obtain ⟨d, e, new, e2, h⟩ := key (n0 :: names) (f0 :: files) ⟨⟨.dataSetList, "cellaverage", 1, "instant"⟩, []⟩ hc hf
  refine ⟨d, ?_, ?_⟩
  · unfold readList
    simp only
    rw [load_ok hb hr]
    simp only [Except_bind_ok]
    rw [ha]
    simp only [Except_bind_ok]
    rw [e]
    rfl
  · rw [e2]
    simpa using h

/-- What a dump writes. -/
theorem packed_of_steps {env : PackEnv R V T K} {f0 : VtkFile R V T} {files : List (VtkFile R V T)}
    {d : DataSetList (List V) T} (hg : KnownCells f0.grid) (hnt : ∀ f ∈ files, "time" ∉ f.data.keys)
    (hs : List.Forall₂ (fun f (st : Dict String (List V) × Option T) => st.2 = f.time ∧ st.1.keys.Nodup ∧
        (∀ name, name ∈ st.1.keys ↔ name ∈ f.data.keys) ∧
        ∀ name v w, f.data.get? name = some v → st.1.get? name = some w → Placed env f0 f v w) files d.steps) :
    ∃ m h, exportMesh f0.grid = .ok m ∧ dumpHdf m d = .ok h ∧ Packed env f0 files h := by
  have hk : ∀ st ∈ d.steps, st.1.keys.Nodup := by
    intro st hst
    obtain ⟨i, hi, rfl⟩ := List.mem_iff_getElem.1 hst
    exact (List.Forall₂.get hs (by rw [hs.length_eq]; exact hi) hi).2.1
  have step : ∀ (i : Nat) (f : VtkFile R V T), files[i]? = some f → ∃ st, d.steps[i]? = some st ∧ st.2 = f.time ∧
      (∀ name, name ∈ st.1.keys ↔ name ∈ f.data.keys) ∧
      ∀ name v w, f.data.get? name = some v → st.1.get? name = some w → Placed env f0 f v w := by
    intro i f hf
    obtain ⟨hi, rfl⟩ := List.getElem?_eq_some_iff.1 hf
    have hi' : i < d.steps.length := by rw [← hs.length_eq]; exact hi
    obtain ⟨h1, -, h2, h3⟩ := List.Forall₂.get hs hi hi'
    exact ⟨_, List.getElem?_eq_getElem hi', h1, h2, h3⟩
  obtain ⟨h, c, e, w, sc, ke, hgr, hse⟩ := seriesHdf_ok (V := List V) (T := T) hg hk
  have hinv := seriesHdf_inv e
  unfold seriesHdf at e
  obtain ⟨m, hm, e⟩ := bind_eq_ok.1 e
  have htm := dumpHdf_times e
  have hgp : ∀ i, stepGroup i = gpath i := by
    intro i
    unfold stepGroup gpath DataSetList.groupName
    apply String.toList_inj.1
    simp [String.toList_append]
  have hvp : ∀ i v, varPath i v = vpath i v := by
    intro i v; unfold varPath vpath; rw [hgp]
  have hget : ∀ p x, (p, x) ∈ h.sets → h.sets.get? p = some x := fun p x hx => Dict.get?_of_mem hinv.2 hx
  have hzip : ∀ (i : Nat) (st : Dict String (List V) × Option T), (st, i) ∈ d.steps.zipIdx ↔ d.steps[i]? = some st := by
    intro i st
    rw [List.mem_zipIdx_iff_getElem?]
  refine ⟨m, h, hm, e, ?_, ?_, ?_, ?_⟩
  · exact hget _ _ (by rw [hse]; simp)
  · intro x hx hne
    have hk1 : x.1 ∈ c.tbl.keys := by
      rw [ke]
      obtain ⟨r, hr⟩ := List.exists_mem_of_ne_nil _ hne
      unfold cellsOfType at hr
      obtain ⟨cell, hcell, -⟩ := List.mem_map.1 hr
      simp only [List.mem_filter, decide_eq_true_eq] at hcell
      have : x.2.1 ∈ (cellsDict f0.grid).keys := by
        rw [cellsDict_keys, uniqueTypes, mem_npUnique]
        exact List.mem_map.2 ⟨cell, hcell.1, hcell.2⟩
      obtain ⟨p, hp, ep⟩ := List.mem_map.1 this
      exact List.mem_map.2 ⟨p, hp, by rw [ep, nameOf_code hx]⟩
    obtain ⟨p, hp, ep⟩ := List.mem_map.1 hk1
    refine ⟨p.2.e2n, hget _ _ ?_, ?_⟩
    · rw [hse, ← ep]
      simp only [List.cons_append, List.mem_cons, List.mem_append, List.mem_map]
      exact .inr (.inl ⟨p, hp, rfl⟩)
    · rw [sc.1 x hx]
      unfold rowsOfType elementsOf
      rw [← ep, Dict.get?_of_mem w.keys hp]
      obtain ⟨⟨l, hl, hlen⟩, -⟩ := w.entries p hp
      simp only [indicesOf, hl]
      rw [List.map_snd_zip]
      exact hlen.ge
  · intro i f hf
    obtain ⟨st, h1, h2, h3, h4⟩ := step i f hf
    have hi : i < d.steps.length := (List.getElem?_eq_some_iff.1 h1).1
    refine ⟨?_, fun t => ?_, fun name v hv => ?_⟩
    · rw [hgr, hgp]
      exact List.mem_append_right _ (List.mem_map.2 ⟨i, List.mem_range.2 hi, rfl⟩)
    · rw [htm, List.mem_flatMap, ← h2]
      constructor
      · rintro ⟨⟨st', i'⟩, hm', ht'⟩
        unfold stepTimes at ht'
        obtain ⟨t', ht2, e'⟩ := List.mem_map.1 ht'
        obtain ⟨e1, rfl⟩ := Prod.mk.inj e'
        rw [hgp] at e1
        have := gpath_inj e1
        simp only at this
        subst this
        rw [hzip, h1] at hm'
        cases hm'
        simpa using ht2
      · intro ht
        exact ⟨(st, i), (hzip i st).2 h1, by simp [stepTimes, ht, hgp]⟩
    · have hmem : name ∈ st.1.keys := (h3 name).2 (by
        by_contra hn
        rw [Dict.get?_eq_none_iff.2 hn] at hv
        cases hv)
      obtain ⟨q, hq, rfl⟩ := List.mem_map.1 hmem
      have hwq : st.1.get? q.1 = some q.2 := Dict.get?_of_mem (hk st (List.mem_of_getElem? h1)) hq
      refine ⟨q.2, hget _ _ ?_, h4 _ v _ hv hwq⟩
      rw [hse, hvp]
      refine List.mem_append_right _ (List.mem_flatMap.2 ⟨(st, i), (hzip i st).2 h1, ?_⟩)
      unfold stepSets stepVars
      refine List.mem_map.2 ⟨q, ?_, rfl⟩
      simp only [List.mem_filter, decide_eq_true_eq]
      refine ⟨hq, fun e => ?_⟩
      exact hnt f (List.mem_of_getElem? hf) ((h3 _).1 (e ▸ hmem))
  · intro path hpath
    unfold Dict.keys at hpath
    rw [hse] at hpath
    obtain ⟨q, hq, rfl⟩ := List.mem_map.1 hpath
    simp only [List.cons_append, List.mem_cons, List.mem_append, List.mem_map, List.mem_flatMap] at hq
    rcases hq with rfl | ⟨p, hp, rfl⟩ | ⟨⟨st, i⟩, hst, hq⟩
    · exact .inl rfl
    · right; left
      have hk1 : p.1 ∈ c.tbl.keys := List.mem_map.2 ⟨p, hp, rfl⟩
      rw [ke] at hk1
      obtain ⟨q, hq, eq⟩ := List.mem_map.1 hk1
      obtain ⟨y, hy, ey, -⟩ := cellsDict_known hg q hq
      refine ⟨y, hy, ?_, ?_⟩
      · have := cellsDict_ne hq
        have hq' : (cellsDict f0.grid).get? y.2.1 = some q.2 := by
          rw [← ey]
          refine Dict.get?_of_mem ?_ hq
          rw [cellsDict_keys]; exact nodup_npUnique _
        rw [← cellsDict_get?, hq']
        exact this
      · rw [← nameOf_code hy, ← ey, eq]
    · right; right
      rw [hzip] at hst
      have hi : i < files.length := by rw [hs.length_eq]; exact (List.getElem?_eq_some_iff.1 hst).1
      obtain ⟨st', h1, -, h3, -⟩ := step i _ (List.getElem?_eq_getElem hi)
      rw [hst] at h1
      cases h1
      unfold stepSets stepVars at hq
      obtain ⟨v, hv, rfl⟩ := List.mem_map.1 hq
      refine ⟨i, files[i], v.1, List.getElem?_eq_getElem hi, (h3 _).1 ?_, (hvp i v.1).symm⟩
      exact List.mem_map.2 ⟨v, List.mem_of_mem_filter hv, rfl⟩

end

end Cfd.VtkPack
