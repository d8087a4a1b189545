import Verif.Lemmas.Vtk
import Verif.Lemmas.ConnAdd

/-!
# Lemmas on the conversions between meshes and VTK grids
-/

namespace Cfd.Vtk
open Cfd.Spec Cfd.Spec.Vtk ElemConn

variable {P : Type}

theorem codes : ∀ y ∈ vtkTypes, vtktypeEle.get? y.1 = some y.2.1 ∧ eleVtktype.get? y.2.1 = some y.1 ∧
    vtkSize.get? y.2.1 = some y.2.2 := by decide

theorem codes_inj : ∀ y ∈ vtkTypes, ∀ z ∈ vtkTypes, (y.1 = z.1 ↔ y.2.1 = z.2.1) ∧ (y.2.1 = z.2.1 → y = z) := by decide

/-- Storing values under new keys. -/
theorem foldlM_set_new {α K V : Type} [DecidableEq K] (F : α → Py K) (f : α → K) (v : α → V) (l : List α)
    (hF : ∀ x ∈ l, F x = .ok (f x)) (d : Dict K V) (hn : (d.keys ++ l.map f).Nodup) :
    l.foldlM (fun (d : Dict K V) x => do let t ← F x; return d.set t (v x)) d =
      .ok (d ++ l.map fun x => (f x, v x)) := by
  induction l generalizing d with
  | nil => simp [pure, Except.pure]
  | cons a t ih =>
    have ha : f a ∉ d.keys := by
      intro h
      rw [List.nodup_append] at hn
      exact hn.2.2 _ h _ (by simp) rfl
    rw [List.foldlM_cons, hF a (by simp)]
    simp only [Except_bind_ok]
    rw [show (pure (d.set (f a) (v a)) : Py (Dict K V)) = .ok (d.set (f a) (v a)) from rfl, Except_bind_ok,
      Dict.set_of_not_mem _ ha, ih (fun x hx => hF x (List.mem_cons_of_mem _ hx))]
    · simp
    · simpa [Dict.keys] using hn

theorem ofDict_ok (d : Dict Int Arr2) (pts : List P)
    (h : ∀ p ∈ d, ∃ y ∈ vtkTypes, p.1 = y.2.1 ∧ ∀ r ∈ p.2.rows, r.length = y.2.2 ∧ ∀ q ∈ r, 0 ≤ q ∧ q < pts.length) :
    Grid.ofDict d pts = .ok ⟨d.flatMap fun p => p.2.rows.map fun r => (p.1, r), pts⟩ := by
  unfold Grid.ofDict
  rw [mapM_ok_of_forall (g := fun p : Int × Arr2 => p.2.rows.map fun r => (p.1, r))]
  · rw [List.flatMap_def]; rfl
  · intro p hp
    obtain ⟨y, hy, e, hr⟩ := h p hp
    rw [e, (codes y hy).2.2]
    simp only [Except_bind_ok]
    rw [if_pos]
    · rfl
    · rw [List.all_eq_true]
      intro r hrm
      simp only [decide_eq_true_eq, List.all_eq_true, Bool.decide_and, Bool.and_eq_true]
      exact ⟨(hr r hrm).1, fun q hq => (hr r hrm).2 q hq⟩

theorem cellsOfType_dict (d : Dict Int Arr2) (pts : List P) (hn : d.keys.Nodup) (k : Int) :
    cellsOfType ⟨d.flatMap fun p => p.2.rows.map fun r => (p.1, r), pts⟩ k =
      match d.get? k with | some a => a.rows | none => [] := by
  unfold cellsOfType
  simp only
  induction d with
  | nil => rfl
  | cons p t ih =>
    obtain ⟨k', a⟩ := p
    simp only [Dict.keys, List.map_cons, List.nodup_cons] at hn
    rw [List.flatMap_cons, List.filter_append, List.map_append, ih hn.2]
    by_cases e : k' = k
    · subst e
      have : Dict.get? t k' = none := Dict.get?_eq_none_iff.2 hn.1
      rw [this]
      simp [Dict.get?, List.filter_map, Function.comp_def]
    · simp [Dict.get?, e, List.filter_map, Function.comp_def]

/-- A count by classes. -/
theorem sum_count {α : Type} (f : α → Int) (u : List Int) (hu : u.Nodup) (l : List α) (h : ∀ x ∈ l, f x ∈ u) :
    (u.map fun t => (l.filter fun x => f x = t).length).sum = l.length := by
  induction l with
  | nil => simp
  | cons a t ih =>
    have h1 : (u.map fun s => ((a :: t).filter fun x => f x = s).length) =
        u.map fun s => (if f a = s then 1 else 0) + (t.filter fun x => f x = s).length := by
      apply List.map_congr_left
      intro s _
      by_cases e : f a = s <;> simp [e]; omega
    have h2 : ∀ v : List Int, v.Nodup → (v.map fun s => if f a = s then 1 else 0).sum = if f a ∈ v then 1 else 0 := by
      intro v hv
      induction v with
      | nil => rfl
      | cons b v ihv =>
        rw [List.nodup_cons] at hv
        rw [List.map_cons, List.sum_cons, ihv hv.2]
        by_cases e : f a = b
        · subst e; simp [hv.1]
        · simp [e]
    have h3 : ∀ (v : List Int) (F G : Int → Nat), (v.map fun s => F s + G s).sum = (v.map F).sum + (v.map G).sum := by
      intro v F G
      induction v with
      | nil => rfl
      | cons b v ihv => simp [ihv]; omega
    rw [h1, h3, h2 u hu, if_pos (h a (by simp)), ih fun x hx => h x (List.mem_cons_of_mem _ hx), List.length_cons]
    omega

/-- Every entry of `cells_dict`. -/
theorem cellsDict_known {g : Grid P} (hg : KnownCells g) : ∀ p ∈ cellsDict g, ∃ y ∈ vtkTypes, p.1 = y.2.1 ∧
    p.2.rows = cellsOfType g y.2.1 ∧ p.2.WF ∧
    ∀ r ∈ p.2.rows, r.length = y.2.2 ∧ ∀ q ∈ r, 0 ≤ q ∧ q < g.points.length := by
  intro p hp
  unfold cellsDict uniqueTypes at hp
  obtain ⟨t, ht, rfl⟩ := List.mem_map.1 hp
  rw [mem_npUnique] at ht
  obtain ⟨c, hc, rfl⟩ := List.mem_map.1 ht
  obtain ⟨⟨y, hy, e, -⟩, -⟩ := hg c hc
  have hr : ∀ r ∈ cellsOfType g y.2.1, r.length = y.2.2 ∧ ∀ q ∈ r, 0 ≤ q ∧ q < g.points.length := by
    intro r hr
    unfold cellsOfType at hr
    obtain ⟨c', hc', rfl⟩ := List.mem_map.1 hr
    rw [List.mem_filter] at hc'
    obtain ⟨⟨z, hz, e1, e2⟩, h3⟩ := hg c' hc'.1
    have h4 : c'.1 = y.2.1 := by simpa using hc'.2
    have : y = z := (codes_inj y hy z hz).2 (by rw [← h4, e1])
    subst this
    exact ⟨e2, h3⟩
  have hrows : (Arr2.ofRows ((g.items.filter fun c' => c'.1 = c.1).map (·.2))).rows = cellsOfType g y.2.1 := by
    unfold cellsOfType
    rw [e]
    cases h : (g.items.filter fun c' => c'.1 = y.2.1).map (·.2) <;> rfl
  refine ⟨y, hy, e, hrows, ?_, ?_⟩
  · have hr' := hr
    unfold cellsOfType at hr'
    rw [e]
    simp only
    generalize (g.items.filter fun c' => c'.1 = y.2.1).map (·.2) = rows at hr'
    cases rows with
    | nil => exact rfl
    | cons a t =>
      intro r hrm
      rw [(hr' r hrm).1, (hr' a (by simp)).1]
  · rw [hrows]; exact hr

theorem cellsDict_keys (g : Grid P) : (cellsDict g).keys = uniqueTypes g := by
  simp [cellsDict, Dict.keys, Function.comp_def]

theorem cellsDict_get? (g : Grid P) (k : Int) :
    (match (cellsDict g).get? k with | some a => a.rows | none => []) = cellsOfType g k := by
  have hr : ∀ rows, (Arr2.ofRows rows).rows = rows := by intro rows; cases rows <;> rfl
  cases h : (cellsDict g).get? k with
  | some a =>
    have := Dict.mem_of_get? h
    unfold cellsDict at this
    obtain ⟨t, ht, e⟩ := List.mem_map.1 this
    obtain ⟨rfl, rfl⟩ := Prod.mk.inj e
    simp only [hr]; rfl
  | none =>
    have := Dict.get?_eq_none_iff.1 h
    rw [cellsDict_keys, uniqueTypes, mem_npUnique] at this
    unfold cellsOfType
    symm
    simp only [List.map_eq_nil_iff, List.filter_eq_nil_iff, decide_eq_true_eq]
    intro c hc e
    exact this (List.mem_map.2 ⟨c, hc, e⟩)

theorem cellsDict_count (g : Grid P) : ((cellsDict g).map fun p => p.2.rows.length).sum = g.items.length := by
  have hr : ∀ rows, (Arr2.ofRows rows).rows = rows := by intro rows; cases rows <;> rfl
  unfold cellsDict
  rw [List.map_map]
  have : ((fun p : Int × Arr2 => p.2.rows.length) ∘ fun t =>
      (t, Arr2.ofRows ((g.items.filter fun c => c.1 = t).map (·.2)))) =
      fun t => (g.items.filter fun c => c.1 = t).length := by
    funext t; simp [hr]
  rw [this]
  exact sum_count (fun c : Int × List Int => c.1) _ (nodup_npUnique _) _ fun c hc => mem_npUnique.2 (List.mem_map.2 ⟨c, hc, rfl⟩)

/-- Name of a VTK type. -/
def nameOf (k : Int) : String := (eleVtktype.get? k).getD ""

theorem nameOf_code {y : String × Int × Nat} (hy : y ∈ vtkTypes) : nameOf y.2.1 = y.1 := by
  simp [nameOf, (codes y hy).2.1]

theorem nameOf_nodup {g : Grid P} (hg : KnownCells g) : ((cellsDict g).map fun p => nameOf p.1).Nodup := by
  have h : ((cellsDict g).map fun p => nameOf p.1) = (cellsDict g).keys.map nameOf := by simp [Dict.keys]
  rw [h]
  apply List.Nodup.map_on
  · intro a ha b hb e
    obtain ⟨pa, hpa, rfl⟩ := List.mem_map.1 ha
    obtain ⟨pb, hpb, rfl⟩ := List.mem_map.1 hb
    obtain ⟨y, hy, e1, -⟩ := cellsDict_known hg pa hpa
    obtain ⟨z, hz, e2, -⟩ := cellsDict_known hg pb hpb
    rw [e1, e2] at e ⊢
    rw [nameOf_code hy, nameOf_code hz] at e
    exact (codes_inj y hy z hz).1.1 e
  · rw [cellsDict_keys]; exact nodup_npUnique _

theorem nameOf_getE {g : Grid P} (hg : KnownCells g) : ∀ p ∈ cellsDict g, eleVtktype.getE p.1 = .ok (nameOf p.1) := by
  intro p hp
  obtain ⟨y, hy, e, -⟩ := cellsDict_known hg p hp
  rw [e, nameOf_code hy, Dict.getE_eq_ok]
  exact (codes y hy).2.1

/-- The entry of a type in the dictionary with names. -/
theorem named_get? {g : Grid P} (hg : KnownCells g) {y : String × Int × Nat} (hy : y ∈ vtkTypes) :
    (match Dict.get? ((cellsDict g).map fun p => (nameOf p.1, p.2)) y.1 with | some a => a.rows | none => []) =
      cellsOfType g y.2.1 := by
  rw [← cellsDict_get?]
  have key : ∀ l : Dict Int Arr2, (∀ p ∈ l, ∃ z ∈ vtkTypes, p.1 = z.2.1) →
      Dict.get? (l.map fun p => (nameOf p.1, p.2)) y.1 = l.get? y.2.1 := by
    intro l
    induction l with
    | nil => intro _; rfl
    | cons p t ih =>
      intro h
      obtain ⟨z, hz, e⟩ := h p (by simp)
      have := ih fun q hq => h q (List.mem_cons_of_mem _ hq)
      obtain ⟨k, a⟩ := p
      simp only at e
      subst e
      simp only [List.map_cons, Dict.get?, nameOf_code hz, this, (codes_inj z hz y hy).1]
  rw [key _ fun p hp => by
    obtain ⟨z, hz, e, -⟩ := cellsDict_known hg p hp
    exact ⟨z, hz, e⟩]

theorem exportMesh_ok {R : Type} {g : Grid (R × R × R)} (hg : KnownCells g) :
    ∃ m c, exportMesh g = .ok m ∧ m.cell2node = some c ∧ ConnWF c ∧ SameCells g c ∧
      (∀ t ∈ c.tbl.keys, ∃ y ∈ vtkTypes, y.1 = t) ∧
      allIndices c = pyRange 0 g.items.length ∧ m.ncell = g.items.length ∧ m.nnode = g.points.length ∧
      m.coords = some (g.points.map (·.1), g.points.map (·.2.1), g.points.map (·.2.2)) ∧ m.bocos = [] ∧
      c.tbl.keys = (cellsDict g).map fun p => nameOf p.1 := by
  obtain ⟨c, e, w, n, k, el, al⟩ := addPlain_fold ((cellsDict g).map fun p => (nameOf p.1, p.2)) ElemConn.empty
    (by
      have := nameOf_nodup hg
      simpa [ElemConn.empty, Dict.keys, Function.comp_def] using this)
    connWF_empty
    (by
      intro p hp
      obtain ⟨q, hq, rfl⟩ := List.mem_map.1 hp
      obtain ⟨y, -, -, -, h, -⟩ := cellsDict_known hg q hq
      exact h)
  have hn : c.nelem = g.items.length := by
    rw [n, ← cellsDict_count g]
    simp [ElemConn.empty, Function.comp_def]
  have hfold : (cellsDict g).foldlM (fun (c : ElemConn) p => do
      let t ← eleVtktype.getE p.1
      c.addElems t p.2 none) ElemConn.empty = .ok c := by
    rw [← e, List.foldlM_map]
    have hE := nameOf_getE hg
    revert hE
    generalize cellsDict g = l
    generalize ElemConn.empty = c0
    intro hE
    clear e w n k el al hn hg
    induction l generalizing c0 with
    | nil => rfl
    | cons p t ih =>
      rw [List.foldlM_cons, List.foldlM_cons, hE p (by simp)]
      simp only [Except_bind_ok]
      cases c0.addElems (nameOf p.1) p.2 none with
      | error e => rfl
      | ok c1 =>
        simp only [Except_bind_ok]
        exact ih _ fun q hq => hE q (List.mem_cons_of_mem _ hq)
  unfold exportMesh
  rw [hfold]
  simp only [Except_bind_ok, Mesh.setCoordsNd, Mesh.setCell2node, Mesh.new, decide_true, pyAssert]
  refine ⟨_, c, rfl, rfl, w, ⟨?_, ?_⟩, ?_, ?_, hn, rfl, rfl, rfl, ?_⟩
  · intro y hy
    unfold rowsOfType
    rw [el, ← named_get? hg hy]
    simp only [elementsOf, ElemConn.empty, Dict.get?, List.map_nil, List.nil_append]
    cases Dict.get? ((cellsDict g).map fun p => (nameOf p.1, p.2)) y.1 <;> rfl
  · rw [← w.nelem, hn]
  · intro t ht
    rw [k] at ht
    simp only [ElemConn.empty, Dict.keys, List.map_nil, List.nil_append, List.map_map, List.mem_map] at ht
    obtain ⟨p, hp, rfl⟩ := ht
    obtain ⟨y, hy, e1, -⟩ := cellsDict_known hg p hp
    exact ⟨y, hy, by simp only [Function.comp_apply, e1, nameOf_code hy]⟩
  · rw [al, hn]
    simp [ElemConn.empty, allIndices, elements]
  · rw [k]
    simp [ElemConn.empty, Dict.keys, Function.comp_def]

/-- Code of an element type. -/
def codeOf (t : String) : Int := (vtktypeEle.get? t).getD 0

theorem codeOf_name {y : String × Int × Nat} (hy : y ∈ vtkTypes) : codeOf y.1 = y.2.1 := by
  simp [codeOf, (codes y hy).1]

theorem codeOf_getE {y : String × Int × Nat} (hy : y ∈ vtkTypes) : vtktypeEle.getE y.1 = .ok (codeOf y.1) := by
  rw [Dict.getE_eq_ok, codeOf_name hy]; exact (codes y hy).1

theorem codeOf_nodup {l : List String} (hl : ∀ t ∈ l, ∃ y ∈ vtkTypes, y.1 = t) (h : l.Nodup) : (l.map codeOf).Nodup := by
  refine List.Nodup.map_on ?_ h
  intro a ha b hb e
  obtain ⟨y, hy, rfl⟩ := hl a ha
  obtain ⟨z, hz, rfl⟩ := hl b hb
  rw [codeOf_name hy, codeOf_name hz] at e
  exact (codes_inj y hy z hz).1.2 e

theorem setMesh_ok {R : Type} (m : Mesh R) (c : ElemConn) (x y z : List R) (hm : m.cell2node = some c)
    (hco : m.coords = some (x, y, z)) (hxy : x.length = y.length) (hxz : x.length = z.length) (hc : ConnWF c)
    (hk : ∀ t ∈ c.tbl.keys, ∃ y ∈ vtkTypes, y.1 = t)
    (he : ∀ e ∈ elements c, (∃ y ∈ vtkTypes, e.1 = y.1 ∧ e.2.2.length = y.2.2) ∧
      ∀ q ∈ e.2.2, 0 ≤ q ∧ q < x.length) :
    setMesh m = .ok ⟨(elements c).map fun e => (codeOf e.1, e.2.2), x.zip (y.zip z)⟩ := by
  have hpl : (x.zip (y.zip z)).length = x.length := by simp; omega
  unfold setMesh nodesNd
  rw [hco, hm]
  simp only
  rw [if_pos ⟨hxy, hxz⟩]
  simp only [Except_bind_ok]
  have hkn : (c.tbl.map fun p => codeOf p.1).Nodup := by
    have := codeOf_nodup hk hc.keys
    simpa [Dict.keys, Function.comp_def] using this
  rw [foldlM_set_new (fun p : String × Entry => vtktypeEle.getE p.1) (fun p => codeOf p.1) (fun p => p.2.e2n) c.tbl
    (by
      intro p hp
      obtain ⟨w, hw, e⟩ := hk p.1 (List.mem_map.2 ⟨p, hp, rfl⟩)
      rw [← e]; exact codeOf_getE hw)
    [] (by simpa [Dict.keys] using hkn)]
  simp only [Except_bind_ok, List.nil_append]
  rw [ofDict_ok]
  · congr 2
    unfold elements
    rw [List.flatMap_map, List.map_flatMap]
    rw [List.flatMap_def, List.flatMap_def]
    congr 1
    apply List.map_congr_left
    intro p hp
    obtain ⟨l, hl, hlen⟩ := (hc.entries p hp).1
    rw [indicesOf_eq hl, List.map_map]
    have := List.map_snd_zip (l₁ := l) (l₂ := p.2.e2n.rows) (by omega)
    conv_lhs => rw [← this]
    rw [List.map_map]; rfl
  · intro p0 hp0
    obtain ⟨p, hp, rfl⟩ := List.mem_map.1 hp0
    obtain ⟨w, hw, e⟩ := hk p.1 (List.mem_map.2 ⟨p, hp, rfl⟩)
    refine ⟨w, hw, by simp only [← e, codeOf_name hw], fun r hr => ?_⟩
    obtain ⟨l, hl, hlen⟩ := (hc.entries p hp).1
    obtain ⟨i, hi, rfl⟩ := List.mem_iff_getElem.1 hr
    simp only at hi
    have hmem : (p.1, l[i]'(by omega), p.2.e2n.rows[i]) ∈ elements c := by
      unfold elements
      rw [List.mem_flatMap]
      refine ⟨p, hp, ?_⟩
      rw [indicesOf_eq hl, List.mem_map]
      exact ⟨(l[i]'(by omega), p.2.e2n.rows[i]), List.mem_iff_getElem.2 ⟨i, by simp; omega, by simp⟩, rfl⟩
    obtain ⟨⟨v, hv, e1, e2⟩, h3⟩ := he _ hmem
    have : w = v := by
      apply (codes_inj w hw v hv).2
      rw [← (codes_inj w hw v hv).1, e]; exact e1
    subst this
    rw [hpl]
    exact ⟨e2, h3⟩

/-- Cells of one type in the grid of a mesh. -/
theorem sameCells_items (c : ElemConn) (pts : List P) (hc : ConnWF c)
    (hk : ∀ t ∈ c.tbl.keys, ∃ y ∈ vtkTypes, y.1 = t) :
    SameCells ⟨(elements c).map fun e => (codeOf e.1, e.2.2), pts⟩ c := by
  refine ⟨fun y hy => ?_, by simp⟩
  have h := elements_filter hc.keys y.1
  unfold cellsOfType rowsOfType
  simp only
  rw [List.filter_map, List.map_map]
  have h2 : (elements c).filter ((fun e : Int × List Int => decide (e.1 = y.2.1)) ∘ fun e => (codeOf e.1, e.2.2)) =
      (elements c).filter fun x => x.1 = y.1 := by
    apply List.filter_congr
    intro e he
    unfold elements at he
    obtain ⟨p, hp, he⟩ := List.mem_flatMap.1 he
    obtain ⟨q, -, rfl⟩ := List.mem_map.1 he
    obtain ⟨w, hw, e⟩ := hk p.1 (List.mem_map.2 ⟨p, hp, rfl⟩)
    simp only [Function.comp_apply, ← e, codeOf_name hw, (codes_inj w hw y hy).1]
  rw [h2, h, List.map_map]
  rfl

theorem get?_perm' {K V : Type} [DecidableEq K] {d d' : Dict K V} (hp : List.Perm d d') (hn : d'.keys.Nodup) (k : K) :
    d.get? k = d'.get? k := by
  have hnd : d.keys.Nodup := (hp.map Prod.fst).nodup_iff.2 hn
  cases h : d'.get? k with
  | some v => exact Dict.get?_of_mem hnd (hp.mem_iff.2 (Dict.mem_of_get? h))
  | none =>
    rw [Dict.get?_eq_none_iff] at h ⊢
    intro hm; exact h ((hp.map Prod.fst).mem_iff.1 hm)

/-- The grid read in a dumped file: the cells, type after type in the order of the listing. -/
theorem hdf_items (order : Dict String Arr2 → Dict String Arr2) (horder : ∀ d, List.Perm (order d) d) (g : Grid P)
    (hg : KnownCells g) :
    ∃ D, D = ((cellsDict g).map fun p => (nameOf p.1, p.2)) ∧ dumpMesh g = .ok ⟨g.points, D⟩ ∧
      importMesh order ⟨g.points, D⟩ = .ok ⟨((order D).map fun p => (codeOf p.1, p.2)).flatMap
        fun p => p.2.rows.map fun r => (p.1, r), g.points⟩ ∧ ((order D).map fun p => codeOf p.1).Nodup ∧
      ∀ p ∈ order D, ∃ q ∈ cellsDict g, p = (nameOf q.1, q.2) := by
  have hd : dumpMesh g = .ok ⟨g.points, (cellsDict g).map fun p => (nameOf p.1, p.2)⟩ := by
    unfold dumpMesh
    rw [foldlM_set_new (fun p : Int × Arr2 => eleVtktype.getE p.1) (fun p => nameOf p.1) (fun p => p.2) (cellsDict g)
      (nameOf_getE hg) [] (by simpa [Dict.keys] using nameOf_nodup hg)]
    rfl
  have hnd := nameOf_nodup hg
  generalize hD : ((cellsDict g).map fun p => (nameOf p.1, p.2)) = D at hd ⊢
  have hDn : (order D).keys.Nodup := by
    refine ((horder D).map Prod.fst).nodup_iff.2 ?_
    rw [← hD, List.map_map]; exact hnd
  have hmem : ∀ p ∈ order D, ∃ q ∈ cellsDict g, p = (nameOf q.1, q.2) := by
    intro p hp
    rw [(horder D).mem_iff, ← hD] at hp
    obtain ⟨q, hq, rfl⟩ := List.mem_map.1 hp
    exact ⟨q, hq, rfl⟩
  have hk : ∀ t ∈ (order D).keys, ∃ y ∈ vtkTypes, y.1 = t := by
    intro t ht
    obtain ⟨p, hp, rfl⟩ := List.mem_map.1 ht
    obtain ⟨q, hq, rfl⟩ := hmem p hp
    obtain ⟨y, hy, e, -⟩ := cellsDict_known hg q hq
    exact ⟨y, hy, by rw [e, nameOf_code hy]⟩
  have hcn : ((order D).map fun p => codeOf p.1).Nodup := by
    have := codeOf_nodup hk hDn
    simpa [Dict.keys, Function.comp_def] using this
  have hi : importMesh order ⟨g.points, D⟩ = .ok ⟨((order D).map fun p => (codeOf p.1, p.2)).flatMap
      fun p => p.2.rows.map fun r => (p.1, r), g.points⟩ := by
    unfold importMesh
    simp only
    rw [foldlM_set_new (fun p : String × Arr2 => vtktypeEle.getE p.1) (fun p => codeOf p.1) (fun p => p.2) (order D)
      (by
        intro p hp
        obtain ⟨y, hy, e⟩ := hk p.1 (List.mem_map.2 ⟨p, hp, rfl⟩)
        rw [← e]; exact codeOf_getE hy)
      [] (by simpa [Dict.keys] using hcn)]
    simp only [Except_bind_ok, List.nil_append]
    apply ofDict_ok
    intro p0 hp0
    obtain ⟨p, hp, rfl⟩ := List.mem_map.1 hp0
    obtain ⟨q, hq, rfl⟩ := hmem p hp
    obtain ⟨y, hy, e, -, -, h⟩ := cellsDict_known hg q hq
    exact ⟨y, hy, by simp only [e, nameOf_code hy, codeOf_name hy], h⟩
  exact ⟨D, rfl, hd, hi, hcn, hmem⟩

end Cfd.Vtk
