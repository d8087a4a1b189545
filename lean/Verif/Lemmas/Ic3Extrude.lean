import Verif.Spec.Ic3Extrude
import Verif.Lemmas.Ic3Cells
import Verif.Props.Extrude

/-! Faces of the hexahedra swept by plane quadrangles. -/

namespace Cfd.Ic3
open Spec Spec.Ic3 ElemConn

/-- The table gives the hexahedra their six faces. -/
def HexaTable (tbl : FaceTable) : Prop := tbl.get? "hexa8" = some [("tri3", []), ("quad4",
  [[0, 1, 2, 3], [0, 4, 5, 1], [1, 5, 6, 2], [2, 6, 7, 3], [0, 3, 7, 4], [4, 7, 6, 5]])]

theorem hexaTable_cgns : HexaTable cgnsElem2faces := by unfold HexaTable; decide +kernel
theorem hexaTable_gmsh : HexaTable gmshElem2faces := by unfold HexaTable; decide +kernel

/-- The six faces of the hexahedron above a quadrangle. -/
def sixFaces (N : Nat) (p : Int × List Int) : List (List Int × Int) :=
  match p.2 with
  | [a, b, c, d] => [([d, c, b, a], p.1), ([b, b + N, a + N, a], p.1), ([c, c + N, b + N, b], p.1),
      ([d, d + N, c + N, c], p.1), ([a + N, d + N, d, a], p.1), ([b + N, c + N, d + N, a + N], p.1)]
  | _ => []

/-- The cells of one layer. -/
def layerConn (N : Nat) (c : ElemConn) : ElemConn := ⟨1 * c.nelem, c.tbl.map (sweptEntry 1 N)⟩

theorem list4 {v : List Int} (h : v.length = 4) : ∃ a b c d, v = [a, b, c, d] := by
  match v, h with
  | [a, b, c, d], _ => exact ⟨a, b, c, d, rfl⟩

section
variable {R : Type} {m : Mesh R} {c : ElemConn} {q : Quads}

theorem quad_entry (h : QuadMesh m c q) : ∃ e, c.tbl = [("quad4", e)] ∧ (indicesOf e).zip e.e2n.rows = q ∧
    e.e2n.ncol = some 4 ∧ EntryWF e := by
  have hk := h.types
  have hq := h.quads
  have ht := h.mesh.types
  have hw := h.mesh.wf.entries
  unfold Dict.keys at hk
  match hc : c.tbl, hk with
  | [(k, e)], hk =>
    simp only [List.map_cons, List.map_nil, List.cons.injEq, and_true] at hk
    subst hk
    refine ⟨e, rfl, ?_, ?_, hw ("quad4", e) (by rw [hc]; simp)⟩
    · unfold elementsOf at hq
      rw [hc] at hq
      simpa [Dict.get?] using hq
    · obtain ⟨n, x, hs, hn⟩ := ht ("quad4", e) (by rw [hc]; simp)
      simp only [swept, Option.some.injEq, Prod.mk.injEq] at hs
      rw [hn, hs.1]

theorem quad_length (h : QuadMesh m c q) {p : Int × List Int} (hp : p ∈ q) : p.2.length = 4 := by
  obtain ⟨e, _, hz, hn, hw⟩ := quad_entry h
  have := hw.2
  unfold Arr2.WF at this
  rw [hn] at this
  rw [← hz] at hp
  exact this _ (List.of_mem_zip hp).2

theorem layer_elements (h : QuadMesh m c q) :
    elements (layerConn m.nnode c) = q.map fun p => ("hexa8", p.1, p.2 ++ p.2.map (· + (m.nnode : Int))) := by
  obtain ⟨e, hc, hz, hn, hw⟩ := quad_entry h
  have hz' := sweptEntry_zip 1 m.nnode ("quad4", e) hw
  unfold elements layerConn
  rw [hc]
  simp only [List.map_cons, List.map_nil, List.flatMap_cons, List.flatMap_nil, List.append_nil]
  rw [hz']
  simp only [List.range_one, List.flatMap_cons, List.flatMap_nil, List.append_nil, hz, List.map_map]
  apply List.map_congr_left
  intro p _
  simp [sweptEntry, swept, sweptNodes]

theorem layer_faces (h : QuadMesh m c q) {tbl : FaceTable} (ht : HexaTable tbl) :
    facesOfCells tbl (layerConn m.nnode c) = q.flatMap (sixFaces m.nnode) := by
  unfold facesOfCells
  rw [layer_elements h, List.flatMap_map]
  unfold List.flatMap
  congr 1
  apply List.map_congr_left
  intro p hp
  obtain ⟨a, b, c', d, hv⟩ := list4 (quad_length h hp)
  rw [ht]
  simp [sixFaces, hv]

end

/-! ### The kinds of faces -/

variable {N : Nat}

/-- Nodes of the first plane. -/
def Low (N : Nat) (v : List Int) : Prop := ∀ n ∈ v, 0 ≤ n ∧ n < (N : Int)

theorem perm_side {e e' : Int × Int} (h : 0 ≤ e.1 ∧ e.1 < (N : Int) ∧ 0 ≤ e.2 ∧ e.2 < (N : Int))
    (h' : 0 ≤ e'.1 ∧ e'.1 < (N : Int) ∧ 0 ≤ e'.2 ∧ e'.2 < (N : Int)) :
    (sideOf N e).Perm (sideOf N e') ↔ SameEdge e e' := by
  obtain ⟨a, b⟩ := e
  obtain ⟨a', b'⟩ := e'
  simp only at h h'
  constructor
  · intro hp
    have := hp.filter (fun n => decide (n < (N : Int)))
    simp only [sideOf] at this
    rw [List.filter_cons_of_pos (by simp; omega), List.filter_cons_of_pos (by simp; omega),
      List.filter_cons_of_neg (by simp; omega), List.filter_cons_of_neg (by simp; omega),
      List.filter_cons_of_pos (by simp; omega), List.filter_cons_of_pos (by simp; omega),
      List.filter_cons_of_neg (by simp; omega), List.filter_cons_of_neg (by simp; omega)] at this
    simp only [List.filter_nil] at this
    have h1 := this.mem_iff (a := a)
    have h2 := this.mem_iff (a := b)
    have h3 := this.mem_iff (a := a')
    have h4 := this.mem_iff (a := b')
    simp only [List.mem_cons, List.not_mem_nil, or_false, true_or, or_true, true_iff, iff_true] at h1 h2 h3 h4
    unfold SameEdge
    simp only [Prod.mk.injEq]
    omega
  · rintro (hs | hs)
    · rw [hs]
    · simp only [Prod.mk.injEq] at hs
      obtain ⟨rfl, rfl⟩ := hs
      unfold sideOf
      simp only
      exact (List.Perm.swap _ _ _).trans ((List.Perm.swap _ _ _).cons _ |>.cons _)

theorem perm_map_add {v w : List Int} : (v.map (· + (N : Int))).Perm (w.map (· + (N : Int))) ↔ v.Perm w := by
  refine ⟨fun h => ?_, fun h => h.map _⟩
  have := h.map (· - (N : Int))
  simpa [List.map_map, Function.comp_def] using this

theorem edge_low {v : List Int} (hv : Low N v) {e : Int × Int} (he : e ∈ edgesOf v) :
    (0 ≤ e.1 ∧ e.1 < (N : Int) ∧ 0 ≤ e.2 ∧ e.2 < (N : Int)) ∧ e.1 ∈ v ∧ e.2 ∈ v := by
  unfold edgesOf at he
  split at he
  · rename_i a b c d
    have h1 := hv a (by simp)
    have h2 := hv b (by simp)
    have h3 := hv c (by simp)
    have h4 := hv d (by simp)
    simp only [List.mem_cons, List.not_mem_nil, or_false] at he
    rcases he with rfl | rfl | rfl | rfl <;> simp <;> omega
  · simp at he

/-- A list with a node of the first plane and one of the second is on neither. -/
theorem side_not_low {l : List Int} {e : Int × Int} (h : 0 ≤ e.1) (hl : l.Perm (sideOf N e)) {v : List Int} (hv : Low N v) :
    ¬ l.Perm v := by
  intro hp
  have : e.1 + N ∈ v := hp.mem_iff.1 (hl.mem_iff.2 (by simp [sideOf]))
  have := hv _ this
  omega

theorem side_not_high {l : List Int} {e : Int × Int} (h : e.1 < (N : Int)) (hl : l.Perm (sideOf N e)) {v : List Int}
    (hv : Low N v) : ¬ l.Perm (v.map (· + (N : Int))) := by
  intro hp
  have : e.1 ∈ v.map (· + (N : Int)) := hp.mem_iff.1 (hl.mem_iff.2 (by simp [sideOf]))
  obtain ⟨n, hn, he⟩ := List.mem_map.1 this
  have := hv _ hn
  omega

theorem low_not_high {v w : List Int} (hv : Low N v) (hw : Low N w) (hne : v ≠ []) : ¬ v.Perm (w.map (· + (N : Int))) := by
  intro hp
  obtain ⟨n, hn⟩ := List.exists_mem_of_ne_nil _ hne
  obtain ⟨k, hk, he⟩ := List.mem_map.1 (hp.mem_iff.1 hn)
  have h1 := hv _ hn
  have h2 := hw _ hk
  omega

theorem six_perm (a b c d : Int) :
    [d, c, b, a].Perm [a, b, c, d] ∧ [b, b + N, a + N, a].Perm (sideOf N (a, b)) ∧
    [c, c + N, b + N, b].Perm (sideOf N (b, c)) ∧ [d, d + N, c + N, c].Perm (sideOf N (c, d)) ∧
    [a + N, d + N, d, a].Perm (sideOf N (d, a)) ∧
    [b + N, c + N, d + N, a + N].Perm ([a, b, c, d].map (· + (N : Int))) := by
  have key : ∀ x y X Y : Int, [y, Y, X, x].Perm [x, y, X, Y] := by
    intro x y X Y
    rw [List.perm_iff_count]
    intro t
    simp only [List.count_cons, List.count_nil]
    omega
  have key2 : ∀ x y X Y : Int, [X, Y, y, x].Perm [y, x, Y, X] := by
    intro x y X Y
    rw [List.perm_iff_count]
    intro t
    simp only [List.count_cons, List.count_nil]
    omega
  refine ⟨?_, key _ _ _ _, key _ _ _ _, key _ _ _ _, key2 _ _ _ _, ?_⟩
  · rw [List.perm_iff_count]
    intro t
    simp only [List.count_cons, List.count_nil]
    omega
  · simp only [List.map_cons, List.map_nil]
    rw [List.perm_iff_count]
    intro t
    simp only [List.count_cons, List.count_nil]
    omega

/-- Each of the six faces is one of the three kinds. -/
theorem six_kind {p : Int × List Int} {o : List Int × Int} (ho : o ∈ sixFaces N p) :
    o.2 = p.1 ∧ o.1.length = 4 ∧ (o.1.Perm p.2 ∨ o.1.Perm (p.2.map (· + (N : Int))) ∨ ∃ e ∈ edgesOf p.2, o.1.Perm (sideOf N e)) := by
  unfold sixFaces at ho
  split at ho
  · rename_i a b c d hv
    obtain ⟨h1, h2, h3, h4, h5, h6⟩ := six_perm (N := N) a b c d
    rw [hv]
    simp only [List.mem_cons, List.not_mem_nil, or_false] at ho
    rcases ho with rfl | rfl | rfl | rfl | rfl | rfl
    · exact ⟨rfl, rfl, .inl h1⟩
    · exact ⟨rfl, rfl, .inr (.inr ⟨_, by simp [edgesOf], h2⟩)⟩
    · exact ⟨rfl, rfl, .inr (.inr ⟨_, by simp [edgesOf], h3⟩)⟩
    · exact ⟨rfl, rfl, .inr (.inr ⟨_, by simp [edgesOf], h4⟩)⟩
    · exact ⟨rfl, rfl, .inr (.inr ⟨_, by simp [edgesOf], h5⟩)⟩
    · exact ⟨rfl, rfl, .inr (.inl h6)⟩
  · simp at ho

/-- All kinds of faces are there. -/
theorem six_have {p : Int × List Int} (hl : p.2.length = 4) :
    (∃ o ∈ sixFaces N p, o.1.Perm p.2) ∧ (∃ o ∈ sixFaces N p, o.1.Perm (p.2.map (· + (N : Int)))) ∧
    ∀ e ∈ edgesOf p.2, ∃ o ∈ sixFaces N p, o.1.Perm (sideOf N e) := by
  obtain ⟨a, b, c, d, hv⟩ := list4 hl
  obtain ⟨h1, h2, h3, h4, h5, h6⟩ := six_perm (N := N) a b c d
  unfold sixFaces
  rw [hv]
  refine ⟨⟨([d, c, b, a], p.1), by simp, h1⟩, ⟨([b + N, c + N, d + N, a + N], p.1), by simp, h6⟩, ?_⟩
  intro e he
  simp only [edgesOf, List.mem_cons, List.not_mem_nil, or_false] at he
  rcases he with rfl | rfl | rfl | rfl
  · exact ⟨([b, b + N, a + N, a], p.1), by simp, h2⟩
  · exact ⟨([c, c + N, b + N, b], p.1), by simp, h3⟩
  · exact ⟨([d, d + N, c + N, c], p.1), by simp, h4⟩
  · exact ⟨([a + N, d + N, d, a], p.1), by simp, h5⟩

theorem filter6 {α : Type} {P : α → Bool} (x1 x2 x3 x4 x5 x6 : α) :
    [x1, x2, x3, x4, x5, x6].filter P = [x1].filter P ++ ([x2].filter P ++ ([x3].filter P ++ ([x4].filter P ++
      ([x5].filter P ++ [x6].filter P)))) := by
  simp only [← List.filter_append]
  rfl

theorem perm_no {l n : List Int} {i : Int} (h : ¬ l.Perm n) :
    [(l, i)].filter (fun o : List Int × Int => o.1.isPerm n) = [] := by
  have : l.isPerm n = false := by rw [Bool.eq_false_iff, Ne, List.isPerm_iff]; exact h
  simp [this]
theorem perm_yes {l n : List Int} {i : Int} (h : l.Perm n) :
    [(l, i)].filter (fun o : List Int × Int => o.1.isPerm n) = [(l, i)] := by
  have : l.isPerm n = true := by rw [List.isPerm_iff]; exact h
  simp [this]
/-- The faces of one hexahedron on the nodes of a quadrangle. -/
theorem six_bottom {p : Int × List Int} (hl : p.2.length = 4) (hp : Low N p.2) {v n : List Int} (hv : Low N v)
    (hne : v ≠ []) (hn : n.Perm v) :
    ((sixFaces N p).filter fun o => o.1.isPerm n).map (·.2) = if p.2.Perm v then [p.1] else [] := by
  obtain ⟨a, b, c, d, hv4⟩ := list4 hl
  obtain ⟨h1, h2, h3, h4, h5, h6⟩ := six_perm (N := N) a b c d
  have ha := hp a (by rw [hv4]; simp)
  have hb := hp b (by rw [hv4]; simp)
  have hc := hp c (by rw [hv4]; simp)
  have hd := hp d (by rw [hv4]; simp)
  have hnl : Low N n := fun x hx => hv x (hn.mem_iff.1 hx)
  rw [hv4] at hp
  unfold sixFaces
  rw [hv4]
  simp only
  rw [filter6, perm_no (side_not_low ha.1 h2 hnl), perm_no (side_not_low hb.1 h3 hnl),
    perm_no (side_not_low hc.1 h4 hnl), perm_no (side_not_low hd.1 h5 hnl),
    perm_no (fun hx => low_not_high hnl hp (by intro h0; rw [h0] at hn; exact hne hn.symm.eq_nil) (hx.symm.trans h6))]
  by_cases hpv : [a, b, c, d].Perm v
  · rw [if_pos hpv, perm_yes (h1.trans (hpv.trans hn.symm))]
    rfl
  · rw [if_neg hpv, perm_no (fun hx => hpv (h1.symm.trans (hx.trans hn)))]
    rfl

theorem six_top {p : Int × List Int} (hl : p.2.length = 4) (hp : Low N p.2) {v n : List Int} (hv : Low N v)
    (hne : v ≠ []) (hn : n.Perm (v.map (· + (N : Int)))) :
    ((sixFaces N p).filter fun o => o.1.isPerm n).map (·.2) = if p.2.Perm v then [p.1] else [] := by
  obtain ⟨a, b, c, d, hv4⟩ := list4 hl
  obtain ⟨h1, h2, h3, h4, h5, h6⟩ := six_perm (N := N) a b c d
  have ha := hp a (by rw [hv4]; simp)
  have hb := hp b (by rw [hv4]; simp)
  have hc := hp c (by rw [hv4]; simp)
  have hd := hp d (by rw [hv4]; simp)
  rw [hv4] at hp
  unfold sixFaces
  rw [hv4]
  simp only
  rw [filter6, perm_no (fun hx => side_not_high ha.2 h2 hv (hx.trans hn)),
    perm_no (fun hx => side_not_high hb.2 h3 hv (hx.trans hn)),
    perm_no (fun hx => side_not_high hc.2 h4 hv (hx.trans hn)),
    perm_no (fun hx => side_not_high hd.2 h5 hv (hx.trans hn)),
    perm_no (fun hx => low_not_high hp hv (by simp) (h1.symm.trans (hx.trans hn)))]
  by_cases hpv : [a, b, c, d].Perm v
  · rw [if_pos hpv, perm_yes (h6.trans ((perm_map_add.2 hpv).trans hn.symm))]
    rfl
  · rw [if_neg hpv, perm_no (fun hx => hpv (perm_map_add.1 (h6.symm.trans (hx.trans hn))))]
    rfl

theorem six_side {p : Int × List Int} (hl : p.2.length = 4) (hp : Low N p.2) {e : Int × Int} {n : List Int}
    (he : 0 ≤ e.1 ∧ e.1 < (N : Int) ∧ 0 ≤ e.2 ∧ e.2 < (N : Int)) (hn : n.Perm (sideOf N e)) :
    ((sixFaces N p).filter fun o => o.1.isPerm n).map (·.2) =
      ((((edgesOf p.2).map fun e => (e, p.1)).filter fun x => decide (SameEdge x.1 e)).map (·.2)) := by
  obtain ⟨a, b, c, d, hv4⟩ := list4 hl
  obtain ⟨h1, h2, h3, h4, h5, h6⟩ := six_perm (N := N) a b c d
  have ha := hp a (by rw [hv4]; simp)
  have hb := hp b (by rw [hv4]; simp)
  have hc := hp c (by rw [hv4]; simp)
  have hd := hp d (by rw [hv4]; simp)
  rw [hv4] at hp
  have key : ∀ (l : List Int) (x y : Int), l.Perm (sideOf N (x, y)) → 0 ≤ x ∧ x < (N : Int) → 0 ≤ y ∧ y < (N : Int) →
      ([(l, p.1)].filter fun o => o.1.isPerm n).map (·.2) =
        (([((x, y), p.1)].filter fun z => decide (SameEdge z.1 e)).map (·.2)) := by
    intro l x y hl hx hy
    by_cases hs : SameEdge (x, y) e
    · rw [perm_yes (hl.trans (((perm_side ⟨hx.1, hx.2, hy.1, hy.2⟩ he).2 hs).trans hn.symm))]
      simp [hs]
    · rw [perm_no fun hq => hs ((perm_side ⟨hx.1, hx.2, hy.1, hy.2⟩ he).1 (hl.symm.trans (hq.trans hn)))]
      simp [hs]
  unfold sixFaces
  rw [hv4]
  simp only
  rw [filter6, perm_no (fun hx => side_not_low he.1 hn hp (hx.symm.trans h1)),
    perm_no (fun hx => side_not_high he.2.1 hn hp (hx.symm.trans h6)), List.append_nil, List.nil_append]
  simp only [List.map_append]
  rw [key _ _ _ h2 ha hb, key _ _ _ h3 hb hc, key _ _ _ h4 hc hd, key _ _ _ h5 hd ha]
  simp only [edgesOf, List.map_cons, List.map_nil, ← List.map_append, ← List.filter_append]
  rfl

theorem filter_pairwise {q : Quads} (hq : q.Pairwise fun p p' => ¬ p.2.Perm p'.2) {p : Int × List Int} (hp : p ∈ q) :
    (q.flatMap fun p' => if p'.2.Perm p.2 then [p'.1] else []) = [p.1] := by
  induction q with
  | nil => simp at hp
  | cons p0 t ih =>
    rw [List.pairwise_cons] at hq
    rw [List.flatMap_cons]
    rcases List.mem_cons.1 hp with rfl | hp
    · rw [if_pos (List.Perm.refl _)]
      have : (t.flatMap fun p' => if p'.2.Perm p.2 then [p'.1] else []) = [] := by
        rw [List.flatMap_eq_nil_iff]
        intro x hx
        exact if_neg fun h => hq.1 x hx h.symm
      rw [this]; rfl
    · rw [if_neg (hq.1 p hp), ih hq.2 hp, List.nil_append]

/-! ### The faces of the layer -/

section
variable {R : Type} {m : Mesh R} {c : ElemConn} {q : Quads}

theorem quad_low (h : QuadMesh m c q) {p : Int × List Int} (hp : p ∈ q) : Low m.nnode p.2 := (h.nodes p hp).2

theorem edge_of {x : (Int × Int) × Int} (hx : x ∈ edges q) : ∃ p ∈ q, x.1 ∈ edgesOf p.2 ∧ x.2 = p.1 := by
  unfold edges at hx
  obtain ⟨p, hp, hx⟩ := List.mem_flatMap.1 hx
  obtain ⟨e, he, rfl⟩ := List.mem_map.1 hx
  exact ⟨p, hp, he, rfl⟩

theorem edges_of {p : Int × List Int} (hp : p ∈ q) {e : Int × Int} (he : e ∈ edgesOf p.2) : (e, p.1) ∈ edges q :=
  List.mem_flatMap.2 ⟨p, hp, List.mem_map.2 ⟨e, he, rfl⟩⟩

theorem edge_range (h : QuadMesh m c q) {x : (Int × Int) × Int} (hx : x ∈ edges q) :
    0 ≤ x.1.1 ∧ x.1.1 < (m.nnode : Int) ∧ 0 ≤ x.1.2 ∧ x.1.2 < (m.nnode : Int) := by
  obtain ⟨p, hp, he, _⟩ := edge_of hx
  exact (edge_low (quad_low h hp) he).1

theorem map_filter_flatMap {α β γ : Type} (l : List α) (f : α → List β) (P : β → Bool) (g : β → γ) :
    ((l.flatMap f).filter P).map g = l.flatMap fun x => ((f x).filter P).map g := by
  rw [List.filter_flatMap, List.map_flatMap]

theorem flatMap_congr_mem {α β : Type} {l : List α} {f g : α → List β} (h : ∀ x ∈ l, f x = g x) :
    l.flatMap f = l.flatMap g := by
  unfold List.flatMap
  congr 1
  exact List.map_congr_left h

theorem on_bottom (h : QuadMesh m c q) (ha : q.Pairwise fun p p' => ¬ p.2.Perm p'.2) {tbl : FaceTable}
    (ht : HexaTable tbl) {p : Int × List Int} (hp : p ∈ q) {n : List Int} (hn : n.Perm p.2) :
    (facesOn tbl (layerConn m.nnode c) n).map (·.2) = [p.1] := by
  unfold facesOn
  rw [layer_faces h ht, map_filter_flatMap, ← filter_pairwise ha hp]
  refine flatMap_congr_mem fun x hx => six_bottom (quad_length h hx) (quad_low h hx) (quad_low h hp) ?_ hn
  intro h0
  have := quad_length h hp
  rw [h0] at this
  simp at this

theorem on_top (h : QuadMesh m c q) (ha : q.Pairwise fun p p' => ¬ p.2.Perm p'.2) {tbl : FaceTable}
    (ht : HexaTable tbl) {p : Int × List Int} (hp : p ∈ q) {n : List Int} (hn : n.Perm (p.2.map (· + (m.nnode : Int)))) :
    (facesOn tbl (layerConn m.nnode c) n).map (·.2) = [p.1] := by
  unfold facesOn
  rw [layer_faces h ht, map_filter_flatMap, ← filter_pairwise ha hp]
  refine flatMap_congr_mem fun x hx => six_top (quad_length h hx) (quad_low h hx) (quad_low h hp) ?_ hn
  intro h0
  have := quad_length h hp
  rw [h0] at this
  simp at this

theorem on_side (h : QuadMesh m c q) {tbl : FaceTable} (ht : HexaTable tbl) {x : (Int × Int) × Int} (hx : x ∈ edges q)
    {n : List Int} (hn : n.Perm (sideOf m.nnode x.1)) :
    (facesOn tbl (layerConn m.nnode c) n).map (·.2) = cellsOn q x.1 := by
  unfold facesOn cellsOn edges
  rw [layer_faces h ht, map_filter_flatMap, map_filter_flatMap]
  exact flatMap_congr_mem fun p hp => six_side (quad_length h hp) (quad_low h hp) (edge_range h hx) hn

/-- A face of the layer is a quadrangle, its copy or a side. -/
theorem layer_kind (h : QuadMesh m c q) {tbl : FaceTable} (ht : HexaTable tbl) {o : List Int × Int}
    (ho : o ∈ facesOfCells tbl (layerConn m.nnode c)) : o.1.length = 4 ∧
      ((∃ p ∈ q, o.2 = p.1 ∧ o.1.Perm p.2) ∨ (∃ p ∈ q, o.2 = p.1 ∧ o.1.Perm (p.2.map (· + (m.nnode : Int)))) ∨
        ∃ x ∈ edges q, o.2 = x.2 ∧ o.1.Perm (sideOf m.nnode x.1)) := by
  rw [layer_faces h ht] at ho
  obtain ⟨p, hp, ho⟩ := List.mem_flatMap.1 ho
  obtain ⟨h1, h4, h2 | h2 | ⟨e, he, h2⟩⟩ := six_kind ho
  · exact ⟨h4, .inl ⟨p, hp, h1, h2⟩⟩
  · exact ⟨h4, .inr (.inl ⟨p, hp, h1, h2⟩)⟩
  · exact ⟨h4, .inr (.inr ⟨_, edges_of hp he, h1, h2⟩)⟩

theorem layer_has (h : QuadMesh m c q) {tbl : FaceTable} (ht : HexaTable tbl) :
    (∀ p ∈ q, (∃ o ∈ facesOfCells tbl (layerConn m.nnode c), o.1.Perm p.2) ∧
      ∃ o ∈ facesOfCells tbl (layerConn m.nnode c), o.1.Perm (p.2.map (· + (m.nnode : Int)))) ∧
    ∀ x ∈ edges q, ∃ o ∈ facesOfCells tbl (layerConn m.nnode c), o.1.Perm (sideOf m.nnode x.1) := by
  rw [layer_faces h ht]
  constructor
  · intro p hp
    obtain ⟨⟨o, ho, h1⟩, ⟨o', ho', h2⟩, _⟩ := six_have (N := m.nnode) (quad_length h hp)
    exact ⟨⟨o, List.mem_flatMap.2 ⟨p, hp, ho⟩, h1⟩, ⟨o', List.mem_flatMap.2 ⟨p, hp, ho'⟩, h2⟩⟩
  · intro x hx
    obtain ⟨p, hp, he, _⟩ := edge_of hx
    obtain ⟨o, ho, h1⟩ := (six_have (N := m.nnode) (quad_length h hp)).2.2 _ he
    exact ⟨o, List.mem_flatMap.2 ⟨p, hp, ho⟩, h1⟩

end

end Cfd.Ic3
