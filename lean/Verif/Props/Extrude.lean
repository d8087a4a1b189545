import Verif.Lemmas.Extrude
import Verif.Lemmas.Merge
import Verif.Props.Connectivity
import Mathlib.Tactic.Ring
import Mathlib.Tactic.Linarith

/-! Properties C20-C22 (extrusion). -/

namespace Cfd
open Spec ElemConn
variable {R : Type}

theorem zip_flatMap_blocks {α β γ : Type} (l : List α) (f : α → List β) (g : α → List γ)
    (h : ∀ a ∈ l, (f a).length = (g a).length) :
    (l.flatMap f).zip (l.flatMap g) = l.flatMap fun a => (f a).zip (g a) := by
  induction l with
  | nil => rfl
  | cons a t ih =>
    simp only [List.flatMap_cons]
    rw [List.zip_append (h a (by simp)), ih (fun b hb => h b (by simp [hb]))]

theorem sweptEntry_zip (L N : Nat) (p : String × Entry) (hp : EntryWF p.2) :
    (indicesOf (sweptEntry L N p).2).zip (sweptEntry L N p).2.e2n.rows =
      (List.range L).flatMap fun (k : Nat) => ((indicesOf p.2).zip p.2.e2n.rows).map
        fun q => (q.1 + (k : Int) * N, sweptNodes N k q.2) := by
  have : indicesOf (sweptEntry L N p).2 =
      (List.range L).flatMap fun (k : Nat) => (indicesOf p.2).map fun x => x + (k : Int) * N := rfl
  rw [this]
  simp only [sweptEntry]
  rw [zip_flatMap_blocks _ _ _ (by intro k _; simp [hp.length])]
  congr 1
  funext k
  rw [List.zip_map]
  rfl

theorem swept_get? (L N : Nat) (tbl : Dict String Entry)
    (ht : ∀ p ∈ tbl, ∃ n x, swept p.1 = some (n, x) ∧ p.2.e2n.ncol = some n)
    {t x : String} {n : Nat} (hs : swept t = some (n, x)) :
    Dict.get? (tbl.map (sweptEntry L N)) x = (tbl.get? t).map fun e => (sweptEntry L N (t, e)).2 := by
  induction tbl with
  | nil => rfl
  | cons p r ih =>
    obtain ⟨n', x', hs', _⟩ := ht p (by simp)
    rw [List.map_cons]
    have hfst : sweptEntry L N p = (x', (sweptEntry L N p).2) := by simp [sweptEntry, hs']
    rw [hfst]
    obtain ⟨pk, pe⟩ := p
    simp only [Dict.get?]
    by_cases h : pk = t
    · subst h
      rw [hs] at hs'
      simp only [Option.some.injEq, Prod.mk.injEq] at hs'
      rw [if_pos hs'.2.symm, if_pos rfl]
      rfl
    · rw [if_neg h, if_neg (fun hx => h (swept_inj (by rw [← hx]; exact hs') hs).1)]
      exact ih fun q hq => ht q (by simp [hq])

/-- The elements of the extruded connectivity. -/
theorem swept_elementsOf (L N n' : Nat) (c : ElemConn) (hc : ConnWF c)
    (ht : ∀ p ∈ c.tbl, ∃ n x, swept p.1 = some (n, x) ∧ p.2.e2n.ncol = some n) :
    (∀ t n x, swept t = some (n, x) → elementsOf ⟨n', c.tbl.map (sweptEntry L N)⟩ x =
      (List.range L).flatMap fun (k : Nat) => (elementsOf c t).map
        fun q => (q.1 + (k : Int) * N, sweptNodes N k q.2)) ∧
    (∀ x, (∀ t n, swept t ≠ some (n, x)) → elementsOf ⟨n', c.tbl.map (sweptEntry L N)⟩ x = []) := by
  constructor
  · intro t n x hs
    unfold elementsOf
    simp only
    rw [swept_get? L N c.tbl ht hs]
    cases hg : c.tbl.get? t with
    | none => simp
    | some e =>
      have := sweptEntry_zip L N (t, e) (hc.entries _ (Dict.mem_of_get? hg))
      simpa using this
  · intro x hx
    unfold elementsOf
    simp only
    have : Dict.get? (c.tbl.map (sweptEntry L N)) x = none := by
      rw [Dict.get?_eq_none_iff]
      intro hm
      simp only [Dict.keys, List.map_map, List.mem_map] at hm
      obtain ⟨p, hp, hpx⟩ := hm
      obtain ⟨n, x', hs, _⟩ := ht p hp
      simp only [Function.comp, sweptEntry, hs, Option.getD_some] at hpx
      exact hx p.1 n (hpx ▸ hs)
    rw [this]

theorem swept_wf (L N : Nat) (c : ElemConn) (hc : ConnWF c)
    (ht : ∀ p ∈ c.tbl, ∃ n x, swept p.1 = some (n, x) ∧ p.2.e2n.ncol = some n) :
    ConnWF ⟨L * c.nelem, c.tbl.map (sweptEntry L N)⟩ := by
  have hent : ∀ p ∈ c.tbl.map (sweptEntry L N), EntryWF p.2 := by
    intro q hq
    obtain ⟨p, hp, rfl⟩ := List.mem_map.1 hq
    obtain ⟨n, x, hs, hn⟩ := ht p hp
    have hpw := hc.entries p hp
    refine ⟨⟨_, rfl, ?_⟩, ?_⟩
    · simp only [sweptEntry]
      rw [length_flatMap_const _ _ p.2.e2n.rows.length (by simp [hpw.length]),
        length_flatMap_const _ _ p.2.e2n.rows.length (by simp)]
    · simp only [sweptEntry, Arr2.WF, hs, Option.getD_some]
      intro r hr
      obtain ⟨k, _, hr⟩ := List.mem_flatMap.1 hr
      obtain ⟨r0, hr0, rfl⟩ := List.mem_map.1 hr
      have := hpw.2
      unfold Arr2.WF at this
      rw [hn] at this
      simp [sweptNodes, this r0 hr0]; omega
  refine ⟨?_, hent, ?_⟩
  · simp only [Dict.keys, List.map_map]
    rw [List.nodup_map_iff_inj_on]
    · intro p hp q hq hpq
      obtain ⟨n, x, hs, _⟩ := ht p hp
      obtain ⟨n', x', hs', _⟩ := ht q hq
      simp only [Function.comp, sweptEntry, hs, hs', Option.getD_some] at hpq
      subst hpq
      have hk := (swept_inj hs hs').1
      have h1 := Dict.get?_of_mem hc.keys (k := p.1) (v := p.2) hp
      have h2 := Dict.get?_of_mem hc.keys (k := q.1) (v := q.2) hq
      rw [hk, h2] at h1
      exact Prod.ext hk (Option.some.inj h1).symm
    · exact hc.keys.of_map _
  · rw [elements_length (c := ⟨_, _⟩) hent]
    rw [hc.nelem, elements_length hc.entries]
    unfold totalRows
    simp only [List.map_map]
    have : ∀ p ∈ c.tbl, ((fun p : String × Entry => p.2.e2n.rows.length) ∘ sweptEntry L N) p =
        L * p.2.e2n.rows.length := by
      intro p _
      simp only [Function.comp, sweptEntry]
      rw [length_flatMap_const _ _ p.2.e2n.rows.length (by simp), List.length_range]
    rw [List.map_congr_left this]
    clear this hent
    generalize c.tbl = l
    induction l with
    | nil => simp
    | cons a t ih => simp only [List.map_cons, List.sum_cons, Nat.mul_add, ih]

/-- Coordinates of a list of blocks. -/
theorem getElem?_blocks {α β : Type} (l : List α) (g : α → List β) (N : Nat)
    (h : ∀ a ∈ l, (g a).length = N) (k j : Nat) (a : α) (hk : l[k]? = some a) (hj : j < N) :
    (l.flatMap g)[k * N + j]? = (g a)[j]? := by
  induction l generalizing k with
  | nil => simp at hk
  | cons b t ih =>
    rw [List.flatMap_cons]
    cases k with
    | zero =>
      simp only [List.getElem?_cons_zero, Option.some.injEq] at hk
      subst hk
      rw [List.getElem?_append_left (by rw [h b (by simp)]; omega)]
      simp
    | succ k =>
      rw [List.getElem?_append_right (by rw [h b (by simp), Nat.succ_mul]; omega)]
      rw [h b (by simp)]
      rw [← ih (fun a ha => h a (by simp [ha])) k (by simpa using hk)]
      congr 1
      rw [Nat.succ_mul]; omega

theorem nodeAt_of_points (m : Mesh R) (pts : List (R × R × R))
    (h : m.coords = some (pts.map (·.1), pts.map (·.2.1), pts.map (·.2.2))) (i : Nat) :
    nodeAt m i = pts[i]? := by
  unfold nodeAt
  rw [h]
  simp only [List.getElem?_map]
  cases pts[i]? <;> rfl

theorem nodeAt_zip (m : Mesh R) {x y z : List R} (h : m.coords = some (x, y, z)) (i : Nat) :
    nodeAt m i = (x.zip (y.zip z))[i]? := by
  unfold nodeAt
  rw [h]
  simp only [List.getElem?_zip_eq_some, List.zip, List.getElem?_zipWith]
  cases x[i]? <;> cases y[i]? <;> cases z[i]? <;> rfl

/-- C20: extruding a mesh of surface cells with N nodes by p >= 2 planes gives a consistent mesh with
p N nodes and p-1 cells per cell. Node `k N + j` is node `j` translated by `planes[k] * direction`;
the cells of a type become cells of the swept type, layer after layer, layer `k` of a cell having its
nodes copied in planes `k` and `k+1`; there are no other cells; all nodes of cells exist if they did. -/
theorem C20_product_mesh [Add R] [Mul R] (so : List Int → List Int) (m : Mesh R)
    (c : ElemConn) (h : Extrudable m c) (d : R × R × R) (planes : List R) (hp : 2 ≤ planes.length)
    (domain : String) :
    ∃ m' c', m.exportExtruded so d planes domain = .ok m' ∧ m'.cell2node = some c' ∧ ConnWF c' ∧
      m'.nnode = planes.length * m.nnode ∧ m'.ncell = (planes.length - 1) * (elements c).length ∧
      (∀ i, i < m'.nnode ↔ (nodeAt m' i).isSome) ∧
      (∀ k s j p, planes[k]? = some s → nodeAt m j = some p →
        nodeAt m' (k * m.nnode + j) = some (translate p d s)) ∧
      (∀ t n x, swept t = some (n, x) → (elementsOf c' x).map (·.2) =
        (List.range (planes.length - 1)).flatMap fun k => (elementsOf c t).map
          fun q => sweptNodes m.nnode k q.2) ∧
      (∀ x, (∀ t n, swept t ≠ some (n, x)) → elementsOf c' x = []) ∧
      ((∀ e ∈ elements c, ∀ v ∈ e.2.2, 0 ≤ v ∧ v < m.nnode) →
        ∀ e ∈ elements c', ∀ v ∈ e.2.2, 0 ≤ v ∧ v < m'.nnode) := by
  obtain ⟨x, y, z, hc, hx, hy, hz⟩ := h.coords
  have heq := exportExtruded_eq so m c h hc d planes hp domain
  have hlen : (x.zip (y.zip z)).length = m.nnode := by simp [hx, hy, hz]
  obtain ⟨he1, he2⟩ := swept_elementsOf (planes.length - 1) m.nnode
    ((planes.length - 1) * c.nelem) c h.wf h.types
  have hwf := swept_wf (planes.length - 1) m.nnode c h.wf h.types
  refine ⟨_, _, heq, rfl, hwf, Nat.mul_comm _ _, ?_, ?_, ?_, ?_, he2, ?_⟩
  · rw [h.wf.nelem]
  · intro i
    rw [nodeAt_of_points _ _ rfl, Option.isSome_iff_exists]
    constructor
    · intro hi
      have : i < (planes.flatMap fun s => (x.zip (y.zip z)).map fun p => translate p d s).length := by
        rw [length_flatMap_const _ _ m.nnode (by intro a _; rw [List.length_map, hlen]), Nat.mul_comm]
        exact hi
      exact ⟨_, List.getElem?_eq_getElem this⟩
    · rintro ⟨a, ha⟩
      have := (List.getElem?_eq_some_iff.1 ha).1
      rw [length_flatMap_const _ _ m.nnode (by intro a _; rw [List.length_map, hlen]), Nat.mul_comm] at this
      exact this
  · intro k s j p hk hj
    rw [nodeAt_of_points _ _ rfl]
    rw [nodeAt_zip m hc] at hj
    have hjl : j < m.nnode := by rw [← hlen]; exact (List.getElem?_eq_some_iff.1 hj).1
    rw [getElem?_blocks _ _ m.nnode (by intro a _; rw [List.length_map, hlen]) k j s hk hjl]
    rw [List.getElem?_map, hj]
    rfl
  · intro t n x' hs
    rw [he1 t n x' hs, List.map_flatMap]
    simp [Function.comp_def]
  · intro hin e he v hv
    have hm := (mem_elements hwf.keys (t := e.1) (q := e.2)).1 he
    by_cases hsw : ∃ t n, swept t = some (n, e.1)
    · obtain ⟨t, n, hs⟩ := hsw
      rw [he1 t n e.1 hs] at hm
      obtain ⟨k, hk, hm⟩ := List.mem_flatMap.1 hm
      obtain ⟨q, hq, hqe⟩ := List.mem_map.1 hm
      rw [List.mem_range] at hk
      rw [← hqe] at hv
      simp only [sweptNodes, List.mem_append, List.mem_map] at hv
      have hmem := (mem_elements h.wf.keys (t := t) (q := q)).2 hq
      simp only
      have hle : (k + 2) * m.nnode ≤ m.nnode * planes.length := by
        rw [Nat.mul_comm m.nnode]; exact Nat.mul_le_mul_right _ (by omega)
      have hle' : ((k : Int) + 2) * m.nnode ≤ ((m.nnode * planes.length : Nat) : Int) := by
        exact_mod_cast hle
      have hk0 : (0 : Int) ≤ (k : Int) * m.nnode := Int.mul_nonneg (Int.natCast_nonneg _) (Int.natCast_nonneg _)
      rcases hv with ⟨u, hu, rfl⟩ | ⟨u, hu, rfl⟩ <;> have := hin _ hmem u hu
      · constructor
        · omega
        · have e2 : ((k : Int) + 2) * m.nnode = (k : Int) * m.nnode + 2 * m.nnode := by ring
          omega
      · have e1 : ((k : Int) + 1) * m.nnode = (k : Int) * m.nnode + m.nnode := by ring
        have e2 : ((k : Int) + 2) * m.nnode = (k : Int) * m.nnode + 2 * m.nnode := by ring
        constructor <;> omega
    · rw [he2 e.1 (fun t n hs => hsw ⟨t, n, hs⟩)] at hm
      simp at hm

/-- C20: less than two planes is refused. -/
theorem C20_planes_required [Add R] [Mul R] (so : List Int → List Int) (m : Mesh R) (d : R × R × R)
    (planes : List R) (hp : planes.length < 2) (domain : String) :
    m.exportExtruded so d planes domain = .error .assertion := by
  unfold Mesh.exportExtruded
  have : pyAssert (decide (1 < planes.length)) = .error .assertion := by
    unfold pyAssert; rw [if_neg]; simp; omega
  simp only [this]
  rfl

/-- C20: a mesh with cells of another type than nodes, bars, triangles and quadrangles, or without cells, is refused. -/
theorem C20_types_required [Add R] [Mul R] (so : List Int → List Int) (m : Mesh R) (d : R × R × R)
    (planes : List R) (domain : String) (h : ∀ c, m.cell2node = some c → ∃ t ∈ c.tbl.keys, t ∉ ["node1", "bar2", "tri3", "quad4"]) :
    ∃ e, m.exportExtruded so d planes domain = .error e := by
  cases hx : m.exportExtruded so d planes domain with
  | error e => exact ⟨e, rfl⟩
  | ok m' =>
    obtain ⟨-, c, c', hc, hc', -⟩ := extruded_parts hx
    obtain ⟨t, ht, hn⟩ := h c hc
    obtain ⟨t', ht', -⟩ := extrude_types hc' t ht
    have key : ∀ p ∈ extrudedFace, p.1 ∈ ["node1", "bar2", "tri3", "quad4"] := by decide
    exact absurd (key _ (Dict.mem_of_get? ht')) hn

/-- C20: a mesh without coordinates, or whose coordinates do not have the same length, is refused. -/
theorem C20_coordinates_required [Add R] [Mul R] (so : List Int → List Int) (m : Mesh R) (d : R × R × R)
    (planes : List R) (hp : 2 ≤ planes.length) (domain : String) :
    (m.coords = none → m.exportExtruded so d planes domain = .error .key) ∧
    ∀ x y z, m.coords = some (x, y, z) → ¬ (x.length = y.length ∧ y.length = z.length) →
      m.exportExtruded so d planes domain = .error .value := by
  have ha : pyAssert (decide (1 < planes.length)) = .ok () := by
    unfold pyAssert; rw [if_pos]; simp; omega
  unfold Mesh.exportExtruded Mesh.nodesNd
  constructor
  · intro hc
    simp only [ha, hc]
    rfl
  · intro x y z hc hn
    simp only [ha, hc]
    rw [if_neg hn]
    rfl

/-- Three nodes, of which the last has no `z`. -/
example : ({ (Mesh.new 1 3 : Mesh Int) with coords := some ([0, 1, 0], [0, 0, 1], [0, 0]) }).exportExtruded id (0, 0, 1) [0, 1]
    "dom" = .error .value :=
  (C20_coordinates_required id _ (0, 0, 1) [0, 1] (by decide) "dom").2 [0, 1, 0] [0, 0, 1] [0, 0] rfl (by decide)


/-- A square cut in two quadrangles and prolonged by a bar (7 nodes), with a node mark. -/
def exPlane : Mesh Int :=
  { ncell := 3, nnode := 7, nface := 0
    cell2node := some ⟨3, [("quad4", ⟨.range 0 1, ⟨some 4, [[0, 1, 4, 3], [1, 2, 5, 4]]⟩⟩),
      ("bar2", ⟨.list [2], ⟨some 2, [[5, 6]]⟩⟩)]⟩
    faces := []
    coords := some ([0, 1, 2, 0, 1, 2, 3], [0, 0, 0, 1, 1, 1, 1], [0, 0, 0, 0, 0, 0, 0])
    bocos := [("left", ⟨"left", .bdnode, "boundary", .list [0, 3], none⟩)] }

/-- The cells of `exPlane`. -/
def exPlaneCells : ElemConn := ⟨3, [("quad4", ⟨.range 0 1, ⟨some 4, [[0, 1, 4, 3], [1, 2, 5, 4]]⟩⟩),
      ("bar2", ⟨.list [2], ⟨some 2, [[5, 6]]⟩⟩)]⟩

theorem exPlane_extrudable : Extrudable exPlane exPlaneCells where
  coords := ⟨_, _, _, rfl, rfl, rfl, rfl⟩
  cells := rfl
  wf := ⟨by decide, by
    intro p hp
    simp only [exPlaneCells, List.mem_cons, List.not_mem_nil, or_false] at hp
    rcases hp with rfl | rfl
    · exact ⟨⟨[0, 1], rfl, rfl⟩, by simp [Arr2.WF]⟩
    · exact ⟨⟨[2], rfl, rfl⟩, by simp [Arr2.WF]⟩, by decide⟩
  types := by
    intro p hp
    simp only [exPlaneCells, List.mem_cons, List.not_mem_nil, or_false] at hp
    rcases hp with rfl | rfl
    · exact ⟨4, "hexa8", rfl, rfl⟩
    · exact ⟨2, "quad4", rfl, rfl⟩
  marks := by
    intro p hp
    simp only [exPlane, List.mem_cons, List.not_mem_nil, or_false] at hp
    subst hp
    exact ⟨rfl, by simp, by simp⟩
  names := by decide

/-- A case of C20 and one of a refusal. -/
example := C20_product_mesh id exPlane exPlaneCells exPlane_extrudable (0, 0, 1) [0, 10, 20] (by decide) "dom"
example := C20_planes_required id exPlane (0, 0, 1) [10] (by decide) "dom"
/-- A tetrahedron is not extruded. -/
example : ∃ e, ({ exPlane with cell2node := some ⟨1, [("tetra4", ⟨.range 0 0, ⟨some 4, [[0, 1, 3, 6]]⟩⟩)]⟩ }).exportExtruded id (0, 0, 1)
    [0, 10, 20] "dom" = .error e :=
  C20_types_required id _ (0, 0, 1) [0, 10, 20] "dom" (by intro c hc; cases hc; exact ⟨"tetra4", by decide, by decide⟩)

set_option synthInstance.maxSize 1000 in
example : (exPlane.exportExtruded id (0, 0, 1) [0, 10, 20] "dom").map
    (fun m => (m.nnode, m.ncell, nodeAt m 16, m.cell2node.map fun c => elementsOf c "hexa8")) =
    .ok (21, 6, some (2, 0, 20), some [(0, [0, 1, 4, 3, 7, 8, 11, 10]), (1, [1, 2, 5, 4, 8, 9, 12, 11]),
      (7, [7, 8, 11, 10, 14, 15, 18, 17]), (8, [8, 9, 12, 11, 15, 16, 19, 18])]) := by decide +kernel

/-! ## C21 -/

theorem flatMap_comm_perm {α β γ : Type} (l : List α) (m : List β) (f : α → β → List γ) :
    (l.flatMap fun a => m.flatMap (f a)).Perm (m.flatMap fun b => l.flatMap fun a => f a b) := by
  induction l with
  | nil =>
    have : (m.flatMap fun _ => ([] : List γ)) = [] := by induction m <;> simp_all
    simp [this]
  | cons a l ih =>
    rw [List.flatMap_cons]
    refine (List.Perm.append_left _ ih).trans ?_
    clear ih
    induction m with
    | nil => simp
    | cons b m ihm =>
      simp only [List.flatMap_cons, List.append_assoc]
      refine List.Perm.append_left _ ?_
      refine List.Perm.trans ?_ (List.Perm.append_left _ ihm)
      rw [← List.append_assoc, ← List.append_assoc]
      exact List.Perm.append_right _ List.perm_append_comm

theorem swept_allIndices (L N n' : Nat) (c : ElemConn) (hc : ConnWF c) :
    (allIndices ⟨n', c.tbl.map (sweptEntry L N)⟩).Perm
      ((List.range L).flatMap fun (k : Nat) => (allIndices c).map fun i => i + (k : Int) * N) := by
  have h1 : allIndices ⟨n', c.tbl.map (sweptEntry L N)⟩ =
      c.tbl.flatMap fun p => (List.range L).flatMap fun (k : Nat) =>
        ((indicesOf p.2).zip p.2.e2n.rows).map fun q => q.1 + (k : Int) * N := by
    unfold allIndices elements
    simp only
    rw [List.flatMap_map, List.map_flatMap]
    apply List.flatMap_congr
    intro p hp
    rw [List.map_map, sweptEntry_zip L N p (hc.entries p hp), List.map_flatMap]
    simp [Function.comp_def]
  have h2 : ∀ k : Nat, ((allIndices c).map fun i => i + (k : Int) * N) =
      c.tbl.flatMap fun p => ((indicesOf p.2).zip p.2.e2n.rows).map fun q => q.1 + (k : Int) * N := by
    intro k
    unfold allIndices elements
    rw [List.map_map, List.map_flatMap]
    simp [Function.comp_def]
  rw [h1]
  simp only [h2]
  exact flatMap_comm_perm _ _ _

/-- C21, exact values (missing: the claimed numbering, see below): layer `k` of cell `i` of a mesh of N
nodes is given number `i + k N`. -/
theorem C21_cell_numbers_partial [Add R] [Mul R] (so : List Int → List Int) (m : Mesh R)
    (c : ElemConn) (h : Extrudable m c) (d : R × R × R) (planes : List R) (hp : 2 ≤ planes.length)
    (domain : String) :
    ∃ m' c', m.exportExtruded so d planes domain = .ok m' ∧ m'.cell2node = some c' ∧
      ∀ t n x, swept t = some (n, x) → elementsOf c' x =
        (List.range (planes.length - 1)).flatMap fun (k : Nat) => (elementsOf c t).map
          fun q => (q.1 + (k : Int) * m.nnode, sweptNodes m.nnode k q.2) := by
  obtain ⟨x, y, z, hc, _⟩ := h.coords
  exact ⟨_, _, exportExtruded_eq so m c h hc d planes hp domain, rfl,
    (swept_elementsOf _ _ _ c h.wf h.types).1⟩

example := C21_cell_numbers_partial id exPlane exPlaneCells exPlane_extrudable (0, 0, 1) [0, 10, 20]
  (by decide) "dom"

/-- C21, when it holds (missing: the other cases, where it is false): starting from cells numbered
0..n-1, the extruded cells are numbered 0..(p-1)n-1 exactly when there is one layer, or no cell, or as
many nodes as cells. -/
theorem C21_numbering_iff_partial [Add R] [Mul R] (so : List Int → List Int) (m : Mesh R)
    (c : ElemConn) (h : Extrudable m c) (hv : ValidNumbering (allIndices c)) (d : R × R × R)
    (planes : List R) (hp : 2 ≤ planes.length) (domain : String) :
    ∃ m' c', m.exportExtruded so d planes domain = .ok m' ∧ m'.cell2node = some c' ∧
      (ValidNumbering (allIndices c') ↔
        planes.length = 2 ∨ elements c = [] ∨ m.nnode = (elements c).length) := by
  obtain ⟨x, y, z, hc, _⟩ := h.coords
  refine ⟨_, _, exportExtruded_eq so m c h hc d planes hp domain, rfl, ?_⟩
  obtain ⟨L, hL⟩ : ∃ L, planes.length = L + 2 := ⟨planes.length - 2, by omega⟩
  have hperm := swept_allIndices (planes.length - 1) m.nnode ((planes.length - 1) * c.nelem) c h.wf
  rw [show planes.length - 1 = L + 1 by omega] at hperm ⊢
  generalize m.nnode = N at *
  have hn : (allIndices c).length = (elements c).length := by simp [allIndices]
  generalize hcn : (elements c).length = n at *
  have hpn : (allIndices c).Perm (pyRange 0 n) := by
    have := perm_pyRange_of_valid hv; rwa [hn] at this
  have hperm2 := hperm.trans (List.Perm.flatMap_left (List.range (L + 1))
    (fun k _ => hpn.map fun i => i + (k : Int) * N))
  have hnil : elements c = [] ↔ n = 0 := by rw [← hcn]; simp
  rw [hnil]
  constructor
  · intro hval
    by_contra hcon
    simp only [not_or] at hcon
    obtain ⟨c1, c2, c3⟩ := hcon
    have hlen : (allIndices ⟨(L + 1) * c.nelem, c.tbl.map (sweptEntry (L + 1) N)⟩).length = (L + 1) * n := by
      rw [hperm2.length_eq, length_flatMap_const _ _ n (by simp [length_pyRange]), List.length_range]
    have hnd := (hperm2.nodup_iff).1 hval.1
    by_cases hlt : N < n
    · rw [List.nodup_flatMap] at hnd
      have := hnd.2
      rw [show L + 1 = (L - 1) + 1 + 1 by omega, List.range_succ_eq_map, List.range_succ_eq_map] at this
      simp only [List.map_cons, List.pairwise_cons, List.mem_cons] at this
      have h01 := this.1 1 (by simp)
      have m1 : (N : Int) ∈ (pyRange 0 n).map fun i => i + ((0 : Nat) : Int) * N :=
        List.mem_map.2 ⟨N, mem_pyRange.2 ⟨by omega, by omega⟩, by simp⟩
      have m2 : (N : Int) ∈ (pyRange 0 n).map fun i => i + ((1 : Nat) : Int) * N :=
        List.mem_map.2 ⟨0, mem_pyRange.2 ⟨by omega, by omega⟩, by simp⟩
      exact h01 m1 m2
    · have hbig : (n : Int) - 1 + (L : Int) * N ∈
          allIndices ⟨(L + 1) * c.nelem, c.tbl.map (sweptEntry (L + 1) N)⟩ := by
        rw [hperm2.mem_iff, List.mem_flatMap]
        exact ⟨L, by simp, List.mem_map.2 ⟨(n : Int) - 1, mem_pyRange.2 ⟨by omega, by omega⟩, rfl⟩⟩
      have h1 := ((hval.2 _).1 hbig).2
      rw [hlen] at h1
      push_cast at h1
      have h2 : (L : Int) * (n + 1) ≤ (L : Int) * N :=
        Int.mul_le_mul_of_nonneg_left (by omega) (by omega)
      have h3 : (L : Int) * (n + 1) = L * n + L := by ring
      have h4 : ((L : Int) + 1) * n = L * n + n := by ring
      omega
  · intro hcase
    have hgoal : ((List.range (L + 1)).flatMap fun (k : Nat) => (pyRange 0 n).map fun i => i + (k : Int) * N) =
        pyRange 0 (((L + 1) * n : Nat) : Int) := by
      by_cases hn0 : n = 0
      · subst hn0; simp [pyRange_eq_nil]
      have hN : L = 0 ∨ N = n := by omega
      have key : ∀ K, K ≤ L + 1 →
          ((List.range K).flatMap fun (k : Nat) => (pyRange 0 n).map fun i => i + (k : Int) * N) =
          pyRange 0 ((K * n : Nat) : Int) := by
        intro K
        induction K with
        | zero => intro _; simp [pyRange_eq_nil]
        | succ K ih =>
          intro hK
          rw [List.range_succ, List.flatMap_append, ih (by omega)]
          simp only [List.flatMap_cons, List.flatMap_nil, List.append_nil]
          rw [pyRange_shift]
          have e1 : (0 : Int) + (K : Int) * N = ((K * n : Nat) : Int) := by
            rcases hN with h | h
            · have : K = 0 := by omega
              subst this; simp
            · subst h; push_cast; ring
          have e2 : (n : Int) + (K : Int) * N = (((K + 1) * n : Nat) : Int) := by
            have : (0 : Int) + (K : Int) * N + n = ((K * n : Nat) : Int) + n := by rw [e1]
            push_cast at this ⊢
            linarith
          rw [e1, e2, pyRange_append (by omega)]
          push_cast
          have : ((K : Int) + 1) * n = K * n + n := by ring
          omega
      exact key (L + 1) (Nat.le_refl _)
    rw [hgoal] at hperm2
    exact valid_of_perm_pyRange hperm2


example := C21_numbering_iff_partial id exPlane exPlaneCells exPlane_extrudable
  (valid_of_perm_pyRange (n := 3) (by decide)) (0, 0, 1) [0, 10, 20] (by decide) "dom"

/-- C21 refuted: two layers of a 3 cell mesh with 7 nodes, correctly numbered, are numbered
0, 1, 7, 8 and 2, 9. -/
theorem C21_two_layers_refuted : ∃ (m : Mesh Int) (c : ElemConn), Extrudable m c ∧
    ValidNumbering (allIndices c) ∧
    (m.exportExtruded id (0, 0, 1) [0, 1, 2] "dom").map
      (fun m' => (m'.ncell, (m'.cell2node.map allIndices).getD [])) = .ok (6, [0, 1, 7, 8, 2, 9]) :=
  ⟨exPlane, exPlaneCells, exPlane_extrudable,
    valid_of_perm_pyRange (n := 3) (by decide), by decide +kernel⟩

/-! ## C22 -/

/-- C22, marks: every mark (not named domain0 or domain1) is kept with its name, dimension and type,
and designates the copies in all planes of the nodes it designated, plane after plane. -/
theorem C22_marks_copied [Add R] [Mul R] (so : List Int → List Int) (m : Mesh R)
    (c : ElemConn) (h : Extrudable m c) (d : R × R × R) (planes : List R) (hp : 2 ≤ planes.length)
    (domain : String) :
    ∃ m', m.exportExtruded so d planes domain = .ok m' ∧
      ∀ k b, m.bocos.get? k = some b → k ≠ domain ++ "0" → k ≠ domain ++ "1" →
        ∃ b', m'.bocos.get? k = some b' ∧ b'.name = b.name ∧ b'.geodim = b.geodim ∧ b'.type = b.type ∧
          markItems b' = (List.range planes.length).flatMap
            fun (i : Nat) => (markItems b).map fun v => v + (i : Int) * m.nnode := by
  obtain ⟨x, y, z, hc, _⟩ := h.coords
  refine ⟨_, exportExtruded_eq so m c h hc d planes hp domain, ?_⟩
  intro k b hb h0 h1
  refine ⟨copiedMark planes.length m.nnode b, ?_, rfl, rfl, rfl, rfl⟩
  simp only
  rw [Dict.get?_set_ne _ _ h1, Dict.get?_set_ne _ _ h0]
  have : ∀ l : Dict String Mark, l.get? k = some b →
      Dict.get? (l.map fun q => (q.1, copiedMark planes.length m.nnode q.2)) k =
        some (copiedMark planes.length m.nnode b) := by
    intro l
    induction l with
    | nil => intro hl; simp [Dict.get?] at hl
    | cons p t ih =>
      obtain ⟨pk, pb⟩ := p
      simp only [List.map_cons, Dict.get?]
      by_cases hpk : pk = k
      · rw [if_pos hpk, if_pos hpk]
        intro hl; rw [Option.some.inj hl]
      · rw [if_neg hpk, if_neg hpk]; exact ih
  exact this _ hb

example := C22_marks_copied id exPlane exPlaneCells exPlane_extrudable (0, 0, 1) [0, 10, 20] (by decide) "dom"

theorem nodelist_perm (so : List Int → List Int) (hso : Reorders so) (c : ElemConn) (hc : ConnWF c) :
    (c.nodelist so).Nodup ∧ ∀ v, v ∈ c.nodelist so ↔ ∃ e ∈ elements c, v ∈ e.2.2 := by
  unfold ElemConn.nodelist
  constructor
  · rw [(hso _).nodup_iff]; exact List.nodup_dedup _
  · intro v
    rw [(hso _).mem_iff, List.mem_dedup, List.mem_flatten]
    constructor
    · rintro ⟨l, hl, hv⟩
      obtain ⟨p, hp, rfl⟩ := List.mem_map.1 hl
      obtain ⟨r, hr, hvr⟩ := List.mem_flatten.1 hv
      obtain ⟨i, hi, rfl⟩ := List.mem_iff_getElem.1 hr
      have hlen := (hc.entries p hp).length
      refine ⟨(p.1, (indicesOf p.2)[i]'(by omega), p.2.e2n.rows[i]), ?_, hvr⟩
      unfold elements
      refine List.mem_flatMap.2 ⟨p, hp, List.mem_map.2 ⟨_, ?_, rfl⟩⟩
      rw [List.mem_iff_getElem]
      exact ⟨i, by simp; omega, by simp⟩
    · rintro ⟨e, he, hv⟩
      unfold elements at he
      obtain ⟨p, hp, he⟩ := List.mem_flatMap.1 he
      obtain ⟨q, hq, rfl⟩ := List.mem_map.1 he
      exact ⟨_, List.mem_map.2 ⟨p, hp, rfl⟩, List.mem_flatten.2 ⟨q.2, (List.of_mem_zip hq).2, hv⟩⟩

/-- C22, end planes: marks domain0 and domain1 designate, each once, the nodes used by the cells in the
first and in the last plane. -/
theorem C22_end_planes [Add R] [Mul R] (so : List Int → List Int) (hso : Reorders so) (m : Mesh R)
    (c : ElemConn) (h : Extrudable m c) (d : R × R × R) (planes : List R) (hp : 2 ≤ planes.length)
    (domain : String) :
    ∃ m' b0 b1, m.exportExtruded so d planes domain = .ok m' ∧
      m'.bocos.get? (domain ++ "0") = some b0 ∧ m'.bocos.get? (domain ++ "1") = some b1 ∧
      b0.geodim = .bdnode ∧ b1.geodim = .bdnode ∧ b0.type = "boundary" ∧ b1.type = "boundary" ∧
      (markItems b0).Nodup ∧ (markItems b1).Nodup ∧
      (∀ v, v ∈ markItems b0 ↔ ∃ e ∈ elements c, v ∈ e.2.2) ∧
      (∀ v, v ∈ markItems b1 ↔ ∃ e ∈ elements c, v - (planes.length - 1 : Int) * m.nnode ∈ e.2.2) := by
  obtain ⟨x, y, z, hc, _⟩ := h.coords
  obtain ⟨hnd, hmem⟩ := nodelist_perm so hso c h.wf
  have hne : domain ++ "0" ≠ domain ++ "1" := by
    intro he
    have := congrArg String.toList he
    simp at this
  refine ⟨_, ⟨domain ++ "0", .bdnode, "boundary", .list (c.nodelist so), none⟩, _,
    exportExtruded_eq so m c h hc d planes hp domain, ?_, Dict.get?_set_self _ _ _,
    rfl, rfl, rfl, rfl, hnd, ?_, hmem, ?_⟩
  · simp only
    rw [Dict.get?_set_ne _ _ hne, Dict.get?_set_self]
  · exact hnd.map (fun a b hab => by simpa using hab)
  · intro v
    rw [← hmem]
    have hcast : (((planes.length - 1) * m.nnode : Nat) : Int) = (planes.length - 1 : Int) * m.nnode := by
      rw [Int.natCast_mul]; congr 1; omega
    simp only [markItems, IndexList.toList, List.mem_map, hcast]
    constructor
    · rintro ⟨u, hu, rfl⟩
      simpa using hu
    · intro hv
      exact ⟨_, hv, by omega⟩

example := C22_end_planes id (fun l => List.Perm.refl l) exPlane exPlaneCells exPlane_extrudable (0, 0, 1)
  [0, 10, 20] (by decide) "dom"

/-- C22: no other mark appears. -/
theorem C22_no_other_mark [Add R] [Mul R] (so : List Int → List Int) (m : Mesh R)
    (c : ElemConn) (h : Extrudable m c) (d : R × R × R) (planes : List R) (hp : 2 ≤ planes.length)
    (domain : String) :
    ∃ m', m.exportExtruded so d planes domain = .ok m' ∧
      ∀ k ∈ m'.bocos.keys, k ∈ m.bocos.keys ∨ k = domain ++ "0" ∨ k = domain ++ "1" := by
  obtain ⟨x, y, z, hc, _⟩ := h.coords
  refine ⟨_, exportExtruded_eq so m c h hc d planes hp domain, ?_⟩
  intro k hk
  rw [Dict.mem_keys_iff] at hk
  obtain ⟨b, hb⟩ := hk
  simp only at hb
  by_cases h1 : k = domain ++ "1"
  · exact Or.inr (Or.inr h1)
  by_cases h0 : k = domain ++ "0"
  · exact Or.inr (Or.inl h0)
  rw [Dict.get?_set_ne _ _ h1, Dict.get?_set_ne _ _ h0] at hb
  left
  have := Dict.mem_of_get? hb
  obtain ⟨q, hq, hqk⟩ := List.mem_map.1 this
  simp only [Prod.mk.injEq] at hqk
  exact hqk.1 ▸ List.mem_map_of_mem hq

example := C22_no_other_mark id exPlane exPlaneCells exPlane_extrudable (0, 0, 1) [0, 10, 20] (by decide) "dom"

example : (exPlane.exportExtruded id (0, 0, 1) [0, 10, 20] "dom").map
    (fun m => m.bocos.map fun p => (p.1, markItems p.2)) =
    .ok [("left", [0, 3, 7, 10, 14, 17]), ("dom0", [0, 3, 1, 2, 4, 5, 6]),
      ("dom1", [14, 17, 15, 16, 18, 19, 20])] := by decide +kernel

end Cfd
