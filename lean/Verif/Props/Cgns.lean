import Verif.Lemmas.Cgns
import Verif.Lemmas.Ic3ReadVars

/-! # CGNS reader (C56) -/

namespace Cfd.Cgns
open Cfd.Spec Cfd.Spec.Cgns

variable {R : Type}

/-- **C56, sections.** The elements of one dimension come from the sections of this dimension and only from them: type by
type, section after section, with the numbers and the nodes of the file lowered by one. -/
theorem C56_sections (z : Zone R) (dim : Int) (h : SectionsOk z) :
    ∃ c, elemcon z dim = .ok c ∧ ConnWF c ∧
      (∀ t ∈ c.tbl.keys, ∃ k ∈ kinds, (k.dim : Int) = dim ∧ k.name = t) ∧
      (∀ k ∈ kinds, (k.dim : Int) = dim → elementsOf c k.name = elemsOfKind z k) ∧
      c.nelem = (elemsOfDim z dim).length := by
  obtain ⟨c, e, w, hk, el, hp⟩ := elemcon_ok z dim h
  refine ⟨c, e, w, hk, fun k hk hd => by rw [el k hk, if_pos hd], ?_⟩
  rw [w.nelem, ← hp.length_eq, List.length_map]

/-- **C56, numbering.** The elements are numbered from 0 exactly when their numbers in the file are 1, 2, ... (cell
sections may come in any order, but no section of another dimension may come before or between them). -/
theorem C56_numbering (z : Zone R) (dim : Int) (h : SectionsOk z) :
    ∃ c, elemcon z dim = .ok c ∧ List.Perm (allIndices c) ((fileNumbers z dim).map (· - 1)) ∧
      (List.Perm (allIndices c) (pyRange 0 c.nelem) ↔ List.Perm (fileNumbers z dim) (pyRange 1 (c.nelem + 1))) := by
  obtain ⟨c, e, w, hk, el, hp⟩ := elemcon_ok z dim h
  have hall : List.Perm (allIndices c) ((elemsOfDim z dim).map (·.1)) := by
    have := hp.map (·.1)
    rwa [List.map_map] at this
  have hnum : (elemsOfDim z dim).map (·.1) = (fileNumbers z dim).map (· - 1) := by
    unfold elemsOfDim elemsOfKind fileNumbers
    simp only [List.map_flatMap]
    congr 1
    funext k
    congr 1
    funext p
    rw [sectionElems_zip]
    unfold pyRange
    rw [List.map_map]
    have : p.2.last - 1 + 1 - (p.2.first - 1) = p.2.last + 1 - p.2.first := by omega
    rw [this]
    apply List.map_congr_left
    intro j _
    simp only [Function.comp_apply]
    omega
  rw [hnum] at hall
  have hr : pyRange 0 c.nelem = (pyRange 1 (c.nelem + 1)).map (· - 1) := by
    unfold pyRange
    rw [List.map_map]
    have : (c.nelem : Int) + 1 - 1 = c.nelem - 0 := by omega
    rw [this]
    apply List.map_congr_left
    intro j _
    simp only [Function.comp_apply]
    omega
  have hinj : Function.Injective (fun i : Int => i - 1) := fun a b h => by simp only at h; omega
  refine ⟨c, e, hall, ?_⟩
  rw [hr]
  constructor
  · intro h1
    exact (List.map_perm_map_iff hinj).1 (hall.symm.trans h1)
  · intro h1
    exact hall.trans (h1.map _)

/-- **C56, refused.** A section of another type (tetrahedra, pyramids, prisms, mixed, polygons...) is refused, whatever its
dimension. -/
theorem C56_unsupported (z : Zone R) (dim : Int) (h : ∃ p ∈ z.sections, ∀ k ∈ kinds, p.2.cgtype ≠ k.code) :
    ∃ e, elemcon z dim = .error e := by
  unfold elemcon
  generalize ElemConn.empty = c
  obtain ⟨p, hp, hk⟩ := h
  have hnone : eleCgns2local.get? p.2.cgtype = none := by
    have h0 : ∀ q ∈ eleCgns2local, ∃ k ∈ kinds, k.code = q.1 := by decide
    rw [Dict.get?_eq_none_iff]
    intro hm
    obtain ⟨q, hq, e⟩ := List.mem_map.1 hm
    obtain ⟨k, hk1, e1⟩ := h0 q hq
    exact hk k hk1 (by rw [e1, e])
  revert hp
  generalize z.sections = l0
  intro hp
  induction l0 generalizing c with
  | nil => simp at hp
  | cons q l ih =>
    rw [List.foldlM_cons]
    rw [List.mem_cons] at hp
    rcases hp with rfl | hp
    · refine ⟨.key, ?_⟩
      unfold addSection
      simp only [Dict.getE, hnone]
      rfl
    · cases addSection dim c q with
      | error e => exact ⟨e, rfl⟩
      | ok c' => exact ih c' hp

/-- Mark made from a condition. -/
theorem exportBC_ok (so : List Int → List Int) (hso : ∀ l, (so l).Perm l) (geodim : Int) (z : Zone R) (hz : ZoneOk z geodim)
    (p : String × Bc) (hp : p ∈ z.bcs) :
    ∃ g l, exportBC so geodim z p = .ok ⟨markName p, g, if Whole z p.2 then "internal" else "boundary", .list l, none⟩ ∧
      IsIndex z geodim p.2 g l := by
  obtain ⟨name, b⟩ := p
  have hname : b.family.getD name = markName (name, b) := by
    unfold markName; cases b.family <;> rfl
  have hfaces : OnFaces z b → ∃ c nodes, elemcon z (geodim - 1) = .ok c ∧
      c.nodesOfIndexlist so ((listed b).map (· - 1)) = .ok nodes ∧ nodes.Nodup ∧
      ∀ n, n ∈ nodes ↔ ∃ e ∈ listed b, ∃ r, (e - 1, r) ∈ elemsOfDim z (geodim - 1) ∧ n ∈ r := by
    intro hb
    obtain ⟨c, e, w, hk, el, hpm⟩ := elemcon_ok z (geodim - 1) hz.sections
    have hall : List.Perm (allIndices c) ((elemsOfDim z (geodim - 1)).map (·.1)) := by
      have := hpm.map (·.1)
      rwa [List.map_map] at this
    obtain ⟨nodes, e1, n1, m1⟩ := nodesOfIndexlist_ok so hso w (hall.nodup_iff.2 hz.faces) ((listed b).map (· - 1)) (by
      intro i hi
      obtain ⟨e, he, rfl⟩ := List.mem_map.1 hi
      obtain ⟨r, hr⟩ := (hz.bcs _ hp).2.1 hb e he
      exact hall.mem_iff.2 (List.mem_map.2 ⟨_, hr, rfl⟩))
    refine ⟨c, nodes, e, e1, n1, fun n => ?_⟩
    rw [m1]
    constructor
    · rintro ⟨i, hi, t, r, hm, hn⟩
      obtain ⟨e, he, rfl⟩ := List.mem_map.1 hi
      exact ⟨e, he, r, hpm.mem_iff.1 (List.mem_map.2 ⟨_, hm, rfl⟩), hn⟩
    · rintro ⟨e, he, r, hr, hn⟩
      obtain ⟨x, hx, e1⟩ := List.mem_map.1 (hpm.mem_iff.2 hr)
      exact ⟨e - 1, List.mem_map.2 ⟨e, he, rfl⟩, x.1, r, by rw [← e1]; exact hx, hn⟩
  obtain ⟨family, location, points, elems⟩ := b
  rcases (hz.bcs _ hp).1 with h | h | h
  · obtain ⟨h1, h2⟩ := h
    obtain ⟨l, rfl⟩ := Option.isSome_iff_exists.1 h1
    have hloc : location.getD "Vertex" = "Vertex" := by rcases h2 with h2 | h2 <;> simp only at h2 <;> subst h2 <;> rfl
    refine ⟨.node, l.map (· - 1), ?_, .inl ⟨⟨h1, h2⟩, rfl, rfl⟩⟩
    unfold exportBC bcIndex
    simp only [Except_bind_ok, hloc, hname]
    have hw : Whole z ⟨family, location, some l, elems⟩ ↔ l.length = z.nnode := by
      unfold Whole OnNodes listed
      simp only at h2
      simp [h2]
    simp only [hw]
    rw [if_neg (by decide), if_pos trivial]
    simp [pure, Except.pure]
  · rcases h with ⟨h1, h2⟩ | ⟨h1, l, h2, h3⟩
    · obtain ⟨l, rfl⟩ := Option.isSome_iff_exists.1 h1
      simp only at h2
      subst h2
      refine ⟨.cell, l.map (· - 1), ?_, .inr (.inl ⟨.inl ⟨h1, rfl⟩, rfl, rfl⟩)⟩
      unfold exportBC bcIndex
      simp only [Except_bind_ok, Option.getD_some, hname]
      have hw : ¬ Whole z ⟨family, some "CellCenter", some l, elems⟩ := by
        unfold Whole OnNodes listed
        simp
      simp only [hw, if_false]
      rw [if_neg (by decide), if_neg (by decide), if_pos trivial]
      rfl
    · simp only at h1 h2
      subst h1 h2
      refine ⟨.cell, l.map (· - 1), ?_, .inr (.inl ⟨.inr ⟨rfl, l, rfl, h3⟩, rfl, rfl⟩)⟩
      unfold exportBC bcIndex
      have hw : Whole z ⟨family, location, none, some l⟩ := .inr ⟨rfl, h3⟩
      simp only [List.length_map, h3, if_true, Except_bind_ok, hname, hw]
      rw [if_neg (by decide), if_neg (by decide)]
      rfl
  · obtain ⟨c, nodes, e1, e2, n1, m1⟩ := hfaces h
    refine ⟨.node, nodes, ?_, .inr (.inr ⟨h, rfl, n1, m1⟩)⟩
    rcases h with ⟨h1, h2⟩ | ⟨h1, l, h2, h3⟩
    · obtain ⟨l, rfl⟩ := Option.isSome_iff_exists.1 h1
      simp only at h2
      subst h2
      unfold exportBC bcIndex
      have hw : ¬ Whole z ⟨family, some "FaceCenter", some l, elems⟩ := by
        unfold Whole OnNodes listed
        simp
      simp only [Except_bind_ok, Option.getD_some, hname, hw, if_false, if_true, e1]
      unfold listed at e2
      simp only at e2
      rw [e2]
      rfl
    · simp only at h1 h2
      subst h1 h2
      unfold exportBC bcIndex
      have hw : ¬ Whole z ⟨family, location, none, some l⟩ := by
        unfold Whole OnNodes listed
        simp [h3]
      simp only [List.length_map, h3, if_true, if_false, Except_bind_ok, hname, hw, e1]
      unfold listed at e2
      simp only at e2
      rw [e2]
      rfl

/-- The elements of a supported section have nodes. -/
theorem elemsOfDim_nodes (z : Zone R) (dim : Int) (hz : SectionsOk z) : ∀ x ∈ elemsOfDim z dim, x.2 ≠ [] := by
  intro x hx
  unfold elemsOfDim elemsOfKind at hx
  obtain ⟨k, hk, hx⟩ := List.mem_flatMap.1 hx
  obtain ⟨p, hp, hx⟩ := List.mem_flatMap.1 hx
  have hk := (List.mem_filter.1 hk).1
  obtain ⟨hp, hc⟩ := List.mem_filter.1 hp
  have hc := of_decide_eq_true hc
  obtain ⟨k', hk', hs⟩ := hz p hp
  have hkk : k' = k := (by decide : ∀ k' ∈ kinds, ∀ k ∈ kinds, k'.code = k.code → k' = k) k' hk' k hk (by rw [← hs.code, hc])
  subst hkk
  have hpos : 0 < k'.nodes := (by decide : ∀ k ∈ kinds, 0 < k.nodes) k' hk
  unfold sectionElems at hx
  obtain ⟨j, hj, rfl⟩ := List.mem_map.1 hx
  rw [List.mem_range] at hj
  have hsz := hs.size
  obtain ⟨n, hn⟩ : ∃ n : Nat, p.2.last - p.2.first + 1 = n := ⟨(p.2.last - p.2.first + 1).toNat, by omega⟩
  rw [hn] at hj hsz
  have hsz : p.2.conn.length = n * k'.nodes := by exact_mod_cast hsz
  have hj : j < n := by simpa using hj
  intro h0
  have hl := congrArg List.length h0
  have h1 : (j + 1) * k'.nodes ≤ n * k'.nodes := Nat.mul_le_mul_right _ hj
  rw [Nat.add_mul] at h1
  simp only [List.length_map, List.length_take, List.length_drop, List.length_nil] at hl
  omega

/-- The nodes of a list of faces are none exactly when no face is listed. -/
theorem nodesOfIndexlist_nil (so : List Int → List Int) (hso : ∀ l, (so l).Perm l) {c : ElemConn} (hc : ConnWF c)
    (hne : ∀ x ∈ (elements c).map (·.2), x.2 ≠ []) {ids nodes : List Int} (h : c.nodesOfIndexlist so ids = .ok nodes) :
    nodes = [] ↔ ids = [] := by
  have hidx : c.indexLists = .ok (c.tbl.map fun p => indicesOf p.2) := by
    unfold ElemConn.indexLists
    exact mapM_ok_of_forall (g := fun p : String × Entry => indicesOf p.2) fun p hp => (hc.entries p hp).toList
  have hz : ((c.tbl.map fun p => indicesOf p.2).flatten).zip ((c.tbl.map fun p => p.2.e2n.rows).flatten) =
      (elements c).map (·.2) := by
    rw [zip_flatten _ (fun p : String × Entry => indicesOf p.2) (fun p => p.2.e2n.rows) fun p hp => (hc.entries p hp).length]
    unfold elements
    rw [List.map_flatMap, List.flatMap_def]
    congr 1
    apply List.map_congr_left
    intro p _
    rw [List.map_map]
    exact (List.map_id _).symm
  unfold ElemConn.nodesOfIndexlist at h
  rw [hidx] at h
  simp only [Except_bind_ok, hz] at h
  obtain ⟨l, hl, h⟩ := bind_eq_ok.1 h
  simp only [Except_pure, Except.ok.injEq] at h
  subst h
  constructor
  · intro h0
    cases ids with
    | nil => rfl
    | cons i ids =>
      exfalso
      obtain ⟨r, hr, hi⟩ := mapM_mem_ok hl (List.mem_cons_self (a := i))
      have hr0 : r ≠ [] := by
        cases hb : ElemConn.lastBinding ((elements c).map (·.2)) i with
        | none => rw [hb] at hi; cases hi
        | some r' =>
          rw [hb] at hi
          cases hi
          unfold ElemConn.lastBinding at hb
          obtain ⟨p, hp, rfl⟩ := Option.map_eq_some_iff.1 hb
          exact hne p (List.mem_reverse.1 (List.mem_of_find?_eq_some hp))
      obtain ⟨n, hn⟩ := List.exists_mem_of_ne_nil r hr0
      have : n ∈ so l.flatten.dedup := (hso _).mem_iff.2 (List.mem_dedup.2 (List.mem_flatten.2 ⟨r, hr, hn⟩))
      rw [h0] at this
      cases this
  · rintro rfl
    simp only [List.mapM_nil, Except_pure, Except.ok.injEq] at hl
    subst hl
    exact (hso _).eq_nil

/-- What the loop on conditions finds in a mark: its type, and if it lists something. -/
theorem exportBC_shape (so : List Int → List Int) (hso : ∀ l, (so l).Perm l) (geodim : Int) (z : Zone R) (hz : SectionsOk z)
    (p : String × Bc) {mk : Mark} (h : exportBC so geodim z p = .ok mk) :
    (mk.type = "internal" ↔ Whole z p.2) ∧ ∃ l, mk.index = .list l ∧ (l = [] ↔ listed p.2 = []) := by
  obtain ⟨c, e, w, -, -, hpm⟩ := elemcon_ok z (geodim - 1) hz
  have hne : ∀ x ∈ (elements c).map (·.2), x.2 ≠ [] := fun x hx => elemsOfDim_nodes z _ hz x (hpm.mem_iff.1 hx)
  have ht : ∀ b : Bool, ((if b then "internal" else "boundary") = "internal") ↔ b = true := by decide
  obtain ⟨name, family, location, points, elems⟩ := p
  unfold exportBC bcIndex at h
  unfold Whole OnNodes listed
  cases points with
  | some l =>
    simp only [Except_bind_ok] at h
    split at h
    · rename_i hloc
      rw [e, Except_bind_ok] at h
      obtain ⟨nodes, hn, h⟩ := bind_eq_ok.1 h
      cases h
      refine ⟨?_, nodes, rfl, ?_⟩
      · rw [ht]
        cases location with
        | none => exact absurd hloc (by decide)
        | some loc =>
          simp only [Option.getD_some] at hloc
          subst hloc
          simp
      · rw [nodesOfIndexlist_nil so hso w hne hn]
        simp
    · split at h
      · rename_i hloc
        cases h
        refine ⟨?_, _, rfl, by simp⟩
        rw [ht]
        cases location with
        | none => simp
        | some loc =>
          simp only [Option.getD_some] at hloc
          subst hloc
          simp
      · split at h
        · rename_i hloc
          cases h
          refine ⟨?_, _, rfl, by simp⟩
          rw [ht]
          cases location with
          | none => exact absurd hloc (by decide)
          | some loc =>
            simp only [Option.getD_some] at hloc
            subst hloc
            simp
        · cases h
  | none =>
    cases elems with
    | none => cases h
    | some l =>
      simp only [List.length_map] at h
      by_cases hl : l.length = z.ncell
      · simp only [hl, if_true, Except_bind_ok] at h
        rw [if_neg (by decide), if_neg (by decide)] at h
        cases h
        refine ⟨by simp [hl], _, rfl, by simp⟩
      · simp only [hl, if_false, if_true, Except_bind_ok] at h
        rw [e, Except_bind_ok] at h
        obtain ⟨nodes, hn, h⟩ := bind_eq_ok.1 h
        cases h
        refine ⟨by simp [hl], nodes, rfl, ?_⟩
        rw [nodesOfIndexlist_nil so hso w hne hn]
        simp

/-- One condition in the loop: added unless it is the whole domain, refused if it lists nothing. -/
theorem addBC_eq (so : List Int → List Int) (hso : ∀ l, (so l).Perm l) (geodim : Int) (z : Zone R) (hz : SectionsOk z)
    (p : String × Bc) {mk : Mark} (h : exportBC so geodim z p = .ok mk) (m : Mesh R) :
    addBC so geodim z m p = if Whole z p.2 then .ok m else if listed p.2 = [] then .error .value else .ok (m.addBoco mk) := by
  obtain ⟨h1, l, h2, h3⟩ := exportBC_shape so hso geodim z hz p h
  unfold addBC
  rw [h, Except_bind_ok]
  simp only [h1]
  split
  · rfl
  · unfold shown
    rw [h2]
    cases l with
    | nil => rw [if_pos (h3.1 rfl)]; rfl
    | cons i l => rw [if_neg fun h0 => by cases h3.2 h0]; rfl

theorem addBC_fold (so : List Int → List Int) (hso : ∀ l, (so l).Perm l) (geodim : Int) (z : Zone R) (hz : ZoneOk z geodim)
    (l : List (String × Bc)) (hl : ∀ p ∈ l, p ∈ z.bcs) (m : Mesh R) :
    ∃ m', l.foldlM (addBC so geodim z) m = .ok m' ∧ m' = { m with bocos := m'.bocos } ∧
      ∀ name, match (l.filter fun p => ¬ Whole z p.2 ∧ markName p = name).getLast? with
        | none => m'.bocos.get? name = m.bocos.get? name
        | some p => ∃ g ind, m'.bocos.get? name = some ⟨name, g, "boundary", .list ind, none⟩ ∧ IsIndex z geodim p.2 g ind := by
  induction l generalizing m with
  | nil => exact ⟨m, rfl, rfl, fun _ => rfl⟩
  | cons p l ih =>
    obtain ⟨g, ind, e, hi⟩ := exportBC_ok so hso geodim z hz p (hl p (by simp))
    rw [List.foldlM_cons, addBC_eq so hso geodim z hz.sections p e]
    by_cases hw : Whole z p.2
    · obtain ⟨m', e1, e2, h⟩ := ih (fun q hq => hl q (by simp [hq])) m
      refine ⟨m', ?_, e2, fun name => ?_⟩
      · simp only [hw, if_true]
        exact e1
      · have := h name
        simpa [List.filter_cons, hw] using this
    · obtain ⟨m', e1, e2, h⟩ := ih (fun q hq => hl q (by simp [hq])) (m.addBoco ⟨markName p, g, "boundary", .list ind, none⟩)
      refine ⟨m', ?_, ?_, fun name => ?_⟩
      · simp only [hw, if_false]
        rw [if_neg ((hz.bcs p (hl p (by simp))).2.2 hw)]
        exact e1
      · rw [e2]; rfl
      · have hn := h name
        by_cases hname : markName p = name
        · have hf : ((p :: l).filter fun p => decide (¬ Whole z p.2 ∧ markName p = name)) =
            p :: l.filter fun p => decide (¬ Whole z p.2 ∧ markName p = name) := by
            rw [List.filter_cons, if_pos (by simp [hw, hname])]
          rw [hf, List.getLast?_cons]
          cases hlast : (l.filter fun p => decide (¬ Whole z p.2 ∧ markName p = name)).getLast? with
          | none =>
            rw [hlast] at hn
            refine ⟨g, ind, ?_, hi⟩
            simp only at hn
            rw [hn]
            subst hname
            exact Dict.get?_set_self _ _ _
          | some q =>
            rw [hlast] at hn
            exact hn
        · have hf : ((p :: l).filter fun p => decide (¬ Whole z p.2 ∧ markName p = name)) =
            l.filter fun p => decide (¬ Whole z p.2 ∧ markName p = name) := by
            rw [List.filter_cons, if_neg (by simp [hname])]
          rw [hf]
          cases hlast : (l.filter fun p => decide (¬ Whole z p.2 ∧ markName p = name)).getLast? with
          | none =>
            rw [hlast] at hn
            simp only at hn ⊢
            rw [hn]
            exact Dict.get?_set_ne _ _ (Ne.symm hname)
          | some q =>
            rw [hlast] at hn
            exact hn

/-- **C56, mesh.** A zone that can be read gives a mesh with its coordinates, its cells (as in `C56_sections`), and under
each name the last condition of that name which is not the whole domain: the nodes listed, the nodes of the faces listed,
or the cells listed, from 0. There is no other mark. -/
theorem C56_mesh (so : List Int → List Int) (hso : ∀ l, (so l).Perm l) (geodim : Int) (z : Zone R) (hz : ZoneOk z geodim) :
    ∃ m c, exportMesh so geodim z = .ok m ∧ elemcon z geodim = .ok c ∧ m.cell2node = some c ∧ m.ncell = c.nelem ∧
      m.nnode = z.nnode ∧ m.coords = some (z.x, z.y, z.z) ∧
      ∀ name, match lastNamed z name with
        | none => m.bocos.get? name = none
        | some p => ∃ g ind, m.bocos.get? name = some ⟨name, g, "boundary", .list ind, none⟩ ∧ IsIndex z geodim p.2 g ind := by
  obtain ⟨c, e, -⟩ := elemcon_ok z geodim hz.sections
  have hd : bcDict z = z.bcs := by
    unfold bcDict
    rw [Ic3.foldl_set_new z.bcs (fun p => p.1) (fun p => p.2) [] (by simpa [Dict.keys] using hz.names)]
    simp
  unfold exportMesh Mesh.setCoords
  rw [hd, e]
  simp only [Mesh.new, hz.lx, hz.ly, hz.lz, decide_true, pyAssert, if_true, Except_bind_ok, pure, Except.pure]
  obtain ⟨m', e1, e2, h⟩ := addBC_fold so hso geodim z hz z.bcs (fun p hp => hp) _
  refine ⟨m', c, e1, rfl, by rw [e2]; rfl, by rw [e2]; rfl, by rw [e2]; rfl, by rw [e2]; rfl, ?_⟩
  intro name
  have := h name
  unfold lastNamed
  split at this
  · rw [this]; rfl
  · exact this

theorem lastBinding_some_iff (pairs : List (Int × List Int)) (i : Int) :
    (∃ r, ElemConn.lastBinding pairs i = some r) ↔ i ∈ pairs.map (·.1) := by
  unfold ElemConn.lastBinding
  constructor
  · rintro ⟨r, hr⟩
    obtain ⟨p, hp, -⟩ := Option.map_eq_some_iff.1 hr
    have h1 := List.find?_some hp
    have h2 := List.mem_of_find?_eq_some hp
    simp only [decide_eq_true_eq] at h1
    exact List.mem_map.2 ⟨p, List.mem_reverse.1 h2, h1⟩
  · intro h
    obtain ⟨p, hp, h1⟩ := List.mem_map.1 h
    cases hf : pairs.reverse.find? fun p => decide (p.1 = i) with
    | some q => exact ⟨q.2, rfl⟩
    | none => exact absurd h1 (by simpa using List.find?_eq_none.1 hf p (List.mem_reverse.2 hp))

theorem mapM_isOk_iff {α β : Type} (f : α → Py β) (l : List α) : (∃ r, l.mapM f = .ok r) ↔ ∀ a ∈ l, ∃ b, f a = .ok b := by
  induction l with
  | nil => simp [pure, Except.pure]
  | cons a t ih =>
    rw [List.mapM_cons]
    constructor
    · rintro ⟨r, hr⟩
      obtain ⟨b, hb, hr⟩ := bind_eq_ok.1 hr
      obtain ⟨bs, hbs, -⟩ := bind_eq_ok.1 hr
      exact List.forall_mem_cons.2 ⟨⟨b, hb⟩, ih.1 ⟨bs, hbs⟩⟩
    · intro h
      obtain ⟨⟨b, hb⟩, ht⟩ := List.forall_mem_cons.1 h
      obtain ⟨bs, hbs⟩ := ih.2 ht
      exact ⟨b :: bs, by rw [hb, hbs]; rfl⟩

theorem nodesOfIndexlist_isOk (so : List Int → List Int) {c : ElemConn} (hc : ConnWF c) (ids : List Int) :
    (∃ nodes, c.nodesOfIndexlist so ids = .ok nodes) ↔ ∀ e ∈ ids, e ∈ allIndices c := by
  have hidx : c.indexLists = .ok (c.tbl.map fun p => indicesOf p.2) := by
    unfold ElemConn.indexLists
    exact mapM_ok_of_forall (g := fun p : String × Entry => indicesOf p.2) fun p hp => (hc.entries p hp).toList
  have hz : ((c.tbl.map fun p => indicesOf p.2).flatten).zip ((c.tbl.map fun p => p.2.e2n.rows).flatten) =
      (elements c).map (·.2) := by
    rw [zip_flatten _ (fun p : String × Entry => indicesOf p.2) (fun p => p.2.e2n.rows) fun p hp => (hc.entries p hp).length]
    unfold elements
    rw [List.map_flatMap, List.flatMap_def]
    congr 1
    apply List.map_congr_left
    intro p _
    rw [List.map_map]
    exact (List.map_id _).symm
  unfold ElemConn.nodesOfIndexlist
  rw [hidx]
  simp only [Except_bind_ok, hz]
  have hb : ∀ i, (∃ b, (match ElemConn.lastBinding ((elements c).map (·.2)) i with
      | some r => Except.ok r
      | none => Except.error PyErr.type : Py (List Int)) = .ok b) ↔ i ∈ allIndices c := by
    intro i
    have h1 := lastBinding_some_iff ((elements c).map (·.2)) i
    rw [List.map_map] at h1
    refine Iff.trans ?_ h1
    cases ElemConn.lastBinding ((elements c).map (·.2)) i with
    | none => simp
    | some r => simp
  constructor
  · rintro ⟨nodes, h⟩ e he
    obtain ⟨l, hl, -⟩ := bind_eq_ok.1 h
    exact (hb e).1 ((mapM_isOk_iff _ _).1 ⟨l, hl⟩ e he)
  · intro h
    obtain ⟨l, hl⟩ := (mapM_isOk_iff _ ids).2 fun e he => (hb e).2 (h e he)
    exact ⟨_, bind_eq_ok.2 ⟨l, hl, rfl⟩⟩

theorem exportBC_isOk (so : List Int → List Int) (geodim : Int) (z : Zone R) (hz : SectionsOk z) (p : String × Bc) :
    (∃ b, exportBC so geodim z p = .ok b) ↔ (OnNodes p.2 ∨ OnCells z p.2 ∨ OnFaces z p.2) ∧
      (OnFaces z p.2 → ∀ e ∈ listed p.2, ∃ r, (e - 1, r) ∈ elemsOfDim z (geodim - 1)) := by
  obtain ⟨c, e, w, hk, el, hpm⟩ := elemcon_ok z (geodim - 1) hz
  have hall : List.Perm (allIndices c) ((elemsOfDim z (geodim - 1)).map (·.1)) := by
    have := hpm.map (·.1)
    rwa [List.map_map] at this
  have hf : ∀ l : List Int, (∃ nodes, c.nodesOfIndexlist so (l.map (· - 1)) = .ok nodes) ↔
      ∀ e ∈ l, ∃ r, (e - 1, r) ∈ elemsOfDim z (geodim - 1) := by
    intro l
    rw [nodesOfIndexlist_isOk so w]
    constructor
    · intro h e he
      obtain ⟨x, hx, e1⟩ := List.mem_map.1 (hall.mem_iff.1 (h _ (List.mem_map.2 ⟨e, he, rfl⟩)))
      exact ⟨x.2, by rw [← e1]; exact hx⟩
    · intro h i hi
      obtain ⟨e, he, rfl⟩ := List.mem_map.1 hi
      obtain ⟨r, hr⟩ := h e he
      exact hall.mem_iff.2 (List.mem_map.2 ⟨_, hr, rfl⟩)
  obtain ⟨name, family, location, points, elems⟩ := p
  have hface : ∀ (l : List Int) (n t : String), (∃ m, (do
      let facecon ← elemcon z (geodim - 1)
      let nodes ← facecon.nodesOfIndexlist so (l.map (· - 1))
      return (⟨n, .node, t, .list nodes, none⟩ : Mark) : Py Mark) = .ok m) ↔
        ∀ e ∈ l, ∃ r, (e - 1, r) ∈ elemsOfDim z (geodim - 1) := by
    intro l n t
    rw [← hf l, e]
    simp only [Except_bind_ok]
    constructor
    · rintro ⟨m, hm⟩
      obtain ⟨nodes, hn, -⟩ := bind_eq_ok.1 hm
      exact ⟨nodes, hn⟩
    · rintro ⟨nodes, hn⟩
      exact ⟨_, by rw [hn]; rfl⟩
  unfold exportBC bcIndex OnNodes OnCells OnFaces listed
  cases points with
  | some l =>
    simp only [Except_bind_ok, Option.isSome_some, true_and, reduceCtorEq, false_and, or_false]
    cases location with
    | none => simp [pure, Except.pure]
    | some loc =>
      by_cases h1 : loc = "FaceCenter"
      · subst h1
        simp only [Option.getD_some, if_true]
        rw [hface]
        simp
      · by_cases h2 : loc = "Vertex"
        · subst h2; simp [pure, Except.pure]
        · by_cases h3 : loc = "CellCenter"
          · subst h3; simp [pure, Except.pure]
          · simp [h1, h2, h3]
  | none =>
    cases elems with
    | none => simp [bind, Except.bind]
    | some l =>
      simp only [List.length_map]
      by_cases h : l.length = z.ncell
      · simp [h, pure, Except.pure, bind, Except.bind]
      · simp only [h, if_false, Except_bind_ok, if_true]
        rw [hface]
        simp [h]

/-- **C56, exactly the readable zones.** With supported sections and distinct names of conditions, the mesh is exported exactly when
there is one position per node and each condition has a list, a known location, lists boundary elements of the file where it
lists faces, and lists something unless it is the whole domain. -/
theorem C56_readable_iff (so : List Int → List Int) (hso : ∀ l, (so l).Perm l) (geodim : Int) (z : Zone R) (hz : SectionsOk z) (hn : (z.bcs.map (·.1)).Nodup) :
    (∃ m, exportMesh so geodim z = .ok m) ↔
      (z.x.length = z.nnode ∧ z.y.length = z.nnode ∧ z.z.length = z.nnode) ∧ ∀ p ∈ z.bcs, BcOk z geodim p.2 := by
  obtain ⟨c, e, -⟩ := elemcon_ok z geodim hz
  have hd : bcDict z = z.bcs := by
    unfold bcDict
    rw [Ic3.foldl_set_new z.bcs (fun p => p.1) (fun p => p.2) [] (by simpa [Dict.keys] using hn)]
    simp
  have hfold : ∀ (l : List (String × Bc)) (m : Mesh R),
      (∃ m', l.foldlM (addBC so geodim z) m = .ok m') ↔ ∀ p ∈ l, BcOk z geodim p.2 := by
    intro l
    induction l with
    | nil => intro m; simp [pure, Except.pure]
    | cons p t ih =>
      intro m
      rw [List.foldlM_cons, List.forall_mem_cons]
      unfold BcOk
      rw [← and_assoc, ← exportBC_isOk so geodim z hz p]
      cases hb : exportBC so geodim z p with
      | error x =>
        have : addBC so geodim z m p = .error x := by unfold addBC; rw [hb]; rfl
        rw [this]
        simp [bind, Except.bind]
      | ok b =>
        rw [addBC_eq so hso geodim z hz p hb]
        by_cases hw : Whole z p.2
        · rw [if_pos hw, Except_bind_ok, ih]
          simp [hw, BcOk]
        · rw [if_neg hw]
          by_cases h0 : listed p.2 = []
          · rw [if_pos h0]
            simp [bind, Except.bind, hw, h0]
          · rw [if_neg h0, Except_bind_ok, ih]
            simp [h0, BcOk]
  unfold exportMesh Mesh.setCoords
  rw [hd, e]
  simp only [Mesh.new]
  constructor
  · rintro ⟨m, h⟩
    obtain ⟨m0, h0, h⟩ := bind_eq_ok.1 h
    obtain ⟨_, hx, h0⟩ := bind_eq_ok.1 h0
    obtain ⟨_, hy, h0⟩ := bind_eq_ok.1 h0
    obtain ⟨_, hz', h0⟩ := bind_eq_ok.1 h0
    exact ⟨⟨of_decide_eq_true (pyAssert_eq_ok.1 hx), of_decide_eq_true (pyAssert_eq_ok.1 hy),
      of_decide_eq_true (pyAssert_eq_ok.1 hz')⟩, (hfold _ _).1 ⟨m, h⟩⟩
  · rintro ⟨⟨hx, hy, hz'⟩, h⟩
    simp only [hx, hy, hz', decide_true, pyAssert, Bool.and_self, if_true, Except_bind_ok, Except_pure]
    exact (hfold _ _).2 h

/-- **C56, zone.** In a file with one base, the zone read is the only one, or the one asked for; several zones without a
name, an unknown name or a structured zone are refused. -/
theorem C56_zone (b : Base R) (zone : Option String) :
    readData [b] zone = match zone with
      | some n => match b.zones.get? n with
        | some z => if z.unstructured then .ok (b.dim, z) else .error .assertion
        | none => .error .key
      | none => match b.zones with
        | [p] => if p.2.unstructured then .ok (b.dim, p.2) else .error .assertion
        | _ => .error .assertion := by
  obtain ⟨dim, zones⟩ := b
  cases zone with
  | some n =>
    simp only [readData, List.getLast?_singleton, Except_bind_ok, Dict.getE]
    cases zones.get? n with
    | none => rfl
    | some z => simp only [Except_bind_ok, pyAssert]; cases z.unstructured <;> rfl
  | none =>
    simp only [readData, List.getLast?_singleton, Except_bind_ok]
    match zones with
    | [] => rfl
    | [p] => simp only [Except_bind_ok, pyAssert]; cases p.2.unstructured <;> rfl
    | _ :: _ :: _ => rfl

/-! ## A case -/

/-- Two hexahedra, two boundary faces, a node condition and a face condition. -/
def twoHexas : Zone Int :=
  { unstructured := true, nnode := 12, ncell := 2
    x := List.replicate 12 0, y := List.replicate 12 1, z := List.replicate 12 2
    sections := [("Hexa", ⟨17, 1, 2, [1, 2, 5, 4, 7, 8, 11, 10, 2, 3, 6, 5, 8, 9, 12, 11]⟩),
      ("Wall", ⟨7, 3, 4, [1, 4, 10, 7, 3, 6, 12, 9]⟩)]
    bcs := [("bottom", ⟨none, none, some [1, 2, 3], none⟩), ("left", ⟨some "walls", some "FaceCenter", some [3, 4], none⟩),
      ("all", ⟨none, none, none, some [1, 2]⟩)] }

theorem twoHexas_ok : ZoneOk twoHexas 3 where
  sections := by
    intro p hp
    simp only [twoHexas, List.mem_cons, List.not_mem_nil, or_false] at hp
    rcases hp with rfl | rfl
    · exact ⟨⟨17, "hexa8", 8, 3⟩, by decide, ⟨rfl, by decide⟩⟩
    · exact ⟨⟨7, "quad4", 4, 2⟩, by decide, ⟨rfl, by decide⟩⟩
  lx := rfl
  ly := rfl
  lz := rfl
  faces := by decide
  names := by decide
  bcs := by
    intro p hp
    simp only [twoHexas, List.mem_cons, List.not_mem_nil, or_false] at hp
    rcases hp with rfl | rfl | rfl
    · refine ⟨.inl ⟨rfl, .inl rfl⟩, ?_, fun _ => by decide⟩
      rintro (⟨-, h⟩ | ⟨h, -⟩) <;> cases h
    · refine ⟨.inr (.inr (.inl ⟨rfl, rfl⟩)), fun _ e he => ?_, fun _ => by decide⟩
      simp only [listed, List.mem_cons, List.not_mem_nil, or_false] at he
      rcases he with rfl | rfl
      · exact ⟨[0, 3, 9, 6], by decide⟩
      · exact ⟨[2, 5, 11, 8], by decide⟩
    · refine ⟨.inr (.inl (.inr ⟨rfl, _, rfl, rfl⟩)), ?_, fun _ => by decide⟩
      rintro (⟨h, -⟩ | ⟨-, l, h, h'⟩)
      · cases h
      · cases h; exact absurd rfl h'

example : ∃ m, exportMesh id 3 twoHexas = .ok m :=
  (C56_readable_iff id (fun l => .refl l) 3 twoHexas twoHexas_ok.sections twoHexas_ok.names).2 ⟨⟨rfl, rfl, rfl⟩, twoHexas_ok.bcs⟩

/-- A condition that lists nothing is refused. -/
example : ¬ ∃ m, exportMesh id 3 { twoHexas with bcs := [("left", ⟨none, none, some [], none⟩)] } = .ok m := by
  intro h
  exact ((C56_readable_iff id (fun l => .refl l) 3 { twoHexas with bcs := [("left", ⟨none, none, some [], none⟩)] }
    twoHexas_ok.sections (by decide)).1 h).2 _ (List.mem_singleton.2 rfl) |>.2.2 (by decide) rfl

/-- A face condition that lists a cell is refused. -/
example : ¬ ∃ m, exportMesh id 3 { twoHexas with bcs := [("left", ⟨none, some "FaceCenter", some [3, 2], none⟩)] } = .ok m := by
  intro h
  have := ((C56_readable_iff id (fun l => .refl l) 3 { twoHexas with bcs := [("left", ⟨none, some "FaceCenter", some [3, 2], none⟩)] }
    twoHexas_ok.sections (by decide)).1 h).2 _ (List.mem_singleton.2 rfl)
  obtain ⟨r, hr⟩ := this.2.1 (.inl ⟨rfl, rfl⟩) 2 (by decide)
  have h1 : ¬ (1 : Int) ∈ (elemsOfDim { twoHexas with bcs := [("left", ⟨none, some "FaceCenter", some [3, 2], none⟩)] } (3 - 1)).map (·.1) := by
    decide
  exact h1 (List.mem_map.2 ⟨_, hr, rfl⟩)

example : (exportMesh id 3 twoHexas).map (fun m => m.bocos.map fun p => (p.1, p.2.geodim, p.2.index)) =
    .ok [("bottom", .node, .list [0, 1, 2]), ("walls", .node, .list [0, 3, 9, 6, 2, 5, 11, 8])] := by decide +kernel

/-- With the boundary faces first in the numbering, the cells are numbered 2 and 3. -/
example : (elemcon { twoHexas with sections := [("Hexa", ⟨17, 3, 4, [1, 2, 5, 4, 7, 8, 11, 10, 2, 3, 6, 5, 8, 9, 12, 11]⟩),
      ("Wall", ⟨7, 1, 2, [1, 4, 10, 7, 3, 6, 12, 9]⟩)] } 3).bind (fun c => c.allIndex) = .ok [2, 3] := by decide +kernel

/-- Two conditions of the same family: the second replaces the first. -/
example : (exportMesh id 3 { twoHexas with bcs := [("a", ⟨some "w", none, some [1], none⟩), ("b", ⟨some "w", none, some [2], none⟩)] }).map
    (fun m => m.bocos.map fun p => (p.1, p.2.index)) = .ok [("w", .list [1])] := by decide +kernel

/-- C56 applied to this zone, and to one with a section of pentahedra. -/
example := C56_sections twoHexas 3 twoHexas_ok.sections
example := C56_numbering twoHexas 3 twoHexas_ok.sections
example := C56_mesh id (fun l => List.Perm.refl l) 3 twoHexas twoHexas_ok
example := C56_unsupported { twoHexas with sections := [("Mixed", ⟨20, 1, 1, [17, 1, 2, 5, 4, 7, 8, 11, 10]⟩)] } 3
  ⟨_, List.mem_singleton.2 rfl, by decide⟩

end Cfd.Cgns
