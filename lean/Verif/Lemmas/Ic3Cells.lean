import Verif.Spec.Ic3Cells
import Verif.Props.Mesh
import Verif.Lemmas.Ic3Mesh

/-! Lemmas for C62: faces and zones of a file written from cells and node marks. -/

namespace Cfd
open Spec ElemConn

/-! ### Faces of the cells, by type or all together -/

theorem mem_facesOfCells_of {tbl : FaceTable} {c : ElemConn} {ft : String} {o : List Int × Int}
    (h : o ∈ cellFaces tbl c ft) : o ∈ facesOfCells tbl c := by
  unfold cellFaces at h
  simp only [List.mem_flatMap, List.mem_map] at h
  obtain ⟨x, hx, f, hf, rfl⟩ := h
  unfold localFaces at hf
  rw [List.mem_flatMap] at hf
  obtain ⟨q, hq, hf⟩ := hf
  split at hf
  · unfold facesOfCells
    simp only [List.mem_flatMap, List.mem_map]
    exact ⟨x, hx, q, hq, f, hf, rfl⟩
  · simp at hf

theorem mem_cellFaces_of {tbl : FaceTable} {c : ElemConn} {o : List Int × Int} (h : o ∈ facesOfCells tbl c) :
    ∃ ft, o ∈ cellFaces tbl c ft := by
  unfold facesOfCells at h
  simp only [List.mem_flatMap, List.mem_map] at h
  obtain ⟨x, hx, q, hq, f, hf, rfl⟩ := h
  refine ⟨q.1, ?_⟩
  unfold cellFaces localFaces
  simp only [List.mem_flatMap, List.mem_map]
  exact ⟨x, hx, f, ⟨q, hq, by simpa using hf⟩, rfl⟩

/-- A cell face comes from an entry of the table. -/
theorem cellFaces_entry {tbl : FaceTable} {c : ElemConn} {ft : String} {o : List Int × Int}
    (h : o ∈ cellFaces tbl c ft) : ∃ et q f, q ∈ (tbl.get? et).getD [] ∧ q.1 = ft ∧ f ∈ q.2 ∧
      o.1.length = f.length := by
  unfold cellFaces at h
  simp only [List.mem_flatMap, List.mem_map] at h
  obtain ⟨x, hx, f, hf, rfl⟩ := h
  unfold localFaces at hf
  rw [List.mem_flatMap] at hf
  obtain ⟨q, hq, hf⟩ := hf
  split at hf
  · rename_i hqt
    exact ⟨x.1, q, f, hq, hqt, hf, by simp⟩
  · simp at hf

theorem cellFaces_type {tbl : FaceTable} (hd : DistinctWidths tbl) {c c' : ElemConn} {ft ft' : String}
    {o o' : List Int × Int} (h : o ∈ cellFaces tbl c ft) (h' : o' ∈ cellFaces tbl c' ft')
    (hl : o.1.length = o'.1.length) : ft = ft' := by
  obtain ⟨et, q, f, hq, rfl, hf, e⟩ := cellFaces_entry h
  obtain ⟨et', q', f', hq', rfl, hf', e'⟩ := cellFaces_entry h'
  exact hd et et' q hq q' hq' f hf f' hf' (by omega)

theorem facesOn_eq {tbl : FaceTable} (hd : DistinctWidths tbl) {c : ElemConn} {ft : String}
    {o : List Int × Int} (ho : o ∈ cellFaces tbl c ft) {n : List Int} (hl : o.1.length = n.length) :
    facesOn tbl c n = (cellFaces tbl c ft).filter fun o => o.1.isPerm n := by
  obtain ⟨et, q0, f0, hq0, rfl, hf0, e⟩ := cellFaces_entry ho
  unfold facesOn facesOfCells cellFaces localFaces
  rw [List.filter_flatMap, List.filter_flatMap]
  apply List.flatMap_congr
  intro x _
  rw [List.map_flatMap, List.filter_flatMap, List.filter_flatMap]
  apply List.flatMap_congr
  intro q hq
  split
  · rfl
  · rename_i hne
    rw [List.map_nil, List.filter_nil, List.filter_eq_nil_iff]
    intro y hy hp
    obtain ⟨f, hf, rfl⟩ := List.mem_map.1 hy
    rw [List.isPerm_iff] at hp
    have := hp.length_eq
    simp only [List.length_map, List.length_reverse] at this
    exact hne (hd x.1 et q hq q0 hq0 f hf f0 hf0 (by omega))

theorem facesOn_length {tbl : FaceTable} (hd : DistinctWidths tbl) {c : ElemConn} {ft : String}
    {o : List Int × Int} (ho : o ∈ cellFaces tbl c ft) {n : List Int} (hl : o.1.length = n.length) :
    (facesOn tbl c n).length = occurrences tbl c ft n := by
  rw [facesOn_eq hd ho hl, occurrences, List.countP_eq_length_filter]

/-! ### Faces of a face set -/

/-- The faces in stored order: nodes and cells. -/
def storedFaces (fs : FaceSet) (rows : List (Int × Int)) : List (List Int × (Int × Int)) :=
  (elements fs.f2n).map fun x => (x.2.2, (rows[x.2.1.toNat]?).getD (0, 0))

end Cfd

namespace Cfd.Ic3
open Spec Spec.Ic3 ElemConn

theorem isFaces_of_wf {fs : FaceSet} {rows : List (Int × Int)} (h : FaceSetWF fs rows) :
    ∃ l : List Face, IsFaces fs l ∧ l.Perm (storedFaces fs rows) ∧ l.length = (elements fs.f2n).length ∧
      ∀ x ∈ elements fs.f2n, 0 ≤ x.2.1 ∧ ∃ r, l[x.2.1.toNat]? = some (x.2.2, r) := by
  let nodesAt : Int → List Int := fun i =>
    (((elements fs.f2n).find? fun x => decide (x.2.1 = i)).map fun x => x.2.2).getD []
  let G : Int → Face := fun i => (nodesAt i, (rows[i.toNat]?).getD (0, 0))
  set n := (elements fs.f2n).length with hn
  have hlen : (allIndices fs.f2n).length = n := by simp [allIndices, hn]
  have hp := perm_pyRange_of_valid h.numbering
  rw [hlen] at hp
  have hnodes : ∀ x ∈ elements fs.f2n, nodesAt x.2.1 = x.2.2 := by
    intro x hx
    have : (elements fs.f2n).find? (fun y => decide (y.2.1 = x.2.1)) = some x := by
      cases hf : (elements fs.f2n).find? (fun y => decide (y.2.1 = x.2.1)) with
      | none =>
        rw [List.find?_eq_none] at hf
        exact absurd (decide_eq_true rfl) (hf x hx)
      | some y =>
        have h1 := List.mem_of_find?_eq_some hf
        have h2 := List.find?_some hf
        simp only [decide_eq_true_eq] at h2
        congr 1
        exact List.inj_on_of_nodup_map (f := fun x : String × Int × List Int => x.2.1) h.numbering.1 h1 hx h2
    simp only [nodesAt, this, Option.map_some, Option.getD_some]
  have hget : ∀ k : Nat, k < n → ((pyRange 0 n).map G)[k]? = some (G k) := by
    intro k hk
    rw [List.getElem?_map]
    have : (pyRange 0 (n : Int))[k]? = some (k : Int) := by
      unfold pyRange
      simp [hk]
    rw [this]; rfl
  have hst : storedFaces fs rows = (allIndices fs.f2n).map G := by
    unfold storedFaces allIndices
    rw [List.map_map]
    apply List.map_congr_left
    intro x hx
    simp only [Function.comp_apply, G, hnodes x hx]
  refine ⟨(pyRange 0 n).map G, ⟨h.conn, ?_, ?_⟩, ?_, by simp [length_pyRange], ?_⟩
  · have e1 : (elements fs.f2n).map (·.2) = (allIndices fs.f2n).map fun i => (i, nodesAt i) := by
      unfold allIndices
      rw [List.map_map]
      apply List.map_congr_left
      intro x hx
      simp only [Function.comp_apply, hnodes x hx]
    have e2 : (((pyRange 0 n).map G).zipIdx.map fun x => ((x.2 : Int), x.1.1)) =
        (pyRange 0 n).map fun i => (i, nodesAt i) := by
      apply List.ext_getElem?
      intro k
      rw [List.getElem?_map, List.getElem?_zipIdx]
      by_cases hk : k < n
      · rw [hget k hk, List.getElem?_map]
        have : (pyRange 0 (n : Int))[k]? = some (k : Int) := by
          unfold pyRange
          simp [hk]
        rw [this]
        simp [G]
      · rw [List.getElem?_eq_none (by simp [length_pyRange]; omega),
          List.getElem?_eq_none (by simp [length_pyRange]; omega)]
        rfl
    rw [e1, e2]
    exact hp.map _
  · rw [h.f2c]
    congr 2
    have hr : rows.length = n := h.length
    apply List.ext_getElem?
    intro k
    rw [List.getElem?_map]
    by_cases hk : k < n
    · rw [hget k hk]
      simp only [Option.map_some, G, Int.toNat_natCast]
      rw [List.getElem?_eq_getElem (by omega)]
      rfl
    · rw [List.getElem?_eq_none (by omega), List.getElem?_eq_none (by simp [length_pyRange]; omega)]
      rfl
  · rw [hst]
    exact hp.symm.map _
  · intro x hx
    have hm : x.2.1 ∈ allIndices fs.f2n := List.mem_map_of_mem hx
    rw [h.numbering.2, hlen] at hm
    refine ⟨hm.1, (rows[x.2.1.toNat]?).getD (0, 0), ?_⟩
    rw [hget _ (by omega)]
    have : ((x.2.1.toNat : Nat) : Int) = x.2.1 := Int.toNat_of_nonneg hm.1
    rw [this]
    simp only [G, hnodes x hx]

/-- A renumbering that keeps types, nodes and cells keeps the faces in stored order. -/
theorem storedFaces_renumbered {fs fs' : FaceSet} {rows rows' : List (Int × Int)} {σ : Int → Int}
    (he : elements fs'.f2n = (elements fs.f2n).map fun x => (x.1, σ x.2.1, x.2.2))
    (hr : ∀ i ∈ allIndices fs.f2n, rows'[(σ i).toNat]? = rows[i.toNat]?) :
    storedFaces fs' rows' = storedFaces fs rows := by
  unfold storedFaces
  rw [he, List.map_map]
  apply List.map_congr_left
  intro x hx
  simp only [Function.comp_apply]
  rw [hr _ (List.mem_map_of_mem hx)]

/-- The generated faces are those of the cells. -/
theorem facesOf_generated {tbl : FaceTable} (ht : TableWF tbl) (hd : DistinctWidths tbl) {c : ElemConn}
    (hc : ConnWF c) (hcf : Conforming tbl c) {r : FacesResult} (hr : createFaces tbl c = .ok r)
    {lb li : List Face} (hb : lb.Perm (storedFaces ⟨r.boundary, some r.b2c⟩ (r.b2c.getD [])))
    (hi : li.Perm (storedFaces ⟨r.internal, some r.i2c⟩ (r.i2c.getD []))) : FacesOf tbl c lb li := by
  have c8 := C08_faces_exactly_once tbl ht c hc r hr
  have cb := (C09_boundary_cells tbl ht c hc r hr).2
  have ci := (C09_internal_cells tbl ht c hc r hr).2
  have inv := facesInv_of_ok ht hc.entries hr
  have tb : ∀ t k nodes, (t, k, nodes) ∈ elements r.boundary → ∃ a, (nodes, a) ∈ cellFaces tbl c t := by
    intro t k nodes h
    obtain ⟨cell, _, h2⟩ := cb t k nodes h
    have : (nodes, cell) ∈ (cellFaces tbl c t).filter fun o => o.1.isPerm nodes := by rw [h2]; simp
    exact ⟨cell, (List.mem_filter.1 this).1⟩
  have ti : ∀ t k nodes, (t, k, nodes) ∈ elements r.internal → ∃ a, (nodes, a) ∈ cellFaces tbl c t := by
    intro t k nodes h
    obtain ⟨c1, c2, n2, rest, _, h2⟩ := ci t k nodes h
    have : (nodes, c1) ∈ (cellFaces tbl c t).filter fun o => o.1.isPerm nodes := by rw [h2.mem_iff]; simp
    exact ⟨c1, (List.mem_filter.1 this).1⟩
  have count : ∀ (con : ElemConn) (rows : List (Int × Int)) (F2 : Option F2C), con.tbl.keys.Nodup →
      (∀ t k nodes, (t, k, nodes) ∈ elements con → ∃ a, (nodes, a) ∈ cellFaces tbl c t) →
      ∀ ft, ∀ o ∈ cellFaces tbl c ft,
        ((storedFaces ⟨con, F2⟩ rows).countP fun f => f.1.isPerm o.1) = facesWith con ft o.1 := by
    intro con rows F2 hk hty ft o ho
    have e1 : facesWith con ft o.1 =
        ((elements con).filter fun x => decide (x.1 = ft)).countP fun x => x.2.2.isPerm o.1 := by
      unfold facesWith
      rw [elements_filter hk, List.countP_map]
      rfl
    rw [e1, storedFaces, List.countP_map, List.countP_filter]
    apply List.countP_congr
    intro x hx
    simp only [Function.comp_apply, Bool.and_eq_true, decide_eq_true_eq]
    constructor
    · intro hp
      obtain ⟨a, ha⟩ := hty _ _ _ hx
      exact ⟨hp, cellFaces_type hd ha ho (List.isPerm_iff.1 hp).length_eq⟩
    · exact fun h => h.1
  constructor
  · intro o ho
    obtain ⟨ft, hft⟩ := mem_cellFaces_of ho
    rw [List.countP_append, hb.countP_eq, hi.countP_eq, count _ _ _ inv.bwf.keys tb ft o hft,
      count _ _ _ inv.iwf.keys ti ft o hft, (c8 ft o.1).1, (c8 ft o.1).2]
    have : 0 < occurrences tbl c ft o.1 := by
      unfold occurrences
      rw [List.countP_pos_iff]
      exact ⟨o, hft, List.isPerm_iff.2 (List.Perm.refl _)⟩
    split <;> split <;> omega
  · intro f hf
    rw [hb.mem_iff, storedFaces, List.mem_map] at hf
    obtain ⟨⟨t, k, nodes⟩, hx, rfl⟩ := hf
    obtain ⟨cell, h1, h2⟩ := cb t k nodes hx
    obtain ⟨a, ha⟩ := tb t k nodes hx
    refine ⟨cell, by simp only [h1, Option.getD_some], ?_⟩
    rw [facesOn_eq hd ha rfl, h2]
  · intro f hf
    rw [hi.mem_iff, storedFaces, List.mem_map] at hf
    obtain ⟨⟨t, k, nodes⟩, hx, rfl⟩ := hf
    obtain ⟨c1, c2, n2, rest, h1, h2⟩ := ci t k nodes hx
    obtain ⟨a, ha⟩ := ti t k nodes hx
    have hl := hcf _ (mem_facesOfCells_of ha)
    rw [facesOn_eq hd ha rfl] at hl
    simp only at hl
    rw [h2.length_eq] at hl
    have hr : rest = [] := by
      cases rest with
      | nil => rfl
      | cons _ _ => simp at hl
    subst hr
    refine ⟨n2, ?_⟩
    simp only [h1, Option.getD_some]
    rw [facesOn_eq hd ha rfl]
    exact h2

/-! ### Completion of the mesh by the writer -/

/-- The mark of nodes `b` as a mark of boundary faces. -/
def toFaces (con : ElemConn) (b : Mark) : Mark :=
  { b with geodim := .bdface, index := .list (((elements con).filter fun x =>
      x.2.2.all fun n => (markItems b).contains n).map fun x => x.2.1) }

theorem mem_toFaces {con : ElemConn} {b : Mark} {i : Int} : i ∈ markItems (toFaces con b) ↔
    ∃ x ∈ elements con, x.2.1 = i ∧ ∀ n ∈ x.2.2, n ∈ markItems b := by
  have : markItems (toFaces con b) = ((elements con).filter fun x =>
      x.2.2.all fun n => (markItems b).contains n).map fun x => x.2.1 := by
    simp [toFaces, markItems, IndexList.toList]
  rw [this, List.mem_map]
  constructor
  · rintro ⟨x, hx, rfl⟩
    rw [List.mem_filter, List.all_eq_true] at hx
    exact ⟨x, hx.1, rfl, fun n hn => by simpa using hx.2 n hn⟩
  · rintro ⟨x, h1, h2, h3⟩
    refine ⟨x, ?_, h2⟩
    rw [List.mem_filter, List.all_eq_true]
    exact ⟨h1, fun n hn => by simpa using h3 n hn⟩

/-- Boundary faces in no mark, in the order of the set. -/
def missingFaces (so : List Int → List Int) (con : ElemConn) (bocos : Dict String Mark) : List Int :=
  so ((allIndices con).dedup.filter fun i => !(bocos.flatMap fun p => markItems (toFaces con p.2)).contains i)

/-- The mark given to these faces. -/
def restMark (l : List Int) : Mark := ⟨"unmarked", .bdface, "boundary", .list l, none⟩

/-- Marks before the renumbering. -/
def faceMarks (so : List Int → List Int) (con : ElemConn) (bocos : Dict String Mark) : Dict String Mark :=
  bocos.map (fun p => (p.1, toFaces con p.2)) ++
    (if missingFaces so con bocos = [] then []
     else [("unmarked", restMark (missingFaces so con bocos))])

/-- The mesh before the renumbering. -/
def facedMesh (so : List Int → List Int) (m : Mesh F64) (r : FacesResult) : Mesh F64 :=
  { m with
    faces := [("internal", ⟨r.internal, some r.i2c⟩), ("boundary", ⟨r.boundary, some r.b2c⟩)]
    nface := r.internal.nelem + r.boundary.nelem
    bocos := faceMarks so r.boundary m.bocos }

theorem makeFaces_new {tbl : FaceTable} {m : Mesh F64} {c : ElemConn} (hm : NodeCells m c) {r : FacesResult}
    (hr : createFaces tbl c = .ok r) : m.makeFaces tbl = .ok { m with
      faces := [("internal", ⟨r.internal, some r.i2c⟩), ("boundary", ⟨r.boundary, some r.b2c⟩)]
      nface := r.internal.nelem + r.boundary.nelem } := by
  have hf := hm.noFaces
  have hcl := hm.cells
  cases m
  simp only at hf hcl
  subst hf hcl
  unfold Mesh.makeFaces
  simp only [hr, Except_bind_ok]
  rfl

theorem complete_eq {tbl : FaceTable} (ht : TableWF tbl) (so : List Int → List Int) {m : Mesh F64}
    {c : ElemConn} (hm : NodeCells m c) {r : FacesResult} (hr : createFaces tbl c = .ok r) :
    completeMesh tbl so m = needReindex (facedMesh so m r) := by
  have hwf := (createFaces_wf ht hm.conn hr).1
  unfold completeMesh
  have h1 : needFaces tbl m = m.makeFaces tbl := by
    unfold needFaces
    rw [hm.noFaces]; rfl
  rw [h1, makeFaces_new hm hr, Except_bind_ok]
  generalize hm1 : ({ m with
      faces := [("internal", ⟨r.internal, some r.i2c⟩), ("boundary", ⟨r.boundary, some r.b2c⟩)]
      nface := r.internal.nelem + r.boundary.nelem } : Mesh F64) = m1
  have hb1 : m1.bocos = m.bocos := by rw [← hm1]
  have hfb : m1.faces.get? "boundary" = some ⟨r.boundary, some r.b2c⟩ := by rw [← hm1]; rfl
  have hnb : ∀ p ∈ m.bocos, p.2.nodebased = true := by
    intro p hp
    have := hm.onNodes p hp
    unfold Mark.nodebased
    cases hb : p.2.geodim <;> simp_all
  have h2 : needFaceMarks m1 = .ok { m1 with bocos := m.bocos.map fun p => (p.1, toFaces r.boundary p.2) } := by
    unfold needFaceMarks
    split
    · have hg : ∀ p ∈ m.bocos, (do
          let b ← Mesh.markToFace ((elements r.boundary).map (·.2)) p.2
          return (p.1, b) : Py (String × Mark)) = .ok (p.1, toFaces r.boundary p.2) := by
        intro p hp
        unfold Mesh.markToFace
        rw [if_pos (hnb p hp), toList_markItems (hm.marksSet p hp)]
        simp only [Except_bind_ok, Except_pure, toFaces]
        rw [List.filter_map, List.map_map]
        rfl
      unfold Mesh.bocosToFaces
      simp only [hfb, indexElemTuples_of_wf hwf.entries, Except_bind_ok, hb1]
      rw [mapM_ok_of_forall hg]; rfl
    · rename_i hany
      have : m.bocos = [] := by
        cases hb : m.bocos with
        | nil => rfl
        | cons p t =>
          refine absurd ?_ hany
          rw [hb1, hb, List.any_cons, hnb p (by simp [hb])]
          rfl
      rw [this, List.map_nil]
      rw [this] at hb1
      congr 1
      cases m1
      simp_all
  rw [h2, Except_bind_ok]
  generalize hm2 : ({ m1 with bocos := m.bocos.map fun p => (p.1, toFaces r.boundary p.2) } : Mesh F64) = m2
  have hb2 : m2.bocos = m.bocos.map fun p => (p.1, toFaces r.boundary p.2) := by rw [← hm2]
  have hfb2 : m2.faces.get? "boundary" = some ⟨r.boundary, some r.b2c⟩ := by rw [← hm2]; exact hfb
  have hset : MarksSet m2 := by
    intro p hp
    rw [hb2] at hp
    obtain ⟨q, _, rfl⟩ := List.mem_map.1 hp
    simp [toFaces]
  have hon : MarksOnFaces m2 := by
    intro p hp
    rw [hb2] at hp
    obtain ⟨q, _, rfl⟩ := List.mem_map.1 hp
    exact .inr rfl
  obtain ⟨missing, hmiss, hok⟩ := makeUnmarked_ok so hfb2 hwf.entries hset hon "unmarked"
  have hmiss' : missing = missingFaces so r.boundary m.bocos := by
    rw [hmiss]
    unfold missingFaces marked
    rw [hb2, List.flatMap_map]
  have hkey : "unmarked" ∉ m2.bocos.keys := by
    rw [hb2]
    intro h
    apply hm.notReserved.1
    unfold Dict.keys at h ⊢
    rw [List.map_map] at h
    exact h
  have h3 : needUnmarked so m2 = .ok (facedMesh so m r) := by
    unfold needUnmarked
    rw [if_pos]
    · rw [hok]
      simp only [Except.map, hmiss']
      congr 1
      unfold facedMesh faceMarks
      split
      · rw [List.append_nil, ← hm2, ← hm1]
      · unfold Mesh.addBoco
        simp only [restMark]
        rw [Dict.set_of_not_mem _ hkey, hb2, ← hm2, ← hm1]
    · rw [← hm2, ← hm1]; rfl
  rw [h3, Except_bind_ok]

/-- The completed mesh `m'`: `σ` is the renumbering of the boundary faces. -/
structure Completed (so : List Int → List Int) (m : Mesh F64) (r : FacesResult) (m' : Mesh F64)
    (lb li : List Face) (σ : Int → Int) : Prop where
  pb : lb.Perm (storedFaces ⟨r.boundary, some r.b2c⟩ (r.b2c.getD []))
  pi : li.Perm (storedFaces ⟨r.internal, some r.i2c⟩ (r.i2c.getD []))
  faces : MeshFaces m' (lb ++ li)
  rest : m' = { m with faces := m'.faces, nface := m'.nface, bocos := m'.bocos }
  num : ∀ x ∈ elements r.boundary, 0 ≤ σ x.2.1 ∧ ∃ c, lb[(σ x.2.1).toNat]? = some (x.2.2, c)
  surj : ∀ k : Nat, k < lb.length → ∃ x ∈ elements r.boundary, σ x.2.1 = k
  inj : ∀ i ∈ allIndices r.boundary, ∀ j ∈ allIndices r.boundary, σ i = σ j → i = j
  length : m'.bocos.length = (faceMarks so r.boundary m.bocos).length
  marks : ∀ (k : Nat) (name : String) (b : Mark), (faceMarks so r.boundary m.bocos)[k]? = some (name, b) →
    ∃ b' x y, m'.bocos[k]? = some (name, b') ∧ b' = { b with index := .range x y } ∧ x ≤ y ∧ 0 ≤ x ∧
      y < (lb.length : Int) ∧ markItems b' = (markItems b).map σ
  tile : (marked m').Perm (pyRange 0 lb.length)

theorem faceMarks_mem {so : List Int → List Int} {con : ElemConn} {bocos : Dict String Mark}
    {p : String × Mark} (hp : p ∈ faceMarks so con bocos) :
    p.2.geodim = .bdface ∧ ∃ l, p.2.index = .list l := by
  unfold faceMarks at hp
  rw [List.mem_append] at hp
  rcases hp with hp | hp
  · obtain ⟨q, _, rfl⟩ := List.mem_map.1 hp
    exact ⟨rfl, _, rfl⟩
  · split at hp
    · simp at hp
    · simp only [List.mem_singleton] at hp
      subst hp
      exact ⟨rfl, _, rfl⟩

theorem mem_missing {so : List Int → List Int} (hso : Reorders so) {con : ElemConn} {bocos : Dict String Mark}
    {i : Int} : i ∈ missingFaces so con bocos ↔
      i ∈ allIndices con ∧ ∀ p ∈ bocos, i ∉ markItems (toFaces con p.2) := by
  unfold missingFaces
  rw [(hso _).mem_iff, List.mem_filter, List.mem_dedup]
  simp

theorem elements_nil_of_noMarks {so : List Int → List Int} (hso : Reorders so) {con : ElemConn}
    {bocos : Dict String Mark} (h : faceMarks so con bocos = []) : elements con = [] ∧ bocos = [] := by
  unfold faceMarks at h
  rw [List.append_eq_nil_iff, List.map_eq_nil_iff] at h
  obtain ⟨h1, h2⟩ := h
  refine ⟨?_, h1⟩
  have hm : missingFaces so con bocos = [] := by
    by_contra hne
    rw [if_neg hne] at h2
    simp at h2
  by_contra hne
  obtain ⟨x, t, hx⟩ := List.exists_cons_of_ne_nil hne
  have : x.2.1 ∈ missingFaces so con bocos := by
    rw [mem_missing hso]
    refine ⟨List.mem_map_of_mem (by simp [hx]), ?_⟩
    rw [h1]; simp
  rw [hm] at this
  simp at this

theorem toFaces_items (so : List Int → List Int) (m : Mesh F64) (r : FacesResult) :
    marked (facedMesh so m r) = (faceMarks so r.boundary m.bocos).flatMap fun p => markItems p.2 := rfl

theorem conn_ne_nil {m : Mesh F64} {c : ElemConn} (hm : NodeCells m c) : c.tbl ≠ [] := by
  intro h
  apply hm.some
  unfold elements
  rw [h]; rfl

theorem completed_of_ok {tbl : FaceTable} (ht : TableWF tbl) {so : List Int → List Int} (hso : Reorders so)
    {m m' : Mesh F64} {c : ElemConn} (hm : NodeCells m c) {r : FacesResult} (hr : createFaces tbl c = .ok r)
    (h : completeMesh tbl so m = .ok m') : ∃ lb li σ, Completed so m r m' lb li σ := by
  rw [complete_eq ht so hm hr] at h
  obtain ⟨wb, wi⟩ := faceSetWF_generated ht hm.conn (conn_ne_nil hm) hr
  obtain ⟨li, hli, pli, lenli, _⟩ := isFaces_of_wf wi
  have hset : MarksSet (facedMesh so m r) := by
    intro p hp
    obtain ⟨_, l, hl⟩ := faceMarks_mem hp
    rw [hl]; simp
  have hon : MarksOnFaces (facedMesh so m r) := fun p hp => .inr (faceMarks_mem hp).1
  have hfb : (facedMesh so m r).faces.get? "boundary" = some ⟨r.boundary, some r.b2c⟩ := rfl
  unfold needReindex at h
  split at h
  · obtain ⟨hne, hnon, hperm, _⟩ := C18_reindex_refuses _ m' _ _ hfb wb hset h
    obtain ⟨m2, σ, fs', rows', h1, h2, h3, h4, h5, h6, h7, h8, h9, h10⟩ :=
      C18_reindex_consistent _ _ _ hfb wb hset hon hne hnon hperm
    rw [h] at h1
    simp only [Except.ok.injEq] at h1
    subst h1
    obtain ⟨lb, hlb, plb, lenlb, xlb⟩ := isFaces_of_wf h5
    have hall : allIndices fs'.f2n = (allIndices r.boundary).map σ := by
      unfold allIndices
      rw [h7, List.map_map, List.map_map]
      rfl
    have hlen : lb.length = (allIndices r.boundary).length := by
      rw [lenlb, h7]; simp [allIndices]
    have hv : ((allIndices r.boundary).map σ).Perm (pyRange 0 lb.length) := by
      have := perm_pyRange_of_valid h5.numbering
      rw [hall, List.length_map, ← hlen] at this
      exact this
    refine ⟨lb, li, σ, ⟨?_, pli, ?_, ?_, ?_, ?_, h6, h9, ?_, ?_⟩⟩
    · rw [storedFaces_renumbered h7 h8] at plb
      exact plb
    · refine .inr ⟨?_, fs', ⟨r.internal, some r.i2c⟩, lb, li, h4, ?_, hlb, hli, rfl⟩
      · rw [h3 _ (by decide)]; rfl
      · rw [h3 _ (by decide)]; rfl
    · rw [h2]; rfl
    · intro x hx
      have := xlb (x.1, σ x.2.1, x.2.2) (by rw [h7]; exact List.mem_map_of_mem (f := fun x => (x.1, σ x.2.1, x.2.2)) hx)
      exact this
    · intro k hk
      have : (k : Int) ∈ (allIndices r.boundary).map σ := by
        rw [hv.mem_iff, mem_pyRange]; omega
      obtain ⟨i, hi, hik⟩ := List.mem_map.1 this
      obtain ⟨x, hx, rfl⟩ := List.mem_map.1 hi
      exact ⟨x, hx, hik⟩
    · intro k name b hk
      obtain ⟨b', start, k1, k2, k3, k4, k5⟩ := h10 k name b hk
      have hmem : (name, b) ∈ (facedMesh so m r).bocos := List.mem_of_getElem? hk
      have hne := hnon _ hmem
      have hpos : 0 < (markItems b).length := List.length_pos_iff.2 hne
      refine ⟨b', _, _, k1, by rw [k2, k5], by omega, by omega, ?_, k3⟩
      have hsub : (start + (markItems b).length - 1) ∈ (markItems b).map σ := by
        rw [← k3]
        unfold markItems
        rw [k5]
        have : (start + (markItems b).length - 1) ∈ pyRange start (start + (markItems b).length - 1 + 1) := by
          rw [mem_pyRange]; omega
        exact this
      have hsub2 : (start + (markItems b).length - 1) ∈ (allIndices r.boundary).map σ := by
        obtain ⟨i, hi, hik⟩ := List.mem_map.1 hsub
        rw [← hik]
        refine List.mem_map_of_mem ?_
        rw [← hperm.mem_iff]
        unfold marked
        rw [List.mem_flatMap]
        exact ⟨_, hmem, hi⟩
      rw [hv.mem_iff, mem_pyRange] at hsub2
      exact hsub2.2
    · have e : marked m' = (marked (facedMesh so m r)).map σ := by
        have e1 : m'.bocos.map (fun p => markItems p.2) =
            (facedMesh so m r).bocos.map fun p => (markItems p.2).map σ := by
          apply List.ext_getElem?
          intro k
          rw [List.getElem?_map, List.getElem?_map]
          cases hk : (facedMesh so m r).bocos[k]? with
          | none =>
            rw [List.getElem?_eq_none_iff] at hk
            rw [List.getElem?_eq_none (by omega)]; rfl
          | some p =>
            obtain ⟨b', _, k1, _, k3, _⟩ := h10 k p.1 p.2 hk
            rw [k1, Option.map_some, Option.map_some, k3]
        unfold marked
        rw [List.map_flatMap, List.flatMap_def, List.flatMap_def, e1]
      rw [e]
      exact (hperm.map σ).trans hv
  · rename_i hany
    have hnil : faceMarks so r.boundary m.bocos = [] := by
      cases hb : faceMarks so r.boundary m.bocos with
      | nil => rfl
      | cons p t =>
        refine absurd ?_ hany
        have : (facedMesh so m r).bocos = p :: t := hb
        rw [this, List.any_cons]
        obtain ⟨_, l, hl⟩ := faceMarks_mem (p := p) (by rw [hb]; simp)
        rw [hl]; rfl
    obtain ⟨hel, _⟩ := elements_nil_of_noMarks hso hnil
    simp only [Except.ok.injEq] at h
    subst h
    obtain ⟨lb, hlb, plb, lenlb, xlb⟩ := isFaces_of_wf wb
    have hlb0 : lb = [] := by
      rw [← List.length_eq_zero_iff, lenlb]
      show (elements r.boundary).length = 0
      rw [hel]; rfl
    refine ⟨lb, li, id, ⟨plb, pli, ?_, rfl, xlb, ?_, fun i _ j _ h => h, rfl, ?_, ?_⟩⟩
    · exact .inr ⟨rfl, _, _, lb, li, rfl, rfl, hlb, hli, rfl⟩
    · rw [hlb0]; intro k hk; simp at hk
    · rw [hnil]; intro k name b hk; simp at hk
    · rw [hlb0, toFaces_items, hnil]; decide

theorem facesOfCells_cell {tbl : FaceTable} {c : ElemConn} {o : List Int × Int} (h : o ∈ facesOfCells tbl c) :
    o.2 ∈ allIndices c := by
  unfold facesOfCells at h
  simp only [List.mem_flatMap, List.mem_map] at h
  obtain ⟨x, hx, q, hq, f, hf, rfl⟩ := h
  exact List.mem_map_of_mem (f := fun x : String × Int × List Int => x.2.1) hx

theorem mem_facesOn {tbl : FaceTable} {c : ElemConn} {o : List Int × Int} {n : List Int} :
    o ∈ facesOn tbl c n ↔ o ∈ facesOfCells tbl c ∧ o.1.Perm n := by
  unfold facesOn
  rw [List.mem_filter, List.isPerm_iff]

theorem completed_mark {so : List Int → List Int} {m m' : Mesh F64} {r : FacesResult} {lb li : List Face}
    {σ : Int → Int} (h : Completed so m r m' lb li σ) {p : String × Mark} (hp : p ∈ m'.bocos) :
    ∃ b x y, (p.1, b) ∈ faceMarks so r.boundary m.bocos ∧ p.2 = { b with index := .range x y } ∧ x ≤ y ∧ 0 ≤ x ∧
      y < (lb.length : Int) ∧ markItems p.2 = (markItems b).map σ := by
  obtain ⟨k, hk, hkp⟩ := List.mem_iff_getElem.1 hp
  rw [h.length] at hk
  have hb' : (faceMarks so r.boundary m.bocos)[k]? = some ((faceMarks so r.boundary m.bocos)[k].1,
      (faceMarks so r.boundary m.bocos)[k].2) := List.getElem?_eq_getElem hk
  obtain ⟨b', x, y, h1, h2, h3, h4, h5, h6⟩ := h.marks k _ _ hb'
  rw [List.getElem?_eq_getElem (by rw [h.length]; exact hk), hkp, Option.some.injEq] at h1
  subst h1
  exact ⟨_, x, y, List.mem_of_getElem? hb', h2, h3, h4, h5, h6⟩

theorem completed_keys {so : List Int → List Int} {m m' : Mesh F64} {r : FacesResult} {lb li : List Face}
    {σ : Int → Int} (h : Completed so m r m' lb li σ) :
    m'.bocos.keys = (faceMarks so r.boundary m.bocos).keys := by
  unfold Dict.keys
  apply List.ext_getElem?
  intro k
  rw [List.getElem?_map, List.getElem?_map]
  cases hk : (faceMarks so r.boundary m.bocos)[k]? with
  | none =>
    rw [List.getElem?_eq_none_iff] at hk
    rw [List.getElem?_eq_none (by rw [h.length]; exact hk)]
  | some p =>
    obtain ⟨b', x, y, h1, _⟩ := h.marks k p.1 p.2 hk
    rw [h1]
    simp only [Option.map_some]

theorem faceMarks_keys_nodup {so : List Int → List Int} {m : Mesh F64} {c con : ElemConn} (hm : CellMesh m c) :
    (faceMarks so con m.bocos).keys.Nodup := by
  have e : (m.bocos.map fun p => (p.1, toFaces con p.2)).map (·.1) = m.bocos.keys := by
    unfold Dict.keys
    rw [List.map_map]
    rfl
  unfold faceMarks Dict.keys
  rw [List.map_append, e]
  split
  · simpa using hm.markKeys
  · rw [List.map_cons, List.map_nil, List.nodup_append]
    refine ⟨hm.markKeys, by simp, ?_⟩
    intro a ha b hb hab
    simp only [List.mem_singleton] at hb
    rw [hab, hb] at ha
    exact hm.notReserved.1 ha

theorem faceMarks_cases {so : List Int → List Int} {con : ElemConn} {bocos : Dict String Mark}
    {p : String × Mark} (hp : p ∈ faceMarks so con bocos) :
    (∃ q ∈ bocos, p = (q.1, toFaces con q.2)) ∨
      (missingFaces so con bocos ≠ [] ∧ p = ("unmarked", restMark (missingFaces so con bocos))) := by
  unfold faceMarks at hp
  rw [List.mem_append] at hp
  rcases hp with hp | hp
  · obtain ⟨q, hq, rfl⟩ := List.mem_map.1 hp
    exact .inl ⟨q, hq, rfl⟩
  · split at hp
    · simp at hp
    · rename_i hne
      simp only [List.mem_singleton] at hp
      exact .inr ⟨hne, hp⟩

/-- The completed mesh can be stored in the format. -/
theorem completed_storable {tbl : FaceTable} (ht : TableWF tbl) (hd : DistinctWidths tbl)
    {so : List Int → List Int} {m m' : Mesh F64} {c : ElemConn} (hm : CellMesh m c)
    (hcf : Conforming tbl c) (hw : ∀ o ∈ facesOfCells tbl c, 1 ≤ o.1.length ∧ o.1.length ≤ 4) {r : FacesResult}
    (hr : createFaces tbl c = .ok r) {lb li : List Face} {σ : Int → Int} (h : Completed so m r m' lb li σ) :
    Storable m' (lb ++ li) := by
  have hf := facesOf_generated ht hd hm.conn hcf hr h.pb h.pi
  have hncell : m'.ncell = (elements c).length := by
    rw [h.rest]
    show m.ncell = _
    rw [hm.ncell, hm.conn.nelem]
  have hidx : ∀ o ∈ facesOfCells tbl c, 0 ≤ o.2 ∧ o.2 < (m'.ncell : Int) := by
    intro o ho
    have := facesOfCells_cell ho
    rw [hm.numbering.2] at this
    rw [hncell]
    simpa [allIndices] using this
  have hb1 : ∀ f ∈ lb, ∃ a, f.2 = (a, -1) ∧ (f.1, a) ∈ facesOfCells tbl c := by
    intro f hf1
    obtain ⟨a, h1, h2⟩ := hf.boundary f hf1
    have : (f.1, a) ∈ facesOn tbl c f.1 := by rw [h2]; simp
    exact ⟨a, h1, (mem_facesOn.1 this).1⟩
  have hi1 : ∀ f ∈ li, (f.1, f.2.1) ∈ facesOfCells tbl c ∧ ∃ n, (n, f.2.2) ∈ facesOfCells tbl c := by
    intro f hf1
    obtain ⟨n, h1⟩ := hf.internal f hf1
    have h2 : (f.1, f.2.1) ∈ facesOn tbl c f.1 := by rw [h1.mem_iff]; simp
    have h3 : (n, f.2.2) ∈ facesOn tbl c f.1 := by rw [h1.mem_iff]; simp
    exact ⟨(mem_facesOn.1 h2).1, n, (mem_facesOn.1 h3).1⟩
  constructor
  · exact h.faces
  · intro f hfm
    rcases List.mem_append.1 hfm with hfm | hfm
    · obtain ⟨a, _, h2⟩ := hb1 f hfm
      exact hw _ h2
    · exact hw _ (hi1 f hfm).1
  · intro f hfm
    rcases List.mem_append.1 hfm with hfm | hfm
    · obtain ⟨a, h1, h2⟩ := hb1 f hfm
      have := hidx _ h2
      rw [h1]
      simp only at this ⊢
      omega
    · obtain ⟨h1, n, h2⟩ := hi1 f hfm
      have e1 := hidx _ h1
      have e2 := hidx _ h2
      exact ⟨e1.2, e2.2⟩
  · have hpos : 0 < (elements c).length := List.length_pos_iff.2 hm.some
    have hlast : ((m'.ncell : Int) - 1) ∈ allIndices c := by
      rw [hm.numbering.2, hncell]
      simp only [allIndices, List.length_map]
      omega
    obtain ⟨x, hx, hxe⟩ := List.mem_map.1 hlast
    have hkn := cellsKnown_of_ok ht hm.conn.entries hr
    obtain ⟨p, hp, hpx⟩ : ∃ p ∈ c.tbl, p.1 = x.1 := by
      unfold elements at hx
      rw [List.mem_flatMap] at hx
      obtain ⟨p, hp, hq⟩ := hx
      obtain ⟨q, _, rfl⟩ := List.mem_map.1 hq
      exact ⟨p, hp, rfl⟩
    obtain ⟨fs, k, hfs, _⟩ := hkn p hp
    obtain ⟨q, hq, hqne⟩ := ht.2 _ _ hfs
    obtain ⟨f0, t0, hf0⟩ := List.exists_cons_of_ne_nil hqne
    have ho : ((f0.reverse.map fun k => x.2.2.getD k 0), x.2.1) ∈ facesOfCells tbl c := by
      unfold facesOfCells
      simp only [List.mem_flatMap, List.mem_map]
      refine ⟨x, hx, q, ?_, f0, by simp [hf0], rfl⟩
      rw [← hpx, hfs]
      exact hq
    set o := ((f0.reverse.map fun k => x.2.2.getD k 0), x.2.1) with hodef
    have honce := hf.once o ho
    have hpos2 : 0 < (lb ++ li).countP fun f => f.1.isPerm o.1 := by omega
    rw [List.countP_pos_iff] at hpos2
    obtain ⟨f, hfm, hfo⟩ := hpos2
    rw [List.isPerm_iff] at hfo
    have hon : o ∈ facesOn tbl c f.1 := mem_facesOn.2 ⟨ho, hfo.symm⟩
    refine ⟨f, hfm, ?_⟩
    rcases List.mem_append.1 hfm with hfm | hfm
    · obtain ⟨a, h1, h2⟩ := hf.boundary f hfm
      rw [h2, List.mem_singleton] at hon
      left
      rw [h1, ← hxe]
      exact (congrArg Prod.snd hon).symm
    · obtain ⟨n, h1⟩ := hf.internal f hfm
      rw [h1.mem_iff] at hon
      simp only [List.mem_cons, List.not_mem_nil, or_false] at hon
      rcases hon with hon | hon
      · left; rw [← hxe]; exact (congrArg Prod.snd hon).symm
      · right; rw [← hxe]; exact (congrArg Prod.snd hon).symm
  · rw [h.rest]
    exact hm.coords
  · rw [completed_keys h]
    exact faceMarks_keys_nodup hm
  · intro p hp _ hpn
    have hk : p.1 ∈ m'.bocos.keys := List.mem_map_of_mem hp
    obtain ⟨b, x, y, hb, _⟩ := completed_mark h hp
    rcases faceMarks_cases hb with ⟨q, hq, he⟩ | ⟨_, he⟩
    · have : q.1 = "internal-domain" := by rw [← hpn]; exact (congrArg Prod.fst he).symm
      apply hm.notReserved.2
      rw [← this]
      exact List.mem_map_of_mem hq
    · have := congrArg Prod.fst he
      simp only at this
      rw [hpn] at this
      simp at this
  · intro p hp _
    obtain ⟨b, x, y, _, h2, h3, h4, h5, _⟩ := completed_mark h hp
    refine ⟨x, y, by rw [h2], h4, ?_, ?_⟩ <;> rw [List.length_append] <;> omega

/-- The boundary faces are the cell faces that no other cell has. -/
theorem boundary_of_cells {tbl : FaceTable} (ht : TableWF tbl) (hd : DistinctWidths tbl) {c : ElemConn}
    (hc : ConnWF c) {r : FacesResult} (hr : createFaces tbl c = .ok r) :
    (∀ x ∈ elements r.boundary, ∃ a, (x.2.2, a) ∈ facesOfCells tbl c ∧ (facesOn tbl c x.2.2).length = 1) ∧
    ∀ o ∈ facesOfCells tbl c, (facesOn tbl c o.1).length = 1 → ∃ x ∈ elements r.boundary, x.2.2.Perm o.1 := by
  have c8 := C08_faces_exactly_once tbl ht c hc r hr
  have cb := (C09_boundary_cells tbl ht c hc r hr).2
  have inv := facesInv_of_ok ht hc.entries hr
  constructor
  · rintro ⟨t, k, nodes⟩ hx
    obtain ⟨cell, _, h2⟩ := cb t k nodes hx
    have : (nodes, cell) ∈ (cellFaces tbl c t).filter fun o => o.1.isPerm nodes := by rw [h2]; simp
    have hm := (List.mem_filter.1 this).1
    refine ⟨cell, mem_facesOfCells_of hm, ?_⟩
    rw [facesOn_eq hd hm rfl, h2]
    rfl
  · intro o ho h1
    obtain ⟨ft, hft⟩ := mem_cellFaces_of ho
    rw [facesOn_length hd hft rfl] at h1
    have := (c8 ft o.1).1
    rw [if_pos h1] at this
    have hpos : 0 < facesWith r.boundary ft o.1 := by omega
    unfold facesWith at hpos
    rw [List.countP_pos_iff] at hpos
    obtain ⟨q, hq, hp⟩ := hpos
    exact ⟨(ft, q), (mem_elements inv.bwf.keys).2 hq, List.isPerm_iff.1 hp⟩

theorem nodup_missing {so : List Int → List Int} (hso : Reorders so) (con : ElemConn) (bocos : Dict String Mark) :
    (missingFaces so con bocos).Nodup := by
  unfold missingFaces
  rw [(hso _).nodup_iff]
  exact (List.nodup_dedup _).filter _

end Cfd.Ic3
