import Mathlib.Data.List.Pairwise
import Verif.Lemmas.Ic3Cells
import Verif.Props.Ic3Round

/-! C62: a mesh of cells and node marks written to an IC3 file and read back. -/

namespace Cfd
open Spec ElemConn

/-- Check of the widths of a face table. -/
def widthsOk (tbl : FaceTable) : Bool :=
  tbl.all fun p => tbl.all fun p' => p.2.all fun q => p'.2.all fun q' => q.2.all fun f => q'.2.all fun f' =>
    decide (f.length = f'.length → q.1 = q'.1)

theorem distinctWidths_of_ok {tbl : FaceTable} (h : widthsOk tbl = true) : DistinctWidths tbl := by
  unfold widthsOk at h
  simp only [List.all_eq_true, decide_eq_true_eq] at h
  intro et et' q hq q' hq' f hf f' hf'
  cases hg : tbl.get? et with
  | none => simp [hg] at hq
  | some fs =>
    cases hg' : tbl.get? et' with
    | none => simp [hg'] at hq'
    | some fs' =>
      simp only [hg, Option.getD_some] at hq
      simp only [hg', Option.getD_some] at hq'
      exact h _ (Dict.mem_of_get? hg) _ (Dict.mem_of_get? hg') q hq q' hq' f hf f' hf'

/-- The two tables of the package satisfy the hypothesis on widths. -/
theorem cgnsTable_widths : DistinctWidths cgnsElem2faces := distinctWidths_of_ok (by decide +kernel)
theorem gmshTable_widths : DistinctWidths gmshElem2faces := distinctWidths_of_ok (by decide +kernel)

end Cfd

namespace Cfd.Ic3
open Spec Spec.Ic3 ElemConn

/-- The boundary faces selected by a renumbered mark. -/
theorem items_renumbered {so : List Int → List Int} {m m' : Mesh F64} {r : FacesResult} {lb li : List Face}
    {σ : Int → Int} (h : Completed so m r m' lb li σ) {l : List Int} (P : Face → Prop)
    (hP : ∀ f f' : Face, f.1 = f'.1 → P f → P f')
    (hl : ∀ i, i ∈ l ↔ ∃ x ∈ elements r.boundary, x.2.1 = i ∧ P (x.2.2, (0, 0))) (i : Int) :
    i ∈ l.map σ ↔ 0 ≤ i ∧ ∃ f, lb[i.toNat]? = some f ∧ P f := by
  rw [List.mem_map]
  constructor
  · rintro ⟨j, hj, rfl⟩
    obtain ⟨x, hx, rfl, hp⟩ := (hl _).1 hj
    obtain ⟨h0, c, hc⟩ := h.num x hx
    exact ⟨h0, _, hc, hP (x.2.2, (0, 0)) _ rfl hp⟩
  · rintro ⟨h0, f, hf, hp⟩
    obtain ⟨hk, _⟩ := List.getElem?_eq_some_iff.1 hf
    obtain ⟨x, hx, hxi⟩ := h.surj _ hk
    rw [Int.toNat_of_nonneg h0] at hxi
    obtain ⟨_, c, hc⟩ := h.num x hx
    rw [hxi, hf, Option.some.injEq] at hc
    exact ⟨x.2.1, (hl _).2 ⟨x, hx, rfl, hP f _ (by rw [hc]) hp⟩, hxi⟩

/-- What is read of a completed mesh: counts, coordinates, faces `l`, and the zones. -/
structure ReadBack (m : Mesh F64) (l : List Face) (g : Mesh F64) : Prop where
  ncell : g.ncell = m.ncell
  nnode : g.nnode = m.nnode
  coords : g.coords = m.coords
  faces : MeshFaces g l
  marks : ∀ name b, m.bocos.get? name = some b → b.type ≠ "internal" →
    ∃ pt, g.bocos.get? name = some ⟨name, .bdface, b.type, b.index, pt⟩
  others : ∀ name, name ∈ g.bocos.keys →
    name = "internal-domain" ∨ ∃ b, m.bocos.get? name = some b ∧ b.type ≠ "internal"
  tiles : ∀ k : Int, 1 ≤ k → (zoneItems m).Perm (pyRange 0 k) →
    (∀ p ∈ m.bocos, p.2.type ≠ "internal" → ∀ x y, p.2.index = .range x y → x ≤ y) →
    (marked g).Perm (pyRange 0 l.length)

/-- The mesh read in terms of the cells and of the node marks. -/
theorem fromCells_read {tbl : FaceTable} (ht : TableWF tbl) (hdw : DistinctWidths tbl)
    {so : List Int → List Int} (hso : Reorders so) {m m' : Mesh F64} {c : ElemConn} (hm : CellMesh m c)
    (hcf : Conforming tbl c) {r : FacesResult} (hr : createFaces tbl c = .ok r) (hc : completeMesh tbl so m = .ok m')
    {lb li : List Face} {σ : Int → Int} (hcomp : Completed so m r m' lb li σ) (hs : Storable m' (lb ++ li))
    {g : Mesh F64} (hsame : ReadBack m' (lb ++ li) g) : FromCells tbl c m lb li g := by
  have hnd : m'.bocos.keys.Nodup := hs.markKeys
  have htype : ∀ p ∈ m'.bocos, p.2.type ≠ "internal" := by
    intro p hp
    obtain ⟨b, x, y, hb, h2, _⟩ := completed_mark hcomp hp
    rw [h2]
    rcases faceMarks_cases hb with ⟨q, hq, he⟩ | ⟨_, he⟩
    · have : b = toFaces r.boundary q.2 := congrArg Prod.snd he
      rw [this]
      exact hm.notInternal q hq
    · have : b = restMark _ := congrArg Prod.snd he
      rw [this]
      simp [restMark]
  -- a mark before the renumbering, and the zone read
  have hzone : ∀ p ∈ faceMarks so r.boundary m.bocos, ∃ b', g.bocos.get? p.1 = some b' ∧
      b'.geodim = .bdface ∧ b'.type = p.2.type ∧ markItems b' = (markItems p.2).map σ := by
    intro p hp
    obtain ⟨k, hk⟩ := List.mem_iff_getElem?.1 hp
    obtain ⟨b', x, y, h1, h2, h3, h4, h5, h6⟩ := hcomp.marks k p.1 p.2 hk
    have hmem := List.mem_of_getElem? h1
    have hget : m'.bocos.get? p.1 = some b' := Dict.get?_of_mem hnd hmem
    obtain ⟨pt, this⟩ := hsame.marks p.1 b' hget (htype _ hmem)
    refine ⟨_, this, rfl, by rw [h2], ?_⟩
    rw [← h6]
    rfl
  have hmiss : ∀ i, i ∈ missingFaces so r.boundary m.bocos ↔ ∃ x ∈ elements r.boundary, x.2.1 = i ∧
      ∀ p ∈ m.bocos, ¬ Holds p.2 ((x.2.2, (0, 0)) : Face) := by
    intro i
    have hwf := (faceSetWF_generated ht hm.conn (conn_ne_nil hm.toNodeCells) hr).1
    rw [mem_missing hso]
    constructor
    · rintro ⟨h1, h2⟩
      obtain ⟨x, hx, rfl⟩ := List.mem_map.1 h1
      refine ⟨x, hx, rfl, fun p hp hh => h2 p hp ?_⟩
      rw [mem_toFaces]
      exact ⟨x, hx, rfl, hh⟩
    · rintro ⟨x, hx, rfl, h1⟩
      refine ⟨List.mem_map_of_mem hx, fun p hp hh => ?_⟩
      rw [mem_toFaces] at hh
      obtain ⟨y, hy, hyx, hall⟩ := hh
      have : y = x := List.inj_on_of_nodup_map (f := fun x : String × Int × List Int => x.2.1)
        hwf.numbering.1 hy hx hyx
      rw [this] at hall
      exact h1 p hp hall
  have hrest : ∀ f1 f2 : Face, f1.1 = f2.1 → (∀ p ∈ m.bocos, ¬ Holds p.2 f1) →
      ∀ p ∈ m.bocos, ¬ Holds p.2 f2 := by
    intro f1 f2 h12 hh p hp
    have := hh p hp
    unfold Holds at this ⊢
    rwa [← h12]
  constructor
  · rw [hsame.ncell, hcomp.rest]
  · rw [hsame.nnode, hcomp.rest]
  · rw [hsame.coords, hcomp.rest]
  · exact facesOf_generated ht hdw hm.conn hcf hr hcomp.pb hcomp.pi
  · exact hsame.faces
  · intro name b hb
    have hmem : (name, toFaces r.boundary b) ∈ faceMarks so r.boundary m.bocos := by
      unfold faceMarks
      rw [List.mem_append]
      exact .inl (List.mem_map.2 ⟨(name, b), Dict.mem_of_get? hb, rfl⟩)
    obtain ⟨b', h1, h2, h3, h4⟩ := hzone _ hmem
    refine ⟨b', h1, h2, h3, ?_⟩
    intro i
    rw [h4]
    exact items_renumbered hcomp (Holds b) (fun f f' hff hh => by unfold Holds at *; rwa [← hff])
      (fun i => mem_toFaces) i
  · intro b' hb'
    have hkey : "unmarked" ∈ m'.bocos.keys := by
      rcases hsame.others "unmarked" (Dict.mem_keys_iff.2 ⟨b', hb'⟩) with he | ⟨b, hb, _⟩
      · simp at he
      · exact Dict.mem_keys_iff.2 ⟨b, hb⟩
    rw [completed_keys hcomp] at hkey
    obtain ⟨p, hp, hpk⟩ := List.mem_map.1 hkey
    rcases faceMarks_cases hp with ⟨q, hq, he⟩ | ⟨hne, he⟩
    · exfalso
      apply hm.notReserved.1
      have hq1 : q.1 = "unmarked" := by rw [← hpk, he]
      rw [← hq1]
      exact List.mem_map_of_mem hq
    · obtain ⟨b2, h1, h2, h3, h4⟩ := hzone p hp
      rw [hpk, hb', Option.some.injEq] at h1
      subst h1
      have hit : markItems p.2 = missingFaces so r.boundary m.bocos := by rw [he]; rfl
      refine ⟨by rw [h3, he]; rfl, ?_, ?_⟩
      · rw [h4, hit]
        simpa using hne
      · intro i
        rw [h4, hit]
        exact items_renumbered hcomp (fun f1 => ∀ p ∈ m.bocos, ¬ Holds p.2 f1) hrest hmiss i
  · rintro ⟨f1, hf1, hno⟩
    obtain ⟨k, hk, hkf⟩ := List.mem_iff_getElem.1 hf1
    obtain ⟨x, hx, hxk⟩ := hcomp.surj k hk
    obtain ⟨_, c, hc1⟩ := hcomp.num x hx
    rw [hxk, Int.toNat_natCast, List.getElem?_eq_getElem hk, hkf, Option.some.injEq] at hc1
    have hi : x.2.1 ∈ missingFaces so r.boundary m.bocos :=
      (hmiss _).2 ⟨x, hx, rfl, hrest f1 _ (by rw [hc1]) hno⟩
    have hmem : ("unmarked", restMark (missingFaces so r.boundary m.bocos)) ∈
        faceMarks so r.boundary m.bocos := by
      unfold faceMarks
      rw [if_neg (List.ne_nil_of_mem hi)]
      simp
    obtain ⟨b', h1, _⟩ := hzone _ hmem
    exact Dict.mem_keys_iff.2 ⟨b', h1⟩
  · intro name hname
    rcases hsame.others name hname with he | ⟨b, hb, _⟩
    · exact .inr (.inr he)
    · rcases completeMesh_keys hc name (Dict.mem_keys_iff.2 ⟨b, hb⟩) with h1 | h1
      · exact .inl h1
      · exact .inr (.inl h1)
  · intro hne
    have hz : zoneItems m' = marked m' := by
      unfold zoneItems marked
      rw [List.filter_eq_self.2]
      intro p hp
      simpa using htype p hp
    refine hsame.tiles lb.length ?_ ?_ ?_
    · have := List.length_pos_iff.2 hne
      omega
    · rw [hz]
      exact hcomp.tile
    · intro p hp _ x y hxy
      obtain ⟨b, x', y', _, h2, h3, _⟩ := completed_mark hcomp hp
      rw [h2] at hxy
      simp only [IndexList.range.injEq] at hxy
      omega

/-- C62. A mesh of cells and node marks is written without exception: the file is read back as the mesh
whose faces are those of the cells (each once, boundary faces first, with the right cells), in which each
mark is the zone of the boundary faces with all nodes in the mark, the other boundary faces are in the zone
`unmarked`, and each face is in exactly one zone. -/
theorem C62_from_cells (tbl : FaceTable) (ht : TableWF tbl) (hdw : DistinctWidths tbl)
    (so : List Int → List Int) (hso : Reorders so) (host : Order) (e : Endian) (v : Ver) (cv : Conv)
    (f : FullMesh) (c : ElemConn) (hm : CellMesh f.mesh c) (hcf : Conforming tbl c)
    (hw : ∀ o ∈ facesOfCells tbl c, 1 ≤ o.1.length ∧ o.1.length ≤ 4) (hn : NamesFit f)
    (b : Bytes) (h : writeIc3 tbl so host e v cv f = (some b, .ok ()))
    (hd : ∀ m', completeMesh tbl so f.mesh = .ok m' → DataStorable v f m') (integ : Bool) :
    ∃ g lb li, readIc3 integ b = .ok g ∧ FromCells tbl c f.mesh lb li g.mesh := by
  obtain ⟨m', hc⟩ : ∃ m', completeMesh tbl so f.mesh = .ok m' := by
    unfold writeIc3 at h
    cases hc : completeMesh tbl so f.mesh with
    | error er =>
      rw [hc] at h
      simp [bind, Except.bind] at h
    | ok m' => exact ⟨m', rfl⟩
  obtain ⟨r, hr⟩ : ∃ r, createFaces tbl c = .ok r := by
    unfold completeMesh needFaces at hc
    rw [hm.noFaces, bind_eq_ok] at hc
    obtain ⟨m1, h1, _⟩ := hc
    obtain ⟨r, hr, _⟩ := makeFaces_ok hm.cells h1
    exact ⟨r, hr⟩
  obtain ⟨lb, li, σ, hcomp⟩ := completed_of_ok ht hso hm.toNodeCells hr hc
  have hs := completed_storable ht hdw hm hcf hw hr hcomp
  obtain ⟨g, hg, hsame⟩ := C28_mesh_round_trip tbl so host e v cv f b m' _ hn hc h hs (hd m' hc) integ
  refine ⟨g, lb, li, hg, fromCells_read ht hdw hso hm hcf hr hc hcomp hs ⟨hsame.ncell, hsame.nnode, hsame.coords, hsame.faces,
    fun name b h1 h2 => ⟨_, hsame.marks name b h1 h2⟩, hsame.others, fun k hk hz hne => ?_⟩⟩
  have hlen : (lb ++ li).length = g.mesh.nface := by rw [hsame.nface, hsame.count]
  rw [hlen]
  exact C32_zones_tile tbl so host e v cv f g b m' _ hn hc h hs (hd m' hc) integ hg k hk hz hne

/-- C62. When the writer can complete such a mesh: the faces can be generated (the condition of C10), each
mark holds all the nodes of some boundary face, and no boundary face has all its nodes in two marks. -/
theorem C62_completes_iff (tbl : FaceTable) (ht : TableWF tbl) (hdw : DistinctWidths tbl)
    (so : List Int → List Int) (hso : Reorders so) (m : Mesh F64) (c : ElemConn) (hm : CellMesh m c)
    (hk : CellsKnown tbl c) :
    (∃ m', completeMesh tbl so m = .ok m') ↔
      (∀ ft ∈ faceTypes tbl c, distinctFaces tbl c ft < (cellFaces tbl c ft).length ∧
        (cellFaces tbl c ft).length ≤ 2 * distinctFaces tbl c ft) ∧
      (∀ p ∈ m.bocos, ∃ o ∈ facesOfCells tbl c, (facesOn tbl c o.1).length = 1 ∧ ∀ n ∈ o.1, n ∈ markItems p.2) ∧
      (∀ p ∈ m.bocos, ∀ q ∈ m.bocos, p.1 ≠ q.1 → ∀ o ∈ facesOfCells tbl c, (facesOn tbl c o.1).length = 1 →
        ¬ ((∀ n ∈ o.1, n ∈ markItems p.2) ∧ ∀ n ∈ o.1, n ∈ markItems q.2)) := by
  rw [← (C10_acceptance_partial tbl ht c hm.conn hk).1]
  by_cases hr : ∃ r, createFaces tbl c = .ok r
  swap
  · refine ⟨?_, fun h => absurd h.1 hr⟩
    rintro ⟨m', hc⟩
    exfalso
    apply hr
    unfold completeMesh needFaces at hc
    rw [hm.noFaces, bind_eq_ok] at hc
    obtain ⟨m1, h1, _⟩ := hc
    obtain ⟨r, hr, _⟩ := makeFaces_ok hm.cells h1
    exact ⟨r, hr⟩
  obtain ⟨r, hr⟩ := hr
  obtain ⟨bc1, bc2⟩ := boundary_of_cells ht hdw hm.conn hr
  obtain ⟨wb, _⟩ := faceSetWF_generated ht hm.conn (conn_ne_nil hm.toNodeCells) hr
  have hinj : ∀ x ∈ elements r.boundary, ∀ y ∈ elements r.boundary, x.2.1 = y.2.1 → x = y :=
    fun x hx y hy h => List.inj_on_of_nodup_map (f := fun x : String × Int × List Int => x.2.1)
      wb.numbering.1 hx hy h
  have hset : MarksSet (facedMesh so m r) := by
    intro p hp
    obtain ⟨_, l, hl⟩ := faceMarks_mem hp
    rw [hl]; simp
  have hon : MarksOnFaces (facedMesh so m r) := fun p hp => .inr (faceMarks_mem hp).1
  have hfb : (facedMesh so m r).faces.get? "boundary" = some ⟨r.boundary, some r.b2c⟩ := rfl
  have hiff := C18_reindex_iff _ _ _ hfb wb hset hon
  have hmem : ∀ p ∈ m.bocos, (p.1, toFaces r.boundary p.2) ∈ faceMarks so r.boundary m.bocos := by
    intro p hp
    unfold faceMarks
    rw [List.mem_append]
    exact .inl (List.mem_map.2 ⟨p, hp, rfl⟩)
  -- items of a mark are empty or not according to the cells
  have hitem : ∀ b : Mark, markItems (toFaces r.boundary b) ≠ [] ↔
      ∃ o ∈ facesOfCells tbl c, (facesOn tbl c o.1).length = 1 ∧ ∀ n ∈ o.1, n ∈ markItems b := by
    intro b
    constructor
    · intro hne
      obtain ⟨i, t, hi⟩ := List.exists_cons_of_ne_nil hne
      have : i ∈ markItems (toFaces r.boundary b) := by rw [hi]; simp
      rw [mem_toFaces] at this
      obtain ⟨x, hx, _, hall⟩ := this
      obtain ⟨a, h1, h2⟩ := bc1 x hx
      exact ⟨_, h1, h2, hall⟩
    · rintro ⟨o, ho, h1, hall⟩
      obtain ⟨x, hx, hp⟩ := bc2 o ho h1
      apply List.ne_nil_of_mem (a := x.2.1)
      rw [mem_toFaces]
      exact ⟨x, hx, rfl, fun n hn => hall n (hp.mem_iff.1 hn)⟩
  have hdisj : ∀ b b' : Mark, (∀ i, i ∈ markItems (toFaces r.boundary b) → i ∉ markItems (toFaces r.boundary b')) ↔
      ∀ o ∈ facesOfCells tbl c, (facesOn tbl c o.1).length = 1 →
        ¬ ((∀ n ∈ o.1, n ∈ markItems b) ∧ ∀ n ∈ o.1, n ∈ markItems b') := by
    intro b b'
    constructor
    · rintro h o ho h1 ⟨h2, h3⟩
      obtain ⟨x, hx, hp⟩ := bc2 o ho h1
      refine h x.2.1 ?_ ?_
      · rw [mem_toFaces]
        exact ⟨x, hx, rfl, fun n hn => h2 n (hp.mem_iff.1 hn)⟩
      · rw [mem_toFaces]
        exact ⟨x, hx, rfl, fun n hn => h3 n (hp.mem_iff.1 hn)⟩
    · intro h i hi hi'
      rw [mem_toFaces] at hi hi'
      obtain ⟨x, hx, hxi, hall⟩ := hi
      obtain ⟨y, hy, hyi, hall'⟩ := hi'
      have : x = y := hinj x hx y hy (by omega)
      subst this
      obtain ⟨a, h1, h2⟩ := bc1 x hx
      exact h _ h1 h2 ⟨hall, hall'⟩
  rw [complete_eq ht so hm.toNodeCells hr]
  unfold needReindex
  split
  · rename_i hany
    rw [hiff]
    constructor
    · rintro ⟨_, hnon, hperm⟩
      refine ⟨⟨r, hr⟩, fun p hp => (hitem p.2).1 (hnon _ (hmem p hp)), ?_⟩
      intro p hp q hq hpq
      rw [← hdisj]
      intro i hi hi'
      have hnd : (marked (facedMesh so m r)).Nodup := hperm.nodup_iff.2 wb.numbering.1
      unfold marked at hnd
      rw [List.nodup_flatMap] at hnd
      let R : String × Mark → String × Mark → Prop := fun a b => a.1 ≠ b.1 → (markItems a.2).Disjoint (markItems b.2)
      have : Std.Symm R := ⟨fun a b h hne => (h hne.symm).symm⟩
      refine List.Pairwise.forall_of_forall (R := R) (fun a _ hne => absurd rfl hne) ?_ (hmem p hp) (hmem q hq) hpq hi hi'
      show List.Pairwise R (facedMesh so m r).bocos
      exact List.Pairwise.imp (S := R) (fun {a b} h (_ : a.1 ≠ b.1) => h) hnd.2
    · rintro ⟨_, h2, h3⟩
      refine ⟨?_, ?_, ?_⟩
      · intro hnil
        rw [hnil] at hany
        simp at hany
      · intro p hp
        rcases faceMarks_cases hp with ⟨q, hq, rfl⟩ | ⟨hne, rfl⟩
        · exact (hitem q.2).2 (h2 q hq)
        · exact hne
      · rw [List.perm_ext_iff_of_nodup _ wb.numbering.1]
        · intro i
          rw [toFaces_items, List.mem_flatMap]
          constructor
          · rintro ⟨p, hp, hi⟩
            rcases faceMarks_cases hp with ⟨q, hq, rfl⟩ | ⟨hne, rfl⟩
            · rw [mem_toFaces] at hi
              obtain ⟨x, hx, rfl, _⟩ := hi
              exact List.mem_map_of_mem (f := fun x : String × Int × List Int => x.2.1) hx
            · exact ((mem_missing hso).1 hi).1
          · intro hi
            by_cases hex : ∃ p ∈ m.bocos, i ∈ markItems (toFaces r.boundary p.2)
            · obtain ⟨p, hp, hpi⟩ := hex
              exact ⟨_, hmem p hp, hpi⟩
            · have hmi : i ∈ missingFaces so r.boundary m.bocos := by
                rw [mem_missing hso]
                exact ⟨hi, fun p hp hpi => hex ⟨p, hp, hpi⟩⟩
              refine ⟨("unmarked", restMark (missingFaces so r.boundary m.bocos)), ?_, hmi⟩
              unfold faceMarks
              rw [if_neg (List.ne_nil_of_mem hmi)]
              simp
        · rw [toFaces_items, List.nodup_flatMap]
          have hsub : ∀ b : Mark, (markItems (toFaces r.boundary b)).Nodup := by
            intro b
            have : markItems (toFaces r.boundary b) = ((elements r.boundary).filter fun x =>
                x.2.2.all fun n => (markItems b).contains n).map fun x => x.2.1 := by
              simp [toFaces, markItems, IndexList.toList]
            rw [this]
            exact (List.Sublist.map _ List.filter_sublist).nodup wb.numbering.1
          refine ⟨?_, ?_⟩
          · intro p hp
            rcases faceMarks_cases hp with ⟨q, hq, rfl⟩ | ⟨hne, rfl⟩
            · exact hsub q.2
            · exact nodup_missing hso _ _
          · unfold faceMarks
            rw [List.pairwise_append]
            refine ⟨?_, ?_, ?_⟩
            · rw [List.pairwise_map]
              have hkp : m.bocos.Pairwise fun p q => p.1 ≠ q.1 := by
                have := hm.markKeys
                unfold Dict.keys List.Nodup at this
                rwa [List.pairwise_map] at this
              refine List.Pairwise.imp_of_mem ?_ hkp
              intro p q hp hq hne i hi hi'
              exact (hdisj p.2 q.2).2 (h3 p hp q hq hne) i hi hi'
            · split
              · exact List.Pairwise.nil
              · exact List.pairwise_singleton _ _
            · intro p hp q hq i hi hi'
              obtain ⟨p0, hp0, rfl⟩ := List.mem_map.1 hp
              split at hq
              · simp at hq
              · simp only [List.mem_singleton] at hq
                subst hq
                exact ((mem_missing hso).1 hi').2 p0 hp0 hi
  · rename_i hany
    have hnil : faceMarks so r.boundary m.bocos = [] := by
      cases hb : faceMarks so r.boundary m.bocos with
      | nil => rfl
      | cons p t =>
        refine absurd ?_ hany
        have : (facedMesh so m r).bocos = p :: t := hb
        rw [this, List.any_cons]
        obtain ⟨_, l, hl⟩ := faceMarks_mem (p := p) (by rw [hb]; simp)
        rw [hl]; rfl
    obtain ⟨_, hb⟩ := elements_nil_of_noMarks hso hnil
    rw [hb]
    refine ⟨fun _ => ⟨⟨r, hr⟩, by simp, by simp⟩, fun _ => ⟨_, rfl⟩⟩

/-- Two tetrahedra with two node marks: three boundary faces in `wall`, one in `top`, two in no mark. -/
def tetPair : FullMesh where
  mesh :=
    { ncell := 2, nnode := 5, nface := 0, cell2node := some exTetras, faces := [],
      coords := some ([0, 1, 0, 0, 1], [0, 0, 1, 0, 1], [0, 0, 0, 1, 1]),
      bocos := [("wall", ⟨"wall", .node, "boundary", .list [3, 0, 2, 1], none⟩),
        ("top", ⟨"top", .bdnode, "boundary", .list [4, 2, 3], none⟩)] }
  cells := ⟨some ⟨.dataSet, "cellaverage", 1, "instant"⟩, [("P", ⟨[2], .f64 [7, 8]⟩)]⟩
  nodes := [("X", ⟨[5], .f64 [1, 2, 3, 4, 5]⟩)]
  params := []
  partition := none

theorem tetPair_cells : CellMesh tetPair.mesh exTetras where
  cells := rfl
  conn := exTetras_wf
  some := by decide
  numbering := valid_of_perm_pyRange (n := 2) (by decide)
  ncell := rfl
  noFaces := rfl
  coords := by
    intro x y z h
    simp only [tetPair, Option.some.injEq, Prod.mk.injEq] at h
    obtain ⟨rfl, rfl, rfl⟩ := h
    decide
  markKeys := by decide
  onNodes := by decide
  marksSet := by decide
  notInternal := by decide
  notReserved := by decide

-- the hypotheses of C62 are met, and the conditions of `C62_completes_iff` hold
theorem exTetras_conforming : Conforming cgnsElem2faces exTetras := by unfold Conforming; decide +kernel
example : ∀ o ∈ facesOfCells cgnsElem2faces exTetras, 1 ≤ o.1.length ∧ o.1.length ≤ 4 := by decide +kernel
theorem tetPair_names : NamesFit tetPair where
  marks := by decide
  weights := by intro d hd; simp [tetPair, Dict.get?] at hd
  nodes := by decide
  cells := by decide
example : ∀ e ∈ [Endian.native, .little, .big], ∀ v ∈ [Ver.v2, .v3],
    (writeIc3 cgnsElem2faces id .little e v noConv tetPair).2 = .ok () := by decide +kernel
example : (completeMesh cgnsElem2faces id tetPair.mesh).map (fun m => (m.ncell, m.nnode, m.nface)) = .ok (2, 5, 7) := by
  decide +kernel
/-- What is read: three faces in `wall`, one in `top`, two in `unmarked`, one internal. -/
example : (reread .v3 tetPair).map (fun g => g.mesh.bocos.map fun p => (p.1, p.2.index)) =
    some [("wall", .range 0 2), ("top", .range 3 3), ("unmarked", .range 4 5), ("internal-domain", .range 6 6)] := by
  decide +kernel
/-- A mark holding no face, or two marks holding the same face: refused. -/
example : (completeMesh cgnsElem2faces id { tetPair.mesh with bocos :=
    [("edge", ⟨"edge", .node, "boundary", .list [0, 1], none⟩)] }).isOk = false := by decide +kernel
example : (completeMesh cgnsElem2faces id { tetPair.mesh with bocos := tetPair.mesh.bocos ++
    [("all", ⟨"all", .node, "boundary", .list [0, 1, 2, 3, 4], none⟩)] }).isOk = false := by decide +kernel

theorem tetPair_written (e : Endian) (v : Ver) :
    ∃ b, writeIc3 cgnsElem2faces id .little e v noConv tetPair = (some b, .ok ()) := by
  have h : (match writeIc3 cgnsElem2faces id .little e v noConv tetPair with
    | (some _, .ok ()) => true
    | _ => false) = true := by cases e <;> cases v <;> decide +kernel
  split at h
  · exact ⟨_, by assumption⟩
  · cases h

/-- C62 applied to the two tetrahedra. -/
example (v : Ver) (integ : Bool) : ∃ b g lb li, writeIc3 cgnsElem2faces id .little .native v noConv tetPair = (some b, .ok ()) ∧
    readIc3 integ b = .ok g ∧ FromCells cgnsElem2faces exTetras tetPair.mesh lb li g.mesh := by
  obtain ⟨b, hb⟩ := tetPair_written .native v
  obtain ⟨g, lb, li, h1, h2⟩ := C62_from_cells _ cgnsTable_wf cgnsTable_widths id (fun l => List.Perm.refl l) _ _ v _ tetPair _
    tetPair_cells exTetras_conforming (by decide +kernel) tetPair_names b hb (by
      intro m' hm'
      have h : (match completeMesh cgnsElem2faces id tetPair.mesh with
        | .ok m => decide (m.ncell = 2 ∧ m.nnode = 5 ∧ m.nface = 7)
        | .error _ => false) = true := by decide +kernel
      rw [hm'] at h
      simp only [decide_eq_true_eq] at h
      obtain ⟨h1, h2, h3⟩ := h
      cases v <;> constructor <;> (try rw [h1]) <;> (try rw [h2]) <;> (try rw [h3]) <;> decide) integ
  exact ⟨b, g, lb, li, hb, h1, h2⟩
example := C62_completes_iff _ cgnsTable_wf cgnsTable_widths id (fun l => List.Perm.refl l) _ _ tetPair_cells exTetras_known

end Cfd.Ic3
