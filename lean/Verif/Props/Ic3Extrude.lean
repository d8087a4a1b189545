import Verif.Lemmas.Ic3Extrude
import Verif.Props.Ic3Writes
import Verif.Props.Convert

/-! # C65: an extruded plane mesh written to an IC3 file -/

namespace Cfd.Ic3
open Spec Spec.Ic3 ElemConn _root_.Cfd.Convert

variable {R : Type} {m : Mesh R} {c : ElemConn} {q : Quads} {domain : String}

/-- The marks of the extruded mesh. -/
def layerMarks (so : List Int → List Int) (m : Mesh R) (c : ElemConn) (domain : String) : Dict String Mark :=
  m.bocos.map (fun p => (p.1, copiedMark 2 m.nnode p.2)) ++
    [(domain ++ "0", ⟨domain ++ "0", .bdnode, "boundary", .list (c.nodelist so), none⟩),
     (domain ++ "1", ⟨domain ++ "1", .bdnode, "boundary",
       .list ((c.nodelist so).map (· + ((1 * m.nnode : Nat) : Int))), none⟩)]

theorem domain_ne (domain : String) : domain ++ "0" ≠ domain ++ "1" := by
  intro h
  have := congrArg String.toList h
  simp [String.toList_append] at this

theorem domain_reserved (domain : String) : domain ++ "0" ≠ "unmarked" ∧ domain ++ "0" ≠ "internal-domain" ∧
    domain ++ "1" ≠ "unmarked" ∧ domain ++ "1" ≠ "internal-domain" := by
  have key : ∀ (c c' : Char) (s t : String), c ≠ c' → t.toList.getLast? = some c' → s = String.ofList [c] →
      domain ++ s ≠ t := by
    intro c c' s t hc ht hs h
    have := congrArg (fun s => s.toList.getLast?) h
    simp only [String.toList_append, hs, String.toList_ofList] at this
    rw [ht] at this
    simp at this
    exact hc this
  refine ⟨key '0' 'd' _ _ (by decide) (by decide +kernel) (by decide +kernel),
    key '0' 'n' _ _ (by decide) (by decide +kernel) (by decide +kernel),
    key '1' 'd' _ _ (by decide) (by decide +kernel) (by decide +kernel),
    key '1' 'n' _ _ (by decide) (by decide +kernel) (by decide +kernel)⟩

section
variable [Add R] [Mul R]

/-- The mesh of one layer of cells. -/
theorem layer_mesh (so : List Int → List Int) (h : QuadMesh m c q) (hf : LayerFits m q domain)
    {x y z : List R} (hc : m.coords = some (x, y, z)) (d : R × R × R) (s0 s1 : R) :
    m.exportExtruded so d [s0, s1] domain = .ok
      { ncell := (layerConn m.nnode c).nelem
        nnode := m.nnode * 2
        nface := 0
        cell2node := some (layerConn m.nnode c)
        faces := []
        coords := (let pts := [s0, s1].flatMap fun s => (x.zip (y.zip z)).map fun p => translate p d s
                   some (pts.map (·.1), pts.map (·.2.1), pts.map (·.2.2)))
        bocos := layerMarks so m c domain } := by
  rw [exportExtruded_eq so m c h.mesh hc d [s0, s1] (by simp) domain]
  have hk : Dict.keys (m.bocos.map fun q => (q.1, copiedMark 2 m.nnode q.2)) = m.bocos.keys := by
    simp [Dict.keys, List.map_map, Function.comp_def]
  have h0 : domain ++ "0" ∉ m.bocos.keys := by
    intro hm
    obtain ⟨p, hp, he⟩ := List.mem_map.1 hm
    exact (hf.markName p hp).2.2.2.1 he
  have h1 : domain ++ "1" ∉ m.bocos.keys := by
    intro hm
    obtain ⟨p, hp, he⟩ := List.mem_map.1 hm
    exact (hf.markName p hp).2.2.2.2 he
  have e : ∀ b0 b1 : Mark, (Dict.set (m.bocos.map fun q => (q.1, copiedMark 2 m.nnode q.2)) (domain ++ "0") b0).set
      (domain ++ "1") b1 = (m.bocos.map fun q => (q.1, copiedMark 2 m.nnode q.2)) ++
        [(domain ++ "0", b0), (domain ++ "1", b1)] := by
    intro b0 b1
    rw [Dict.set_of_not_mem b0 (by rw [hk]; exact h0), Dict.set_of_not_mem]
    · simp
    · intro hm
      simp only [Dict.keys, List.map_append, List.mem_append, List.map_cons, List.map_nil, List.mem_singleton] at hm
      rcases hm with hm | hm
      · apply h1
        rw [← hk]
        exact hm
      · exact domain_ne domain hm.symm
  congr 1
  congr 1
  exact e _ _

end

theorem mem_copied {N : Nat} {b : Mark} {n : Int} : n ∈ markItems (copiedMark 2 N b) ↔
    n ∈ markItems b ∨ n - N ∈ markItems b := by
  have : markItems (copiedMark 2 N b) = (List.range 2).flatMap fun (i : Nat) => (markItems b).map fun x => x + (i : Int) * N := rfl
  rw [this]
  simp only [show List.range 2 = [0, 1] from rfl, List.flatMap_cons, List.flatMap_nil, List.append_nil, List.mem_append,
    List.mem_map]
  constructor
  · rintro (⟨k, hk, rfl⟩ | ⟨k, hk, rfl⟩)
    · left; simpa using hk
    · right; simpa using hk
  · rintro (hk | hk)
    · exact .inl ⟨n, hk, by simp⟩
    · exact .inr ⟨_, hk, by simp⟩

/-- Which kinds of faces a copied mark holds. -/
theorem copied_side {N : Nat} {b : Mark} (hb : ∀ n ∈ markItems b, 0 ≤ n ∧ n < (N : Int)) {e : Int × Int}
    (he : 0 ≤ e.1 ∧ e.1 < (N : Int) ∧ 0 ≤ e.2 ∧ e.2 < (N : Int)) {l : List Int} (hl : l.Perm (sideOf N e)) :
    (∀ n ∈ l, n ∈ markItems (copiedMark 2 N b)) ↔ e.1 ∈ markItems b ∧ e.2 ∈ markItems b := by
  constructor
  · intro h
    have h1 := mem_copied.1 (h e.1 (hl.mem_iff.2 (by simp [sideOf])))
    have h2 := mem_copied.1 (h e.2 (hl.mem_iff.2 (by simp [sideOf])))
    refine ⟨h1.resolve_right fun hx => ?_, h2.resolve_right fun hx => ?_⟩
    · have := hb _ hx; omega
    · have := hb _ hx; omega
  · rintro ⟨h1, h2⟩ n hn
    have := hl.mem_iff.1 hn
    simp only [sideOf, List.mem_cons, List.not_mem_nil, or_false] at this
    rcases this with rfl | rfl | rfl | rfl
    · exact mem_copied.2 (.inl h1)
    · exact mem_copied.2 (.inl h2)
    · exact mem_copied.2 (.inr (by simpa using h1))
    · exact mem_copied.2 (.inr (by simpa using h2))

theorem copied_bottom {N : Nat} {b : Mark} (hb : ∀ n ∈ markItems b, 0 ≤ n ∧ n < (N : Int)) {v : List Int} (hv : Low N v)
    (hno : ∃ n ∈ v, n ∉ markItems b) {l : List Int} (hl : l.Perm v) :
    ¬ ∀ n ∈ l, n ∈ markItems (copiedMark 2 N b) := by
  intro h
  obtain ⟨n, hn, hnb⟩ := hno
  rcases mem_copied.1 (h n (hl.mem_iff.2 hn)) with hx | hx
  · exact hnb hx
  · have := hb _ hx; have := hv n hn; omega

theorem copied_top {N : Nat} {b : Mark} (hb : ∀ n ∈ markItems b, 0 ≤ n ∧ n < (N : Int)) {v : List Int} (hv : Low N v)
    (hno : ∃ n ∈ v, n ∉ markItems b) {l : List Int} (hl : l.Perm (v.map (· + (N : Int)))) :
    ¬ ∀ n ∈ l, n ∈ markItems (copiedMark 2 N b) := by
  intro h
  obtain ⟨n, hn, hnb⟩ := hno
  rcases mem_copied.1 (h (n + N) (hl.mem_iff.2 (List.mem_map_of_mem hn))) with hx | hx
  · have := hb _ hx; have := hv n hn; omega
  · exact hnb (by simpa using hx)

/-- The nodes of the two end planes. -/
theorem mem_plane (so : List Int → List Int) (hso : Reorders so) (h : QuadMesh m c q) (n : Int) :
    n ∈ c.nodelist so ↔ ∃ p ∈ q, n ∈ p.2 := by
  obtain ⟨e, hc, hz, hn, hw⟩ := quad_entry h
  rw [(nodelist_perm so hso c h.mesh.wf).2]
  unfold elements
  rw [hc]
  simp [hz]

theorem layer_known (h : QuadMesh m c q) {tbl : FaceTable} (ht : HexaTable tbl) :
    CellsKnown tbl (layerConn m.nnode c) := by
  obtain ⟨e, hc, hz, hn, hw⟩ := quad_entry h
  intro p hp
  unfold layerConn at hp
  rw [hc] at hp
  simp only [List.map_cons, List.map_nil, List.mem_singleton] at hp
  subst hp
  refine ⟨_, 8, ht, by simp [sweptEntry, swept], ?_⟩
  decide

theorem layer_cells (bits : R → F64) (so : List Int → List Int) (h : QuadMesh m c q) (hf : LayerFits m q domain)
    (pts : List (R × R × R)) (hp : pts.length = m.nnode * 2) :
    CellMesh (storedMesh bits ⟨(layerConn m.nnode c).nelem, m.nnode * 2, 0, some (layerConn m.nnode c), [],
      some (pts.map (·.1), pts.map (·.2.1), pts.map (·.2.2)), layerMarks so m c domain⟩) (layerConn m.nnode c) where
  cells := rfl
  conn := swept_wf 1 m.nnode c h.mesh.wf h.mesh.types
  some := by
    rw [layer_elements h]
    simpa using h.some
  numbering := by
    have : allIndices (layerConn m.nnode c) = q.map (·.1) := by
      unfold allIndices
      rw [layer_elements h, List.map_map]
      rfl
    rw [this]
    exact h.numbering
  ncell := rfl
  noFaces := rfl
  coords := by
    intro x y z hc
    simp only [storedMesh, Option.map_some, Option.some.injEq, Prod.mk.injEq] at hc
    obtain ⟨rfl, rfl, rfl⟩ := hc
    simp [storedMesh, hp]
  markKeys := by
    show (layerMarks so m c domain).keys.Nodup
    unfold layerMarks Dict.keys
    rw [List.map_append, List.map_map]
    have hk : m.bocos.map (fun p => p.1) = m.bocos.keys := rfl
    simp only [Function.comp_def, hk, List.map_cons, List.map_nil]
    rw [List.nodup_append]
    refine ⟨h.mesh.names, by simp [domain_ne domain], ?_⟩
    intro a ha b hb hab
    obtain ⟨p, hp, rfl⟩ := List.mem_map.1 ha
    simp only [List.mem_cons, List.not_mem_nil, or_false] at hb
    rcases hb with hb | hb
    · exact (hf.markName p hp).2.2.2.1 (hab.trans hb)
    · exact (hf.markName p hp).2.2.2.2 (hab.trans hb)
  onNodes := by
    intro p hp
    rcases List.mem_append.1 hp with hp | hp
    · obtain ⟨p', hp', rfl⟩ := List.mem_map.1 hp
      exact (h.mesh.marks p' hp').2.2
    · simp only [List.mem_cons, List.not_mem_nil, or_false] at hp
      rcases hp with rfl | rfl <;> simp
  marksSet := by
    intro p hp
    rcases List.mem_append.1 hp with hp | hp
    · obtain ⟨p', hp', rfl⟩ := List.mem_map.1 hp
      simp [copiedMark]
    · simp only [List.mem_cons, List.not_mem_nil, or_false] at hp
      rcases hp with rfl | rfl <;> simp
  notInternal := by
    intro p hp
    rcases List.mem_append.1 hp with hp | hp
    · obtain ⟨p', hp', rfl⟩ := List.mem_map.1 hp
      exact (hf.markType p' hp').2
    · simp only [List.mem_cons, List.not_mem_nil, or_false] at hp
      rcases hp with rfl | rfl <;> simp
  notReserved := by
    have hkey : ∀ s, s ∈ (layerMarks so m c domain).keys → s ∈ m.bocos.keys ∨ s = domain ++ "0" ∨ s = domain ++ "1" := by
      intro s hs
      unfold layerMarks Dict.keys at hs
      rw [List.map_append, List.map_map] at hs
      simpa [Function.comp_def, Dict.keys] using hs
    have hres := domain_reserved domain
    constructor
    · intro hs
      rcases hkey _ hs with hs | hs | hs
      · obtain ⟨p, hp, he⟩ := List.mem_map.1 hs
        exact (hf.markName p hp).2.1 he
      · exact hres.1 hs.symm
      · exact hres.2.2.1 hs.symm
    · intro hs
      rcases hkey _ hs with hs | hs | hs
      · obtain ⟨p, hp, he⟩ := List.mem_map.1 hs
        exact (hf.markName p hp).2.2.1 he
      · exact hres.2.1 hs.symm
      · exact hres.2.2.2 hs.symm

/-- Which faces of the layer the marks hold. -/
theorem layer_holds (so : List Int → List Int) (hso : Reorders so) (h : QuadMesh m c q) (hf : LayerFits m q domain)
    {p : String × Mark} (hp : p ∈ layerMarks so m c domain) (l : List Int) :
    (∃ p' ∈ m.bocos, p.1 = p'.1 ∧ p.2.type = p'.2.type ∧
      (∀ v ∈ q, l.Perm v.2 → ¬ ∀ n ∈ l, n ∈ markItems p.2) ∧
      (∀ v ∈ q, l.Perm (v.2.map (· + (m.nnode : Int))) → ¬ ∀ n ∈ l, n ∈ markItems p.2) ∧
      (∀ x ∈ edges q, l.Perm (sideOf m.nnode x.1) →
        ((∀ n ∈ l, n ∈ markItems p.2) ↔ x.1.1 ∈ markItems p'.2 ∧ x.1.2 ∈ markItems p'.2))) ∨
    (p.1 = domain ++ "0" ∧ p.2.type = "boundary" ∧ (∀ v ∈ q, l.Perm v.2 → ∀ n ∈ l, n ∈ markItems p.2) ∧
      (∀ v ∈ q, l.Perm (v.2.map (· + (m.nnode : Int))) → ¬ ∀ n ∈ l, n ∈ markItems p.2) ∧
      (∀ x ∈ edges q, l.Perm (sideOf m.nnode x.1) → ¬ ∀ n ∈ l, n ∈ markItems p.2)) ∨
    (p.1 = domain ++ "1" ∧ p.2.type = "boundary" ∧ (∀ v ∈ q, l.Perm v.2 → ¬ ∀ n ∈ l, n ∈ markItems p.2) ∧
      (∀ v ∈ q, l.Perm (v.2.map (· + (m.nnode : Int))) → ∀ n ∈ l, n ∈ markItems p.2) ∧
      (∀ x ∈ edges q, l.Perm (sideOf m.nnode x.1) → ¬ ∀ n ∈ l, n ∈ markItems p.2)) := by
  have hlow : ∀ n, n ∈ c.nodelist so → 0 ≤ n ∧ n < (m.nnode : Int) := by
    intro n hn
    obtain ⟨v, hv, hn⟩ := (mem_plane so hso h n).1 hn
    exact quad_low h hv n hn
  have hone : ∀ v ∈ q, ∃ n, n ∈ v.2 := by
    intro v hv
    have := quad_length h hv
    exact List.exists_mem_of_ne_nil _ (by intro h0; rw [h0] at this; simp at this)
  rcases List.mem_append.1 hp with hp | hp
  · left
    obtain ⟨p', hp', rfl⟩ := List.mem_map.1 hp
    have hb := hf.markNodes p' hp'
    exact ⟨p', hp', rfl, rfl,
      fun v hv hl => copied_bottom hb (quad_low h hv) (hf.markEdges p' hp' v hv) hl,
      fun v hv hl => copied_top hb (quad_low h hv) (hf.markEdges p' hp' v hv) hl,
      fun x hx hl => copied_side hb (edge_range h hx) hl⟩
  · right
    simp only [List.mem_cons, List.not_mem_nil, or_false] at hp
    rcases hp with rfl | rfl
    · left
      refine ⟨rfl, rfl, ?_, ?_, ?_⟩
      · intro v hv hl n hn
        exact (mem_plane so hso h n).2 ⟨v, hv, hl.mem_iff.1 hn⟩
      · intro v hv hl hall
        obtain ⟨n, hn⟩ := hone v hv
        have h1 := hlow _ (hall (n + m.nnode) (hl.mem_iff.2 (List.mem_map_of_mem hn)))
        have h2 := quad_low h hv n hn
        omega
      · intro x hx hl hall
        have h1 := hlow _ (hall (x.1.1 + m.nnode) (hl.mem_iff.2 (by simp [sideOf])))
        have h2 := edge_range h hx
        omega
    · right
      have hmem : ∀ n, n ∈ (c.nodelist so).map (· + ((1 * m.nnode : Nat) : Int)) → (m.nnode : Int) ≤ n := by
        intro n hn
        obtain ⟨k, hk, rfl⟩ := List.mem_map.1 hn
        have := hlow k hk
        omega
      refine ⟨rfl, rfl, ?_, ?_, ?_⟩
      · intro v hv hl hall
        obtain ⟨n, hn⟩ := hone v hv
        have h1 := hmem _ (hall n (hl.mem_iff.2 hn))
        have h2 := quad_low h hv n hn
        omega
      · intro v hv hl n hn
        obtain ⟨k, hk, rfl⟩ := List.mem_map.1 (hl.mem_iff.1 hn)
        refine List.mem_map.2 ⟨k, (mem_plane so hso h k).2 ⟨v, hv, hk⟩, ?_⟩
        show k + ((1 * m.nnode : Nat) : Int) = k + (m.nnode : Int)
        omega
      · intro x hx hl hall
        have h1 := hmem _ (hall x.1.1 (hl.mem_iff.2 (by simp [sideOf])))
        have h2 := edge_range h hx
        omega

theorem layer_count (h : QuadMesh m c q) {tbl : FaceTable} (ht : HexaTable tbl) :
    faceCount tbl (layerConn m.nnode c) ≤ 6 * q.length := by
  unfold faceCount
  refine Nat.le_trans (List.dedup_sublist _).length_le ?_
  rw [List.length_map, layer_faces h ht]
  rw [length_flatMap_const _ _ 6 ?_]
  · omega
  · intro p hp
    obtain ⟨a, b, c', d, hv⟩ := list4 (quad_length h hp)
    unfold sixFaces
    rw [hv]
    rfl

theorem quad_nelem (h : QuadMesh m c q) : c.nelem = q.length := by
  obtain ⟨e, hc, hz, hn, hw⟩ := quad_entry h
  rw [h.mesh.wf.nelem]
  unfold elements
  rw [hc]
  simp [hz]

theorem layer_fits (bits : R → F64) (so : List Int → List Int) (hso : Reorders so) (h : QuadMesh m c q)
    (hf : LayerFits m q domain) {tbl : FaceTable} (ht : HexaTable tbl)
    (pts : List (R × R × R)) :
    CellsFit tbl (storedMesh bits ⟨(layerConn m.nnode c).nelem, m.nnode * 2, 0, some (layerConn m.nnode c), [],
      some (pts.map (·.1), pts.map (·.2.1), pts.map (·.2.2)), layerMarks so m c domain⟩) (layerConn m.nnode c) where
  types := by
    intro t ht'
    have hwf : ConnWF (layerConn m.nnode c) := swept_wf 1 m.nnode c h.mesh.wf h.mesh.types
    obtain ⟨e, hc, hz, hn, hw⟩ := quad_entry h
    have : t = "hexa8" := by
      unfold layerConn Dict.keys at ht'
      rw [hc] at ht'
      simpa [sweptEntry, swept] using ht'
    subst this
    intro h0
    obtain ⟨p, hp⟩ := List.exists_mem_of_ne_nil _ h.some
    have : ("hexa8", p.1, p.2 ++ p.2.map (· + (m.nnode : Int))) ∈ elements (layerConn m.nnode c) := by
      rw [layer_elements h]
      exact List.mem_map.2 ⟨p, hp, rfl⟩
    rw [mem_elements hwf.keys, h0] at this
    simp at this
  conforming := by
    intro o ho
    rcases (layer_kind h ht ho).2 with ⟨p, hp, _, hl⟩ | ⟨p, hp, _, hl⟩ | ⟨x, hx, _, hl⟩
    · have := congrArg List.length (on_bottom h hf.apart ht hp hl)
      simp only [List.length_map, List.length_cons, List.length_nil] at this
      omega
    · have := congrArg List.length (on_top h hf.apart ht hp hl)
      simp only [List.length_map, List.length_cons, List.length_nil] at this
      omega
    · have := congrArg List.length (on_side h ht hx hl)
      rw [List.length_map] at this
      rw [this]
      exact hf.conforming x hx
  width := by
    intro o ho
    have := (layer_kind h ht ho).1
    omega
  outer := by
    intro o ho
    obtain ⟨p, hp⟩ := List.exists_mem_of_ne_nil _ h.some
    obtain ⟨o', ho', hl⟩ := ((layer_has h ht).1 p hp).1
    refine ⟨o', ho', by rw [(layer_kind h ht ho).1, (layer_kind h ht ho').1], ?_⟩
    have := congrArg List.length (on_bottom h hf.apart ht hp hl)
    simpa using this
  inner := by
    intro o ho
    obtain ⟨x, hx, h2⟩ := hf.inner
    obtain ⟨o', ho', hl⟩ := (layer_has h ht).2 x hx
    refine ⟨o', ho', by rw [(layer_kind h ht ho).1, (layer_kind h ht ho').1], ?_⟩
    have := congrArg List.length (on_side h ht hx hl)
    rw [List.length_map, h2] at this
    exact this
  markSome := by
    intro p hp
    have hp : p ∈ layerMarks so m c domain := hp
    obtain ⟨v, hv⟩ := List.exists_mem_of_ne_nil _ h.some
    by_cases hk : ∃ p' ∈ m.bocos, p = (p'.1, copiedMark 2 m.nnode p'.2)
    · obtain ⟨p', hp', rfl⟩ := hk
      obtain ⟨x, hx, h1, h2⟩ := hf.markSome p' hp'
      obtain ⟨o, ho, hl⟩ := (layer_has h ht).2 x hx
      refine ⟨o, ho, ?_, (copied_side (hf.markNodes p' hp') (edge_range h hx) hl).2 h2⟩
      have := congrArg List.length (on_side h ht hx hl)
      rw [List.length_map, h1] at this
      exact this
    · obtain ⟨⟨o, ho, hl⟩, o', ho', hl'⟩ := (layer_has h ht).1 v hv
      have e1 := congrArg List.length (on_bottom h hf.apart ht hv hl)
      have e2 := congrArg List.length (on_top h hf.apart ht hv hl')
      simp only [List.length_map, List.length_cons, List.length_nil] at e1 e2
      rcases List.mem_append.1 hp with hp' | hp'
      · obtain ⟨p', hp2, rfl⟩ := List.mem_map.1 hp'
        exact absurd ⟨p', hp2, rfl⟩ hk
      · simp only [List.mem_cons, List.not_mem_nil, or_false] at hp'
        rcases hp' with rfl | rfl
        · refine ⟨o, ho, by omega, ?_⟩
          intro n hn
          exact (mem_plane so hso h n).2 ⟨v, hv, hl.mem_iff.1 hn⟩
        · refine ⟨o', ho', by omega, ?_⟩
          intro n hn
          obtain ⟨k, hk, rfl⟩ := List.mem_map.1 (hl'.mem_iff.1 hn)
          refine List.mem_map.2 ⟨k, (mem_plane so hso h k).2 ⟨v, hv, hk⟩, ?_⟩
          show k + ((1 * m.nnode : Nat) : Int) = k + (m.nnode : Int)
          omega
  markApart := by
    intro p hp p' hp' hne o ⟨⟨ho, hone, h1⟩, _, _, h2⟩
    have k1 := layer_holds so hso h hf hp o.1
    have k2 := layer_holds so hso h hf hp' o.1
    rcases (layer_kind h ht ho).2 with ⟨v, hv, _, hl⟩ | ⟨v, hv, _, hl⟩ | ⟨x, hx, _, hl⟩
    · rcases k1 with ⟨_, _, _, _, a1, _, _⟩ | ⟨e1, _⟩ | ⟨_, _, a1, _, _⟩
      · exact a1 v hv hl h1
      · rcases k2 with ⟨_, _, _, _, a1, _, _⟩ | ⟨e2, _⟩ | ⟨_, _, a1, _, _⟩
        · exact a1 v hv hl h2
        · exact hne (e1.trans e2.symm)
        · exact a1 v hv hl h2
      · exact a1 v hv hl h1
    · rcases k1 with ⟨_, _, _, _, _, a1, _⟩ | ⟨_, _, _, a1, _⟩ | ⟨e1, _⟩
      · exact a1 v hv hl h1
      · exact a1 v hv hl h1
      · rcases k2 with ⟨_, _, _, _, _, a1, _⟩ | ⟨_, _, _, a1, _⟩ | ⟨e2, _⟩
        · exact a1 v hv hl h2
        · exact a1 v hv hl h2
        · exact hne (e1.trans e2.symm)
    · have hlen := congrArg List.length (on_side h ht hx hl)
      rw [List.length_map, hone] at hlen
      rcases k1 with ⟨b, hb, e1, _, _, _, a1⟩ | ⟨_, _, _, _, a1⟩ | ⟨_, _, _, _, a1⟩
      · rcases k2 with ⟨b', hb', e2, _, _, _, a2⟩ | ⟨_, _, _, _, a2⟩ | ⟨_, _, _, _, a2⟩
        · exact hf.markApart b hb b' hb' (by rw [← e1, ← e2]; exact hne) x hx
            ⟨⟨hlen.symm, (a1 x hx hl).1 h1⟩, ⟨hlen.symm, (a2 x hx hl).1 h2⟩⟩
        · exact a2 x hx hl h2
        · exact a2 x hx hl h2
      · exact a1 x hx hl h1
      · exact a1 x hx hl h1
  markKnown := by
    intro p hp
    rcases List.mem_append.1 hp with hp | hp
    · obtain ⟨p', hp', rfl⟩ := List.mem_map.1 hp
      exact ⟨(h.mesh.marks p' hp').1.symm, (hf.markType p' hp').1, by simp [copiedMark]⟩
    · simp only [List.mem_cons, List.not_mem_nil, or_false] at hp
      rcases hp with rfl | rfl
      · exact ⟨rfl, by show "boundary" ∈ type2zonekind.keys; decide, by simp⟩
      · exact ⟨rfl, by show "boundary" ∈ type2zonekind.keys; decide, by simp⟩
  counts := by
    have h1 := hf.counts.1
    have h2 := hf.counts.2
    have h3 := layer_count h ht
    have h4 := quad_nelem h
    unfold Small at *
    refine ⟨?_, ?_, by omega⟩
    · show m.nnode * 2 < _
      omega
    · show 1 * c.nelem < _
      omega
  numbers := by
    intro x hx n hn
    rw [layer_elements h] at hx
    obtain ⟨p, hp, rfl⟩ := List.mem_map.1 hx
    have h1 := hf.counts.1
    unfold Small at h1
    unfold FitsInt
    rcases List.mem_append.1 hn with hn | hn
    · have := quad_low h hp n hn
      omega
    · obtain ⟨k, hk, rfl⟩ := List.mem_map.1 hn
      have := quad_low h hp k hk
      omega
  coords := ⟨_, _, _, rfl⟩

/-- What the file of the layer holds. -/
theorem layer_read (bits : R → F64) (so : List Int → List Int) (hso : Reorders so) (h : QuadMesh m c q)
    (hf : LayerFits m q domain) {tbl : FaceTable} (ht : HexaTable tbl) (pts : List (R × R × R)) {lb li : List Face}
    {g : Mesh F64} (hr : FromCells tbl (layerConn m.nnode c) (storedMesh bits
      ⟨(layerConn m.nnode c).nelem, m.nnode * 2, 0, some (layerConn m.nnode c), [],
      some (pts.map (·.1), pts.map (·.2.1), pts.map (·.2.2)), layerMarks so m c domain⟩) lb li g)
    (hkeys : (layerMarks so m c domain).keys.Nodup) :
    LayerRead m.nnode q m.bocos domain lb li g := by
  have hmarks : (storedMesh bits (⟨(layerConn m.nnode c).nelem, m.nnode * 2, 0, some (layerConn m.nnode c), [],
      some (pts.map (·.1), pts.map (·.2.1), pts.map (·.2.2)), layerMarks so m c domain⟩ : Mesh R)).bocos =
      layerMarks so m c domain := rfl
  have hkind : ∀ f ∈ lb, ∃ a, f.2 = (a, -1) ∧ ((∃ p ∈ q, a = p.1 ∧ f.1.Perm p.2) ∨
      (∃ p ∈ q, a = p.1 ∧ f.1.Perm (p.2.map (· + (m.nnode : Int)))) ∨
      ∃ x ∈ edges q, cellsOn q x.1 = [a] ∧ f.1.Perm (sideOf m.nnode x.1)) := by
    intro f hfl
    obtain ⟨a, h1, h2⟩ := hr.facesOf.boundary f hfl
    refine ⟨a, h1, ?_⟩
    have hmem : (f.1, a) ∈ facesOfCells tbl (layerConn m.nnode c) :=
      (mem_facesOn.1 (by rw [h2]; simp : (f.1, a) ∈ facesOn tbl (layerConn m.nnode c) f.1)).1
    rcases (layer_kind h ht hmem).2 with ⟨p, hp, e, hl⟩ | ⟨p, hp, e, hl⟩ | ⟨x, hx, e, hl⟩
    · exact .inl ⟨p, hp, e, hl⟩
    · exact .inr (.inl ⟨p, hp, e, hl⟩)
    · refine .inr (.inr ⟨x, hx, ?_, hl⟩)
      rw [← on_side h ht hx hl, h2]
      rfl
  have houter : ∀ f ∈ lb, IsBottom q f ∨ IsTop m.nnode q f ∨ ∃ e, IsSide m.nnode q e f := by
    intro f hfl
    obtain ⟨a, h1, ⟨p, hp, rfl, hl⟩ | ⟨p, hp, rfl, hl⟩ | ⟨x, hx, hc, hl⟩⟩ := hkind f hfl
    · exact .inl ⟨p, hp, hl, h1⟩
    · exact .inr (.inl ⟨p, hp, hl, h1⟩)
    · exact .inr (.inr ⟨x.1, ⟨x, hx, rfl⟩, hl, a, hc, h1⟩)
  have hget : ∀ p ∈ layerMarks so m c domain, (layerMarks so m c domain).get? p.1 = some p.2 := by
    intro p hp
    exact Dict.get?_of_mem hkeys hp
  have hfirst : (domain ++ "0", (⟨domain ++ "0", .bdnode, "boundary", .list (c.nodelist so), none⟩ : Mark)) ∈
      layerMarks so m c domain := by simp [layerMarks]
  have hlast : (domain ++ "1", (⟨domain ++ "1", .bdnode, "boundary",
      .list ((c.nodelist so).map (· + ((1 * m.nnode : Nat) : Int))), none⟩ : Mark)) ∈
      layerMarks so m c domain := by simp [layerMarks]
  have hnot0 : ∀ p ∈ m.bocos, domain ++ "0" ≠ p.1 := fun p hp h0 => (hf.markName p hp).2.2.2.1 h0.symm
  have hnot1 : ∀ p ∈ m.bocos, domain ++ "1" ≠ p.1 := fun p hp h0 => (hf.markName p hp).2.2.2.2 h0.symm
  -- the marks of the extruded mesh on boundary faces
  have hold0 : ∀ f ∈ lb, Holds ⟨domain ++ "0", .bdnode, "boundary", .list (c.nodelist so), none⟩ f ↔ IsBottom q f := by
    intro f hfl
    rcases layer_holds so hso h hf hfirst f.1 with ⟨p', hp', e, _⟩ | ⟨_, _, a1, a2, a3⟩ | ⟨e, _⟩
    · exact absurd e (hnot0 p' hp')
    · constructor
      · intro hh
        obtain ⟨a, h1, ⟨p, hp, rfl, hl⟩ | ⟨p, hp, rfl, hl⟩ | ⟨x, hx, hc, hl⟩⟩ := hkind f hfl
        · exact ⟨p, hp, hl, h1⟩
        · exact absurd hh (a2 p hp hl)
        · exact absurd hh (a3 x hx hl)
      · rintro ⟨p, hp, hl, _⟩
        exact a1 p hp hl
    · exact absurd e (domain_ne domain)
  have hold1 : ∀ f ∈ lb, Holds ⟨domain ++ "1", .bdnode, "boundary",
      .list ((c.nodelist so).map (· + ((1 * m.nnode : Nat) : Int))), none⟩ f ↔ IsTop m.nnode q f := by
    intro f hfl
    rcases layer_holds so hso h hf hlast f.1 with ⟨p', hp', e, _⟩ | ⟨e, _⟩ | ⟨_, _, a1, a2, a3⟩
    · exact absurd e (hnot1 p' hp')
    · exact absurd e.symm (domain_ne domain)
    · constructor
      · intro hh
        obtain ⟨a, h1, ⟨p, hp, rfl, hl⟩ | ⟨p, hp, rfl, hl⟩ | ⟨x, hx, hc, hl⟩⟩ := hkind f hfl
        · exact absurd hh (a1 p hp hl)
        · exact ⟨p, hp, hl, h1⟩
        · exact absurd hh (a3 x hx hl)
      · rintro ⟨p, hp, hl, _⟩
        exact a2 p hp hl
  have holdm : ∀ p ∈ m.bocos, ∀ f ∈ lb, Holds (copiedMark 2 m.nnode p.2) f ↔
      ∃ e, IsSide m.nnode q e f ∧ EdgeOnMark q p.2 e := by
    intro p hp f hfl
    have hb := hf.markNodes p hp
    constructor
    · intro hh
      obtain ⟨a, h1, ⟨v, hv, rfl, hl⟩ | ⟨v, hv, rfl, hl⟩ | ⟨x, hx, hc, hl⟩⟩ := hkind f hfl
      · exact absurd hh (copied_bottom hb (quad_low h hv) (hf.markEdges p hp v hv) hl)
      · exact absurd hh (copied_top hb (quad_low h hv) (hf.markEdges p hp v hv) hl)
      · exact ⟨x.1, ⟨⟨x, hx, rfl⟩, hl, a, hc, h1⟩, by rw [hc]; rfl, (copied_side hb (edge_range h hx) hl).1 hh⟩
    · rintro ⟨e, ⟨⟨x, hx, rfl⟩, hl, _⟩, _, h2⟩
      exact (copied_side hb (edge_range h hx) hl).2 h2
  have hmemc : ∀ p ∈ m.bocos, (p.1, copiedMark 2 m.nnode p.2) ∈ layerMarks so m c domain := by
    intro p hp
    exact List.mem_append.2 (.inl (List.mem_map.2 ⟨p, hp, rfl⟩))
  constructor
  · rw [hr.ncell]
    show 1 * c.nelem = _
    rw [quad_nelem h, Nat.one_mul]
  · rw [hr.nnode]
    show m.nnode * 2 = _
    rw [Nat.mul_comm]
  · exact hr.faces
  · exact houter
  · intro f hfl
    obtain ⟨n, h1⟩ := hr.facesOf.internal f hfl
    have hmem : (f.1, f.2.1) ∈ facesOfCells tbl (layerConn m.nnode c) :=
      (mem_facesOn.1 (by rw [h1.mem_iff]; simp : (f.1, f.2.1) ∈ facesOn tbl (layerConn m.nnode c) f.1)).1
    have h2 := h1.map (·.2)
    rcases (layer_kind h ht hmem).2 with ⟨p, hp, _, hl⟩ | ⟨p, hp, _, hl⟩ | ⟨x, hx, _, hl⟩
    · rw [on_bottom h hf.apart ht hp hl] at h2
      simpa using h2.length_eq
    · rw [on_top h hf.apart ht hp hl] at h2
      simpa using h2.length_eq
    · rw [on_side h ht hx hl] at h2
      exact ⟨x, hx, hl, h2⟩
  · have honce : ∀ o ∈ facesOfCells tbl (layerConn m.nnode c), ∀ l, o.1.Perm l →
        ((lb ++ li).countP fun f => f.1.isPerm l) = 1 := by
      intro o ho l hl
      rw [← hr.facesOf.once o ho]
      congr 1
      funext f
      rw [Bool.eq_iff_iff, List.isPerm_iff, List.isPerm_iff]
      exact ⟨fun hx => hx.trans hl.symm, fun hx => hx.trans hl⟩
    constructor
    · intro p hp
      obtain ⟨⟨o, ho, hl⟩, o', ho', hl'⟩ := (layer_has h ht).1 p hp
      exact ⟨honce o ho _ hl, honce o' ho' _ hl'⟩
    · intro x hx
      obtain ⟨o, ho, hl⟩ := (layer_has h ht).2 x hx
      exact honce o ho _ hl
  · obtain ⟨b', k1, k2, k3, k4⟩ := hr.marks _ _ (by rw [hmarks]; exact hget _ hfirst)
    refine ⟨b', k1, k2, k3, fun i => ?_⟩
    rw [k4]
    refine and_congr_right fun _ => exists_congr fun f => and_congr_right fun hi => ?_
    exact hold0 f (List.mem_of_getElem? hi)
  · obtain ⟨b', k1, k2, k3, k4⟩ := hr.marks _ _ (by rw [hmarks]; exact hget _ hlast)
    refine ⟨b', k1, k2, k3, fun i => ?_⟩
    rw [k4]
    refine and_congr_right fun _ => exists_congr fun f => and_congr_right fun hi => ?_
    exact hold1 f (List.mem_of_getElem? hi)
  · intro name b hb
    have hb := Dict.mem_of_get? hb
    obtain ⟨b', k1, k2, k3, k4⟩ := hr.marks _ _ (by rw [hmarks]; exact hget _ (hmemc _ hb))
    refine ⟨b', k1, k2, k3, fun i => ?_⟩
    rw [k4]
    refine and_congr_right fun _ => exists_congr fun f => ?_
    constructor
    · rintro ⟨hi, hh⟩
      obtain ⟨e, h1, h2⟩ := (holdm _ hb f (List.mem_of_getElem? hi)).1 hh
      exact ⟨e, hi, h1, h2⟩
    · rintro ⟨e, hi, h1, h2⟩
      exact ⟨hi, (holdm _ hb f (List.mem_of_getElem? hi)).2 ⟨e, h1, h2⟩⟩
  · intro b' hb'
    obtain ⟨h1, h2, h3⟩ := hr.unmarked b' hb'
    refine ⟨h1, h2, fun i => ?_⟩
    rw [h3, hmarks]
    refine and_congr_right fun _ => exists_congr fun f => ?_
    constructor
    · rintro ⟨hi, hno⟩
      have hfl := List.mem_of_getElem? hi
      rcases houter f hfl with hb | hb | ⟨e, he⟩
      · exact absurd ((hold0 f hfl).2 hb) (hno _ hfirst)
      · exact absurd ((hold1 f hfl).2 hb) (hno _ hlast)
      · exact ⟨e, hi, he, fun p hp hon => hno _ (hmemc p hp) ((holdm p hp f hfl).2 ⟨e, he, hon⟩)⟩
    · rintro ⟨e, hi, he, hno⟩
      have hfl := List.mem_of_getElem? hi
      refine ⟨hi, fun p hp hh => ?_⟩
      obtain ⟨⟨x, hx, rfl⟩, hl, a, hc, _⟩ := he
      rcases layer_holds so hso h hf hp f.1 with ⟨p', hp', _, _, _, _, a3⟩ | ⟨_, _, _, _, a3⟩ | ⟨_, _, _, _, a3⟩
      · exact hno p' hp' ⟨by rw [hc]; rfl, (a3 x hx hl).1 hh⟩
      · exact a3 x hx hl hh
      · exact a3 x hx hl hh
  · intro name hname
    rcases hr.others name hname with hk | hk | hk
    · rw [hmarks] at hk
      unfold layerMarks Dict.keys at hk
      rw [List.map_append, List.map_map] at hk
      have : name ∈ m.bocos.keys ∨ name = domain ++ "0" ∨ name = domain ++ "1" := by
        simpa [Function.comp_def, Dict.keys] using hk
      rcases this with hk | hk | hk
      · exact .inl hk
      · exact .inr (.inl hk)
      · exact .inr (.inr (.inl hk))
    · exact .inr (.inr (.inr (.inl hk)))
    · exact .inr (.inr (.inr (.inr hk)))
  · apply hr.tiles
    intro hnil
    obtain ⟨p, hp⟩ := List.exists_mem_of_ne_nil _ h.some
    obtain ⟨⟨o, ho, hl⟩, _⟩ := (layer_has h ht).1 p hp
    have h1 := hr.facesOf.once o ho
    rw [hnil, List.nil_append] at h1
    have hpos : 0 < li.countP fun f => f.1.isPerm o.1 := by omega
    rw [List.countP_pos_iff] at hpos
    obtain ⟨f, hfl, hfp⟩ := hpos
    rw [List.isPerm_iff] at hfp
    obtain ⟨n, hn⟩ := hr.facesOf.internal f hfl
    have h2 := (hn.map (·.2)).length_eq
    rw [on_bottom h hf.apart ht hp (hfp.trans hl)] at h2
    simp at h2

private theorem no_data (v : Ver) (m : Mesh F64) (m' : Mesh F64) : DataStorable v (imported m) m' where
  nodeKeys := List.nodup_nil
  cellKeys := List.nodup_nil
  nodes := by intro p hp; cases hp
  cells := by intro p hp; cases hp
  someNode := by intro h; exact absurd rfl h
  someCell := by intro h; exact absurd rfl h

/-- The layer with any coordinates is written and read. -/
theorem layer_written {tbl : FaceTable} (htbl : tbl = cgnsElem2faces ∨ tbl = gmshElem2faces)
    (so : List Int → List Int) (hso : Reorders so) {m : Mesh R} {c : ElemConn} {q : Quads} (h : QuadMesh m c q)
    {domain : String} (hf : LayerFits m q domain) (bits : R → F64) (host : Order) (e : Endian) (v : Ver) (cv : Conv)
    (integ : Bool) (pts : List (R × R × R)) (hpl : pts.length = m.nnode * 2) :
    ∃ b g lb li, writeIc3 tbl so host e v cv (imported (storedMesh bits ⟨(layerConn m.nnode c).nelem, m.nnode * 2, 0,
        some (layerConn m.nnode c), [], some (pts.map (·.1), pts.map (·.2.1), pts.map (·.2.2)), layerMarks so m c domain⟩)) =
        (some b, .ok ()) ∧
      readIc3 integ b = .ok g ∧ LayerRead m.nnode q m.bocos domain lb li g.mesh ∧
      ∀ i : Nat, nodeAt g.mesh i = (pts[i]?).map fun p => (bits p.1, bits p.2.1, bits p.2.2) := by
  have ht : HexaTable tbl := by
    rcases htbl with rfl | rfl
    · exact hexaTable_cgns
    · exact hexaTable_gmsh
  have hwf : TableWF tbl ∧ DistinctWidths tbl := by
    rcases htbl with rfl | rfl
    · exact ⟨cgnsTable_wf, cgnsTable_widths⟩
    · exact ⟨gmshTable_wf, gmshTable_widths⟩
  have hcm := layer_cells bits so h hf _ hpl
  have hfit := layer_fits bits so hso h hf ht pts
  have hnames : ∀ xyz, NamesFit (imported (storedMesh bits ⟨(layerConn m.nnode c).nelem, m.nnode * 2, 0,
      some (layerConn m.nnode c), [], xyz, layerMarks so m c domain⟩)) := fun xyz => {
    marks := by
      intro p hp
      rcases List.mem_append.1 hp with hp | hp
      · obtain ⟨p', hp', rfl⟩ := List.mem_map.1 hp
        exact (hf.markName p' hp').1
      · simp only [List.mem_cons, List.not_mem_nil, or_false] at hp
        rcases hp with rfl | rfl
        · exact hf.names.1
        · exact hf.names.2
    weights := by intro d h; cases h
    nodes := by intro p hp; cases hp
    cells := by intro p hp; cases hp }
  have hdf : ∀ m1 : Mesh F64, DataFits v cv (imported m1) m1.ncell := by
    intro m1
    constructor
    · exact .inl rfl
    all_goals first
      | (intro s h; cases h; done)
      | (intro _ h; exact absurd rfl h)
  obtain ⟨b, g, lb, li, hw, hr, hfc⟩ := C63_cells tbl hwf.1 hwf.2 so hso host e v cv
    (imported (storedMesh bits _)) (layerConn m.nnode c) hcm (layer_known h ht) hfit (hnames _) (no_data _ _ _) (hdf _) integ
  refine ⟨b, g, lb, li, hw, hr, layer_read bits so hso h hf ht _ hfc hcm.markKeys, ?_⟩
  have hcoords : g.mesh.coords = _ := hfc.coords
  intro i
  unfold nodeAt
  rw [hcoords]
  simp only [imported, storedMesh, Option.map_some, List.getElem?_map]
  cases pts[i]? <;> rfl

/-- C65: a plane mesh of quadrangles extruded by one layer is written by both IC3 writers, in both byte orders; the file
is read again as this layer: the two planes of nodes, one hexahedron per quadrangle, the quadrangles, their copies and
the sides above the edges as faces, the two planes and the extruded marks as zones. -/
theorem C65_one_layer [Add R] [Mul R] {tbl : FaceTable} (htbl : tbl = cgnsElem2faces ∨ tbl = gmshElem2faces)
    (so : List Int → List Int) (hso : Reorders so) (m : Mesh R) (c : ElemConn) (q : Quads) (h : QuadMesh m c q)
    (domain : String) (hf : LayerFits m q domain) (d : R × R × R) (s0 s1 : R) (bits : R → F64)
    (host : Order) (e : Endian) (v : Ver) (cv : Conv) (integ : Bool) :
    ∃ m' b g lb li, m.exportExtruded so d [s0, s1] domain = .ok m' ∧
      writeIc3 tbl so host e v cv (imported (storedMesh bits m')) = (some b, .ok ()) ∧
      readIc3 integ b = .ok g ∧ LayerRead m.nnode q m.bocos domain lb li g.mesh ∧
      ∀ j : Nat, j < m.nnode →
        nodeAt g.mesh j = (nodeAt m j).map (fun p => (bits (translate p d s0).1, bits (translate p d s0).2.1,
          bits (translate p d s0).2.2)) ∧
        nodeAt g.mesh (m.nnode + j) = (nodeAt m j).map (fun p => (bits (translate p d s1).1, bits (translate p d s1).2.1,
          bits (translate p d s1).2.2)) := by
  obtain ⟨x, y, z, hc, hx, hy, hz⟩ := h.mesh.coords
  have hm' := layer_mesh so h hf hc d s0 s1
  obtain ⟨pts, hpts⟩ : ∃ pts : List (R × R × R), pts = [s0, s1].flatMap fun s => (x.zip (y.zip z)).map fun p => translate p d s :=
    ⟨_, rfl⟩
  simp only [← hpts] at hm'
  have hzl : (x.zip (y.zip z)).length = m.nnode := by simp [hx, hy, hz]
  have hpl : pts.length = m.nnode * 2 := by
    rw [hpts]
    simp only [List.flatMap_cons, List.flatMap_nil, List.append_nil, List.length_append, List.length_map, hzl]
    omega
  obtain ⟨b, g, lb, li, hw, hr, hl, hat⟩ := layer_written htbl so hso h hf bits host e v cv integ pts hpl
  refine ⟨_, b, g, lb, li, hm', hw, hr, hl, ?_⟩
  intro j hj
  have hblock : ∀ k s, [s0, s1][k]? = some s →
      pts[k * m.nnode + j]? =
        (nodeAt m j).map fun p => translate p d s := by
    intro k s hk
    rw [hpts, getElem?_blocks [s0, s1] _ m.nnode (by simp [hzl, hx, hy, hz]) k j s hk hj, List.getElem?_map, nodeAt_zip m hc]
  have h0 := hblock 0 s0 rfl
  have h1 := hblock 1 s1 rfl
  rw [Nat.zero_mul, Nat.zero_add] at h0
  rw [Nat.one_mul] at h1
  rw [hat, hat, h0, h1, Option.map_map, Option.map_map]
  exact ⟨rfl, rfl⟩

end Cfd.Ic3
