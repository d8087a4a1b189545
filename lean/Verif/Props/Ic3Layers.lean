import Verif.Props.Ic3Extrude
import Verif.Props.Ic3Numbers

/-! # C65, other extrusions: several layers, other cells than quadrangles -/

namespace Cfd.Ic3
open Spec Spec.Ic3 ElemConn _root_.Cfd.Convert

variable {R : Type} {m : Mesh R} {c : ElemConn} {q : Quads} {domain : String}

/-! ## Several layers -/

/-- The cells of `L` layers. -/
def stackConn (L N : Nat) (c : ElemConn) : ElemConn := ⟨L * c.nelem, c.tbl.map (sweptEntry L N)⟩

/-- A cell shifted by `k` planes. -/
def raised (N k : Nat) (p : Int × List Int) : Int × List Int := (p.1 + (k : Int) * N, p.2.map (· + (k : Int) * N))

theorem stack_elements (h : QuadMesh m c q) (L : Nat) :
    elements (stackConn L m.nnode c) = (List.range L).flatMap fun k => q.map fun p =>
      ("hexa8", (raised m.nnode k p).1, (raised m.nnode k p).2 ++ (raised m.nnode k p).2.map (· + (m.nnode : Int))) := by
  obtain ⟨e, hc, hz, hn, hw⟩ := quad_entry h
  have hz' := sweptEntry_zip L m.nnode ("quad4", e) hw
  unfold elements stackConn
  rw [hc]
  simp only [List.map_cons, List.map_nil, List.flatMap_cons, List.flatMap_nil, List.append_nil]
  rw [hz', List.map_flatMap]
  refine flatMap_congr_mem fun k _ => ?_
  simp only [hz, List.map_map]
  apply List.map_congr_left
  intro p _
  simp only [Function.comp_apply, sweptEntry, swept, sweptNodes, raised, List.map_map, Option.map_some,
    Option.getD_some, Prod.mk.injEq, true_and]
  congr 1
  apply List.map_congr_left
  intro i _
  simp only [Function.comp_apply]
  rw [Int.add_mul, Int.one_mul, Int.add_assoc]

theorem stack_faces (h : QuadMesh m c q) {tbl : FaceTable} (ht : HexaTable tbl) (L : Nat) :
    facesOfCells tbl (stackConn L m.nnode c) =
      (List.range L).flatMap fun k => q.flatMap fun p => sixFaces m.nnode (raised m.nnode k p) := by
  unfold facesOfCells
  rw [stack_elements h, List.flatMap_assoc]
  refine flatMap_congr_mem fun k _ => ?_
  rw [List.flatMap_map]
  refine flatMap_congr_mem fun p hp => ?_
  obtain ⟨a, b, c', d, hv⟩ := list4 (quad_length h hp)
  rw [ht]
  simp [sixFaces, hv, raised]

theorem six_shift {N : Nat} {p : Int × List Int} (hl : p.2.length = 4) (t : Int) :
    sixFaces N (p.1 + t, p.2.map (· + t)) = (sixFaces N p).map fun o => (o.1.map (· + t), o.2 + t) := by
  obtain ⟨a, b, c, d, hv⟩ := list4 hl
  simp [sixFaces, hv, Int.add_right_comm]

theorem perm_shift {v w : List Int} (t : Int) : (v.map (· + t)).Perm (w.map (· + t)) ↔ v.Perm w := by
  refine ⟨fun h => ?_, fun h => h.map _⟩
  have := h.map (· - t)
  simpa [List.map_map, Function.comp_def] using this

/-- The last plane: each quadrangle is a face of a single cell, the one below in the last layer. -/
theorem on_last (h : QuadMesh m c q) (ha : q.Pairwise fun p p' => ¬ p.2.Perm p'.2) {tbl : FaceTable}
    (ht : HexaTable tbl) (L : Nat) {p : Int × List Int} (hp : p ∈ q) :
    (facesOn tbl (stackConn (L + 1) m.nnode c) ((raised m.nnode L p).2.map (· + (m.nnode : Int)))).map (·.2) =
      [p.1 + (L : Int) * m.nnode] := by
  unfold facesOn
  rw [stack_faces h ht, List.range_succ, List.flatMap_append, List.filter_append, List.map_append]
  have hlow : ((List.range L).flatMap fun k => q.flatMap fun p => sixFaces m.nnode (raised m.nnode k p)).filter
      (fun o => o.1.isPerm ((raised m.nnode L p).2.map (· + (m.nnode : Int)))) = [] := by
    rw [List.filter_eq_nil_iff]
    intro o ho hpm
    rw [List.isPerm_iff] at hpm
    obtain ⟨k, hk, ho⟩ := List.mem_flatMap.1 ho
    obtain ⟨p', hp', ho⟩ := List.mem_flatMap.1 ho
    have hkL := List.mem_range.1 hk
    have hmul : ((k : Int) + 1) * m.nnode ≤ (L : Int) * m.nnode :=
      Int.mul_le_mul_of_nonneg_right (by omega) (by omega)
    rw [Int.add_mul, Int.one_mul] at hmul
    -- all the nodes are in the last plane
    have hhigh : ∀ n ∈ o.1, (L : Int) * m.nnode + m.nnode ≤ n := by
      intro n hn
      obtain ⟨x, hx, rfl⟩ := List.mem_map.1 (hpm.mem_iff.1 hn)
      obtain ⟨y, hy, rfl⟩ := List.mem_map.1 hx
      have := quad_low h hp y hy
      omega
    have hlo : ∀ n ∈ (raised m.nnode k p').2, n < (k : Int) * m.nnode + m.nnode := by
      intro n hn
      obtain ⟨y, hy, rfl⟩ := List.mem_map.1 hn
      have := quad_low h hp' y hy
      omega
    have hne : (raised m.nnode k p').2 ≠ [] := by
      intro h0
      have := quad_length h hp'
      have h1 := congrArg List.length h0
      simp only [raised, List.length_map, List.length_nil] at h1
      omega
    obtain ⟨_, _, h2 | h2 | ⟨e, he, h2⟩⟩ := six_kind ho
    · obtain ⟨n, hn⟩ := List.exists_mem_of_ne_nil _ hne
      have h3 := hlo n hn
      have h4 := hhigh n (h2.mem_iff.2 hn)
      omega
    · obtain ⟨n, hn⟩ := List.exists_mem_of_ne_nil _ hne
      have h3 := hlo n hn
      have h4 := hhigh (n + m.nnode) (h2.mem_iff.2 (List.mem_map_of_mem hn))
      omega
    · have hmem : e.1 ∈ (raised m.nnode k p').2 := by
        unfold edgesOf at he
        split at he
        · rename_i a b c d hv
          rw [hv]
          simp only [List.mem_cons, List.not_mem_nil, or_false] at he
          rcases he with rfl | rfl | rfl | rfl <;> simp
        · simp at he
      have h3 := hlo _ hmem
      have h4 := hhigh e.1 (h2.mem_iff.2 (by simp [sideOf]))
      omega
  rw [hlow, List.map_nil, List.nil_append, List.flatMap_cons, List.flatMap_nil, List.append_nil, map_filter_flatMap]
  have hone := filter_pairwise ha hp
  have hstep : ∀ x ∈ q, ((sixFaces m.nnode (raised m.nnode L x)).filter fun o =>
      o.1.isPerm ((raised m.nnode L p).2.map (· + (m.nnode : Int)))).map (·.2) =
      (if x.2.Perm p.2 then [x.1] else []).map (· + (L : Int) * m.nnode) := by
    intro x hx
    have hpn : p.2 ≠ [] := by
      intro h0
      have := quad_length h hp
      rw [h0] at this
      simp at this
    rw [← six_top (quad_length h hx) (quad_low h hx) (quad_low h hp) hpn (List.Perm.refl _)]
    unfold raised
    have : ((p.2.map (· + (L : Int) * m.nnode)).map (· + (m.nnode : Int))) =
        (p.2.map (· + (m.nnode : Int))).map (· + (L : Int) * m.nnode) := by
      rw [List.map_map, List.map_map]
      apply List.map_congr_left
      intro i _
      simp only [Function.comp_apply]
      omega
    rw [this, six_shift (quad_length h hx), List.filter_map]
    have hfil : (sixFaces m.nnode x).filter ((fun o : List Int × Int =>
        o.1.isPerm ((p.2.map (· + (m.nnode : Int))).map (· + (L : Int) * m.nnode))) ∘
          fun o => (o.1.map (· + (L : Int) * m.nnode), o.2 + (L : Int) * m.nnode)) =
        (sixFaces m.nnode x).filter fun o => o.1.isPerm (p.2.map (· + (m.nnode : Int))) := by
      apply List.filter_congr
      intro o _
      rw [Bool.eq_iff_iff]
      simp only [Function.comp_apply, List.isPerm_iff]
      exact perm_shift _
    rw [hfil]
    simp only [List.map_map, Function.comp_def]
  rw [flatMap_congr_mem hstep, ← List.map_flatMap, hone]
  rfl

/-- The numbers of the cells of a stack. -/
theorem stack_numbers (h : QuadMesh m c q) {tbl : FaceTable} (ht : HexaTable tbl) (L : Nat) {o : List Int × Int}
    (ho : o ∈ facesOfCells tbl (stackConn L m.nnode c)) :
    ∃ k : Nat, k < L ∧ ∃ p ∈ q, o.2 = p.1 + (k : Int) * m.nnode := by
  rw [stack_faces h ht] at ho
  obtain ⟨k, hk, ho⟩ := List.mem_flatMap.1 ho
  obtain ⟨p, hp, ho⟩ := List.mem_flatMap.1 ho
  exact ⟨k, List.mem_range.1 hk, p, hp, (six_kind ho).1⟩

/-- The marks of the extruded mesh are on nodes, with names and types known to the format. -/
theorem stack_mesh [Add R] [Mul R] (bits : R → F64) (so : List Int → List Int) (h : QuadMesh m c q)
    (hf : LayerFits m q domain) (d : R × R × R) (planes : List R) (hp : 2 ≤ planes.length) {m' : Mesh R}
    (hm' : m.exportExtruded so d planes domain = .ok m') :
    NodeCells (storedMesh bits m') (stackConn (planes.length - 1) m.nnode c) ∧
      NamesFit (imported (storedMesh bits m')) ∧ m'.ncell = (planes.length - 1) * q.length := by
  obtain ⟨x, y, z, hc, hx, hy, hz⟩ := h.mesh.coords
  rw [exportExtruded_eq so m c h.mesh hc d planes hp domain, Except.ok.injEq] at hm'
  have hmem : ∀ p ∈ m'.bocos, (∃ p' ∈ m.bocos, p = (p'.1, copiedMark planes.length m.nnode p'.2)) ∨
      ((p.1 = domain ++ "0" ∨ p.1 = domain ++ "1") ∧ p.2.geodim = .bdnode ∧ p.2.type = "boundary" ∧
        p.2.index ≠ .unset) := by
    intro p hp
    rw [← hm'] at hp
    simp only at hp
    rcases mem_set hp with rfl | hp
    · exact .inr ⟨.inr rfl, rfl, rfl, by simp⟩
    · rcases mem_set hp with rfl | hp
      · exact .inr ⟨.inl rfl, rfl, rfl, by simp⟩
      · obtain ⟨p', hp', rfl⟩ := List.mem_map.1 hp
        exact .inl ⟨p', hp', rfl⟩
  have hnd : m'.bocos.keys.Nodup := by
    rw [← hm']
    simp only
    refine Dict.nodup_keys_set ?_ _ _
    refine Dict.nodup_keys_set ?_ _ _
    have : Dict.keys (m.bocos.map fun q => (q.1, copiedMark planes.length m.nnode q.2)) = m.bocos.keys := by
      simp [Dict.keys, List.map_map, Function.comp_def]
    rw [this]
    exact h.mesh.names
  have hcell : m'.cell2node = some (stackConn (planes.length - 1) m.nnode c) := by rw [← hm']; rfl
  have hne : m'.ncell = (planes.length - 1) * q.length := by
    rw [← hm']
    show (planes.length - 1) * c.nelem = _
    rw [quad_nelem h]
  refine ⟨?_, ?_, hne⟩
  · constructor
    · exact hcell
    · exact swept_wf _ _ c h.mesh.wf h.mesh.types
    · rw [stack_elements h]
      obtain ⟨p, hp⟩ := List.exists_mem_of_ne_nil _ h.some
      exact List.ne_nil_of_mem (List.mem_flatMap.2 ⟨0, List.mem_range.2 (by omega), List.mem_map.2 ⟨p, hp, rfl⟩⟩)
    · show m'.faces = []
      rw [← hm']
    · intro a b c' he
      rw [← hm'] at he
      simp only [storedMesh, Option.map_some, Option.some.injEq, Prod.mk.injEq] at he
      obtain ⟨rfl, rfl, rfl⟩ := he
      have hl : (planes.flatMap fun s => (x.zip (y.zip z)).map fun p => translate p d s).length =
          planes.length * m.nnode := length_flatMap_const _ _ m.nnode (by simp [hx, hy, hz])
      have : (storedMesh bits m').nnode = m.nnode * planes.length := by rw [← hm']; rfl
      simp only [List.length_map, this, hl, Nat.mul_comm, and_self]
    · exact hnd
    · intro p hp
      rcases hmem p hp with ⟨p', hp', rfl⟩ | ⟨_, hg, _⟩
      · exact (h.mesh.marks p' hp').2.2
      · rw [hg]; simp
    · intro p hp
      rcases hmem p hp with ⟨p', hp', rfl⟩ | ⟨_, _, _, hg⟩
      · simp [copiedMark]
      · exact hg
    · intro p hp
      rcases hmem p hp with ⟨p', hp', rfl⟩ | ⟨_, _, hg, _⟩
      · exact (hf.markType p' hp').2
      · rw [hg]; decide
    · have hr := domain_reserved domain
      constructor
      · intro hk
        obtain ⟨p, hp, he⟩ := List.mem_map.1 hk
        rcases hmem p hp with ⟨p', hp', rfl⟩ | ⟨hg | hg, _⟩
        · exact (hf.markName p' hp').2.1 he
        · exact hr.1 (hg.symm.trans he)
        · exact hr.2.2.1 (hg.symm.trans he)
      · intro hk
        obtain ⟨p, hp, he⟩ := List.mem_map.1 hk
        rcases hmem p hp with ⟨p', hp', rfl⟩ | ⟨hg | hg, _⟩
        · exact (hf.markName p' hp').2.2.1 he
        · exact hr.2.1 (hg.symm.trans he)
        · exact hr.2.2.2 (hg.symm.trans he)
  · constructor
    · intro p hp
      rcases hmem p hp with ⟨p', hp', rfl⟩ | ⟨hg | hg, _⟩
      · exact (hf.markName p' hp').1
      · rw [hg]; exact hf.names.1
      · rw [hg]; exact hf.names.2
    · intro d h; cases h
    · intro p hp; cases hp
    · intro p hp; cases hp

/-- A file of several layers, whatever the coordinates. -/
theorem layers_unreadable {tbl : FaceTable} (htbl : tbl = cgnsElem2faces ∨ tbl = gmshElem2faces)
    (so : List Int → List Int) (hso : Reorders so) {m : Mesh R} {c : ElemConn} {q : Quads} (h : QuadMesh m c q)
    (hap : q.Pairwise fun p p' => ¬ p.2.Perm p'.2) (hN : m.nnode ≠ q.length) (layers : Nat) (hp : 2 ≤ layers) (host : Order)
    (e : Endian) (v : Ver) (cv : Conv) (integ : Bool) {f : FullMesh} (hnc : NodeCells f.mesh (stackConn layers m.nnode c))
    (hnames : NamesFit f) (hne : f.mesh.ncell = layers * q.length) (b : Bytes)
    (hw : writeIc3 tbl so host e v cv f = (some b, .ok ())) (g : FullMesh) : readIc3 integ b ≠ .ok g := by
  intro hg
  have ht : HexaTable tbl := by
    rcases htbl with rfl | rfl
    · exact hexaTable_cgns
    · exact hexaTable_gmsh
  have hwf : TableWF tbl ∧ DistinctWidths tbl := by
    rcases htbl with rfl | rfl
    · exact ⟨cgnsTable_wf, cgnsTable_widths⟩
    · exact ⟨gmshTable_wf, gmshTable_widths⟩
  have hq : 0 < q.length := List.length_pos_iff.2 h.some
  obtain ⟨L, hL⟩ : ∃ L, layers = L + 1 := ⟨layers - 1, by omega⟩
  rw [hL] at hnc hne
  have hncell : f.mesh.ncell = (L + 1) * q.length := hne
  have hpos : 0 < f.mesh.ncell := by
    rw [hncell]
    exact Nat.mul_pos (by omega) hq
  obtain ⟨⟨o, ho, ho2⟩, hlt⟩ := C62_numbers_read tbl hwf.1 hwf.2 so hso host e v cv f
    (stackConn (L + 1) m.nnode c) hnc hnames b hw integ g hg hpos
  rw [hncell] at ho2 hlt
  -- the last cell of the last layer
  obtain ⟨p, hpq, hpl⟩ : ∃ p ∈ q, p.1 = (q.length : Int) - 1 := by
    have : (q.length : Int) - 1 ∈ q.map (·.1) := by
      rw [h.numbering.2, List.length_map]
      omega
    obtain ⟨p, hp, he⟩ := List.mem_map.1 this
    exact ⟨p, hp, he⟩
  have hon := on_last h hap ht L hpq
  have h1 : p.1 + (L : Int) * m.nnode < (((L + 1) * q.length : Nat) : Int) := by
    have hone : (p.1 + (L : Int) * m.nnode) ∈ (facesOn tbl (stackConn (L + 1) m.nnode c)
        ((raised m.nnode L p).2.map (· + (m.nnode : Int)))).map (·.2) := by rw [hon]; simp
    obtain ⟨o', ho', he⟩ := List.mem_map.1 hone
    obtain ⟨ho'1, ho'2⟩ := mem_facesOn.1 ho'
    rw [← he]
    refine hlt o' ho'1 ?_
    have hsame : facesOn tbl (stackConn (L + 1) m.nnode c) o'.1 = facesOn tbl (stackConn (L + 1) m.nnode c)
        ((raised m.nnode L p).2.map (· + (m.nnode : Int))) := by
      unfold facesOn
      apply List.filter_congr
      intro x _
      rw [Bool.eq_iff_iff, List.isPerm_iff, List.isPerm_iff]
      exact ⟨fun h => h.trans ho'2, fun h => h.trans ho'2.symm⟩
    rw [hsame]
    have := congrArg List.length hon
    simp only [List.length_map, List.length_singleton] at this
    omega
  obtain ⟨k, hk, p', hp', he⟩ := stack_numbers h ht _ ho
  have hp'n : p'.1 < (q.length : Int) := by
    have : p'.1 ∈ q.map (·.1) := List.mem_map_of_mem hp'
    rw [h.numbering.2, List.length_map] at this
    exact this.2
  have hkL : (k : Int) * m.nnode ≤ (L : Int) * m.nnode := Int.mul_le_mul_of_nonneg_right (by omega) (by omega)
  have e1 : (((L + 1) * q.length : Nat) : Int) = (L : Int) * q.length + q.length := by
    push_cast
    rw [Int.add_mul, Int.one_mul]
  have h2 : (L : Int) * m.nnode ≤ (L : Int) * q.length := by omega
  have h3 : (L : Int) * q.length ≤ (L : Int) * m.nnode := by omega
  have hLpos : (0 : Int) < L := by omega
  have h4 := Int.le_of_mul_le_mul_left h2 hLpos
  have h5 := Int.le_of_mul_le_mul_left h3 hLpos
  omega

/-- C65, several layers: the same plane mesh extruded by two layers or more never gives an IC3 file that can be read,
unless it has as many cells as nodes: cells are numbered by steps of the number of nodes (C21). -/
theorem C65_more_layers [Add R] [Mul R] {tbl : FaceTable} (htbl : tbl = cgnsElem2faces ∨ tbl = gmshElem2faces)
    (so : List Int → List Int) (hso : Reorders so) (m : Mesh R) (c : ElemConn) (q : Quads) (h : QuadMesh m c q)
    (domain : String) (hf : LayerFits m q domain) (hN : m.nnode ≠ q.length) (d : R × R × R) (planes : List R)
    (hp : 3 ≤ planes.length) (bits : R → F64) (host : Order) (e : Endian) (v : Ver) (cv : Conv) (integ : Bool)
    (m' : Mesh R) (hm' : m.exportExtruded so d planes domain = .ok m') (b : Bytes)
    (hw : writeIc3 tbl so host e v cv (imported (storedMesh bits m')) = (some b, .ok ())) (g : FullMesh) :
    readIc3 integ b ≠ .ok g := by
  obtain ⟨hnc, hnames, hne⟩ := stack_mesh bits so h hf d planes (by omega) hm'
  exact layers_unreadable htbl so hso h hf.apart hN (planes.length - 1) (by omega) host e v cv integ hnc hnames hne b hw g

/-! ## Other cells -/

theorem buildFaces_known {tbl : FaceTable} {c : ElemConn} {d : Dict String (List FaceOcc)}
    (h : buildFaces tbl c = .ok d) : ∀ p ∈ c.tbl, ∃ ft, tbl.get? p.1 = some ft := by
  unfold buildFaces at h
  generalize ([] : Dict String (List FaceOcc)) = d0 at h
  generalize c.tbl = l at h
  induction l generalizing d0 with
  | nil => intro p hp; cases hp
  | cons x t ih =>
    rw [List.foldlM_cons, bind_eq_ok] at h
    obtain ⟨d1, h1, h2⟩ := h
    intro p hp
    rcases List.mem_cons.1 hp with rfl | hp
    · simp only [bind_eq_ok] at h1
      obtain ⟨_, _, ft, hft, _⟩ := h1
      unfold Dict.getE at hft
      cases hg : tbl.get? p.1 with
      | none => rw [hg] at hft; simp at hft
      | some ft => exact ⟨ft, rfl⟩
    · exact ih _ h2 p hp

/-- The writers refuse cells of a type without faces in the table; no file is opened. -/
theorem write_unknown {tbl : FaceTable} {f : FullMesh} {c : ElemConn} (hc : f.mesh.cell2node = some c)
    (hf : f.mesh.faces = []) {p : String × Entry} (hp : p ∈ c.tbl) (hno : tbl.get? p.1 = none)
    (so : List Int → List Int) (host : Order) (e : Endian) (v : Ver) (cv : Conv) :
    ∃ er, writeIc3 tbl so host e v cv f = (none, .error er) := by
  have hx : ∃ er, completeMesh tbl so f.mesh = .error er := by
    cases hcm : completeMesh tbl so f.mesh with
    | error er => exact ⟨er, rfl⟩
    | ok m1 =>
      exfalso
      unfold completeMesh needFaces at hcm
      rw [hf, bind_eq_ok] at hcm
      obtain ⟨m1, h1, _⟩ := hcm
      obtain ⟨r, hr, _⟩ := makeFaces_ok hc h1
      unfold createFaces at hr
      rw [bind_eq_ok] at hr
      obtain ⟨d, hd, _⟩ := hr
      obtain ⟨ft, hft⟩ := buildFaces_known hd p hp
      rw [hno] at hft
      simp at hft
  obtain ⟨er, hx⟩ := hx
  refine ⟨er, ?_⟩
  unfold writeIc3
  rw [hx]
  rfl

/-- C65, other cells: an extruded mesh with triangles (or nodes as cells) is refused by both writers, whatever the number of layers: the prism of the extrusion is called `penta6`, the one of the face
tables `prism6` (C13). -/
theorem C65_other_cells [Add R] [Mul R] {tbl : FaceTable} (htbl : tbl = cgnsElem2faces ∨ tbl = gmshElem2faces)
    (so : List Int → List Int) (m : Mesh R) (c : ElemConn) (h : Extrudable m c)
    (hno : ∃ t ∈ c.tbl.keys, t = "tri3" ∨ t = "node1") (d : R × R × R) (planes : List R) (domain : String)
    (bits : R → F64) (host : Order) (e : Endian) (v : Ver) (cv : Conv) (m' : Mesh R)
    (hm' : m.exportExtruded so d planes domain = .ok m') :
    ∃ er, writeIc3 tbl so host e v cv (imported (storedMesh bits m')) = (none, .error er) := by
  have hp : 2 ≤ planes.length := by
    unfold Mesh.exportExtruded at hm'
    simp only [bind_eq_ok] at hm'
    obtain ⟨_, ha, _⟩ := hm'
    rw [pyAssert_eq_ok, decide_eq_true_eq] at ha
    exact ha
  obtain ⟨x, y, z, hc, hx, hy, hz⟩ := h.coords
  rw [exportExtruded_eq so m c h hc d planes hp domain, Except.ok.injEq] at hm'
  obtain ⟨t, ht, hne⟩ := hno
  obtain ⟨p, hpc, rfl⟩ := List.mem_map.1 ht
  have hcell : (imported (storedMesh bits m')).mesh.cell2node =
      some (stackConn (planes.length - 1) m.nnode c) := by rw [← hm']; rfl
  have hfaces : (imported (storedMesh bits m')).mesh.faces = [] := by rw [← hm']; rfl
  refine write_unknown hcell hfaces (p := sweptEntry (planes.length - 1) m.nnode p) (List.mem_map_of_mem hpc) ?_
    so host e v cv
  obtain ⟨n, x', hs, _⟩ := h.types p hpc
  have e1 : (sweptEntry (planes.length - 1) m.nnode p).1 = x' := by simp [sweptEntry, hs]
  rw [e1]
  have hx' : x' = "bar2" ∨ x' = "penta6" := by
    rcases hne with hne | hne
    · rw [hne] at hs
      simp only [swept, Option.some.injEq, Prod.mk.injEq] at hs
      exact .inr hs.2.symm
    · rw [hne] at hs
      simp only [swept, Option.some.injEq, Prod.mk.injEq] at hs
      exact .inl hs.2.symm
  rcases htbl with rfl | rfl <;> rcases hx' with rfl | rfl <;> decide +kernel

/-! ## A concrete case: two quadrangles side by side -/

/-- Two quadrangles, the mark `left` on one edge. -/
def exQuads : Mesh Int where
  ncell := 2
  nnode := 6
  nface := 0
  cell2node := some ⟨2, [("quad4", ⟨.list [0, 1], ⟨some 4, [[0, 1, 4, 3], [1, 2, 5, 4]]⟩⟩)]⟩
  faces := []
  coords := some ([0, 1, 2, 0, 1, 2], [0, 0, 0, 1, 1, 1], [0, 0, 0, 0, 0, 0])
  bocos := [("left", ⟨"left", .node, "boundary", .list [3, 0], none⟩)]

def exQuadsConn : ElemConn := ⟨2, [("quad4", ⟨.list [0, 1], ⟨some 4, [[0, 1, 4, 3], [1, 2, 5, 4]]⟩⟩)]⟩

def exQuadsList : Quads := [(0, [0, 1, 4, 3]), (1, [1, 2, 5, 4])]

theorem exQuads_mesh : QuadMesh exQuads exQuadsConn exQuadsList where
  mesh := {
    coords := ⟨_, _, _, rfl, rfl, rfl, rfl⟩
    cells := rfl
    wf := by
      refine ⟨by decide, ?_, by decide⟩
      intro p hp
      simp only [exQuadsConn, List.mem_singleton] at hp
      subst hp
      exact ⟨⟨[0, 1], by decide, rfl⟩, by simp [Arr2.WF]⟩
    types := by
      intro p hp
      simp only [exQuadsConn, List.mem_singleton] at hp
      subst hp
      exact ⟨4, "hexa8", rfl, rfl⟩
    marks := by decide
    names := by decide }
  types := rfl
  quads := by decide
  some := by decide
  numbering := valid_of_perm_pyRange (n := 2) (by decide)
  nodes := by decide

theorem exQuads_fits : LayerFits exQuads exQuadsList "dom" where
  apart := by decide
  conforming := by decide
  inner := ⟨((1, 4), 0), by decide, by decide⟩
  markSome := by
    intro p hp
    simp only [exQuads, List.mem_singleton] at hp
    subst hp
    exact ⟨((3, 0), 0), by decide, by unfold EdgeOnMark; decide⟩
  markApart := by
    intro p hp p' hp' hne
    simp only [exQuads, List.mem_singleton] at hp hp'
    subst hp hp'
    exact absurd rfl hne
  markEdges := by decide
  markNodes := by decide
  markType := by decide
  markName := by decide +kernel
  names := by decide +kernel
  counts := by decide

example : exQuads.nnode ≠ exQuadsList.length := by decide

/-- One layer: read back with 2 cells, 12 nodes, 11 faces: 2 in each plane, 1 in `left`, 5 unmarked, 1 internal. -/
example : ((exQuads.exportExtruded id (0, 0, 1) [0, 1] "dom").toOption.bind fun m =>
    (writeIc3 cgnsElem2faces id .little .native .v3 noConv (imported (storedMesh (fun i => UInt64.ofNat i.toNat) m))).1).map
    (fun b => (readIc3 true b).map fun g => (g.mesh.ncell, g.mesh.nnode, g.mesh.bocos.map fun p => (p.1, p.2.index))) =
    some (.ok (2, 12, [("left", .range 0 0), ("dom0", .range 1 2), ("dom1", .range 3 4), ("unmarked", .range 5 9),
      ("internal-domain", .range 10 10)])) := by
  set_option synthInstance.maxSize 2000 in decide +kernel

/-- Two layers: the file is written, and refused by the reader. -/
example : ((exQuads.exportExtruded id (0, 0, 1) [0, 1, 2] "dom").toOption.map fun m =>
    writeIc3 cgnsElem2faces id .little .native .v3 noConv (imported (storedMesh (fun i => UInt64.ofNat i.toNat) m))).map
    (fun r => (r.2, r.1.map fun b => (readIc3 true b).map fun g => g.mesh.ncell)) =
    some (.ok (), some (.error .assertion)) := by decide +kernel

/-- The theorems of C65 on this mesh: one layer (`C65_one_layer`), two layers, and a plane mesh with a triangle. -/
example (e : Endian) (v : Ver) (cv : Conv) (integ : Bool) := C65_one_layer (.inl rfl) id (fun l => List.Perm.refl l) exQuads
  exQuadsConn exQuadsList exQuads_mesh "dom" exQuads_fits (0, 0, 1) 0 1 (fun i => UInt64.ofNat i.toNat) .little e v cv integ

example (g : FullMesh) : ∃ m' b, exQuads.exportExtruded id (0, 0, 1) [0, 1, 2] "dom" = .ok m' ∧
    writeIc3 cgnsElem2faces id .little .native .v3 noConv (imported (storedMesh (fun i => UInt64.ofNat i.toNat) m')) =
      (some b, .ok ()) ∧ readIc3 true b ≠ .ok g := by
  have h : (match exQuads.exportExtruded id (0, 0, 1) [0, 1, 2] "dom" with
    | .ok m => match writeIc3 cgnsElem2faces id .little .native .v3 noConv
        (imported (storedMesh (fun i => UInt64.ofNat i.toNat) m)) with
      | (some _, .ok ()) => true
      | _ => false
    | .error _ => false) = true := by decide +kernel
  split at h
  · rename_i m' hm'
    split at h
    · rename_i b hb
      exact ⟨m', b, hm', hb, C65_more_layers (.inl rfl) id (fun l => List.Perm.refl l) exQuads exQuadsConn exQuadsList
        exQuads_mesh "dom" exQuads_fits (by decide) (0, 0, 1) [0, 1, 2] (by decide) _ _ _ _ _ true m' hm' b hb g⟩
    · cases h
  · cases h

/-- A triangle. -/
def exTri : Mesh Int where
  ncell := 1
  nnode := 3
  nface := 0
  cell2node := some ⟨1, [("tri3", ⟨.list [0], ⟨some 3, [[0, 1, 2]]⟩⟩)]⟩
  faces := []
  coords := some ([0, 1, 0], [0, 0, 1], [0, 0, 0])
  bocos := []

example : ∃ m' er, exTri.exportExtruded id (0, 0, 1) [0, 1] "dom" = .ok m' ∧
    writeIc3 cgnsElem2faces id .little .native .v3 noConv (imported (storedMesh (fun i => UInt64.ofNat i.toNat) m')) =
      (none, .error er) := by
  obtain ⟨m', hm'⟩ := exists_of_isOk (x := exTri.exportExtruded id (0, 0, 1) [0, 1] "dom") (by decide +kernel)
  obtain ⟨er, h⟩ := C65_other_cells (.inl rfl) id exTri _
    { coords := ⟨_, _, _, rfl, rfl, rfl, rfl⟩, cells := rfl, wf := connWF_of_ok (by decide),
      types := by
        intro p hp
        simp only [List.mem_cons, List.not_mem_nil, or_false] at hp
        subst hp
        exact ⟨3, "penta6", rfl, rfl⟩,
      marks := by simp [exTri], names := by decide } ⟨"tri3", by decide, .inl rfl⟩ (0, 0, 1) [0, 1] "dom"
    (fun i => UInt64.ofNat i.toNat) .little .native .v3 noConv m' hm'
  exact ⟨m', er, hm', h⟩

end Cfd.Ic3
