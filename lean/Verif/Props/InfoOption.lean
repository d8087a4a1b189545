import Verif.Model.InfoOption
import Verif.Props.Ic3Options

/-! # C98: `--info` changes nothing of what is written -/

namespace Cfd.InfoOption
open Cfd.Spec Cfd.Spec.Commands Cfd.Spec.Gmsh Cfd.Spec.VtkConvert Cfd.Ic3 Cfd.Commands Cfd.Convert Cfd.VtkConvert Cfd.Ic3Options

variable {R Loc : Type}

/-! ## Any command -/

section
variable [DecidableEq Loc] {M : Type} {reader : Fs Loc → Name → Py M} {prepare transform : M → Py M}
  {writer : M → PyErr ⊕ (List UInt8 × Py Unit)} {ext : Name} {s : Fs Loc} {fuel : Nat} {filename : Name}
  {outpath : Option Name} {print : M → Py Unit}

theorem generic_off : writeGeneric reader prepare (fun m => do let m ← transform m; infoStep print false m) writer ext s fuel
    filename outpath = writeGeneric reader prepare transform writer ext s fuel filename outpath := by
  have : (fun m => do let m ← transform m; infoStep print false m) = transform := by
    funext m
    cases h : transform m <;> rfl
  rw [this]

theorem generic_on : writeGeneric reader prepare (fun m => do let m ← transform m; infoStep print true m) writer ext s fuel
      filename outpath = writeGeneric reader prepare transform writer ext s fuel filename outpath ∨
    ∃ e, writeGeneric reader prepare (fun m => do let m ← transform m; infoStep print true m) writer ext s fuel
      filename outpath = some (s, .error e) := by
  unfold writeGeneric
  split
  · exact .inl rfl
  · rename_i m _
    split
    · exact .inl rfl
    · exact .inl rfl
    · cases h : transform m with
      | error e => left; simp only [h]; rfl
      | ok j =>
        simp only [h, Except_bind_ok, infoStep, if_true]
        cases hp : print j with
        | error e => exact .inr ⟨e, rfl⟩
        | ok u => exact .inl rfl

theorem generic_exact {s' : Fs Loc} {name : Name}
    (hrun : writeGeneric reader prepare transform writer ext s fuel filename outpath = some (s', .ok name)) :
    ∃ i i' j, reader s (PyPath.parse filename).str = .ok i ∧ prepare i = .ok i' ∧ transform i' = .ok j ∧
      writeGeneric reader prepare (fun m => do let m ← transform m; infoStep print true m) writer ext s fuel
        filename outpath = match print j with
          | .ok _ => some (s', .ok name)
          | .error e => some (s, .error e) := by
  unfold writeGeneric at hrun ⊢
  cases hi : (do let m ← reader s (PyPath.parse filename).str; prepare m) with
  | error e => rw [hi] at hrun; cases hrun
  | ok i' =>
    obtain ⟨i, h0, h1⟩ := bind_eq_ok.1 hi
    simp only [hi] at hrun
    cases ho : outputName s fuel filename outpath ext with
    | none => rw [ho] at hrun; cases hrun
    | some q =>
      cases q with
      | error e => simp only [ho] at hrun; cases hrun
      | ok p =>
        simp only [ho] at hrun
        cases ht : transform i' with
        | error e => simp only [ht] at hrun; cases hrun
        | ok j =>
          simp only [ht] at hrun
          refine ⟨i, i', j, h0, h1, ht, ?_⟩
          simp only [ht, Except_bind_ok, infoStep, if_true]
          cases hp : print j with
          | error e => rfl
          | ok u => exact hrun

end

section
variable [DecidableEq Loc] [Add R] [Mul R] [Zero R] [One R] (fmt : Option String) (s : Fs Loc) (fuel : Nat) (filename : Name)
  (outpath : Option Name)

/-- **C98, IC3 writers.** Without `--info` the commands are those of C72; with it, whatever the file and the other options, the
command does exactly the same, or ends with an exception and changes no file. -/
theorem C98_ic3_same_or_refused (env : Ic3Env R) (v : Ver) (o : Ic3Options.Options R) :
    cfdwriteIc3Info env v fmt false o s fuel filename outpath = cfdwriteIc3With env v fmt o s fuel filename outpath ∧
    (cfdwriteIc3Info env v fmt true o s fuel filename outpath = cfdwriteIc3With env v fmt o s fuel filename outpath ∨
      ∃ e, cfdwriteIc3Info env v fmt true o s fuel filename outpath = some (s, .error e)) := by
  unfold cfdwriteIc3Info cfdwriteIc3With
  rcases select fmt filename with e | ⟨_ | c, d⟩
  · exact ⟨rfl, .inl rfl⟩
  · exact ⟨rfl, .inl rfl⟩
  · cases c
    case ic3Reader => exact ⟨generic_off, generic_on⟩
    case gmshReader => exact ⟨generic_off, generic_on⟩
    case cgnsReader => exact ⟨generic_off, generic_on⟩
    all_goals exact ⟨rfl, .inl rfl⟩

/-- **C98, VTK writer.** The same for `cfdwrite_vtk`. -/
theorem C98_vtk_same_or_refused (env : VtkEnv R) (o : VtkConvert.Options R) :
    cfdwriteVtkInfo env fmt false o s fuel filename outpath = cfdwriteVtk env fmt o s fuel filename outpath ∧
    (cfdwriteVtkInfo env fmt true o s fuel filename outpath = cfdwriteVtk env fmt o s fuel filename outpath ∨
      ∃ e, cfdwriteVtkInfo env fmt true o s fuel filename outpath = some (s, .error e)) := by
  unfold cfdwriteVtkInfo cfdwriteVtk
  rcases select fmt filename with e | ⟨_ | c, d⟩
  · exact ⟨rfl, .inl rfl⟩
  · exact ⟨rfl, .inl rfl⟩
  · cases c
    case ic3Reader => exact ⟨generic_off, generic_on⟩
    case gmshReader => exact ⟨generic_off, generic_on⟩
    case cgnsReader => exact ⟨generic_off, generic_on⟩
    all_goals exact ⟨rfl, .inl rfl⟩

end

/-! ## Meshes that can be described -/

/-- The index has an item. -/
def HasItem (i : IndexList) : Prop := ∃ a l, i.toList = .ok (a :: l)

theorem HasItem.shown {i : IndexList} (h : HasItem i) : showIndex i = .ok () := by
  obtain ⟨a, l, h⟩ := h
  cases i with
  | unset => simp [IndexList.toList] at h
  | range a b => rfl
  | list l' =>
    simp only [IndexList.toList, Except.ok.injEq] at h
    subst h
    rfl

/-- Cells of a mesh without faces: every type and every mark has an item. -/
structure Solid {A : Type} (m : Mesh A) (c : ElemConn) : Prop where
  conn : m.cell2node = some c
  faces : m.faces = []
  cells : ∀ p ∈ c.tbl, HasItem p.2.index
  marks : ∀ p ∈ m.bocos, HasItem p.2.index

theorem Solid.printinfo {A : Type} {number : A → Bool} {m : Mesh A} {c : ElemConn} (h : Solid m c) {x y z : List A}
    (hc : m.coords = some (x, y, z)) :
    Commands.printinfo number m = .ok () ↔ (x ≠ [] ∧ y ≠ [] ∧ z ≠ []) ∧ ∀ a ∈ x ++ y ++ z, number a = true := by
  rw [printinfo_ok hc]
  constructor
  · rintro ⟨a, b, _⟩; exact ⟨a, b⟩
  · rintro ⟨a, b⟩
    refine ⟨a, b, ?_, ?_, fun p hp => (h.marks p hp).shown⟩
    · intro c' hc' p hp
      rw [h.conn] at hc'
      cases hc'
      exact (h.cells p hp).shown
    · intro p hp; rw [h.faces] at hp; cases hp

theorem addElems_items {c c' : ElemConn} {t : String} {e : Arr2} {i : IndexList} (h : c.addElems t e (some i) = .ok c')
    (hi : HasItem i) (hc : ∀ p ∈ c.tbl, HasItem p.2.index) : ∀ p ∈ c'.tbl, HasItem p.2.index := by
  unfold ElemConn.addElems at h
  simp only [ElemConn.newIndex] at h
  split at h
  · simp only [bind_eq_ok] at h
    obtain ⟨il, h1, ni, h2, na, _, h⟩ := h
    simp only [Except_pure, Except.ok.injEq] at h
    subst h
    intro p hp
    rcases mem_set hp with rfl | hp
    · obtain ⟨a, l, hl⟩ := hi
      rw [hl] at h1
      cases h1
      unfold IndexList.append at h2
      obtain ⟨cur, _, h2⟩ := bind_eq_ok.1 h2
      simp only [Except_pure, Except.ok.injEq] at h2
      subst h2
      cases cur with
      | nil => exact ⟨_, _, rfl⟩
      | cons b k => exact ⟨_, _, rfl⟩
    · exact hc p hp
  · simp only [Except.ok.injEq] at h
    subst h
    intro p hp
    rcases mem_set hp with rfl | hp
    · exact hi
    · exact hc p hp

theorem tile_items (f : Nat → Int → Int) (n k : Nat) (a : Int) (l : List Int) (hn : 0 < n) :
    ∃ b l', sliceLoop f k n (npTile n (a :: l)) = b :: l' := by
  have key : ∀ (L : List Nat) (x : List Int), (L.foldl (fun a i => mapSlice (f i) (i * k) ((i + 1) * k) a) x).length = x.length := by
    intro L
    induction L with
    | nil => intro x; rfl
    | cons i L ih => intro x; rw [List.foldl_cons, ih, length_mapSlice]
  have h : 0 < (sliceLoop f k n (npTile n (a :: l))).length := by
    unfold sliceLoop npTile
    rw [key]
    cases n with
    | zero => omega
    | succ n => simp [List.replicate_succ]
  cases hx : sliceLoop f k n (npTile n (a :: l)) with
  | nil => rw [hx] at h; simp at h
  | cons b l' => exact ⟨b, l', rfl⟩

theorem extrude_items {c c' : ElemConn} {n : Nat} {sh : Int} (h : c.extrude n sh = .ok c') (hc : ∀ p ∈ c.tbl, HasItem p.2.index) :
    ∀ p ∈ c'.tbl, HasItem p.2.index := by
  unfold ElemConn.extrude at h
  simp only [bind_eq_ok, pyAssert_eq_ok, decide_eq_true_eq] at h
  obtain ⟨_, hn, h⟩ := h
  have key : ∀ (l : List (String × Entry)) (a b : ElemConn), (∀ p ∈ l, HasItem p.2.index) → (∀ p ∈ a.tbl, HasItem p.2.index) →
      l.foldlM (ElemConn.extrudeStep (n - 1) sh) a = .ok b → ∀ p ∈ b.tbl, HasItem p.2.index := by
    intro l
    induction l with
    | nil =>
      intro a b _ ha h
      simp only [List.foldlM_nil, Except_pure, Except.ok.injEq] at h
      subst h
      exact ha
    | cons q l ih =>
      intro a b hl ha h
      rw [List.foldlM_cons, bind_eq_ok] at h
      obtain ⟨a1, h1, h2⟩ := h
      refine ih a1 b (fun p hp => hl p (List.mem_cons_of_mem _ hp)) ?_ h2
      unfold ElemConn.extrudeStep at h1
      split at h1
      · cases h1
      · simp only [bind_eq_ok] at h1
        obtain ⟨_, _, idx, h3, _, _, h1⟩ := h1
        refine addElems_items h1 ?_ ha
        obtain ⟨x, k, hx⟩ := hl q (List.mem_cons_self ..)
        rw [hx] at h3
        cases h3
        obtain ⟨y, k', e⟩ := tile_items (fun i x => x + (i : Int) * sh) (n - 1) q.2.e2n.rows.length x k (by omega)
        refine ⟨y, k', ?_⟩
        simp only [IndexList.toList, ElemConn.extrudeEntry, e]
  exact key _ _ _ hc (by simp [ElemConn.empty]) h

/-- An extruded mesh can be described if it has a node. -/
theorem extruded_solid [Add R] [Mul R] {so : List Int → List Int} (hso : ∀ l, (so l).Perm l) {m m1 : Mesh R} {c : ElemConn}
    {d : R × R × R} {planes : List R} {domain : String} (h : Solid m c) (hnode : ∃ p ∈ c.tbl, ∃ r ∈ p.2.e2n.rows, r ≠ [])
    (hx : m.exportExtruded so d planes domain = .ok m1) :
    1 < planes.length ∧ (∃ c', Solid m1 c') ∧
      ∃ x y z, m1.coords = some (x, y, z) ∧ x.length = m.nnode * planes.length ∧ y.length = m.nnode * planes.length ∧
        z.length = m.nnode * planes.length := by
  unfold Mesh.exportExtruded at hx
  simp only [h.conn, bind_eq_ok, pyAssert_eq_ok, decide_eq_true_eq] at hx
  obtain ⟨_, hn, nd, hnd, new, hnew, c', hc', new2, hfold, hx⟩ := hx
  refine ⟨hn, ?_⟩
  unfold Mesh.setCoordsNd at hnew
  simp only [bind_eq_ok, pyAssert_eq_ok, decide_eq_true_eq, Except_pure, Except.ok.injEq] at hnew
  obtain ⟨_, hlen, hnew⟩ := hnew
  have hlist : c.nodelist so ≠ [] := by
    unfold ElemConn.nodelist
    intro e
    have := (hso ((c.tbl.map fun p => p.2.e2n.rows.flatten).flatten.dedup)).length_eq
    rw [e] at this
    obtain ⟨p, hp, r, hr, hr0⟩ := hnode
    cases r with
    | nil => exact hr0 rfl
    | cons a r =>
      have hmem : a ∈ (c.tbl.map fun p => p.2.e2n.rows.flatten).flatten.dedup := by
        rw [List.mem_dedup, List.mem_flatten]
        exact ⟨_, List.mem_map_of_mem hp, List.mem_flatten.2 ⟨_, hr, List.mem_cons_self ..⟩⟩
      rw [List.eq_nil_of_length_eq_zero this.symm] at hmem
      cases hmem
  have key : ∀ (l : List (String × Mark)) (a b : Mesh R), (∀ p ∈ l, HasItem p.2.index) → (∀ p ∈ a.bocos, HasItem p.2.index) →
      l.foldlM (fun (new : Mesh R) (p : String × Mark) => do
        let b ← Mesh.extrudeMark planes.length m.nnode p.2
        return new.addBoco b) a = .ok b →
      (∀ p ∈ b.bocos, HasItem p.2.index) ∧ b.cell2node = a.cell2node ∧ b.faces = a.faces ∧ b.coords = a.coords := by
    intro l
    induction l with
    | nil =>
      intro a b _ ha hb
      simp only [List.foldlM_nil, Except_pure, Except.ok.injEq] at hb
      subst hb
      exact ⟨ha, rfl, rfl, rfl⟩
    | cons q l ih =>
      intro a b hl ha hb
      rw [List.foldlM_cons, bind_eq_ok] at hb
      obtain ⟨a1, h1, h2⟩ := hb
      simp only [bind_eq_ok, Except_pure, Except.ok.injEq] at h1
      obtain ⟨k, hk, rfl⟩ := h1
      have := ih _ b (fun p hp => hl p (List.mem_cons_of_mem _ hp)) (by
        intro p hp
        rcases mem_set hp with rfl | hp
        · unfold Mesh.extrudeMark at hk
          simp only [bind_eq_ok] at hk
          obtain ⟨_, _, L, hL, sz, _, hk⟩ := hk
          simp only [Except_pure, Except.ok.injEq] at hk
          subst hk
          obtain ⟨x, t, ht⟩ := hl q (List.mem_cons_self ..)
          rw [ht] at hL
          cases hL
          obtain ⟨y, k', e⟩ := tile_items (fun i x => x + ((i * m.nnode : Nat) : Int)) planes.length sz.toNat x t (by omega)
          exact ⟨y, k', by simp only [IndexList.toList, e]⟩
        · exact ha p hp) h2
      exact ⟨this.1, this.2.1, this.2.2.1, this.2.2.2⟩
  subst hnew
  obtain ⟨k1, k2, k3, k4⟩ := key _ _ _ h.marks (by intro p hp; cases hp) hfold
  simp only [Except_pure, Except.ok.injEq] at hx
  subst hx
  refine ⟨⟨c', ?_, ?_, extrude_items hc' h.cells, ?_⟩, ?_⟩
  · exact k2
  · exact k3
  · intro p hp
    rcases mem_set hp with rfl | hp
    · cases hL : c.nodelist so with
      | nil => exact absurd hL hlist
      | cons a l => exact ⟨_, _, rfl⟩
    rcases mem_set hp with rfl | hp
    · cases hL : c.nodelist so with
      | nil => exact absurd hL hlist
      | cons a l => exact ⟨_, _, rfl⟩
    · exact k1 p hp
  · exact ⟨_, _, _, k4, by rw [List.length_map]; exact hlen, by rw [List.length_map]; exact hlen,
      by rw [List.length_map]; exact hlen⟩

theorem nil_of_length {A : Type} {l : List A} {n : Nat} (h : l.length = n) : l ≠ [] ↔ n ≠ 0 := by
  rw [← h, ne_eq, ne_eq, List.length_eq_zero_iff]

/-- A mesh of arrays after the transformations. -/
theorem arrays_described [Add R] [Mul R] [Zero R] [One R] (env : VtkEnv R) (hso : ∀ l, (env.so l).Perm l) {m : Mesh R} {c : ElemConn}
    (h : Solid m c) (o : VtkConvert.Options R) (hnode : o.extrude ≠ 0 → ∃ p ∈ c.tbl, ∃ r ∈ p.2.e2n.rows, r ≠ []) {x y z : List R}
    (hc : m.coords = some (x, y, z)) (hx : x.length = m.nnode) (hy : y.length = m.nnode) (hz : z.length = m.nnode)
    {j : PyMesh R} (hj : transform env o (.arrays m) = .ok j) : describe j = .ok () ↔ m.nnode ≠ 0 := by
  unfold transform at hj
  obtain ⟨i1, h1, h2⟩ := bind_eq_ok.1 hj
  have base : ∃ m1 c1 x1 y1 z1 n, i1 = .arrays m1 ∧ Solid m1 c1 ∧ m1.coords = some (x1, y1, z1) ∧ x1.length = n ∧ y1.length = n ∧
      z1.length = n ∧ (n ≠ 0 ↔ m.nnode ≠ 0) := by
    unfold extrudeStep at h1
    split at h1
    · cases h1
      exact ⟨m, c, x, y, z, m.nnode, rfl, h, hc, hx, hy, hz, Iff.rfl⟩
    · rename_i hn0
      split at h1
      · cases h1
      · obtain ⟨m0, hm0, h1⟩ := bind_eq_ok.1 h1
        cases hm0
        obtain ⟨m1, hm1, h1⟩ := bind_eq_ok.1 h1
        simp only [Except_pure, Except.ok.injEq] at h1
        obtain ⟨hp, ⟨c1, hs⟩, x1, y1, z1, q1, q2, q3, q4⟩ := extruded_solid hso h (hnode hn0) hm1
        refine ⟨m1, c1, x1, y1, z1, _, h1.symm, hs, q1, q2, q3, q4, ?_⟩
        rw [ne_eq, ne_eq, Nat.mul_eq_zero, not_or]
        constructor
        · exact fun h => h.1
        · exact fun h => ⟨h, by omega⟩
  obtain ⟨m1, c1, x1, y1, z1, n, rfl, hs, q1, q2, q3, q4, q5⟩ := base
  rw [← q5]
  cases hsc : o.scale with
  | none =>
    rw [hsc] at h2
    cases h2
    show Commands.printinfo (fun _ => true) m1 = .ok () ↔ _
    rw [hs.printinfo q1, nil_of_length q2, nil_of_length q3, nil_of_length q4]
    simp
  | some k =>
    rw [hsc] at h2
    simp only [scaleStep] at h2
    obtain ⟨m2, hm2, h2⟩ := bind_eq_ok.1 h2
    simp only [Except_pure, Except.ok.injEq] at h2
    subst h2
    unfold Mesh.scale Mesh.setCoords at hm2
    rw [q1] at hm2
    simp only [bind_eq_ok] at hm2
    obtain ⟨_, _, _, _, _, _, hm2⟩ := hm2
    simp only [Except_pure, Except.ok.injEq] at hm2
    subst hm2
    have hs2 : Solid { m1 with coords := some (x1.map (· * k.1), y1.map (· * k.2.1), z1.map (· * k.2.2)) } c1 :=
      ⟨hs.conn, hs.faces, hs.cells, hs.marks⟩
    simp only [describe]
    rw [hs2.printinfo rfl, nil_of_length (by rw [List.length_map, q2]), nil_of_length (by rw [List.length_map, q3]),
      nil_of_length (by rw [List.length_map, q4])]
    simp

/-- What a command gives, from what is printed. -/
theorem outcome {s s' : Fs Loc} {name : Name} {r : Py Unit} {q : Option (Fs Loc × Py Name)}
    (h : q = match r with
      | .ok _ => some (s', .ok name)
      | .error e => some (s, .error e)) : q = some (s', .ok name) ↔ r = .ok () := by
  subst h
  cases r with
  | ok u => simp
  | error e => simp

/-! ## Gmsh files -/

/-- The mesh of a Gmsh file. -/
theorem gmsh_solid {num : Gmsh.PyNum R} {text : List String} {m : Mesh (Option R)} (hr : Gmsh.readFile num text = .ok m)
    {pts : List (Option (R × R × R))} {names : Option (List PhysName)} {elts : List Elt} (hm : IsMeshOf pts names elts m)
    (hn : ∀ e ∈ elts, e.nodes ≠ []) :
    ∃ c, Solid m c ∧ (cellsOf elts ≠ [] → ∃ p ∈ c.tbl, ∃ r ∈ p.2.e2n.rows, r ≠ []) := by
  obtain ⟨hfa, hbo⟩ := Convert.read_shape hr
  obtain ⟨c, hcell, hcc⟩ := hm.cells
  have hrow : ∀ p ∈ c.tbl, ∀ e ∈ cellsOf elts, e.name = p.1 → HasItem p.2.index ∧ e.nodes.map (· - 1) ∈ p.2.e2n.rows := by
    intro p hp e he hen
    have h1 : (e.nodes.map (· - 1)) ∈ (elementsOf c p.1).map (·.2) := by
      rw [hcc.rows]
      exact List.mem_map.2 ⟨e, by simp [he, hen], rfl⟩
    obtain ⟨q, hq, hq2⟩ := List.mem_map.1 h1
    unfold elementsOf at hq
    rw [Dict.get?_of_mem hcc.wf.keys hp] at hq
    obtain ⟨⟨l, hl, _⟩, _⟩ := hcc.wf.entries p hp
    have h2 := List.of_mem_zip (a := q.1) (b := q.2) hq
    unfold indicesOf at h2
    rw [hl] at h2
    refine ⟨?_, hq2 ▸ h2.2⟩
    cases l with
    | nil => cases h2.1
    | cons a l => exact ⟨a, l, hl⟩
  have hname : ∀ p ∈ c.tbl, ∃ e ∈ cellsOf elts, e.name = p.1 := by
    intro p hp
    have hk : p.1 ∈ c.tbl.keys := List.mem_map_of_mem (f := Prod.fst) hp
    rw [hcc.types, mem_firstUse] at hk
    exact List.mem_map.1 hk
  refine ⟨c, ⟨hcell, hfa, ?_, ?_⟩, ?_⟩
  · intro p hp
    obtain ⟨e, he, hen⟩ := hname p hp
    exact (hrow p hp e he hen).1
  · intro p hp
    have hget := Dict.get?_of_mem hm.marks.distinct hp
    obtain ⟨e, he, hbe⟩ := (hm.marks.names p.1).1 (List.mem_map_of_mem (f := Prod.fst) hp)
    obtain ⟨_, _, _, hit⟩ := hm.marks.marks _ _ hget
    cases hne : e.nodes with
    | nil => exact absurd hne (hn e (List.mem_filter.1 he).1)
    | cons k ks =>
      have := (hit (k - 1)).2 ⟨e, he, hbe, by rw [hne]; simp⟩
      unfold markItems at this
      split at this
      · rename_i l hl
        cases l with
        | nil => cases this
        | cons a l => exact ⟨a, l, hl⟩
      · simp at this
  · intro hne
    cases hce : cellsOf elts with
    | nil => exact absurd hce hne
    | cons e t =>
      have he : e ∈ cellsOf elts := by rw [hce]; exact List.mem_cons_self ..
      have hk : e.name ∈ c.tbl.keys := by
        rw [hcc.types, mem_firstUse]
        exact List.mem_map_of_mem he
      obtain ⟨p, hp, hpe⟩ := List.mem_map.1 hk
      refine ⟨p, hp, _, (hrow p hp e he hpe.symm).2, ?_⟩
      have := hn e (List.mem_filter.1 he).1
      simpa using this

section
variable [Add R] [Mul R] [Zero R] [One R]

/-- A Gmsh mesh after the transformations. -/
theorem lists_described (env : VtkEnv R) (hso : ∀ l, (env.so l).Perm l) {num : Gmsh.PyNum R} {text : List String}
    {m : Mesh (Option R)} (hr : Gmsh.readFile num text = .ok m)
    {pts : List (Option (R × R × R))} {names : Option (List PhysName)} {elts : List Elt} (hm : IsMeshOf pts names elts m)
    (hn : ∀ e ∈ elts, e.nodes ≠ []) (hcells : cellsOf elts ≠ []) (o : VtkConvert.Options R) {j : PyMesh R}
    (hj : transform env o (.lists m) = .ok j) :
    (describe j = .ok () ↔ pts ≠ [] ∧ (o.extrude = 0 → ∀ p ∈ pts, p.isSome)) ∧ (o.extrude = 0 → j = .lists m) := by
  obtain ⟨c, hs, hnode⟩ := gmsh_solid hr hm hn
  by_cases h0 : o.extrude = 0
  · have hj' : j = .lists m := by
      unfold transform extrudeStep at hj
      rw [if_pos h0, Except_bind_ok] at hj
      cases hsc : o.scale with
      | none => rw [hsc] at hj; cases hj; rfl
      | some k =>
        rw [hsc] at hj
        simp only [scaleStep, Mesh.scaleLists, hm.coords, Mesh.listTimes] at hj
        cases hj
    refine ⟨?_, fun _ => hj'⟩
    subst hj'
    show Commands.printinfo Option.isSome m = .ok () ↔ _
    rw [hs.printinfo hm.coords]
    constructor
    · rintro ⟨⟨hx, _⟩, hnum⟩
      refine ⟨fun h => hx (by rw [h]; rfl), fun _ p hp => ?_⟩
      have := hnum (p.map fun q => q.1) (by simp only [List.mem_append]; exact .inl (.inl (List.mem_map_of_mem hp)))
      simpa using this
    · rintro ⟨h1, hsm⟩
      refine ⟨⟨by simpa using h1, by simpa using h1, by simpa using h1⟩, ?_⟩
      intro a ha
      simp only [List.mem_append, List.mem_map] at ha
      rcases ha with (⟨p, hp, rfl⟩ | ⟨p, hp, rfl⟩) | ⟨p, hp, rfl⟩ <;> simpa using hsm h0 p hp
  · refine ⟨?_, fun h => absurd h h0⟩
    cases hnum : (PyMesh.lists m).numbers with
    | error e =>
      unfold transform extrudeStep at hj
      rw [if_neg h0, hnum] at hj
      split at hj <;> cases hj
    | ok m' =>
      have hj2 : transform env o (.arrays m') = .ok j := by
        rw [← hj]
        unfold transform extrudeStep
        rw [if_neg h0, if_neg h0, hnum]
        rfl
      unfold PyMesh.numbers at hnum
      simp only [hm.coords, bind_eq_ok, Except_pure, Except.ok.injEq] at hnum
      obtain ⟨x, hx, y, hy, z, hz, hnum⟩ := hnum
      subst hnum
      have hl : ∀ {l : List (Option R)} {l' : List R}, floats l = .ok l' → l'.length = l.length := by
        intro l l' h
        unfold floats at h
        rw [mapM_ok_iff] at h
        exact h.length_eq.symm
      have hs' : Solid (⟨m.ncell, m.nnode, m.nface, m.cell2node, m.faces, some (x, y, z), m.bocos⟩ : Mesh R) c :=
        ⟨hs.conn, hs.faces, hs.cells, hs.marks⟩
      rw [arrays_described env hso hs' o (fun _ => hnode hcells) rfl (by rw [hl hx, List.length_map]; exact hm.nnode.symm)
        (by rw [hl hy, List.length_map]; exact hm.nnode.symm) (by rw [hl hz, List.length_map]; exact hm.nnode.symm) hj2]
      show m.nnode ≠ 0 ↔ _
      rw [← nil_of_length hm.nnode.symm]
      exact ⟨fun h => ⟨h, fun h' => absurd h' h0⟩, fun h => h.1⟩

variable [DecidableEq Loc] (fmt : Option String) (s : Fs Loc) (filename : Name) (outpath : Option Name)

/-- **C98, Gmsh to IC3.** A conversion of a Gmsh file that succeeds without `--info` gives the same with it exactly when the file
has points and, without layers, none of them is missing (otherwise nothing is written, by
`C98_ic3_same_or_refused`). -/
theorem C98_gmsh_ic3 (env : Ic3Env R) (v : Ver) (hso : ∀ l, (env.so l).Perm l) (hu : Uses fmt filename "GMSH" ".msh") {b : Bytes}
    (hb : s.content (s.resolve (PyPath.parse filename).str) = some b) {m : Mesh (Option R)}
    (hr : Gmsh.readFile env.num (env.text b) = .ok m) {pts : List (Option (R × R × R))} {names : Option (List PhysName)}
    {elts : List Elt} (hm : IsMeshOf pts names elts m) (hn : ∀ e ∈ elts, e.nodes ≠ []) (hcells : cellsOf elts ≠ [])
    (o : Ic3Options.Options R) {fuel : Nat} {s' : Fs Loc} {name : Name}
    (hrun : cfdwriteIc3With env v fmt o s fuel filename outpath = some (s', .ok name)) :
    cfdwriteIc3Info env v fmt true o s fuel filename outpath = some (s', .ok name) ↔
      pts ≠ [] ∧ (o.extrude = 0 → ∀ p ∈ pts, p.isSome) := by
  unfold cfdwriteIc3With at hrun
  unfold cfdwriteIc3Info
  rw [(C70_select fmt filename).2.1 hu] at hrun ⊢
  obtain ⟨i, i', j, h0, h1, h2, h3⟩ := generic_exact (print := describe) hrun
  refine (outcome h3).trans ?_
  cases h1
  unfold gmshIn at h0
  simp only [hb, hr, Except_bind_ok, Except_pure, Except.ok.injEq] at h0
  subst h0
  exact (lists_described env.toVtkEnv hso hr hm hn hcells o.toOptions h2).1

/-- **C98, Gmsh to VTK.** A conversion of a Gmsh file that succeeds without `--info` gives the same with it, if the file has a
point. -/
theorem C98_gmsh_vtk (env : VtkEnv R) (hso : ∀ l, (env.so l).Perm l) (hu : Uses fmt filename "GMSH" ".msh") {b : Bytes}
    (hb : s.content (s.resolve (PyPath.parse filename).str) = some b) {m : Mesh (Option R)}
    (hr : Gmsh.readFile env.num (env.text b) = .ok m) {pts : List (Option (R × R × R))} {names : Option (List PhysName)}
    {elts : List Elt} (hm : IsMeshOf pts names elts m) (hn : ∀ e ∈ elts, e.nodes ≠ []) (hcells : cellsOf elts ≠ [])
    (o : VtkConvert.Options R) {fuel : Nat} {s' : Fs Loc} {name : Name}
    (hrun : cfdwriteVtk env fmt o s fuel filename outpath = some (s', .ok name)) :
    cfdwriteVtkInfo env fmt true o s fuel filename outpath = some (s', .ok name) ↔ pts ≠ [] := by
  unfold cfdwriteVtk at hrun
  unfold cfdwriteVtkInfo
  rw [(C70_select fmt filename).2.1 hu] at hrun ⊢
  obtain ⟨i, i', j, h0, h1, h2, h3⟩ := generic_exact (print := describe) hrun
  refine (outcome h3).trans ?_
  cases h1
  have h0' := h0
  unfold gmshIn at h0
  simp only [hb, hr, Except_bind_ok, Except_pure, Except.ok.injEq] at h0
  subst h0
  obtain ⟨q1, q2⟩ := lists_described env hso hr hm hn hcells o h2
  rw [q1]
  refine ⟨fun h => h.1, fun h => ⟨h, fun he p hp => ?_⟩⟩
  obtain ⟨_, ⟨m0, m1, m2, b', r0, r1, r2, r3, r4⟩, _⟩ := C36_conversion_writes_new_file _ _ _ _ _ (by decide) _ _ _ _ _ _ hrun
  rw [h0'] at r0
  cases r0
  cases r1
  rw [h2] at r2
  cases r2
  rw [q2 he] at r3
  unfold vtkOutput at r3
  cases hnum : (PyMesh.lists m).numbers with
  | error e => rw [hnum] at r3; cases r3
  | ok m' =>
    obtain ⟨P, rfl⟩ := numbers_ok hm hnum
    obtain ⟨q, _, rfl⟩ := List.mem_map.1 hp
    rfl

end

/-! ## IC3 files -/

section
variable [DecidableEq Loc] [Add R] [Mul R] [Zero R] [One R] (fmt : Option String) (s : Fs Loc) (filename : Name)
  (outpath : Option Name)

/-- **C98, IC3.** A conversion of an IC3 file that succeeds without `--info` gives the same with it exactly when the file has a
node. -/
theorem C98_ic3 (env : Ic3Env R) (v : Ver) (hu : Uses fmt filename "IC3" ".ic3") {b : Bytes}
    (hb : s.content (s.resolve (PyPath.parse filename).str) = some b) {f : FullMesh} (hread : readIc3 false b = .ok f)
    (o : Ic3Options.Options R) {fuel : Nat} {s' : Fs Loc} {name : Name}
    (hrun : cfdwriteIc3With env v fmt o s fuel filename outpath = some (s', .ok name)) :
    cfdwriteIc3Info env v fmt true o s fuel filename outpath = some (s', .ok name) ↔ 0 < f.mesh.nnode := by
  have hex : o.extrude = 0 := by
    by_contra h
    have := C72_ic3_refused env v fmt s filename outpath hu hb hread o (.inl h) _ _ _ hrun
    obtain ⟨_, e, he⟩ := this
    cases he
  have hinfo := C70_info_ic3 env.toEnv fmt false s filename hu
  unfold cfdinfo at hinfo
  unfold cfdwriteIc3With at hrun
  unfold cfdwriteIc3Info
  rw [(C70_select fmt filename).1 hu] at hrun hinfo ⊢
  simp only [hb, hread, Except_bind_ok, Option.some.injEq] at hinfo
  have hinfo : Commands.printinfo (fun _ => true) f.mesh = .ok () ↔ 0 < f.mesh.nnode := by
    rw [hinfo]
    constructor
    · rintro ⟨_, g, rfl, hg, h⟩
      rw [hread] at hg; cases hg
      exact h
    · intro h; exact ⟨b, f, rfl, hread, h⟩
  obtain ⟨l, ha⟩ := accepted hread
  obtain ⟨x, y, z, hxyz, hx, hy, hz⟩ := ha.coords
  obtain ⟨i, i', j, h0, h1, h2, h3⟩ := generic_exact (print := fun f : FullMesh => printinfo (fun _ => true) f.mesh) hrun
  refine (outcome h3).trans ?_
  rw [← hinfo]
  have hi : i = f := by
    unfold Convert.ic3Input at h0
    unfold readIc3 at hread
    simp only [hb, bind_eq_ok] at h0 hread
    obtain ⟨r, e1, h0⟩ := h0
    obtain ⟨r', e2, hread⟩ := hread
    rw [e1] at e2
    cases e2
    split at h0
    · cases h0
    · rw [hread] at h0; cases h0; rfl
  subst hi
  have hi' : i'.mesh = i.mesh := by
    unfold removeStep at h1
    obtain ⟨_, _, h1⟩ := bind_eq_ok.1 h1
    simp only [Except_pure, Except.ok.injEq] at h1
    rw [← h1]
  unfold transformFull extrudeFull at h2
  rw [if_pos hex, Except_bind_ok] at h2
  unfold scaleFull at h2
  split at h2
  · cases h2
    rw [hi']
  · obtain ⟨m2, hm2, h2⟩ := bind_eq_ok.1 h2
    simp only [Except_pure, Except.ok.injEq] at h2
    subst h2
    rw [hi'] at hm2
    unfold Mesh.scale Mesh.setCoords at hm2
    rw [hxyz] at hm2
    simp only [bind_eq_ok] at hm2
    obtain ⟨_, _, _, _, _, _, hm2⟩ := hm2
    simp only [Except_pure, Except.ok.injEq] at hm2
    subst hm2
    dsimp only
    rw [printinfo_ok rfl, printinfo_ok hxyz]
    simp

end

/-! ## CGNS files -/

section
open Cfd.Cgns Cfd.Spec.Cgns

theorem sections_items {z : Zone R} {dim : Int} (hne : ∀ p ∈ z.sections, p.2.first ≤ p.2.last) {c : ElemConn}
    (h : elemcon z dim = .ok c) : ∀ p ∈ c.tbl, HasItem p.2.index := by
  unfold elemcon at h
  have key : ∀ (l : List (String × Section)) (a b : ElemConn), (∀ p ∈ l, p.2.first ≤ p.2.last) →
      (∀ p ∈ a.tbl, HasItem p.2.index) → l.foldlM (addSection dim) a = .ok b → ∀ p ∈ b.tbl, HasItem p.2.index := by
    intro l
    induction l with
    | nil =>
      intro a b _ ha h
      simp only [List.foldlM_nil, Except_pure, Except.ok.injEq] at h
      subst h
      exact ha
    | cons q l ih =>
      intro a b hl ha h
      rw [List.foldlM_cons, bind_eq_ok] at h
      obtain ⟨a1, h1, h2⟩ := h
      refine ih a1 b (fun p hp => hl p (List.mem_cons_of_mem _ hp)) ?_ h2
      unfold addSection at h1
      simp only [bind_eq_ok] at h1
      obtain ⟨et, het, _, _, _, _, h1⟩ := h1
      split at h1
      · rw [bind_eq_ok] at h1
        obtain ⟨_, _, h1⟩ := h1
        refine addElems_items h1 ?_ ha
        have hq := hl q (List.mem_cons_self ..)
        have hmem : q.2.first - 1 ∈ pyRange (q.2.first - 1) (q.2.last - 1 + 1) := mem_pyRange.2 ⟨by omega, by omega⟩
        cases hp : pyRange (q.2.first - 1) (q.2.last - 1 + 1) with
        | nil => rw [hp] at hmem; cases hmem
        | cons x t => exact ⟨x, t, by simp only [IndexList.toList, hp]⟩
      · simp only [Except_pure, Except.ok.injEq] at h1
        rw [← h1]
        exact ha
  exact key _ _ _ hne (by simp [ElemConn.empty]) h

theorem cgns_solid {so : List Int → List Int} (hso : ∀ l, (so l).Perm l) {z : Zone R} {dim : Int} (hz : ZoneOk z dim)
    (hne : ∀ p ∈ z.sections, p.2.first ≤ p.2.last) {m : Mesh R} (h : Cgns.exportMesh so dim z = .ok m) :
    ∃ c, elemcon z dim = .ok c ∧ Solid m c := by
  have hfa := (CgnsConvert.exportMesh_shape h).1
  unfold Cgns.exportMesh at h
  simp only [bind_eq_ok] at h
  obtain ⟨m0, h0, c, hc, h⟩ := h
  have key : ∀ (l : List (String × Bc)) (a b : Mesh R), (∀ p ∈ a.bocos, HasItem p.2.index) →
      l.foldlM (addBC so dim z) a = .ok b → (∀ p ∈ b.bocos, HasItem p.2.index) ∧ b.cell2node = a.cell2node := by
    intro l
    induction l with
    | nil =>
      intro a b ha h
      simp only [List.foldlM_nil, Except_pure, Except.ok.injEq] at h
      subst h
      exact ⟨ha, rfl⟩
    | cons q l ih =>
      intro a b ha h
      rw [List.foldlM_cons, bind_eq_ok] at h
      obtain ⟨a1, h1, h2⟩ := h
      unfold addBC at h1
      obtain ⟨mk, hmk, h1⟩ := bind_eq_ok.1 h1
      split at h1
      · simp only [Except_pure, Except.ok.injEq] at h1
        subst h1
        exact ih _ _ ha h2
      · obtain ⟨_, hsh, h1⟩ := bind_eq_ok.1 h1
        simp only [Except_pure, Except.ok.injEq] at h1
        subst h1
        obtain ⟨_, L, hL, _⟩ := exportBC_shape so hso dim z hz.sections q hmk
        have := ih _ b (by
          intro p hp
          rcases mem_set hp with rfl | hp
          · unfold shown at hsh
            rw [hL] at hsh
            show HasItem mk.index
            rw [hL]
            cases L with
            | nil => cases hsh
            | cons x t => exact ⟨x, t, rfl⟩
          · exact ha p hp) h2
        exact ⟨this.1, this.2⟩
  unfold Mesh.setCoords at h0
  simp only [bind_eq_ok] at h0
  obtain ⟨_, _, _, _, _, _, h0⟩ := h0
  simp only [Except_pure, Except.ok.injEq] at h0
  subst h0
  obtain ⟨k1, k2⟩ := key _ _ _ (by intro p hp; cases hp) h
  exact ⟨c, hc, k2, hfa, sections_items hne hc, k1⟩

variable [Add R] [Mul R] [Zero R] [One R]

/-- The mesh of a zone after the transformations. -/
theorem zone_described (env : VtkEnv R) (hso : ∀ l, (env.so l).Perm l) {z : Zone R} {dim : Int} (hz : ZoneOk z dim)
    (hne : ∀ p ∈ z.sections, p.2.first ≤ p.2.last) (o : VtkConvert.Options R) (hcells : o.extrude ≠ 0 → cgnsCells z dim ≠ [])
    {m : Mesh R} (h : Cgns.exportMesh env.so dim z = .ok m) {j : PyMesh R} (hj : transform env o (.arrays m) = .ok j) :
    describe j = .ok () ↔ z.nnode ≠ 0 := by
  obtain ⟨m', c, h1, hc, hsh, _⟩ := cgns_shows env.so hso hz
  rw [h] at h1
  cases h1
  obtain ⟨c', hc', hs⟩ := cgns_solid hso hz hne h
  rw [hc] at hc'
  cases hc'
  have hlen : (z.x.zip (z.y.zip z.z)).length = z.nnode := by simp [hz.lx, hz.ly, hz.lz]
  rw [arrays_described env hso hs o ?_ hsh.coords (by rw [List.length_map, hsh.nnode]) (by rw [List.length_map, hsh.nnode])
    (by rw [List.length_map, hsh.nnode]) hj, hsh.nnode, hlen]
  intro h0
  cases hce : cgnsCells z dim with
  | nil => exact absurd hce (hcells h0)
  | cons q t =>
    have hq : q ∈ cgnsCells z dim := by rw [hce]; exact List.mem_cons_self ..
    obtain ⟨i, hi⟩ := (hsh.mem q.1 q.2).1 hq
    unfold elements at hi
    obtain ⟨p, hp, hi⟩ := List.mem_flatMap.1 hi
    obtain ⟨e, he, hee⟩ := List.mem_map.1 hi
    simp only [Prod.mk.injEq] at hee
    refine ⟨p, hp, q.2, ?_, ?_⟩
    · have := (List.of_mem_zip (a := e.1) (b := e.2) he).2
      rw [hee.2] at this
      exact this
    · obtain ⟨k, hk, hq⟩ := List.mem_flatMap.1 hq
      obtain ⟨e', he', rfl⟩ := List.mem_map.1 hq
      have hl := kind_length hz.sections (List.mem_filter.1 hk).1 e' he'
      have hpos : ∀ k ∈ Spec.Cgns.kinds, 0 < k.nodes := by decide
      have := hpos k (List.mem_filter.1 hk).1
      intro hnil
      simp only at hnil
      rw [hnil] at hl
      simp at hl
      omega

variable [DecidableEq Loc] (fmt : Option String) (s : Fs Loc) (filename : Name) (outpath : Option Name)

/-- **C98, CGNS to IC3.** A conversion of a CGNS file (of sections that are not empty) that succeeds without `--info` gives the same
with it exactly when the zone has a node. -/
theorem C98_cgns_ic3 (env : Ic3Env R) (v : Ver) (hso : ∀ l, (env.so l).Perm l) (hu : Uses fmt filename "CGNS" ".cgns") {b : Bytes}
    (hb : s.content (s.resolve (PyPath.parse filename).str) = some b) {root : Cgns.Tree R} {dim : Int} {z : Zone R}
    (htree : env.tree b = .ok root) (hun : TellsFile root dim z) (hnc : z.ncell ≠ 0) (hz : ZoneOk z dim)
    (hne : ∀ p ∈ z.sections, p.2.first ≤ p.2.last) (o : Ic3Options.Options R)
    (hcells : o.extrude ≠ 0 → cgnsCells z dim ≠ []) {fuel : Nat} {s' : Fs Loc} {name : Name}
    (hrun : cfdwriteIc3With env v fmt o s fuel filename outpath = some (s', .ok name)) :
    cfdwriteIc3Info env v fmt true o s fuel filename outpath = some (s', .ok name) ↔ z.nnode ≠ 0 := by
  unfold cfdwriteIc3With at hrun
  unfold cfdwriteIc3Info
  rw [(C70_select fmt filename).2.2.1 hu] at hrun ⊢
  obtain ⟨i, i', j, h0, h1, h2, h3⟩ := generic_exact (print := describe) hrun
  refine (outcome h3).trans ?_
  cases h1
  rw [cgns_in env.toVtkEnv s filename hb htree hun hnc] at h0
  obtain ⟨m, hm, h0⟩ := bind_eq_ok.1 h0
  simp only [Except.ok.injEq] at h0
  subst h0
  exact zone_described env.toVtkEnv hso hz hne o.toOptions hcells hm h2

/-- **C98, CGNS to VTK.** The same for `cfdwrite_vtk`. -/
theorem C98_cgns_vtk (env : VtkEnv R) (hso : ∀ l, (env.so l).Perm l) (hu : Uses fmt filename "CGNS" ".cgns") {b : Bytes}
    (hb : s.content (s.resolve (PyPath.parse filename).str) = some b) {root : Cgns.Tree R} {dim : Int} {z : Zone R}
    (htree : env.tree b = .ok root) (hun : TellsFile root dim z) (hnc : z.ncell ≠ 0) (hz : ZoneOk z dim)
    (hne : ∀ p ∈ z.sections, p.2.first ≤ p.2.last) (o : VtkConvert.Options R)
    (hcells : o.extrude ≠ 0 → cgnsCells z dim ≠ []) {fuel : Nat} {s' : Fs Loc} {name : Name}
    (hrun : cfdwriteVtk env fmt o s fuel filename outpath = some (s', .ok name)) :
    cfdwriteVtkInfo env fmt true o s fuel filename outpath = some (s', .ok name) ↔ z.nnode ≠ 0 := by
  unfold cfdwriteVtk at hrun
  unfold cfdwriteVtkInfo
  rw [(C70_select fmt filename).2.2.1 hu] at hrun ⊢
  obtain ⟨i, i', j, h0, h1, h2, h3⟩ := generic_exact (print := describe) hrun
  refine (outcome h3).trans ?_
  cases h1
  rw [cgns_in env s filename hb htree hun hnc] at h0
  obtain ⟨m, hm, h0⟩ := bind_eq_ok.1 h0
  simp only [Except.ok.injEq] at h0
  subst h0
  exact zone_described env hso hz hne o hcells hm h2

end

/-! ## Examples -/

/-- Two quadrangles, three layers, heights multiplied by 5: the same file with `--info`. -/
example : ∃ fuel s' name, cfdwriteVtk demoVtk none ⟨3, some (1, 1, 5)⟩ quadFs fuel "in/quad.msh".toList none = some (s', .ok name) ∧
    cfdwriteVtkInfo demoVtk none true ⟨3, some (1, 1, 5)⟩ quadFs fuel "in/quad.msh".toList none = some (s', .ok name) := by
  obtain ⟨m, h1, h2⟩ := quad_read
  obtain ⟨n, s', name, g, hrun, _⟩ := C71_gmsh_extruded demoVtk none quadFs quadFs_finite "in/quad.msh".toList (by decide) none
    (.inr ⟨rfl, by decide⟩) (b := []) (by decide) h1 h2 quad_supported (by decide +kernel) (by decide +kernel)
    (by unfold NodesExist; decide +kernel) 3 (by decide) (by decide) (some (1, 1, 5))
  have hn := hrun n (Nat.le_refl _)
  exact ⟨n, s', name, hn, (C98_gmsh_vtk none quadFs "in/quad.msh".toList none demoVtk (fun _ => List.Perm.refl _)
    (.inr ⟨rfl, by decide⟩) (b := []) (by decide) h1 h2 (by decide) (by decide +kernel) _ hn).2 (by decide)⟩

/-- The same file, converted to IC3 with one layer. -/
example (v : Ver) : ∃ fuel s' name,
    cfdwriteIc3With exEnv v none ⟨⟨1, none⟩, []⟩ quadFs fuel "in/quad.msh".toList none = some (s', .ok name) ∧
    cfdwriteIc3Info exEnv v none true ⟨⟨1, none⟩, []⟩ quadFs fuel "in/quad.msh".toList none = some (s', .ok name) := by
  obtain ⟨m, h1, h2⟩ := quad_read
  have hb := ex_gmsh_bocos h1
  obtain ⟨n, s', name, b, hrun, _⟩ := C72_gmsh_one_layer exEnv v none quadFs "in/quad.msh".toList none quadFs_finite (by decide)
    (fun _ => List.Perm.refl _) (.inr ⟨rfl, by decide⟩) (b := []) (by decide) h1 h2 quad_supported (by decide +kernel)
    (by decide +kernel) (by decide +kernel) (ex_fits h2.nnode hb rfl (.inl rfl)) (by decide) none [] true
  have hn := hrun n (Nat.le_refl _)
  exact ⟨n, s', name, hn, (C98_gmsh_ic3 none quadFs "in/quad.msh".toList none exEnv v (fun _ => List.Perm.refl _)
    (.inr ⟨rfl, by decide⟩) (b := []) (by decide) h1 h2 (by decide) (by decide +kernel) _ hn).2
      ⟨by decide, fun h => absurd h (by decide)⟩⟩

/-- The CGNS file of two quadrangles, two layers. -/
example : ∃ fuel s' name, cfdwriteVtkInfo cgnsVtk (some "CGNS") true ⟨2, none⟩ quadFs fuel "in/quad.msh".toList none = some (s', .ok name) ∧
    cfdwriteVtk cgnsVtk (some "CGNS") ⟨2, none⟩ quadFs fuel "in/quad.msh".toList none = some (s', .ok name) := by
  obtain ⟨n, s', name, g, hrun, _⟩ := C71_cgns_extruded cgnsVtk (some "CGNS") quadFs "in/quad.msh".toList none quadFs_finite (by decide)
    (fun _ => List.Perm.refl _) (.inl rfl) (b := []) (by decide) rfl quadZoneFile_tells (by decide) quadZone_ok (by decide) (by decide)
    quadZone_marks (by unfold NodesExist; decide) 2 (by decide) (by decide) none
  have hn := hrun n (Nat.le_refl _)
  exact ⟨n, s', name, (C98_cgns_vtk (some "CGNS") quadFs "in/quad.msh".toList none cgnsVtk (fun _ => List.Perm.refl _) (.inl rfl)
    (b := []) (by decide) rfl quadZoneFile_tells (by decide) quadZone_ok (by decide) _ (by decide) hn).2 (by decide), hn⟩

/-- The CGNS file of two hexahedra, scaled, to IC3. -/
def boxesEnv : Ic3Env Int := { exCgnsEnv with tree := fun _ => .ok CgnsConvert.twoBoxesFile }

example (v : Ver) (sc : Option (Int × Int × Int)) : ∃ fuel s' name,
    cfdwriteIc3With boxesEnv v (some "CGNS") ⟨⟨0, sc⟩, []⟩ quadFs fuel "in/quad.msh".toList none = some (s', .ok name) ∧
    cfdwriteIc3Info boxesEnv v (some "CGNS") true ⟨⟨0, sc⟩, []⟩ quadFs fuel "in/quad.msh".toList none = some (s', .ok name) := by
  obtain ⟨n, s', name, b, hrun, _⟩ := C72_cgns_scaled boxesEnv v (some "CGNS") quadFs "in/quad.msh".toList none quadFs_finite (by decide)
    (fun _ => List.Perm.refl _) (.inl rfl) (b := []) (by decide) rfl CgnsConvert.twoBoxesFile_tells (by decide)
    CgnsConvert.twoBoxes_hexa CgnsConvert.twoBoxes_first.1 CgnsConvert.twoBoxes_names CgnsConvert.twoBoxes_noTriple
    CgnsConvert.twoBoxes_mixed CgnsConvert.twoBoxes_separable CgnsConvert.twoBoxes_fits sc [] true
  have hn := hrun n (Nat.le_refl _)
  exact ⟨n, s', name, hn, (C98_cgns_ic3 (some "CGNS") quadFs "in/quad.msh".toList none boxesEnv v (fun _ => List.Perm.refl _) (.inl rfl)
    (b := []) (by decide) rfl CgnsConvert.twoBoxesFile_tells (by decide) CgnsConvert.twoBoxes_hexa.zone (by decide) _
    (fun h => absurd rfl h) hn).2 (by decide)⟩

/-- An IC3 file of two tetrahedra. -/
example (v : Ver) (sc : Option (Int × Int × Int)) : ∃ fuel s' name,
    cfdwriteIc3With exEnv v none ⟨⟨0, sc⟩, ["P"]⟩ tetraFs fuel "in/a.ic3".toList none = some (s', .ok name) ∧
    cfdwriteIc3Info exEnv v none true ⟨⟨0, sc⟩, ["P"]⟩ tetraFs fuel "in/a.ic3".toList none = some (s', .ok name) := by
  obtain ⟨n, s', name, b, hrun, _⟩ := C72_ic3 exEnv v none tetraFs "in/a.ic3".toList none tetraFs_finite (by decide)
    (.inr ⟨rfl, by decide⟩) (b := twoTetraFile) (by rfl) tetra_read (by decide) (twoTetra_copyable v) sc ["P"] (by decide) true
  have hn := hrun n (Nat.le_refl _)
  exact ⟨n, s', name, hn, (C98_ic3 none tetraFs "in/a.ic3".toList none exEnv v (.inr ⟨rfl, by decide⟩) (b := twoTetraFile)
    (by rfl) tetra_read _ hn).2 (by decide)⟩

/-- Two tetrahedra on the points 1 to 4 and 6, in the format 4: there is no point 5. -/
def holeMsh : List String :=
  ["$MeshFormat", "4 0 8", "$EndMeshFormat", "$PhysicalNames", "3", "2 1 \"wall\"", "2 2 \"inlet\"", "3 3 \"fluid\"",
   "$EndPhysicalNames", "$Entities", "0 1 2 1", "6 0 0 0 1 1 1 0 0", "11 0 0 0 1 1 1 1 1 1 6", "12 0 0 0 1 1 1 1 2 1 6",
   "1 0 0 0 1 1 1 1 3 2 11 12", "$EndEntities",
   "$Nodes", "2 5 1 6", "2 11 0 2", "3", "1", "0 6 0", "0 0 0", "2 12 0 3", "2", "4", "6", "5 0 0", "0 0 7", "8 8 8", "$EndNodes",
   "$Elements", "3 8 1 8", "2 11 2 3", "1 1 2 3", "2 1 2 4", "3 1 3 4", "2 12 2 3", "4 2 3 6", "5 2 4 6", "6 3 4 6",
   "3 1 4 2", "7 1 2 3 4", "8 6 2 4 3", "$EndElements"]

def holeEnv : Ic3Env Int := { exEnv with text := fun _ => holeMsh }

-- without `--info` a file is written, with it nothing is
example : ((cfdwriteIc3With holeEnv .v3 none ⟨⟨0, none⟩, []⟩ quadFs 2 "in/quad.msh".toList none).map fun r =>
      (r.2, (r.1.content "quad.ic3".toList).isSome),
    (cfdwriteIc3Info holeEnv .v3 none true ⟨⟨0, none⟩, []⟩ quadFs 2 "in/quad.msh".toList none).map fun r =>
      (r.2, (r.1.content "quad.ic3".toList).isSome)) =
  (some (.ok "quad.ic3".toList, true), some (.error .type, false)) := by decide +kernel

end Cfd.InfoOption
