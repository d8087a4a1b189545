import Verif.Lemmas.Ic3H5

/-! The solution read from any HDF5 file. -/

namespace Cfd.Ic3
open Spec Spec.Ic3 ElemConn

theorem fieldH5_iff {n : Nat} {s : List Nat} {v : List F64} {a : NpArr} :
    fieldH5 n s v = .ok a ↔ a = arrayH5 n s v ∧ GoodField n v := by
  unfold fieldH5 arrayH5 GoodField
  simp only
  by_cases h1 : 1 < v.length / n
  · have h2 : 2 ≤ v.length / n := h1
    rw [if_pos h1, if_pos h2]
    have hne : v ≠ [] := by rintro rfl; simp at h1
    by_cases h3 : v.length % (v.length / n) = 0
    · rw [if_pos h3]
      simp only [Except.ok.injEq]
      exact ⟨fun h => ⟨h.symm, hne, fun _ => h3⟩, fun h => h.1.symm⟩
    · rw [if_neg h3]
      exact ⟨fun h => by (cases h), fun h => absurd (h.2.2 h2) h3⟩
  · have h2 : ¬ 2 ≤ v.length / n := h1
    rw [if_neg h1, if_neg h2]
    cases v with
    | nil => simp
    | cons x t =>
      simp only [List.isEmpty_cons, Bool.false_eq_true, if_false, Except.ok.injEq]
      exact ⟨fun h => ⟨h.symm, by simp, fun h' => absurd h' h2⟩, fun h => h.1.symm⟩

theorem readVar_iff {n : Nat} {s : H5File} {p name : String} {d d' : Dict String NpArr} :
    s.readVar n p d name = .ok d' ↔ ∃ shape v, item s p name = some (.reals shape v) ∧ GoodField n v ∧
      d' = d.set name.toUpper (arrayH5 n shape v) := by
  unfold H5File.readVar
  constructor
  · intro h
    obtain ⟨⟨sh, v⟩, h1, h⟩ := bind_eq_ok.1 h
    obtain ⟨a, h2, h⟩ := bind_eq_ok.1 h
    simp only [Except_pure, Except.ok.injEq] at h
    obtain ⟨rfl, h3⟩ := fieldH5_iff.1 h2
    exact ⟨sh, v, reals_iff.1 h1, h3, h.symm⟩
  · rintro ⟨sh, v, h1, h2, rfl⟩
    rw [reals_iff.2 h1, Except_bind_ok, fieldH5_iff.2 ⟨rfl, h2⟩, Except_bind_ok]
    rfl

/-- Reading one field after the other. -/
def readFields (n : Nat) (s : H5File) (l : List (String × String)) (d : Dict String NpArr) : Py (Dict String NpArr) :=
  l.foldlM (fun d q => s.readVar n q.1 d q.2) d

theorem readFields_iff {n : Nat} {s : H5File} {l : List (String × String)} {d : Dict String NpArr} :
    (∃ d', readFields n s l d = .ok d') ↔ ∀ q ∈ l, ∃ shape v, item s q.1 q.2 = some (.reals shape v) ∧ GoodField n v := by
  induction l generalizing d with
  | nil =>
    refine ⟨fun _ q hq => by (cases hq), fun _ => ⟨d, rfl⟩⟩
  | cons q t ih =>
    unfold readFields
    rw [List.foldlM_cons]
    constructor
    · rintro ⟨d', h⟩
      obtain ⟨d1, h1, h2⟩ := bind_eq_ok.1 h
      obtain ⟨sh, v, e1, e2, _⟩ := readVar_iff.1 h1
      intro q' hq
      rcases List.mem_cons.1 hq with rfl | hq
      · exact ⟨sh, v, e1, e2⟩
      · exact ih.1 ⟨d', h2⟩ q' hq
    · intro h
      obtain ⟨sh, v, e1, e2⟩ := h q (by simp)
      obtain ⟨d', h'⟩ := ih (d := d.set q.2.toUpper (arrayH5 n sh v)) |>.2 fun q hq => h q (by simp [hq])
      exact ⟨d', bind_eq_ok.2 ⟨_, readVar_iff.2 ⟨sh, v, e1, e2, rfl⟩, h'⟩⟩

theorem readFields_get {n : Nat} {s : H5File} {l : List (String × String)} {d d' : Dict String NpArr}
    (h : readFields n s l d = .ok d') (name : String) :
    d'.get? name = match l.reverse.find? fun q => decide (q.2.toUpper = name) with
      | some q => fieldArray s n q
      | none => d.get? name := by
  induction l generalizing d with
  | nil =>
    unfold readFields at h
    simp only [List.foldlM_nil, Except_pure, Except.ok.injEq] at h
    rw [h]; rfl
  | cons q t ih =>
    unfold readFields at h
    rw [List.foldlM_cons] at h
    obtain ⟨d1, h1, h2⟩ := bind_eq_ok.1 h
    rw [ih h2, List.reverse_cons, List.find?_append]
    cases hf : t.reverse.find? (fun q => decide (q.2.toUpper = name)) with
    | some q' => rfl
    | none =>
      obtain ⟨sh, v, e1, _, rfl⟩ := readVar_iff.1 h1
      simp only [Option.none_or, List.find?_cons, List.find?_nil]
      by_cases e : q.2.toUpper = name
      · subst e
        simp only [decide_true, Dict.get?_set_self]
        unfold fieldArray
        rw [e1]
      · simp only [e, decide_false]
        exact Dict.get?_set_ne d _ (fun h => e h.symm)

theorem sort_names (l : List String) : l.insertionSort (· ≤ ·) = l.mergeSort := by
  refine List.Perm.eq_of_pairwise (le := (· ≤ ·)) ?_ ?_ ?_ ?_
  · intro a b _ _ h1 h2; exact String.le_antisymm h1 h2
  · exact List.pairwise_insertionSort _ _
  · have := List.pairwise_mergeSort (le := fun a b : String => decide (a ≤ b)) (by intro a b c; simpa using String.le_trans)
      (by intro a b; simpa using String.le_total a b) l
    simpa using this
  · exact (List.perm_insertionSort _ _).trans (List.mergeSort_perm _ _).symm

theorem foldlM_path {n : Nat} {s : H5File} (p : String) (l : List String) (d : Dict String NpArr) :
    l.foldlM (s.readVar n p) d = readFields n s (l.map fun x => (p, x)) d := by
  unfold readFields
  rw [List.foldlM_map]

theorem readVars_iff {n : Nat} {s : H5File} {d : Dict String NpArr} :
    s.readVars n = .ok d ↔ readFields n s (fieldsH5 s) [] = .ok d ∧
      (s.groups.get? "/VolumeStats" = none → item s "/" "VolumeStats" = none) ∧
      ((s.groups.get? "/VolumeStats").isSome = true → ∀ p ∈ s.groups.map (·.1), ¬ "/VolumeStats/".toList <+: p.toList) := by
  unfold H5File.readVars fieldsH5 inOrder
  rw [foldlM_path]
  have hsplit : ∀ l, readFields n s ([("/", "rho"), ("/", "rhou"), ("/", "rhoe")] ++ l) [] =
      (readFields n s [("/", "rho"), ("/", "rhou"), ("/", "rhoe")] [] >>= fun d => readFields n s l d) := by
    intro l
    unfold readFields
    rw [List.foldlM_append]
  rw [hsplit]
  have hn : s.nestedStats = false ↔ ∀ p ∈ s.groups.map (·.1), ¬ "/VolumeStats/".toList <+: p.toList := by
    unfold H5File.nestedStats Dict.keys
    rw [List.any_eq_false]
    refine forall_congr' fun p => forall_congr' fun _ => ?_
    rw [decide_eq_true_eq]
  simp only [List.map_cons, List.map_nil]
  cases hg : s.groups.get? "/VolumeStats" with
  | none =>
    simp only [List.map_nil]
    constructor
    · intro h
      obtain ⟨d1, h1, h⟩ := bind_eq_ok.1 h
      cases hr : s.rootData "VolumeStats" with
      | true => rw [hr] at h; cases h
      | false =>
        rw [hr] at h
        exact ⟨bind_eq_ok.2 ⟨d1, h1, h⟩, fun _ => rootData_iff.1 hr, fun h => by (cases h)⟩
    · rintro ⟨h1, h2, _⟩
      obtain ⟨d1, h1, h⟩ := bind_eq_ok.1 h1
      rw [rootData_iff.2 (h2 trivial)]
      exact bind_eq_ok.2 ⟨d1, h1, h⟩
  | some g =>
    simp only [foldlM_path, sort_names]
    constructor
    · intro h
      obtain ⟨d1, h1, h⟩ := bind_eq_ok.1 h
      cases hr : s.nestedStats with
      | true => rw [hr] at h; cases h
      | false =>
        rw [hr] at h
        exact ⟨bind_eq_ok.2 ⟨d1, h1, h⟩, fun h => by (cases h), fun _ => hn.1 hr⟩
    · rintro ⟨h1, _, h3⟩
      obtain ⟨d1, h1, h⟩ := bind_eq_ok.1 h1
      rw [hn.2 (h3 rfl)]
      exact bind_eq_ok.2 ⟨d1, h1, h⟩

theorem readVars_can {n : Nat} {s : H5File} : (∃ d, s.readVars n = .ok d) ↔ GoodSolution n s := by
  constructor
  · rintro ⟨d, h⟩
    obtain ⟨h1, h2, h3⟩ := readVars_iff.1 h
    exact ⟨readFields_iff.1 ⟨d, h1⟩, h2, h3⟩
  · rintro ⟨h1, h2, h3⟩
    obtain ⟨d, h⟩ := readFields_iff.2 h1
    exact ⟨d, readVars_iff.2 ⟨h, h2, h3⟩⟩

theorem readVars_get {n : Nat} {s : H5File} {d : Dict String NpArr} (h : s.readVars n = .ok d) (name : String) :
    d.get? name = (lastField s name).bind (fieldArray s n) := by
  rw [readFields_get (readVars_iff.1 h).1 name]
  unfold lastField
  cases (fieldsH5 s).reverse.find? fun q => decide (q.2.toUpper = name) <;> rfl

/-! ## State -/

theorem get?_sorted (d : Dict String SimVal) (hd : d.keys.Nodup) (key : String) :
    Dict.get? (d.insertionSort fun a b => a.1 ≤ b.1) key = d.get? key := by
  have hp : (d.insertionSort fun a b => a.1 ≤ b.1).Perm d := List.perm_insertionSort _ _
  exact get?_perm hp hd key

theorem attributes_get (s : H5File) (hs : Named s) (path key : String) : (s.attributes path).get? key = attr s path key := by
  unfold H5File.attributes attr
  cases hg : s.groups.get? path with
  | none => rfl
  | some g => exact get?_sorted g.attrs (hs _ (Dict.mem_of_get? hg)) key

theorem attributes_nodup (s : H5File) (hs : Named s) (path : String) : (s.attributes path).keys.Nodup := by
  unfold H5File.attributes
  cases hg : s.groups.get? path with
  | none => exact List.nodup_nil
  | some g => exact ((List.perm_insertionSort _ g.attrs).map _).nodup_iff.2 (hs _ (Dict.mem_of_get? hg))

theorem foldl_set_nodup (l d : Dict String SimVal) (h : d.keys.Nodup) :
    (l.foldl (fun (d : Dict String SimVal) p => d.set p.1 p.2) d).keys.Nodup := by
  induction l generalizing d with
  | nil => exact h
  | cons a t ih => exact ih _ (Dict.nodup_keys_set h _ _)

theorem readInfo_get (s : H5File) (hs : Named s) (key : String) :
    s.readInfo.get? key = (stateH5 (some s) key).or (noState.get? key) := by
  unfold H5File.readInfo
  rw [List.foldl_append, foldl_set_dict _ _ (attributes_nodup s hs _), foldl_set_dict _ _ (attributes_nodup s hs _),
    attributes_get s hs, attributes_get s hs]
  unfold stateH5
  simp only [Option.bind_some]
  cases attr s "/VolumeStats" key with
  | some v => rfl
  | none =>
    cases attr s "/" key <;> rfl

theorem readInfo_nodup (s : H5File) : s.readInfo.keys.Nodup := foldl_set_nodup _ _ (by decide)

/-! ## The result -/

theorem foldl_marksH5 (c : H5File) (l : List ZoneH5) (d : Dict String Mark) (name : String) :
    ((l.map (markH5 c)).foldl (fun d b => d.set b.name b) d).get? name =
      ((l.reverse.find? fun z => decide (z.label = name)).map (markH5 c)).or (d.get? name) := by
  induction l generalizing d with
  | nil => rfl
  | cons z t ih =>
    rw [List.map_cons, List.foldl_cons, ih, List.reverse_cons, List.find?_append]
    cases t.reverse.find? fun z => decide (z.label = name) with
    | some x => rfl
    | none =>
      simp only [Option.map_none, Option.none_or, List.find?_cons, List.find?_nil]
      by_cases e : z.label = name
      · have e2 : (markH5 c z).name = name := e
        rw [e2, Dict.get?_set_self]
        simp [e]
      · have e2 : name ≠ (markH5 c z).name := fun h => e h.symm
        rw [Dict.get?_set_ne _ _ e2]
        simp [e]

theorem zipIdx_enum (nodes : List (List Int)) : enumFaces nodes = nodes.zipIdx.map fun x => ((x.2 : Int), x.1) :=
  rfl

theorem exportedH5_tells {c : H5File} {s : Option H5File} {no cv : Nat} {nodes : List (List Int)} {cells : List (Int × Int)}
    {points : List (F64 × F64 × F64)} {zones : List ZoneH5} {e : ElemConn} {data : Dict String NpArr} {sim : Dict String SimVal}
    (h1 : CountsH5 c no cells.length cv) (h2 : FacesH5 c nodes cells) (h3 : PointsH5 c points) (h4 : ZonesH5 c zones)
    (hn : ∀ f ∈ nodes, 1 ≤ f.length ∧ f.length ≤ 4) (he : ElemConn.empty.importCompressed (csrOf nodes) = .ok e)
    (hd : ∀ name, data.get? name = s.bind fun s => (lastField s name).bind (fieldArray s cv))
    (hs : ∀ key, sim.get? key = (stateH5 s key).or (noState.get? key)) (hs2 : sim.keys.Nodup) :
    TellsH5 c s (exportedH5 no cells.length cv nodes cells points (zones.map (markH5 c)) e data sim) no cv nodes cells points
      zones := by
  obtain ⟨e', g1, g2, g3, g4, _, g6⟩ := import_ok nodes hn
  rw [he] at g1
  have := Except.ok.inj g1
  subst this
  have hlen : (elements e).length = nodes.length := by
    have := g4.length_eq
    rw [List.length_map, zipIdx_enum] at this
    simpa using this
  refine ⟨h1, h2, h3, h4, rfl, rfl, by rw [← hlen, ← g6]; rfl, ⟨_, rfl, ?_, ?_, rfl⟩, rfl, ?_, hd, rfl, rfl, rfl, ?_⟩
  · exact ⟨g3, g2, g6⟩
  · rw [← zipIdx_enum]; exact g4
  · intro name
    have := foldl_marksH5 c zones [] name
    rw [show Dict.get? ([] : Dict String Mark) name = none from rfl, Option.or_none] at this
    exact this
  · intro key
    unfold exportedH5
    simp only
    rw [foldl_set_dict _ _ hs2, hs key]
    have ep : paramsV4 ⟨no, cells.length, cv, csrOf nodes, cells, zones.map (markH5 c), points⟩ =
        meshParams no cells.length cv nodes cells zones := by
      unfold paramsV4 meshParams csrOf
      simp only [diffs_offsets, List.length_map]
      have hsum : (nodes.map fun f => (f.length : Int)).sum = (nodes.flatten.length : Nat) := by
        clear * -
        induction nodes with
        | nil => rfl
        | cons a t ih => simp only [List.map_cons, List.sum_cons, ih, List.flatten_cons, List.length_append]; omega
      rw [hsum]
    rw [ep]
    cases (stateH5 s key).or (noState.get? key) <;> rfl

/-- A file that can be read is read as the mesh it tells. -/
theorem readH5_value {c : H5File} {s : Option H5File} (h : AcceptableH5 c s) :
    ∃ no cv nodes cells points zones e data sim, CountsH5 c no (cells : List (Int × Int)).length cv ∧ FacesH5 c nodes cells ∧
      PointsH5 c points ∧ ZonesH5 c zones ∧ (∀ f ∈ nodes, 1 ≤ f.length ∧ f.length ≤ 4) ∧
      ElemConn.empty.importCompressed (csrOf nodes) = .ok e ∧
      (∀ name, Dict.get? data name = s.bind fun s => (lastField s name).bind (fieldArray s cv)) ∧
      sim = (match s with | none => noState | some s => s.readInfo) ∧
      readH5 c s = .ok (exportedH5 no cells.length cv nodes cells points (zones.map (markH5 c)) e data sim) := by
  obtain ⟨no, cv, nodes, cells, points, zones, h1, h2, h3, h4, hno, hne, hn, hle, hlast, hz, hsol⟩ := h.mesh
  obtain ⟨x, hx, hf, x1, x2, x3, x4, x5, x6, x7⟩ := mesh_can h1.nodes h1.faces h1.cells h2.sizes h2.values h2.cells h3 h4
  have hr := readMeshV4_can hf x4 x5 x6 x2 x7 (by rw [x1]; exact hno) hne (by rw [x3]; exact hle) (by rw [x3]; exact hlast) hz
  obtain ⟨e, he, -⟩ := import_ok nodes hn
  rw [x1, x2, x3] at hr
  cases s with
  | none =>
    refine ⟨no, cv, nodes, cells, points, zones, e, [], _, h1, h2, h3, h4, hn, he, fun _ => rfl, rfl, ?_⟩
    unfold readH5
    rw [hx, Except_bind_ok, hr, Except_bind_ok]
    exact exportV4_can hno he _ _
  | some s =>
    obtain ⟨d, hd⟩ := readVars_can.2 (hsol s rfl)
    refine ⟨no, cv, nodes, cells, points, zones, e, d, _, h1, h2, h3, h4, hn, he, fun name => readVars_get hd name, rfl, ?_⟩
    unfold readH5
    rw [hx, Except_bind_ok, hr, Except_bind_ok, x3]
    simp only
    rw [hd, Except_bind_ok]
    exact exportV4_can hno he _ _

/-- A file that tells a mesh is read as this mesh. -/
theorem readH5_can {c : H5File} {s : Option H5File} (h : AcceptableH5 c s) (hs : ∀ s', s = some s' → Named s') :
    ∃ f no cv nodes cells points zones, readH5 c s = .ok f ∧ TellsH5 c s f no cv nodes cells points zones := by
  obtain ⟨no, cv, nodes, cells, points, zones, e, data, sim, h1, h2, h3, h4, hn, he, hd, hsim, hr⟩ := readH5_value h
  refine ⟨_, no, cv, nodes, cells, points, zones, hr, exportedH5_tells h1 h2 h3 h4 hn he hd ?_ ?_⟩
  · intro key
    rw [hsim]
    cases s with
    | none => rfl
    | some s => exact readInfo_get s (hs s rfl) key
  · rw [hsim]
    cases s with
    | none => simp only; decide
    | some s => exact readInfo_nodup s

theorem readH5_acceptable {c : H5File} {s : Option H5File} {f : FullMesh} (h : readH5 c s = .ok f) : AcceptableH5 c s := by
  unfold readH5 at h
  obtain ⟨x, hx, h⟩ := bind_eq_ok.1 h
  obtain ⟨r, hr, h⟩ := bind_eq_ok.1 h
  obtain ⟨zones, hz⟩ := mesh_inv hx
  have key : (∃ e, ElemConn.empty.importCompressed r.csr = .ok e) ∧ ∀ s', s = some s' → GoodSolution x.cv s' := by
    cases s with
    | none => exact ⟨exportV4_import h, fun s' h => by cases h⟩
    | some s =>
      simp only at h
      obtain ⟨d, hd, h⟩ := bind_eq_ok.1 h
      refine ⟨exportV4_import h, fun s' e => ?_⟩
      cases e
      exact readVars_can.1 ⟨d, hd⟩
  obtain ⟨⟨e, he⟩, hsol⟩ := key
  obtain ⟨nodes, cells, points, y1, y2, y3, y4, y5, y6, y7, y8, y9, y10, y11⟩ := readMeshV4_inv hz hr he
  refine ⟨⟨x.no, x.cv, nodes, cells, points, zones, ⟨hz.no, ?_, hz.cv⟩, ⟨?_, ?_, ?_⟩, ?_, hz.told, y6, y7, y8, y9, y10, y11, hsol⟩⟩
  · rw [← y4]; exact hz.fa
  · rw [← y1]; exact hz.noofaI
  · rw [← y2]; exact hz.noofaV
  · rw [← y3]; exact hz.cvofa
  · unfold PointsH5; rw [← y5]; exact hz.coordinates

end Cfd.Ic3
