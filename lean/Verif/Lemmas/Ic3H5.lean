import Verif.Lemmas.Ic3ForeignAccept
import Verif.Lemmas.Ic3V4
import Verif.Spec.Ic3H5

/-! The V4 reader on any HDF5 file. -/

namespace Cfd.Ic3
open Spec Spec.Ic3 ElemConn

/-! ## Items -/

theorem dataset_iff {c : H5File} {p n : String} {d : H5Data} : c.dataset p n = .ok d ↔ item c p n = some d := by
  unfold H5File.dataset item
  rw [bind_eq_ok]
  constructor
  · rintro ⟨g, h1, h2⟩
    rw [Dict.getE_eq_ok] at h1 h2
    rw [h1]; exact h2
  · intro h
    obtain ⟨g, h1, h2⟩ := Option.bind_eq_some_iff.1 h
    exact ⟨g, Dict.getE_eq_ok.2 h1, Dict.getE_eq_ok.2 h2⟩

theorem ints_iff {c : H5File} {p n : String} {l : List Int} : c.ints p n = .ok l ↔ IsInts (item c p n) l := by
  unfold H5File.ints IsInts
  rw [bind_eq_ok]
  constructor
  · rintro ⟨d, h1, h2⟩
    rw [dataset_iff.1 h1]
    split at h2
    · simp only [Except_pure, Except.ok.injEq] at h2
      subst h2; exact ⟨_, rfl⟩
    · cases h2
  · rintro ⟨k, h⟩
    exact ⟨_, dataset_iff.2 h, rfl⟩

theorem intsFlat_iff {c : H5File} {p n : String} {l : List Int} :
    c.intsFlat p n = .ok l ↔ ∃ s, item c p n = some (.ints s l) := by
  unfold H5File.intsFlat
  rw [bind_eq_ok]
  constructor
  · rintro ⟨d, h1, h2⟩
    rw [dataset_iff.1 h1]
    split at h2
    · simp only [Except_pure, Except.ok.injEq] at h2
      subst h2; exact ⟨_, rfl⟩
    · cases h2
  · rintro ⟨k, h⟩
    exact ⟨_, dataset_iff.2 h, rfl⟩

theorem reals_iff {c : H5File} {p n : String} {s : List Nat} {l : List F64} :
    c.reals p n = .ok (s, l) ↔ item c p n = some (.reals s l) := by
  unfold H5File.reals
  rw [bind_eq_ok]
  constructor
  · rintro ⟨d, h1, h2⟩
    rw [dataset_iff.1 h1]
    split at h2
    · simp only [Except_pure, Except.ok.injEq, Prod.mk.injEq] at h2
      obtain ⟨rfl, rfl⟩ := h2; rfl
    · cases h2
  · intro h
    exact ⟨_, dataset_iff.2 h, rfl⟩

theorem texts_iff {c : H5File} {p n : String} {l : List String} :
    c.texts p n = .ok l ↔ item c p n = some (.texts l) := by
  unfold H5File.texts
  rw [bind_eq_ok]
  constructor
  · rintro ⟨d, h1, h2⟩
    rw [dataset_iff.1 h1]
    split at h2
    · simp only [Except_pure, Except.ok.injEq] at h2
      subst h2; rfl
    · cases h2
  · intro h
    exact ⟨_, dataset_iff.2 h, rfl⟩

theorem count_iff {c : H5File} {n : String} {k : Nat} : c.count n = .ok k ↔ attr c "/" n = some (.int k) := by
  unfold H5File.count attr
  rw [bind_eq_ok]
  constructor
  · rintro ⟨g, h1, h2⟩
    rw [Dict.getE_eq_ok] at h1
    obtain ⟨v, h3, h4⟩ := bind_eq_ok.1 h2
    rw [Dict.getE_eq_ok] at h3
    rw [h1, Option.bind_some, h3]
    split at h4
    · split at h4
      · simp only [Except_pure, Except.ok.injEq] at h4
        subst h4
        congr 2; omega
      · cases h4
    · cases h4
  · intro h
    obtain ⟨g, h1, h2⟩ := Option.bind_eq_some_iff.1 h
    refine ⟨g, Dict.getE_eq_ok.2 h1, bind_eq_ok.2 ⟨_, Dict.getE_eq_ok.2 h2, ?_⟩⟩
    simp only
    rw [if_pos (by omega)]
    rfl

theorem rootData_iff {c : H5File} {n : String} : c.rootData n = false ↔ item c "/" n = none := by
  unfold H5File.rootData
  cases h : c.dataset "/" n with
  | ok d => rw [dataset_iff.1 h]; simp
  | error e =>
    cases hi : item c "/" n with
    | none => simp
    | some d => rw [dataset_iff.2 hi] at h; cases h

theorem periodic_eq (c : H5File) (label : String) :
    c.periodic label = match item c ("/Boundaries/" ++ label) "periodic_transform" with
      | none => .ok none
      | some (.reals _ l) => .ok (some l)
      | some _ => .error .type := by
  unfold H5File.periodic item
  cases c.groups.get? ("/Boundaries/" ++ label) with
  | none => rfl
  | some g =>
    simp only [Option.bind_some]
    rfl

theorem periodic_iff {c : H5File} {label : String} {t : Option (List F64)} :
    c.periodic label = .ok t ↔ t = transformH5 c label ∧
      ∀ d, item c ("/Boundaries/" ++ label) "periodic_transform" = some d → ∃ s v, d = .reals s v := by
  rw [periodic_eq]
  unfold transformH5
  cases item c ("/Boundaries/" ++ label) "periodic_transform" with
  | none => simp [eq_comm]
  | some d =>
    cases d with
    | reals s v => simp [eq_comm]
    | ints s v => simp
    | texts v => simp

/-! ## Zones -/

theorem periodics_iff {c : H5File} {labels : List String} {r : List (String × Option (List F64))} :
    labels.mapM c.periodicOf = .ok r ↔ r = labels.map (fun l => (l, transformH5 c l)) ∧
      ∀ l ∈ labels, ∀ d, item c ("/Boundaries/" ++ l) "periodic_transform" = some d → ∃ s v, d = .reals s v := by
  induction labels generalizing r with
  | nil => simp [eq_comm]
  | cons a t ih =>
    rw [List.mapM_cons, bind_eq_ok]
    constructor
    · rintro ⟨q, h1, h2⟩
      obtain ⟨r', h3, h4⟩ := bind_eq_ok.1 h2
      unfold H5File.periodicOf at h1
      obtain ⟨p, h5, h6⟩ := bind_eq_ok.1 h1
      simp only [Except_pure, Except.ok.injEq] at h4 h6
      subst h4 h6
      obtain ⟨i1, i2⟩ := ih.1 h3
      obtain ⟨j1, j2⟩ := periodic_iff.1 h5
      subst i1 j1
      refine ⟨rfl, ?_⟩
      intro l hl
      rcases List.mem_cons.1 hl with rfl | hl
      · exact j2
      · exact i2 l hl
    · rintro ⟨rfl, h⟩
      refine ⟨_, bind_eq_ok.2 ⟨_, periodic_iff.2 ⟨rfl, h a (by simp)⟩, rfl⟩, bind_eq_ok.2 ⟨_, ih.2 ⟨rfl, fun l hl => h l (by simp [hl])⟩, rfl⟩⟩

theorem perio_get {c : H5File} {labels : List String} {l : String} (h : l ∈ labels) :
    Dict.get? ((labels.map fun l => (l, transformH5 c l)).filterMap fun p => p.2.map fun v => (p.1, v)) l = transformH5 c l := by
  have key : ∀ labels : List String,
      Dict.get? ((labels.map fun l => (l, transformH5 c l)).filterMap fun p => p.2.map fun v => (p.1, v)) l =
        if l ∈ labels then transformH5 c l else none := by
    intro labels
    induction labels with
    | nil => rfl
    | cons a t ih =>
      rw [List.map_cons, List.filterMap_cons]
      by_cases e : a = l
      · subst e
        cases ht : transformH5 c a with
        | none =>
          simp only [ht, Option.map_none] at ih ⊢
          rw [ih]
          simp
        | some v => simp [Dict.get?]
      · cases ht : transformH5 c a with
        | none =>
          simp only [Option.map_none]
          rw [ih]
          simp [Ne.symm e]
        | some v =>
          simp only [Option.map_some, Dict.get?]
          rw [if_neg e, ih]
          simp [Ne.symm e]
  rw [key, if_pos h]

theorem quads_zones (labels : List String) (kinds offsets : List Int) :
    labels.zip (kinds.zip (offsets.dropLast.zip (offsets.tail.map (· - 1)))) =
      (zoneList labels kinds offsets).map fun z => (z.label, z.kind, z.start, z.stop - 1) := by
  induction labels generalizing kinds offsets with
  | nil => simp [zoneList]
  | cons l ls ih =>
    cases kinds with
    | nil => simp [zoneList]
    | cons k ks =>
      match offsets with
      | [] => simp [zoneList]
      | [a] => simp [zoneList]
      | a :: b :: t =>
        have := ih ks (b :: t)
        simp only [List.tail_cons] at this
        simp only [zoneList, List.map_cons, List.dropLast_cons_cons, List.tail_cons, List.zip_cons_cons, this]

theorem zoneList_label {labels : List String} {kinds offsets : List Int} {z : ZoneH5}
    (h : z ∈ zoneList labels kinds offsets) : z.label ∈ labels := by
  induction labels generalizing kinds offsets with
  | nil => simp [zoneList] at h
  | cons l ls ih =>
    cases kinds with
    | nil => simp [zoneList] at h
    | cons k ks =>
      match offsets with
      | [] => simp [zoneList] at h
      | [a] => simp [zoneList] at h
      | a :: b :: t =>
        simp only [zoneList, List.mem_cons] at h
        rcases h with rfl | h
        · simp
        · exact List.mem_cons_of_mem _ (ih h)

theorem kind_types (i : Int) : zonekind2type.get? i = zoneType i := by
  by_cases e1 : i = 1
  · subst e1; decide
  by_cases e2 : i = 2
  · subst e2; decide
  by_cases e3 : i = 3
  · subst e3; decide
  by_cases e4 : i = 4
  · subst e4; decide
  by_cases e5 : i = 5
  · subst e5; decide
  by_cases e6 : i = 6
  · subst e6; decide
  rw [show zoneType i = none by unfold zoneType; split <;> simp_all]
  simp [zonekind2type, type2zonekind, Dict.get?, Ne.symm e1, Ne.symm e2, Ne.symm e3, Ne.symm e4, Ne.symm e5, Ne.symm e6]

theorem internal_kind {i : Int} {t : String} (h : zoneType i = some t) : t = "internal" ↔ i = 6 := by
  unfold zoneType at h
  split at h <;> first | (cases h; simp) | (cases h)

theorem readZone_iff {z : Csr} {c : H5File} {perio : Dict String (List F64)} {q : ZoneH5} {m : Mark}
    (hp : perio.get? q.label = transformH5 c q.label) :
    readZoneV4 z perio (q.label, q.kind, q.start, q.stop - 1) = .ok m ↔ m = markH5 c q ∧ (zoneType q.kind).isSome = true ∧
      - (z.index.length : Int) ≤ q.start ∧ q.start < z.index.length := by
  rw [← npGet_iff]
  unfold readZoneV4
  simp only [bind_eq_ok, Dict.getE_eq_ok, kind_types, hp, Except_pure, Except.ok.injEq]
  unfold markH5
  cases ht : zoneType q.kind with
  | none => simp
  | some t =>
    have hi := internal_kind ht
    constructor
    · rintro ⟨t', h1, x, h2, h3⟩
      cases h1
      refine ⟨?_, rfl, x, h2⟩
      rw [← h3]
      by_cases e : q.kind = 6
      · simp [e, hi.2 e]
      · have : ¬ t = "internal" := fun h => e (hi.1 h)
        simp [e, this]
    · rintro ⟨rfl, _, x, h2⟩
      refine ⟨t, rfl, x, h2, ?_⟩
      by_cases e : q.kind = 6
      · simp [e, hi.2 e]
      · have : ¬ t = "internal" := fun h => e (hi.1 h)
        simp [e, this]

theorem readZones_iff {z : Csr} {c : H5File} {perio : Dict String (List F64)} {zones : List ZoneH5} {ms : List Mark}
    (hp : ∀ q ∈ zones, perio.get? q.label = transformH5 c q.label) :
    (zones.map fun q => (q.label, q.kind, q.start, q.stop - 1)).mapM (readZoneV4 z perio) = .ok ms ↔
      ms = zones.map (markH5 c) ∧ ∀ q ∈ zones, (zoneType q.kind).isSome = true ∧
        - (z.index.length : Int) ≤ q.start ∧ q.start < z.index.length := by
  induction zones generalizing ms with
  | nil =>
    simp only [List.map_nil, List.mapM_nil, Except_pure, Except.ok.injEq]
    exact ⟨fun h => ⟨h.symm, fun q hq => by cases hq⟩, fun h => h.1.symm⟩
  | cons a t ih =>
    have ih := fun ms => @ih ms (fun q hq => hp q (by simp [hq]))
    rw [List.map_cons, List.mapM_cons, bind_eq_ok]
    constructor
    · rintro ⟨m, h1, h2⟩
      obtain ⟨r', h3, h4⟩ := bind_eq_ok.1 h2
      simp only [Except_pure, Except.ok.injEq] at h4
      subst h4
      obtain ⟨i1, i2⟩ := (ih _).1 h3
      obtain ⟨j1, j2⟩ := (readZone_iff (hp a (by simp))).1 h1
      subst i1 j1
      refine ⟨rfl, ?_⟩
      intro q hq
      rcases List.mem_cons.1 hq with rfl | hq
      · exact j2
      · exact i2 q hq
    · rintro ⟨rfl, h⟩
      exact ⟨_, (readZone_iff (hp a (by simp))).2 ⟨rfl, h a (by simp)⟩,
        bind_eq_ok.2 ⟨_, (ih _).2 ⟨rfl, fun q hq => h q (by simp [hq])⟩, rfl⟩⟩

/-- The zones of a mesh file. -/
def quadsOf (z : H5Zones) : List (String × Int × Int × Int) :=
  z.labels.zip (z.kinds.zip (z.offsets.dropLast.zip (z.offsets.tail.map (· - 1))))

/-- What the group of the boundaries gives is what the zones tell. -/
def ZonesFrom (c : H5File) (z : H5Zones) (zones : List ZoneH5) : Prop :=
  ZonesH5 c zones ∧ quadsOf z = (zones.map fun q => (q.label, q.kind, q.start, q.stop - 1)) ∧
    ∀ q ∈ zones, z.perio.get? q.label = transformH5 c q.label

theorem zones_inv {c : H5File} {z : H5Zones} (h : c.zones = .ok z) : ∃ zones, ZonesFrom c z zones := by
  unfold H5File.zones at h
  cases hg : c.groups.get? "/Boundaries" with
  | none =>
    rw [hg] at h
    simp only at h
    cases hr : c.rootData "Boundaries" with
    | true => rw [hr] at h; cases h
    | false =>
      rw [hr] at h
      simp only [Bool.false_eq_true, if_false, Except.ok.injEq] at h
      subst h
      exact ⟨[], .inl ⟨hg, rootData_iff.1 hr, rfl⟩, rfl, fun q hq => by cases hq⟩
  | some g =>
    rw [hg] at h
    simp only at h
    obtain ⟨offsets, h1, h⟩ := bind_eq_ok.1 h
    obtain ⟨labels, h2, h⟩ := bind_eq_ok.1 h
    obtain ⟨kinds, h3, h⟩ := bind_eq_ok.1 h
    obtain ⟨perio, h4, h⟩ := bind_eq_ok.1 h
    simp only [Except_pure, Except.ok.injEq] at h
    subst h
    obtain ⟨h4, h5⟩ := periodics_iff.1 h4
    subst h4
    refine ⟨zoneList labels kinds offsets, .inr ⟨g, labels, kinds, offsets, hg, texts_iff.1 h2, ints_iff.1 h3, ints_iff.1 h1, h5, rfl⟩,
      quads_zones _ _ _, fun q hq => perio_get (zoneList_label hq)⟩

theorem zones_can {c : H5File} {zones : List ZoneH5} (h : ZonesH5 c zones) : ∃ z, c.zones = .ok z ∧ ZonesFrom c z zones := by
  have h0 := h
  rcases h with ⟨h1, h2, rfl⟩ | ⟨g, labels, kinds, offsets, h1, h2, h3, h4, h5, rfl⟩
  · refine ⟨⟨[], [], [], []⟩, ?_, h0, rfl, fun q hq => by cases hq⟩
    unfold H5File.zones
    rw [h1, rootData_iff.2 h2]
    rfl
  · refine ⟨⟨labels, kinds, offsets, (labels.map fun l => (l, transformH5 c l)).filterMap fun p => p.2.map fun v => (p.1, v)⟩,
      ?_, h0, quads_zones _ _ _, fun q hq => perio_get (zoneList_label hq)⟩
    unfold H5File.zones
    rw [h1]
    simp only
    rw [ints_iff.2 h4, Except_bind_ok, texts_iff.2 h2, Except_bind_ok, ints_iff.2 h3, Except_bind_ok,
      periodics_iff.2 ⟨rfl, h5⟩, Except_bind_ok]
    rfl

/-! ## The mesh -/

/-- The arrays of the file are tables. -/
structure MeshFrom (c : H5File) (x : MeshFile) (zones : List ZoneH5) : Prop where
  no : attr c "/" "no_count" = some (.int x.no)
  fa : attr c "/" "fa_count" = some (.int x.fa)
  cv : attr c "/" "cv_count" = some (.int x.cv)
  noofaI : IsInts (item c "/Connectivities/Face" "noofa_i") x.noofaI
  noofaV : IsInts (item c "/Connectivities/Face" "noofa_v") x.noofaV
  cvofa : ∃ s, item c "/Connectivities/Face" "cvofa" = some (.ints s x.cvofa)
  coordinates : ∃ s, item c "/" "coordinates" = some (.reals s x.coordinates)
  told : ZonesH5 c zones
  quads : zoneQuads x = (zones.map fun q => (q.label, q.kind, q.start, q.stop - 1))
  perio : ∀ q ∈ zones, x.perio.get? q.label = transformH5 c q.label

theorem mesh_inv {c : H5File} {x : MeshFile} (h : c.mesh = .ok x) : ∃ zones, MeshFrom c x zones := by
  unfold H5File.mesh at h
  obtain ⟨no, h1, h⟩ := bind_eq_ok.1 h
  obtain ⟨fa, h2, h⟩ := bind_eq_ok.1 h
  obtain ⟨cv, h3, h⟩ := bind_eq_ok.1 h
  obtain ⟨nI, h4, h⟩ := bind_eq_ok.1 h
  obtain ⟨nV, h5, h⟩ := bind_eq_ok.1 h
  obtain ⟨cvofa, h6, h⟩ := bind_eq_ok.1 h
  obtain ⟨z, h7, h⟩ := bind_eq_ok.1 h
  obtain ⟨⟨s, xyz⟩, h8, h⟩ := bind_eq_ok.1 h
  simp only [Except_pure, Except.ok.injEq] at h
  subst h
  obtain ⟨zones, z1, z2, z3⟩ := zones_inv h7
  exact ⟨zones, count_iff.1 h1, count_iff.1 h2, count_iff.1 h3, ints_iff.1 h4, ints_iff.1 h5, intsFlat_iff.1 h6,
    ⟨s, reals_iff.1 h8⟩, z1, z2, z3⟩

theorem mesh_can {c : H5File} {no fa cv : Nat} {noofaI noofaV cvofa : List Int} {coordinates : List F64} {zones : List ZoneH5}
    (h1 : attr c "/" "no_count" = some (.int no)) (h2 : attr c "/" "fa_count" = some (.int fa))
    (h3 : attr c "/" "cv_count" = some (.int cv)) (h4 : IsInts (item c "/Connectivities/Face" "noofa_i") noofaI)
    (h5 : IsInts (item c "/Connectivities/Face" "noofa_v") noofaV)
    (h6 : ∃ s, item c "/Connectivities/Face" "cvofa" = some (.ints s cvofa))
    (h7 : ∃ s, item c "/" "coordinates" = some (.reals s coordinates)) (h8 : ZonesH5 c zones) :
    ∃ x, c.mesh = .ok x ∧ MeshFrom c x zones ∧ x.no = no ∧ x.fa = fa ∧ x.cv = cv ∧ x.noofaI = noofaI ∧ x.noofaV = noofaV ∧
      x.cvofa = cvofa ∧ x.coordinates = coordinates := by
  obtain ⟨z, e, z1, z2, z3⟩ := zones_can h8
  obtain ⟨s, hs⟩ := h7
  refine ⟨{ no := no, fa := fa, cv := cv, coordinates := coordinates, cells := [], cvofa := cvofa, noofaI := noofaI
            noofaV := noofaV, labels := z.labels, offsets := z.offsets, kinds := z.kinds, perio := z.perio }, ?_,
    ⟨h1, h2, h3, h4, h5, h6, ⟨s, hs⟩, z1, z2, z3⟩, rfl, rfl, rfl, rfl, rfl, rfl, rfl⟩
  unfold H5File.mesh
  rw [count_iff.2 h1, Except_bind_ok, count_iff.2 h2, Except_bind_ok, count_iff.2 h3, Except_bind_ok, ints_iff.2 h4,
    Except_bind_ok, ints_iff.2 h5, Except_bind_ok, intsFlat_iff.2 h6, Except_bind_ok, e, Except_bind_ok, reals_iff.2 hs,
    Except_bind_ok]
  rfl

/-- The mesh read from tables. -/
theorem readMeshV4_can {c : H5File} {x : MeshFile} {zones : List ZoneH5} (hx : MeshFrom c x zones) {nodes : List (List Int)}
    {cells : List (Int × Int)} {points : List (F64 × F64 × F64)} (hI : x.noofaI = nodes.map fun f => (f.length : Int))
    (hV : x.noofaV = nodes.flatten) (hC : x.cvofa = cells.flatMap fun r => [r.1, r.2]) (hfa : x.fa = cells.length)
    (hP : x.coordinates = points.flatMap fun p => [p.1, p.2.1, p.2.2]) (hno : points.length = x.no) (hne : nodes ≠ [])
    (hle : ∀ q ∈ cells, q.1 < (x.cv : Int) ∧ q.2 < (x.cv : Int))
    (hm : ∃ q ∈ cells, q.1 = (x.cv : Int) - 1 ∨ q.2 = (x.cv : Int) - 1)
    (hz : ∀ z ∈ zones, (zoneType z.kind).isSome = true ∧ - (nodes.length : Int) - 1 ≤ z.start ∧ z.start ≤ nodes.length) :
    readMeshV4 x = .ok ⟨x.no, x.fa, x.cv, csrOf nodes, cells, zones.map (markH5 c), points⟩ := by
  have hsum : (nodes.map fun f => (f.length : Int)).sum = (nodes.flatten.length : Nat) := by
    clear hz hI hV hne
    induction nodes with
    | nil => rfl
    | cons a t ih => simp only [List.map_cons, List.sum_cons, ih, List.flatten_cons, List.length_append]; omega
  have r1 : readNoofaV4 x = .ok (csrOf nodes) := by
    obtain ⟨a, b, g1, g2, e⟩ := noofa_tests (noofa := nodes.map fun f => (f.length : Int)) (value := nodes.flatten)
      (by simpa using List.length_pos_of_ne_nil hne) hsum
    have hck := offsets_check (nodes.map fun f => (f.length : Int)) nodes.flatten (by simp) hsum
    unfold readNoofaV4
    simp only [hI, hV, g1, g2, Except_bind_ok, hsum, e, decide_true, pyAssert, if_true, hck, Except_pure]
    rfl
  have r2 : readCvofaV4 x = .ok cells := by
    have hmax : (cells.flatMap fun r => [r.1, r.2]).max? = some ((x.cv : Int) - 1) :=
      max_pairs cells ((x.cv : Int) - 1) (fun r hr => by have := hle r hr; omega) hm
    have hlen : (cells.flatMap fun r => [r.1, r.2]).length = x.fa * 2 := by rw [length_flatMap_pairs, hfa]
    have e2 : (x.cv : Int) - 1 < x.cv := by omega
    unfold readCvofaV4
    simp only [hC, hlen, hmax, pairs_flatMap, ne_eq, not_true_eq_false, if_false, e2, decide_true, pyAssert,
      if_true, Except_bind_ok, Except_pure]
  have r3 : (zoneQuads x).mapM (readZoneV4 (csrOf nodes) x.perio) = .ok (zones.map (markH5 c)) := by
    rw [hx.quads]
    refine (readZones_iff hx.perio).2 ⟨rfl, fun q hq => ?_⟩
    obtain ⟨z1, z2, z3⟩ := hz q hq
    have : (csrOf nodes).index.length = nodes.length + 1 := by simp [csrOf, offsets_length]
    exact ⟨z1, by omega, by omega⟩
  unfold readMeshV4
  rw [r1, Except_bind_ok, r2, Except_bind_ok, r3, Except_bind_ok]
  rw [if_neg (by rw [hP, length_flatMap_triples, hno]; simp), hP, triples_flatMap]
  rfl

/-- What is read comes from tables. -/
theorem readMeshV4_inv {c : H5File} {x : MeshFile} {zones : List ZoneH5} (hx : MeshFrom c x zones) {r : RMeshV4} {e : ElemConn}
    (h : readMeshV4 x = .ok r) (he : ElemConn.empty.importCompressed r.csr = .ok e) :
    ∃ (nodes : List (List Int)) (cells : List (Int × Int)) (points : List (F64 × F64 × F64)), x.noofaI = (nodes.map fun f => (f.length : Int)) ∧ x.noofaV = nodes.flatten ∧
      x.cvofa = (cells.flatMap fun r => [r.1, r.2]) ∧ x.fa = cells.length ∧
      x.coordinates = (points.flatMap fun p => [p.1, p.2.1, p.2.2]) ∧ points.length = x.no ∧ nodes ≠ [] ∧
      (∀ f ∈ nodes, 1 ≤ f.length ∧ f.length ≤ 4) ∧
      (∀ q ∈ cells, q.1 < (x.cv : Int) ∧ q.2 < (x.cv : Int)) ∧
      (∃ q ∈ cells, q.1 = (x.cv : Int) - 1 ∨ q.2 = (x.cv : Int) - 1) ∧
      (∀ z ∈ zones, (zoneType z.kind).isSome = true ∧ - (nodes.length : Int) - 1 ≤ z.start ∧ z.start ≤ nodes.length) := by
  unfold readMeshV4 at h
  obtain ⟨csr, h1, h⟩ := bind_eq_ok.1 h
  obtain ⟨cvofa, h2, h⟩ := bind_eq_ok.1 h
  obtain ⟨bocos, h3, h⟩ := bind_eq_ok.1 h
  split at h
  · cases h
  next hco =>
  simp only [Except_pure, Except.ok.injEq] at h
  subst h
  simp only at he
  -- faces to nodes
  unfold readNoofaV4 at h1
  obtain ⟨a, _, h1⟩ := bind_eq_ok.1 h1
  obtain ⟨b, hb, h1⟩ := bind_eq_ok.1 h1
  obtain ⟨_, _, h1⟩ := bind_eq_ok.1 h1
  obtain ⟨k, hk, h1⟩ := bind_eq_ok.1 h1
  simp only [Except_pure, Except.ok.injEq] at h1
  subst h1
  obtain ⟨faces, _, _, F3, F4, F5, F6⟩ := import_faces (cvofa := List.replicate x.noofaI.length (0, 0)) rfl (check_true hk)
    (by simp) he
  have hn1 : x.noofaI = ((faces.map (·.1)).map fun f => (f.length : Int)) := by
    rw [← F4, List.map_map]; rfl
  have hn2 : x.noofaV = (faces.map (·.1)).flatten := by rw [← List.flatMap_def]; exact F5.symm
  have hne : faces.map (·.1) ≠ [] := by
    intro e
    rw [e] at hn1
    rw [hn1] at hb
    cases hb
  -- faces to cells
  unfold readCvofaV4 at h2
  split at h2
  · cases h2
  next hlen =>
  have hlen : x.cvofa.length = 2 * x.fa := by omega
  split at h2
  · cases h2
  next mx hmx =>
  obtain ⟨_, _, h2⟩ := bind_eq_ok.1 h2
  obtain ⟨_, ha, h2⟩ := bind_eq_ok.1 h2
  simp only [Except_pure, Except.ok.injEq] at h2
  subst h2
  have hmx2 : mx = (x.cv : Int) - 1 := by simpa [pyAssert_eq_ok] using ha
  rw [List.max?_eq_some_iff] at hmx
  -- points
  obtain ⟨t1, t2⟩ := flat_triples x.no x.coordinates (by omega)
  -- zones
  rw [hx.quads] at h3
  obtain ⟨_, h3⟩ := (readZones_iff hx.perio).1 h3
  refine ⟨faces.map (·.1), pairs x.cvofa, triples x.coordinates, hn1, hn2, (flat_pairs _ _ hlen).symm, (length_pairs _ _ hlen).symm,
    t1.symm, t2, hne, ?_, ?_, ?_, ?_⟩
  · intro f hf
    obtain ⟨a, ha, rfl⟩ := List.mem_map.1 hf
    exact F3 a ha
  · intro q hq
    have i1 := hmx.2 _ ((mem_pairs _ _ hlen _).2 ⟨q, hq, .inl rfl⟩)
    have i2 := hmx.2 _ ((mem_pairs _ _ hlen _).2 ⟨q, hq, .inr rfl⟩)
    omega
  · obtain ⟨q, hq, hx⟩ := (mem_pairs _ _ hlen _).1 hmx.1
    rw [← hmx2]
    exact ⟨q, hq, hx.imp Eq.symm Eq.symm⟩
  · intro z hz
    obtain ⟨z1, z2, z3⟩ := h3 z hz
    rw [offsets_length] at z2 z3
    have : x.noofaI.length = (faces.map (·.1)).length := by rw [hn1, List.length_map]
    exact ⟨z1, by omega, by omega⟩

/-- The mesh exported from tables. -/
def exportedH5 (no fa cv : Nat) (nodes : List (List Int)) (cells : List (Int × Int)) (points : List (F64 × F64 × F64))
    (marks : List Mark) (e : ElemConn) (data : Dict String NpArr) (sim : Dict String SimVal) : FullMesh where
  mesh := { (Mesh.new cv no : Mesh F64) with
            coords := some (points.map (·.1), points.map (·.2.1), points.map (·.2.2))
            faces := [("mixed", ⟨e, some (some cells)⟩)], nface := e.nelem
            bocos := marks.foldl (fun d b => d.set b.name b) [] }
  cells := ⟨some ⟨.dataSet, "cellaverage", 1, "instant"⟩, data⟩
  nodes := []
  params := sim.foldl (fun d p => d.set p.1 p.2) (paramsV4 ⟨no, fa, cv, csrOf nodes, cells, marks, points⟩)
  partition := some none

theorem exportV4_can {no fa cv : Nat} {nodes : List (List Int)} {cells : List (Int × Int)} {points : List (F64 × F64 × F64)}
    {marks : List Mark} {e : ElemConn} (hno : points.length = no) (he : ElemConn.empty.importCompressed (csrOf nodes) = .ok e)
    (data : Dict String NpArr) (sim : Dict String SimVal) :
    exportV4 ⟨no, fa, cv, csrOf nodes, cells, marks, points⟩ data sim =
      .ok (exportedH5 no fa cv nodes cells points marks e data sim) := by
  unfold exportV4 Mesh.setCoordsNd
  have hcl : points.length = (Mesh.new cv no : Mesh F64).nnode := hno
  simp only [hcl, he, Except_bind_ok, pyAssert, decide_true, if_true, Except_pure]
  unfold Mesh.addFaces
  rw [if_pos (by simp [Mesh.faceKinds])]
  simp only [Except_bind_ok, foldl_addBoco]
  unfold exportedH5
  simp [Mesh.new, Dict.set, Mesh.totalFaces]

theorem exportV4_import {r : RMeshV4} {data : Dict String NpArr} {sim : Dict String SimVal} {f : FullMesh}
    (h : exportV4 r data sim = .ok f) : ∃ e, ElemConn.empty.importCompressed r.csr = .ok e := by
  unfold exportV4 at h
  obtain ⟨_, _, h⟩ := bind_eq_ok.1 h
  obtain ⟨e, he, _⟩ := bind_eq_ok.1 h
  exact ⟨e, he⟩

end Cfd.Ic3
