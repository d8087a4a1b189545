import Verif.Lemmas.CgnsTree
import Verif.Props.Cgns

/-!
# C88: CGNS files of any origin

Which HDF5 trees the CGNS reader accepts, and what it reads in them.
-/

namespace Cfd.Cgns
open Cfd.Spec Cfd.Spec.Cgns

variable {R : Type}

theorem hasFirst_unique {t : Tree R} {path : List String} {a b : Int} (h : HasFirst t path a) (h' : HasFirst t path b) :
    a = b := by
  obtain ⟨n, l, h⟩ := h
  obtain ⟨n', l', h'⟩ := h'
  have := hasData_unique h h'
  cases this
  rfl

theorem faces_used {so : List Int → List Int} {dim : Int} {zt : ZoneTree R} {z : Zone R} {q : String × Tree R} {b : Bc} {m : Mark}
    (h : zt.exportBC so dim q = .ok m) (hb : TellsBc q.2 b) (hc : zt.ncell = .ok z.ncell) (hf : OnFaces z b) :
    ∃ c, zt.elemcon (dim - 1) = .ok c := by
  unfold ZoneTree.exportBC at h
  obtain ⟨name, -, h⟩ := bind_eq_ok.1 h
  obtain ⟨d, -, h⟩ := bind_eq_ok.1 h
  obtain ⟨s, -, h⟩ := bind_eq_ok.1 h
  obtain ⟨nc, hnc, h⟩ := bind_eq_ok.1 h
  rw [hc] at hnc
  cases hnc
  obtain ⟨r, hr, h⟩ := bind_eq_ok.1 h
  rw [bcIndexTree_eq z hb] at hr
  have hr' : r.2.1 = "FaceCenter" := by
    unfold bcIndex at hr
    rcases hf with ⟨h1, h2⟩ | ⟨h1, l, h2, h3⟩
    · obtain ⟨l, hl⟩ := Option.isSome_iff_exists.1 h1
      rw [hl, h2] at hr
      cases hr
      rfl
    · rw [h1, h2] at hr
      simp only at hr
      rw [if_neg (by simpa using h3)] at hr
      cases hr
      rfl
  simp only at h
  rw [if_pos hr'] at h
  obtain ⟨c, hc, -⟩ := bind_eq_ok.1 h
  exact ⟨c, hc⟩

/-- A tree that is exported tells a zone. -/
theorem exists_tells {so : List Int → List Int} {t : Tree R} {dim : Int} {m : Mesh R}
    (ht : HasText t ["ZoneType", " data"] "Unstructured") (hg : ∀ g ∈ conditionGroups t, IsGroup g.2)
    (h : (⟨t, labelled t "Elements_t", conditions t⟩ : ZoneTree R).exportMesh so dim = .ok m) :
    ∃ z, TellsZone t dim z ∧ (Complete t → SectionsOk z) := by
  unfold ZoneTree.exportMesh at h
  obtain ⟨nc, hnc, h⟩ := bind_eq_ok.1 h
  obtain ⟨nn, hnn, h⟩ := bind_eq_ok.1 h
  obtain ⟨xyz, hxyz, h⟩ := bind_eq_ok.1 h
  obtain ⟨m0, -, h⟩ := bind_eq_ok.1 h
  obtain ⟨c, hc, h⟩ := bind_eq_ok.1 h
  have hbc : ∀ q ∈ conditions t, ∃ mk, (⟨t, labelled t "Elements_t", conditions t⟩ : ZoneTree R).exportBC so dim q = .ok mk := by
    intro q hq
    obtain ⟨m1, m2, h1⟩ := foldlM_steps h q hq
    unfold ZoneTree.addBC at h1
    obtain ⟨mk, h1, -⟩ := bind_eq_ok.1 h1
    exact ⟨mk, h1⟩
  obtain ⟨bcs, hbcs⟩ := exists_forall₂ (l := conditions t)
    (rel := fun q (p : String × Bc) => (p.1 = q.1 ∧ TellsBc q.2 p.2) ∧ q ∈ conditions t) fun q hq => by
      obtain ⟨mk, hmk⟩ := hbc q hq
      obtain ⟨b, hb⟩ := exportBC_tells hmk
      exact ⟨(q.1, b), ⟨rfl, hb⟩, hq⟩
  let z0 : Zone R := ⟨true, nn, nc, xyz.1, xyz.2.1, xyz.2.2, [], bcs⟩
  have hfaces : (∃ p ∈ z0.bcs, OnFaces z0 p.2) →
      ∃ c, (⟨t, labelled t "Elements_t", conditions t⟩ : ZoneTree R).elemcon (dim - 1) = .ok c := by
    rintro ⟨p, hp, hf⟩
    have : ∀ (l : List (String × Tree R)) (l' : List (String × Bc)),
        List.Forall₂ (fun q (p : String × Bc) => (p.1 = q.1 ∧ TellsBc q.2 p.2) ∧ q ∈ conditions t) l l' →
        p ∈ l' → ∃ q ∈ conditions t, TellsBc q.2 p.2 := by
      intro l l' hl
      induction hl with
      | nil => intro h; cases h
      | @cons q p' l l' hqp _ ih =>
        intro h
        rcases List.mem_cons.1 h with rfl | h
        · exact ⟨q, hqp.2, hqp.1.2⟩
        · exact ih h
    obtain ⟨q, hq, hb⟩ := this _ _ hbcs hp
    obtain ⟨mk, hmk⟩ := hbc q hq
    exact faces_used hmk hb (z := z0) hnc hf
  obtain ⟨secs, hsecs⟩ := exists_forall₂ (l := labelled t "Elements_t")
    (rel := fun q (p : String × Section) => (p.1 = q.1 ∧ TellsSection (Needed z0 dim) q.2 p.2) ∧
      (Complete t → ∃ k ∈ kinds, SectionOk k p.2)) fun q hq => by
      obtain ⟨c1, c2, h1⟩ := foldlM_steps hc q hq
      obtain ⟨k, hk, hf, hd⟩ := addSectionTree_ok h1
      have hd' : Needed z0 dim k.code → ∃ a b l,
          HasRange q.2 ["ElementRange", " data"] a b ∧ HasInts q.2 ["ElementConnectivity", " data"] l := by
        rintro ⟨k', hk', hkk, hn⟩
        have := (kinds_inj k' hk' k hk).2 hkk
        subst this
        rcases hn with hn | ⟨hn, hu⟩
        · exact hd hn
        · obtain ⟨cf, hcf⟩ := hfaces hu
          obtain ⟨c3, c4, h3⟩ := foldlM_steps hcf q hq
          obtain ⟨k2, hk2, hf2, hd2⟩ := addSectionTree_ok h3
          have := (kinds_inj k2 hk2 k' hk).2 (hasFirst_unique hf2 hf)
          subst this
          exact hd2 hn
      by_cases hn : Needed z0 dim k.code
      · obtain ⟨a, b, l, hr, hl⟩ := hd' hn
        exact ⟨(q.1, ⟨k.code, a, b, l⟩), ⟨rfl, ⟨hf, fun _ => hr, fun _ => hl⟩⟩,
          fun hcm => ⟨k, hk, ⟨rfl, hcm q hq k hk a b l hf hr hl⟩⟩⟩
      · exact ⟨(q.1, ⟨k.code, 1, 0, []⟩), ⟨rfl, ⟨hf, fun h => absurd h hn, fun h => absurd h hn⟩⟩,
          fun _ => ⟨k, hk, ⟨rfl, by simp⟩⟩⟩
  refine ⟨{ z0 with sections := secs }, ⟨ht, counts_eq.2 ⟨hnn, hnc⟩, ?_, ?_, ?_, ?_, hg, ?_⟩, ?_⟩
  · unfold ZoneTree.coords at hxyz
    obtain ⟨g, hg1, hxyz⟩ := bind_eq_ok.1 hxyz
    obtain ⟨d, hd, hxyz⟩ := bind_eq_ok.1 hxyz
    obtain ⟨x, hx, hxyz⟩ := bind_eq_ok.1 hxyz
    obtain ⟨g', hg', hxyz⟩ := bind_eq_ok.1 hxyz
    obtain ⟨d', hd', hxyz⟩ := bind_eq_ok.1 hxyz
    obtain ⟨y, hy, hxyz⟩ := bind_eq_ok.1 hxyz
    obtain ⟨g2, hg2, hxyz⟩ := bind_eq_ok.1 hxyz
    obtain ⟨d2, hd2, hxyz⟩ := bind_eq_ok.1 hxyz
    obtain ⟨zz, hz, hxyz⟩ := bind_eq_ok.1 hxyz
    cases hxyz
    exact column_eq.1 (bind_eq_ok.2 ⟨g, hg1, bind_eq_ok.2 ⟨d, hd, hx⟩⟩)
  · unfold ZoneTree.coords at hxyz
    obtain ⟨g, hg1, hxyz⟩ := bind_eq_ok.1 hxyz
    obtain ⟨d, hd, hxyz⟩ := bind_eq_ok.1 hxyz
    obtain ⟨x, hx, hxyz⟩ := bind_eq_ok.1 hxyz
    obtain ⟨g', hg', hxyz⟩ := bind_eq_ok.1 hxyz
    obtain ⟨d', hd', hxyz⟩ := bind_eq_ok.1 hxyz
    obtain ⟨y, hy, hxyz⟩ := bind_eq_ok.1 hxyz
    obtain ⟨g2, hg2, hxyz⟩ := bind_eq_ok.1 hxyz
    obtain ⟨d2, hd2, hxyz⟩ := bind_eq_ok.1 hxyz
    obtain ⟨zz, hz, hxyz⟩ := bind_eq_ok.1 hxyz
    cases hxyz
    exact column_eq.1 (bind_eq_ok.2 ⟨g', hg', bind_eq_ok.2 ⟨d', hd', hy⟩⟩)
  · unfold ZoneTree.coords at hxyz
    obtain ⟨g, hg1, hxyz⟩ := bind_eq_ok.1 hxyz
    obtain ⟨d, hd, hxyz⟩ := bind_eq_ok.1 hxyz
    obtain ⟨x, hx, hxyz⟩ := bind_eq_ok.1 hxyz
    obtain ⟨g', hg', hxyz⟩ := bind_eq_ok.1 hxyz
    obtain ⟨d', hd', hxyz⟩ := bind_eq_ok.1 hxyz
    obtain ⟨y, hy, hxyz⟩ := bind_eq_ok.1 hxyz
    obtain ⟨g2, hg2, hxyz⟩ := bind_eq_ok.1 hxyz
    obtain ⟨d2, hd2, hxyz⟩ := bind_eq_ok.1 hxyz
    obtain ⟨zz, hz, hxyz⟩ := bind_eq_ok.1 hxyz
    cases hxyz
    exact column_eq.1 (bind_eq_ok.2 ⟨g2, hg2, bind_eq_ok.2 ⟨d2, hd2, hz⟩⟩)
  · exact hsecs.imp fun _ _ h => h.1
  · exact hbcs.imp fun _ _ h => h.1
  · intro hcm p hp
    have : ∀ (l : List (String × Tree R)) (l' : List (String × Section)),
        List.Forall₂ (fun q (p : String × Section) => (p.1 = q.1 ∧ TellsSection (Needed z0 dim) q.2 p.2) ∧
          (Complete t → ∃ k ∈ kinds, SectionOk k p.2)) l l' → p ∈ l' → ∃ k ∈ kinds, SectionOk k p.2 := by
      intro l l' hl
      induction hl with
      | nil => intro h; cases h
      | @cons q p' l l' hqp _ ih =>
        intro h
        rcases List.mem_cons.1 h with rfl | h
        · exact hqp.2 hcm
        · exact ih h
    exact this _ _ hsecs hp

/-- **C88, the zone.** `read_data` succeeds exactly when the file has a library version and a base, all its bases are
groups, the zone asked for (or the only one) is in the last base, is unstructured, and has its number of cells. Nothing
else is looked at. -/
theorem C88_zone (root : Tree R) (zone : Option String) :
    (∃ r, readTree root zone = .ok r) ↔ ∃ dim t, Selected root zone dim t ∧
      HasText t ["ZoneType", " data"] "Unstructured" ∧ (∀ g ∈ conditionGroups t, IsGroup g.2) ∧
      ∃ a b l n, HasData t [" data"] (.ints [a, b] l) ∧ 1 < a ∧ 0 < b ∧ l[b]? = some (n : Int) ∧ 0 ≤ n := by
  constructor
  · rintro ⟨⟨dim, z⟩, h⟩
    obtain ⟨t, h1, h2, h3, ⟨n, hn⟩, -⟩ := readTree_eq.1 h
    obtain ⟨a, b, l, hd, ha, hb, hl⟩ := count_eq.1 hn
    exact ⟨dim, t, h1, h2, h3, a, b, l, n, hd, ha, hb, by simpa using hl, by omega⟩
  · rintro ⟨dim, t, h1, h2, h3, a, b, l, n, hd, ha, hb, hl, hn⟩
    exact ⟨_, readTree_eq.2 ⟨t, h1, h2, h3, ⟨n.toNat, count_eq.2 ⟨a, b, l, hd, ha, hb, by
      rw [Nat.one_mul, hl]; congr 1; omega⟩⟩, rfl⟩⟩

theorem readCgns_eq {so : List Int → List Int} {root : Tree R} {zone : Option String} {dim : Int} {t : Tree R} {z : Zone R}
    (hs : Selected root zone dim t) (hz : TellsZone t dim z) : readCgns so root zone = exportMesh so dim z := by
  unfold readCgns
  rw [readTree_eq.2 ⟨t, hs, hz.type, hz.groups, ⟨_, (counts_eq.1 hz.counts).2⟩, rfl⟩]
  exact exportMesh_tree so hz

theorem selected_unique {root : Tree R} {zone : Option String} {dim dim' : Int} {t t' : Tree R}
    (h : Selected root zone dim t) (h' : Selected root zone dim' t') : dim = dim' ∧ t = t' := by
  constructor
  · obtain ⟨b, hb, hf⟩ := h.first
    obtain ⟨b', hb', hf'⟩ := h'.first
    rw [hb] at hb'
    cases hb'
    exact hasFirst_unique hf hf'
  · obtain ⟨b, hb, hl⟩ := h.last
    obtain ⟨b', hb', hl'⟩ := h'.last
    rw [hb] at hb'
    cases hb'
    cases zone with
    | some n =>
      simp only at hl hl'
      rw [hl] at hl'
      cases hl'
      rfl
    | none =>
      obtain ⟨n, hl⟩ := hl
      obtain ⟨n', hl'⟩ := hl'
      rw [hl] at hl'
      cases hl'
      rfl

/-- **C88, acceptance.** A file whose sections are complete is read and exported exactly when the zone asked for tells
supported sections, as many coordinates as nodes, and conditions on nodes, on cells or on faces of the file, that list
something unless they are the whole domain. Face sections
have to be readable only if a condition lists faces. -/
theorem C88_accepts (so : List Int → List Int) (hso : ∀ l, (so l).Perm l) (root : Tree R) (zone : Option String)
    (hc : ∀ dim t, Selected root zone dim t → Complete t) :
    (∃ m, readCgns so root zone = .ok m) ↔ ∃ dim t z, Selected root zone dim t ∧ TellsZone t dim z ∧ SectionsOk z ∧
      (z.x.length = z.nnode ∧ z.y.length = z.nnode ∧ z.z.length = z.nnode) ∧ ∀ p ∈ z.bcs, BcOk z dim p.2 := by
  constructor
  · rintro ⟨m, h⟩
    unfold readCgns at h
    obtain ⟨⟨dim, zt⟩, h1, h2⟩ := bind_eq_ok.1 h
    obtain ⟨t, hs, ht, hg, -, rfl⟩ := readTree_eq.1 h1
    obtain ⟨z, hz, hsec⟩ := exists_tells ht hg h2
    have hok := hsec (hc dim t hs)
    have := (C56_readable_iff so hso dim z hok (tellsZone_names hz)).1 ⟨m, by rw [← exportMesh_tree so hz]; exact h2⟩
    exact ⟨dim, t, z, hs, hz, hok, this⟩
  · rintro ⟨dim, t, z, hs, hz, hok, h⟩
    rw [readCgns_eq hs hz]
    exact (C56_readable_iff so hso dim z hok (tellsZone_names hz)).2 h

/-- **C88, content.** The mesh exported has the coordinates of the zone told by the file, its cells type by type under
their numbers minus one, and for each name the last condition that is not the whole domain. -/
theorem C88_content (so : List Int → List Int) (hso : ∀ l, (so l).Perm l) (root : Tree R) (zone : Option String) (dim : Int)
    (t : Tree R) (z : Zone R) (m : Mesh R) (hs : Selected root zone dim t) (hz : TellsZone t dim z) (hok : SectionsOk z)
    (hf : ((elemsOfDim z (dim - 1)).map (·.1)).Nodup) (h : readCgns so root zone = .ok m) :
    m.nnode = z.nnode ∧ m.coords = some (z.x, z.y, z.z) ∧
      (∃ c, m.cell2node = some c ∧ m.ncell = c.nelem ∧ c.nelem = (elemsOfDim z dim).length ∧
        (∀ ty ∈ c.tbl.keys, ∃ k ∈ kinds, (k.dim : Int) = dim ∧ k.name = ty) ∧
        ∀ k ∈ kinds, (k.dim : Int) = dim → elementsOf c k.name = elemsOfKind z k) ∧
      ∀ name, match lastNamed z name with
        | none => m.bocos.get? name = none
        | some p => ∃ g ind, m.bocos.get? name = some ⟨name, g, "boundary", .list ind, none⟩ ∧ IsIndex z dim p.2 g ind := by
  rw [readCgns_eq hs hz] at h
  obtain ⟨⟨h1, h2, h3⟩, h4⟩ := (C56_readable_iff so hso dim z hok (tellsZone_names hz)).1 ⟨m, h⟩
  obtain ⟨m', c, e, hc, hm, hn, hnn, hxyz, hb⟩ := C56_mesh so hso dim z ⟨hok, h1, h2, h3, hf, tellsZone_names hz, h4⟩
  rw [h] at e
  cases e
  obtain ⟨c', hc', -, hk, hel, hlen⟩ := C56_sections z dim hok
  rw [hc] at hc'
  cases hc'
  exact ⟨hnn, hxyz, ⟨c, hm, hn, hlen, hk, hel⟩, hb⟩

/-- **C88, nothing else matters.** Two files that tell the same zone of the same dimension give the same result, whatever
their other members (solutions, families, other bases before the last one, user data, order of the members). -/
theorem C88_only_told (so : List Int → List Int) (root root' : Tree R) (zone zone' : Option String) (dim : Int) (t t' : Tree R)
    (z : Zone R) (hs : Selected root zone dim t) (hs' : Selected root' zone' dim t') (hz : TellsZone t dim z)
    (hz' : TellsZone t' dim z) : readCgns so root zone = readCgns so root' zone' := by
  rw [readCgns_eq hs hz, readCgns_eq hs' hz']

/-- **C88, what is refused.** Whatever the rest of the file: a section of another type than node, bar, triangle, quad and
hexahedron, even if it is not of cells; a missing coordinate, even in a plane mesh; a condition without list of points or
of elements (a `PointRange` is not looked at); a zone that is not unstructured. -/
theorem C88_refused (so : List Int → List Int) (root : Tree R) (zone : Option String) (dim : Int) (t : Tree R)
    (hs : Selected root zone dim t)
    (h : (∃ q ∈ labelled t "Elements_t", ∀ k ∈ kinds, ¬ HasFirst q.2 [" data"] k.code) ∨
      (∃ c ∈ ["CoordinateX", "CoordinateY", "CoordinateZ"], ∀ l, ¬ HasReals t ["GridCoordinates", c, " data"] l) ∨
      (∃ q ∈ conditions t, member q.2 "PointList" = none ∧ member q.2 "ElementList" = none) ∨
      ¬ HasText t ["ZoneType", " data"] "Unstructured") : ∀ m, readCgns so root zone ≠ .ok m := by
  intro m hm
  unfold readCgns at hm
  obtain ⟨⟨dim', zt⟩, h1, h2⟩ := bind_eq_ok.1 hm
  obtain ⟨t', hs', ht, hg, -, rfl⟩ := readTree_eq.1 h1
  obtain ⟨rfl, rfl⟩ := selected_unique hs hs'
  obtain ⟨z, hz, -⟩ := exists_tells ht hg h2
  rcases h with ⟨q, hq, h⟩ | ⟨c, hc, h⟩ | ⟨q, hq, h, h'⟩ | h
  · unfold ZoneTree.exportMesh at h2
    obtain ⟨nc, hnc, h2⟩ := bind_eq_ok.1 h2
    obtain ⟨nn, hnn, h2⟩ := bind_eq_ok.1 h2
    obtain ⟨xyz, hxyz, h2⟩ := bind_eq_ok.1 h2
    obtain ⟨m0, -, h2⟩ := bind_eq_ok.1 h2
    obtain ⟨c, hc, h2⟩ := bind_eq_ok.1 h2
    obtain ⟨c1, c2, h3⟩ := foldlM_steps hc q hq
    obtain ⟨k, hk, hf, -⟩ := addSectionTree_ok h3
    exact h k hk hf
  · simp only [List.mem_cons, List.not_mem_nil, or_false] at hc
    rcases hc with rfl | rfl | rfl
    · exact h _ hz.cx
    · exact h _ hz.cy
    · exact h _ hz.cz
  · have : ∀ (l : List (String × Tree R)) (l' : List (String × Bc)),
        List.Forall₂ (fun q (p : String × Bc) => p.1 = q.1 ∧ TellsBc q.2 p.2) l l' → q ∈ l → ∃ p ∈ l', TellsBc q.2 p.2 := by
      intro l l' hl
      induction hl with
      | nil => intro h; cases h
      | @cons q' p' l l' hqp _ ih =>
        intro h
        rcases List.mem_cons.1 h with rfl | h
        · exact ⟨p', by simp, hqp.2⟩
        · obtain ⟨p, hp, h⟩ := ih h
          exact ⟨p, by simp [hp], h⟩
    obtain ⟨p, hp, hb⟩ := this _ _ hz.bcs hq
    have hpn : p.2.points = none := by
      rcases hb.points with ⟨-, h1⟩ | ⟨h1, -⟩
      · exact h1
      · rw [h] at h1; cases h1
    have hen : p.2.elems = none := by
      rcases hb.elems hpn with ⟨-, h1⟩ | ⟨h1, -⟩
      · exact h1
      · rw [h'] at h1; cases h1
    rw [exportMesh_tree so hz] at h2
    unfold exportMesh at h2
    obtain ⟨m0, -, h2⟩ := bind_eq_ok.1 h2
    obtain ⟨c, -, h2⟩ := bind_eq_ok.1 h2
    have hd : bcDict z = z.bcs := foldl_set_self z.bcs (tellsZone_names hz)
    rw [hd] at h2
    obtain ⟨m1, m2, h3⟩ := foldlM_steps h2 p hp
    unfold addBC exportBC at h3
    obtain ⟨mk, h3, -⟩ := bind_eq_ok.1 h3
    obtain ⟨r, h3, -⟩ := bind_eq_ok.1 h3
    unfold bcIndex at h3
    rw [hpn, hen] at h3
    cases h3
  · exact h ht

/-! ## Standard files -/

theorem member_cons_self (label : Option String) (n : String) (u : Tree R) (l : List (String × Tree R)) :
    member (.group label ((n, u) :: l)) n = some u := by simp [member, members]

theorem member_cons_ne {label : Option String} {n n' : String} (u : Tree R) (l : List (String × Tree R)) (h : n' ≠ n) :
    member (.group label ((n', u) :: l)) n = member (.group label l) n := by
  simp [member, members, h]

theorem node_data (label : String) (d : Data R) (l : List (String × Tree R)) : HasData (node label d l) [" data"] d :=
  hasData_cons.2 ⟨_, member_cons_self _ _ _ _, none, rfl⟩

theorem node_member {label : String} {d : Data R} {l : List (String × Tree R)} {n : String} (h : n ≠ " data") :
    member (node label d l) n = member (.group (some label) l) n := member_cons_ne _ _ (Ne.symm h)

/-- What a condition with optional children has. -/
theorem member_child {α : Type} {label name lb name' : String} {value : α → Data R} {v : Option α} {l : List (String × Tree R)} :
    member (.group (some label) (child name lb value v ++ l)) name' =
      if name = name' then (v.map fun a => node lb (value a) []).or (member (.group (some label) l) name')
      else member (.group (some label) l) name' := by
  cases v with
  | none => simp [child]
  | some a =>
    unfold child
    simp only [List.singleton_append]
    by_cases h : name = name'
    · subst h; rw [member_cons_self, if_pos rfl]; rfl
    · rw [member_cons_ne _ _ h, if_neg h]

theorem member_nil (label : Option String) (n : String) : member (.group label [] : Tree R) n = none := rfl

theorem opt_of_member {α : Type} {t : Tree R} {name lb : String} {value : α → Data R} {v : Option α} {has : α → Prop}
    (hm : member t name = v.map fun a => node lb (value a) [])
    (hv : ∀ a, v = some a → HasData t [name, " data"] (value a) → has a) : Opt t name has v := by
  cases v with
  | none => exact .inl ⟨hm, rfl⟩
  | some a =>
    refine .inr ⟨by rw [hm]; rfl, a, rfl, hv a rfl ?_⟩
    exact hasData_cons.2 ⟨_, hm, node_data _ _ _⟩

theorem bcTree_tells (b : Bc) (hf : ∀ s, b.family = some s → ∀ c ∈ s.toList, c.toNat < 256)
    (hl : ∀ s, b.location = some s → ∀ c ∈ s.toList, c.toNat < 256) : TellsBc (bcTree b : Tree R) b := by
  have e : ∀ n, n ≠ " data" → member (bcTree b : Tree R) n =
      if "FamilyName" = n then (b.family.map fun a => node "FamilyName_t" (textData a) [])
      else if "GridLocation" = n then
        (b.location.map fun a => node "GridLocation_t" (textData a) [])
      else if "PointList" = n then
        (b.points.map fun a => node "IndexArray_t" (indexData a) [])
      else if "ElementList" = n then
        (b.elems.map fun a => node "IndexArray_t" (indexData a) [])
      else none := by
    intro n hn
    unfold bcTree
    rw [node_member hn, List.append_assoc, List.append_assoc, member_child, member_child, member_child,
      ← List.append_nil (child "ElementList" "IndexArray_t" indexData b.elems), member_child, member_nil]
    by_cases h1 : "FamilyName" = n
    · subst h1
      simp
    · by_cases h2 : "GridLocation" = n
      · subst h2; simp
      · by_cases h3 : "PointList" = n
        · subst h3; simp
        · simp [h1, h2, h3]
  refine ⟨⟨"BCWall", _, node_data _ _ _, by decide⟩, ?_, ?_, fun _ => ?_, fun _ => ?_⟩
  · exact opt_of_member (lb := "FamilyName_t") (value := textData) ((e "FamilyName" (by decide)).trans (by simp)) fun s hs h => ⟨_, h, hf s hs⟩
  · exact opt_of_member (lb := "IndexArray_t") (value := indexData) ((e "PointList" (by decide)).trans (by simp)) fun l _ h => ⟨_, _, h⟩
  · exact opt_of_member (lb := "GridLocation_t") (value := textData) ((e "GridLocation" (by decide)).trans (by simp)) fun s hs h => ⟨_, h, hl s hs⟩
  · exact opt_of_member (lb := "IndexArray_t") (value := indexData) ((e "ElementList" (by decide)).trans (by simp)) fun l _ h => ⟨_, _, h⟩

theorem sectionTree_tells (needed : Int → Prop) (s : Section) : TellsSection needed (sectionTree s : Tree R) s := by
  refine ⟨⟨2, [0], node_data _ _ _⟩, fun _ => ⟨2, ?_⟩, fun _ => ⟨s.conn.length, [], ?_⟩⟩
  · exact hasData_cons.2 ⟨_, (node_member (by decide)).trans (member_cons_self _ _ _ _), node_data _ _ _⟩
  · exact hasData_cons.2 ⟨_, (node_member (by decide)).trans ((member_cons_ne _ _ (by decide)).trans (member_cons_self _ _ _ _)),
      node_data _ _ _⟩

theorem labelled_map {α : Type} {label label' : String} {f : α → Tree R} (hf : ∀ a, (f a).label = some label')
    (l : List (String × α)) :
    (l.map fun p => (p.1, f p.2)).filter (fun p => decide (p.2.label = some label)) =
      if label' = label then l.map fun p => (p.1, f p.2) else [] := by
  split
  · rename_i h
    rw [List.filter_eq_self]
    intro p hp
    obtain ⟨q, -, rfl⟩ := List.mem_map.1 hp
    simp [hf, h]
  · rename_i h
    rw [List.filter_eq_nil_iff]
    intro p hp
    obtain ⟨q, -, rfl⟩ := List.mem_map.1 hp
    simp [hf, h]

theorem sectionTree_label (s : Section) : (sectionTree s : Tree R).label = some "Elements_t" := rfl
theorem bcTree_label (b : Bc) : (bcTree b : Tree R).label = some "BC_t" := rfl
theorem zoneTree_label (z : Zone R) : (zoneTree z).label = some "Zone_t" := rfl
theorem baseTree_label (b : Base R) : (baseTree b).label = some "CGNSBase_t" := rfl

theorem zoneTree_labelled (z : Zone R) (label : String) : labelled (zoneTree z) label =
    (if "ZoneType_t" = label then
      [("ZoneType", node "ZoneType_t" (textData (if z.unstructured then "Unstructured" else "Structured")) [])] else []) ++
    (if "GridCoordinates_t" = label then
      [("GridCoordinates", .group (some "GridCoordinates_t")
        [("CoordinateX", coordTree z.x), ("CoordinateY", coordTree z.y), ("CoordinateZ", coordTree z.z)])] else []) ++
    (if "Elements_t" = label then z.sections.map fun p => (p.1, sectionTree p.2) else []) ++
    (if "ZoneBC_t" = label then [("ZoneBC", .group (some "ZoneBC_t") (z.bcs.map fun p => (p.1, bcTree p.2)))] else []) := by
  unfold zoneTree labelled node members
  simp only
  rw [List.filter_cons, if_neg (by simp [Tree.label]), List.filter_append, List.filter_append, labelled_map sectionTree_label]
  simp only [List.filter_cons, List.filter_nil, Tree.label, Option.some.injEq, decide_eq_true_eq]
  by_cases h1 : "ZoneType_t" = label
  · subst h1; simp
  · simp [h1]

theorem zoneTree_tells (dim : Int) (z : Zone R) (hu : z.unstructured = true) (hn : (z.bcs.map (·.1)).Nodup) (ho : OneByte z) :
    TellsZone (zoneTree z) dim z := by
  have hgrid : member (zoneTree z) "GridCoordinates" = some (.group (some "GridCoordinates_t")
        [("CoordinateX", coordTree z.x), ("CoordinateY", coordTree z.y), ("CoordinateZ", coordTree z.z)]) :=
    (node_member (by decide)).trans ((member_cons_ne _ _ (by decide)).trans (member_cons_self _ _ _ _))
  have hgroups : conditionGroups (zoneTree z) = [("ZoneBC", .group (some "ZoneBC_t") (z.bcs.map fun p => (p.1, bcTree p.2)))] := by
    unfold conditionGroups
    rw [zoneTree_labelled, zoneTree_labelled]
    simp
  have hbcs : conditions (zoneTree z) = z.bcs.map fun p => (p.1, bcTree p.2) := by
    unfold conditions
    rw [hgroups]
    simp only [List.flatMap_cons, List.flatMap_nil, List.append_nil]
    have e : ∀ label, labelled (.group (some "ZoneBC_t") (z.bcs.map fun p => (p.1, (bcTree p.2 : Tree R)))) label =
        if "BC_t" = label then z.bcs.map fun p => (p.1, bcTree p.2) else [] := fun label => labelled_map bcTree_label z.bcs
    rw [e, e, if_pos rfl, if_neg (by decide), List.append_nil, ← lastOfEach_eq]
    exact foldl_set_self _ (by rw [List.map_map]; exact hn)
  refine ⟨⟨"Unstructured".toList.length, hasData_cons.2 ⟨_, (node_member (by decide)).trans (member_cons_self _ _ _ _), ?_⟩,
      by decide⟩,
    ⟨3, 1, _, node_data _ _ _, by decide, by decide, rfl, rfl⟩, ⟨z.x.length, ?_⟩, ⟨z.y.length, ?_⟩, ⟨z.z.length, ?_⟩, ?_, ?_, ?_⟩
  · rw [hu]; exact node_data _ _ _
  · exact hasData_cons.2 ⟨_, hgrid, hasData_cons.2 ⟨_, member_cons_self _ _ _ _, node_data _ _ _⟩⟩
  · exact hasData_cons.2 ⟨_, hgrid, hasData_cons.2 ⟨_, (member_cons_ne _ _ (by decide)).trans (member_cons_self _ _ _ _), node_data _ _ _⟩⟩
  · exact hasData_cons.2 ⟨_, hgrid, hasData_cons.2 ⟨_, (member_cons_ne _ _ (by decide)).trans
      ((member_cons_ne _ _ (by decide)).trans (member_cons_self _ _ _ _)), node_data _ _ _⟩⟩
  · have e : labelled (zoneTree z) "Elements_t" = z.sections.map fun p => (p.1, sectionTree p.2) := by
      rw [zoneTree_labelled]; simp
    rw [e]
    generalize Needed z dim = needed
    induction z.sections with
    | nil => exact .nil
    | cons p l ih => exact .cons ⟨rfl, sectionTree_tells needed p.2⟩ ih
  · rw [hgroups]
    intro g hg
    rw [List.mem_singleton.1 hg]
    exact ⟨_, _, rfl⟩
  · rw [hbcs]
    unfold OneByte at ho
    clear hn hgroups hbcs
    revert ho
    induction z.bcs with
    | nil => intro _; exact .nil
    | cons p l ih =>
      intro ho
      exact .cons ⟨rfl, bcTree_tells p.2 (ho p (by simp)).1 (ho p (by simp)).2⟩ (ih fun q hq => ho q (by simp [hq]))

theorem readData_ok {bases : List (Base R)} {zone : Option String} {dim : Int} {z : Zone R}
    (h : readData bases zone = .ok (dim, z)) :
    ∃ b l q, bases = b :: l ∧ bases.getLast? = some q ∧ b.dim = dim ∧
      ((zone = none ∧ ∃ n, q.zones = [(n, z)]) ∨ ∃ n, zone = some n ∧ q.zones.get? n = some z) ∧ z.unstructured = true := by
  cases bases with
  | nil => cases h
  | cons b l =>
    obtain ⟨q, hq⟩ : ∃ q, (b :: l).getLast? = some q := by rw [List.getLast?_cons]; exact ⟨_, rfl⟩
    refine ⟨b, l, q, rfl, hq, ?_⟩
    unfold readData at h
    rw [hq] at h
    simp only [Except_bind_ok] at h
    cases zone with
    | none =>
      generalize hzs : q.zones = zs at h ⊢
      match zs, h with
      | [], h => cases h
      | [p], h =>
        simp only [Except_bind_ok] at h
        obtain ⟨u, hu, h⟩ := bind_eq_ok.1 h
        cases h
        exact ⟨rfl, .inl ⟨rfl, p.1, rfl⟩, pyAssert_eq_ok.1 hu⟩
      | _ :: _ :: _, h => cases h
    | some n =>
      simp only at h
      obtain ⟨y, hy, h⟩ := bind_eq_ok.1 h
      obtain ⟨u, hu, h⟩ := bind_eq_ok.1 h
      cases h
      exact ⟨rfl, .inr ⟨n, rfl, Dict.getE_eq_ok.1 hy⟩, pyAssert_eq_ok.1 hu⟩

/-- **C88, standard files.** In the tree of the CGNS standard, the reader finds the bases, zones, sections and conditions
that were put there: C56 and C66 apply to this file. -/
theorem C88_standard (so : List Int → List Int) (version : R) (bases : List (String × Base R)) (zone : Option String) (dim : Int)
    (z : Zone R) (h : readData (bases.map (·.2)) zone = .ok (dim, z)) (hn : (z.bcs.map (·.1)).Nodup) (ho : OneByte z) :
    Selected (fileTree version bases) zone dim (zoneTree z) ∧ TellsZone (zoneTree z) dim z ∧
      readCgns so (fileTree version bases) zone = exportMesh so dim z := by
  have hl : labelled (fileTree version bases) "CGNSBase_t" = bases.map fun p => (p.1, baseTree p.2) := by
    unfold fileTree labelled members
    simp only
    rw [List.filter_cons, if_neg (by simp [Tree.label, node]), labelled_map baseTree_label, if_pos rfl]
  have hz : ∀ b : Base R, labelled (baseTree b) "Zone_t" = b.zones.map fun p => (p.1, zoneTree p.2) := by
    intro b
    unfold baseTree labelled node members
    simp only
    rw [List.filter_cons, if_neg (by simp [Tree.label]), labelled_map zoneTree_label, if_pos rfl]
  obtain ⟨p, l, q, hb, hq, hd, hzone, hu⟩ := readData_ok h
  obtain ⟨p', l', rfl, rfl, rfl⟩ : ∃ p' l', bases = p' :: l' ∧ p = p'.2 ∧ l = l'.map (·.2) := by
    cases bases with
    | nil => cases hb
    | cons p' l' => cases hb; exact ⟨p', l', rfl, rfl, rfl⟩
  obtain ⟨q', hq', rfl⟩ : ∃ q', (p' :: l').getLast? = some q' ∧ q = q'.2 := by
    rw [List.getLast?_map] at hq
    obtain ⟨q', h1, h2⟩ := Option.map_eq_some_iff.1 hq
    exact ⟨q', h1, h2.symm⟩
  have hsel : Selected (fileTree version (p' :: l')) zone dim (zoneTree z) := by
    refine ⟨⟨_, hasData_cons.2 ⟨_, member_cons_self _ _ _ _, node_data _ _ _⟩, 1, [], rfl, by decide⟩, ?_, ?_, ?_⟩
    · rw [hl]
      intro b hb
      obtain ⟨x, -, rfl⟩ := List.mem_map.1 hb
      exact ⟨_, _, rfl⟩
    · rw [hl]
      exact ⟨(p'.1, baseTree p'.2), rfl, by subst hd; exact ⟨_, _, node_data _ _ _⟩⟩
    · rw [hl, List.getLast?_map, hq']
      refine ⟨_, rfl, ?_⟩
      simp only
      rw [hz]
      rcases hzone with ⟨rfl, n, hn⟩ | ⟨n, rfl, hn⟩
      · rw [hn]; exact ⟨n, rfl⟩
      · simp only
        rw [dict_find] at hn
        obtain ⟨r, hr, e⟩ := Option.map_eq_some_iff.1 hn
        have hr1 := List.find?_some hr
        simp only [decide_eq_true_eq] at hr1
        rw [List.find?_map]
        simp only [Function.comp_def]
        rw [hr, Option.map_some, e, hr1]
  have ht := zoneTree_tells dim z hu hn ho
  exact ⟨hsel, ht, readCgns_eq hsel ht⟩

/-- **C88, standard file of one zone.** -/
theorem C88_one_zone (version : R) (bname zname : String) (dim : Int) (z : Zone R) (hu : z.unstructured = true)
    (hn : (z.bcs.map (·.1)).Nodup) (ho : OneByte z) :
    TellsFile (fileTree version [(bname, ⟨dim, [(zname, z)]⟩)]) dim z := by
  have h : readData [(⟨dim, [(zname, z)]⟩ : Base R)] none = .ok (dim, z) := by
    unfold readData
    simp [hu, pyAssert, Except_bind_ok, Except_pure]
  obtain ⟨h1, h2, -⟩ := C88_standard id version [(bname, ⟨dim, [(zname, z)]⟩)] none dim z h hn ho
  exact ⟨_, h1, h2⟩

/-! ## Concrete files -/

theorem twoHexas_bytes : OneByte twoHexas := by
  intro p hp
  simp only [twoHexas, List.mem_cons, List.not_mem_nil, or_false] at hp
  rcases hp with rfl | rfl | rfl <;> exact ⟨by intro s hs; cases hs <;> decide, by intro s hs; cases hs <;> decide⟩

/-- The two hexahedra of C56 in a standard file. -/
def twoHexasFile : Tree Int := fileTree 4 [("Base", ⟨3, [("Zone", twoHexas)]⟩)]

theorem twoHexasFile_selected : Selected twoHexasFile none 3 (zoneTree twoHexas) :=
  (C88_standard id 4 [("Base", ⟨3, [("Zone", twoHexas)]⟩)] none 3 twoHexas rfl twoHexas_ok.names twoHexas_bytes).1

example : readCgns id twoHexasFile none = exportMesh id 3 twoHexas :=
  (C88_standard id 4 [("Base", ⟨3, [("Zone", twoHexas)]⟩)] none 3 twoHexas rfl twoHexas_ok.names twoHexas_bytes).2.2

example : ∃ m, readCgns id twoHexasFile none = .ok m := by
  obtain ⟨h1, h2, -⟩ := C88_standard id 4 [("Base", ⟨3, [("Zone", twoHexas)]⟩)] none 3 twoHexas rfl twoHexas_ok.names twoHexas_bytes
  exact ⟨_, (readCgns_eq h1 h2).trans (C56_mesh id (fun l => .refl l) 3 twoHexas twoHexas_ok).choose_spec.choose_spec.1⟩

/-- A zone of another program: a solution, two groups of conditions (one of them of connections), members in another
order, a face section without nodes. -/
def otherZoneTree : Tree Int :=
  .group (some "Zone_t")
    [("Flow", .group (some "FlowSolution_t") [("Elements", .dataset (some "Elements_t") (.ints [2] [20, 0]))]),
     ("faces", node "Elements_t" (.ints [2] [7, 0]) []),
     ("GridCoordinates", .group none
       [("CoordinateZ", coordTree [0, 0, 0, 0, 1, 1, 1, 1]), ("CoordinateY", coordTree [0, 0, 1, 1, 0, 0, 1, 1]),
        ("CoordinateX", coordTree [0, 1, 1, 0, 0, 1, 1, 0])]),
     ("links", .group (some "ZoneGridConnectivity_t")
       [("right", node "GridConnectivity_t" (textData "blk2") [("PointList", node "" (.ints [1, 2] [2, 3]) [])])]),
     ("bnd", .group (some "ZoneBC_t")
       [("left", node "BC_t" (textData "BCWall") [("PointList", node "" (.ints [2] [1, 4]) []),
          ("FamilyName", node "" (textData "wall") [])]),
        ("right", node "BC_t" (textData "BCWall") [])]),
     ("ZoneType", node "" (textData "Unstructured") []),
     ("cells", node "Elements_t" (.ints [2] [17, 0])
       [("ElementConnectivity", node "" (.ints [2, 4] [1, 2, 3, 4, 5, 6, 7, 8]) []),
        ("ElementRange", node "" (.ints [2] [1, 1]) [])]),
     (" data", .dataset none (.ints [3, 1] [8, 1, 0]))]

/-- A file of another program: a first base without zones, user data. -/
def otherFile : Tree Int :=
  .group none
    [(" hdf5version", .dataset none (.ints [3] [49, 46, 56])),
     ("Global", node "CGNSBase_t" (.ints [2] [3, 3]) []),
     ("CGNSLibraryVersion", node "CGNSLibraryVersion_t" (.reals [1] [4]) []),
     ("Mesh", node "CGNSBase_t" (.ints [2] [2, 2])
       [("Family", .group (some "Family_t") []),
        ("blk", otherZoneTree)])]

example : (readCgns id otherFile none).map (fun m => (m.nnode, m.ncell, m.bocos.map fun p => (p.1, p.2.index))) =
    .ok (8, 1, [("wall", .list [0, 3]), ("right", .list [1, 2])]) := by decide +kernel

/-- What it tells. -/
def otherZone : Zone Int :=
  { unstructured := true, nnode := 8, ncell := 1
    x := [0, 1, 1, 0, 0, 1, 1, 0], y := [0, 0, 1, 1, 0, 0, 1, 1], z := [0, 0, 0, 0, 1, 1, 1, 1]
    sections := [("faces", ⟨7, 1, 0, []⟩), ("cells", ⟨17, 1, 1, [1, 2, 3, 4, 5, 6, 7, 8]⟩)]
    bcs := [("left", ⟨some "wall", none, some [1, 4], none⟩), ("right", ⟨none, none, some [2, 3], none⟩)] }

theorem otherFile_selected : Selected otherFile none 3 otherZoneTree where
  version := ⟨_, hasData_cons.2 ⟨_, rfl, node_data _ _ _⟩, 1, [], rfl, by decide⟩
  groups := by
    intro b hb
    rcases List.mem_cons.1 (show b ∈ [_, _] from hb) with rfl | hb
    · exact ⟨_, _, rfl⟩
    · rw [List.mem_singleton.1 hb]; exact ⟨_, _, rfl⟩
  first := ⟨_, rfl, ⟨_, _, node_data _ _ _⟩⟩
  last := ⟨_, rfl, "blk", rfl⟩

theorem otherFile_tells : TellsZone otherZoneTree 3 otherZone where
  type := ⟨12, hasData_cons.2 ⟨_, rfl, node_data _ _ _⟩, by decide⟩
  counts := ⟨3, 1, _, ⟨none, rfl⟩, by decide, by decide, rfl, rfl⟩
  cx := ⟨8, none, rfl⟩
  cy := ⟨8, none, rfl⟩
  cz := ⟨8, none, rfl⟩
  sections := by
    have hno : ¬ ∃ p ∈ otherZone.bcs, OnFaces otherZone p.2 := by
      rintro ⟨p, hp, h⟩
      simp only [otherZone, List.mem_cons, List.not_mem_nil, or_false] at hp
      rcases hp with rfl | rfl <;> rcases h with ⟨-, h⟩ | ⟨h, -⟩ <;> cases h
    refine .cons ⟨rfl, ⟨⟨2, [0], none, rfl⟩, ?_, ?_⟩⟩ (.cons ⟨rfl, ⟨⟨2, [0], none, rfl⟩, fun _ => ⟨2, none, rfl⟩,
      fun _ => ⟨2, [4], none, rfl⟩⟩⟩ .nil)
    all_goals
      rintro ⟨k, hk, hc, hd | ⟨-, hd⟩⟩
      · exact absurd hd ((by decide : ∀ k ∈ kinds, k.code = 7 → ¬ (k.dim : Int) = 3) k hk hc)
      · exact absurd hd hno
  groups := by
    intro b hb
    rcases List.mem_cons.1 (show b ∈ [_, _] from hb) with rfl | hb
    · exact ⟨_, _, rfl⟩
    · rw [List.mem_singleton.1 hb]; exact ⟨_, _, rfl⟩
  bcs := by
    refine .cons ⟨rfl, ⟨⟨"BCWall", 6, ⟨none, rfl⟩, by decide⟩, .inr ⟨rfl, "wall", rfl, 4, ⟨none, rfl⟩, by decide⟩,
      .inr ⟨rfl, _, rfl, 2, [], none, rfl⟩, fun _ => .inl ⟨rfl, rfl⟩, fun _ => .inl ⟨rfl, rfl⟩⟩⟩
      (.cons ⟨rfl, ⟨⟨"blk2", 4, ⟨none, rfl⟩, by decide⟩, .inl ⟨rfl, rfl⟩,
      .inr ⟨rfl, _, rfl, 1, [2], none, rfl⟩, fun _ => .inl ⟨rfl, rfl⟩, fun _ => .inl ⟨rfl, rfl⟩⟩⟩ .nil)

theorem otherZone_sections : SectionsOk otherZone := by
  intro p hp
  simp only [otherZone, List.mem_cons, List.not_mem_nil, or_false] at hp
  rcases hp with rfl | rfl
  · exact ⟨⟨7, "quad4", 4, 2⟩, by decide, ⟨rfl, by decide⟩⟩
  · exact ⟨⟨17, "hexa8", 8, 3⟩, by decide, ⟨rfl, by decide⟩⟩

/-- C88 applied to this file. -/
example : ∃ r, readTree otherFile none = .ok r :=
  (C88_zone otherFile none).2 ⟨3, otherZoneTree, otherFile_selected, otherFile_tells.type, otherFile_tells.groups,
    3, 1, _, 1, ⟨none, rfl⟩, by decide, by decide, rfl, by decide⟩

theorem otherZone_bcs : ∀ p ∈ otherZone.bcs, BcOk otherZone 3 p.2 := by
  intro p hp
  simp only [otherZone, List.mem_cons, List.not_mem_nil, or_false] at hp
  rcases hp with rfl | rfl <;> refine ⟨.inl ⟨rfl, .inl rfl⟩, ?_, fun _ => by decide⟩ <;> rintro (⟨-, h⟩ | ⟨h, -⟩) <;> cases h

theorem otherFile_complete : Complete otherZoneTree := by
  intro q hq k hk a b l hf hr hl
  rcases List.mem_cons.1 (show q ∈ [_, _] from hq) with rfl | hq
  · obtain ⟨n, u, hr⟩ := hr
    cases hr
  · rw [List.mem_singleton.1 hq] at hf hr hl
    obtain ⟨n, u, hr⟩ := hr
    obtain ⟨n', s', u', hl⟩ := hl
    have hk17 : k.code = 17 := hasFirst_unique hf ⟨2, [0], none, rfl⟩
    cases hr
    cases hl
    rw [(by decide : ∀ k ∈ kinds, k.code = 17 → k.nodes = 8) k hk hk17]
    decide

example : ∃ m, readCgns id otherFile none = .ok m :=
  (C88_accepts id (fun l => .refl l) otherFile none fun dim t h => by
    obtain ⟨-, rfl⟩ := selected_unique h otherFile_selected
    exact otherFile_complete).2
  ⟨3, otherZoneTree, otherZone, otherFile_selected, otherFile_tells, otherZone_sections, ⟨rfl, rfl, rfl⟩, otherZone_bcs⟩

example (m : Mesh Int) (h : readCgns id otherFile none = .ok m) :=
  C88_content id (fun l => .refl l) otherFile none 3 otherZoneTree otherZone m otherFile_selected otherFile_tells
    otherZone_sections (by decide) h

/-- `C88_one_zone`. -/
example : TellsFile (fileTree 4 [("Base", ⟨3, [("Zone", twoHexas)]⟩)]) 3 twoHexas :=
  C88_one_zone 4 "Base" "Zone" 3 twoHexas rfl twoHexas_ok.names twoHexas_bytes

/-- The same zone in a standard file gives the same mesh. -/
example : readCgns id otherFile none = readCgns id (fileTree 4 [("Base", ⟨3, [("a", otherZone), ("b", twoHexas)]⟩)]) (some "a") := by
  have h := C88_standard id 4 [("Base", ⟨3, [("a", otherZone), ("b", twoHexas)]⟩)] (some "a") 3 otherZone rfl (by decide)
    (by
      intro p hp
      simp only [otherZone, List.mem_cons, List.not_mem_nil, or_false] at hp
      rcases hp with rfl | rfl <;> exact ⟨by intro s hs; cases hs <;> decide, by intro s hs; cases hs⟩)
  exact C88_only_told id _ _ _ _ 3 _ _ otherZone otherFile_selected h.1 otherFile_tells h.2.1

/-- A section of tetrahedra of which nothing is used, and a condition given by a range of points: refused. -/
example : ∀ m, readCgns id (fileTree 4 [("Base", ⟨3, [("Zone", { twoHexas with sections := ("T", ⟨10, 5, 4, []⟩) :: twoHexas.sections })]⟩)]) none ≠
    .ok m :=
  C88_refused id _ none 3 _ (C88_standard id 4 [("Base", ⟨3, [("Zone", { twoHexas with
      sections := ("T", ⟨10, 5, 4, []⟩) :: twoHexas.sections })]⟩)] none 3 _ rfl twoHexas_ok.names twoHexas_bytes).1
    (.inl ⟨("T", sectionTree ⟨10, 5, 4, []⟩), by simp [zoneTree_labelled], by
      intro k hk h
      have := hasFirst_unique h (show HasFirst (sectionTree ⟨10, 5, 4, []⟩ : Tree Int) [" data"] 10 from ⟨_, _, node_data _ _ _⟩)
      exact (by decide : ∀ k ∈ kinds, k.code ≠ 10) k hk this⟩)

example : ∀ m, readCgns id (fileTree 4 [("Base", ⟨3, [("Zone", { twoHexas with bcs := [("w", ⟨none, none, none, none⟩)] })]⟩)]) none ≠
    .ok m :=
  C88_refused id _ none 3 _ (C88_standard id 4 [("Base", ⟨3, [("Zone", { twoHexas with
      bcs := [("w", ⟨none, none, none, none⟩)] })]⟩)] none 3 _ rfl (by decide) (by
        intro p hp
        rw [List.mem_singleton.1 hp]
        exact ⟨(by intro s hs; cases hs), (by intro s hs; cases hs)⟩)).1
    (.inr (.inr (.inl ⟨("w", bcTree ⟨none, none, none, none⟩), List.mem_cons.2 (.inl rfl), rfl, rfl⟩)))

/-- **C88, sizes.** The number of elements of a section is not compared with its range: this file, whose only section has
one hexahedron and the range 3 to 7, is exported; the cell count and the list of cell numbers of the mesh disagree. -/
theorem C88_range_unchecked :
    ∃ m c, readCgns id (fileTree 4 [("Base", ⟨3, [("Zone", { otherZone with
        sections := [("cells", ⟨17, 3, 7, [1, 2, 3, 4, 5, 6, 7, 8]⟩)] })]⟩)] : Tree Int) none = .ok m ∧
      m.cell2node = some c ∧ m.ncell = 1 ∧ c.allIndex = .ok [2, 3, 4, 5, 6] := by
  refine ⟨_, _, rfl, rfl, ?_, ?_⟩ <;> decide +kernel

end Cfd.Cgns
