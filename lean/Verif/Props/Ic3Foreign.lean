import Verif.Lemmas.Ic3ForeignAccept
import Verif.Lemmas.Ic3ForeignWritten
import Verif.Props.Ic3Round

/-!
C84: IC3 files of any origin. Which files are accepted, and what is read in them: exactly what the sections tell. It
does not depend on the order of sections of different kinds, on sections of unknown kinds, or on what follows the end.
-/

namespace Cfd.Ic3
open Spec Spec.Ic3

/-- C84: two files with the same byte order and version, whatever their sections, their ends and what follows: when they
tell the same, the reader does the same (the same mesh with the same data, or the same exception). -/
theorem C84_same (integ : Bool) (o : Order) (version : Int) (l l' : List Sec) (last last' : Header) (t t' : Bytes)
    (hv : FitsInt 4 version) (hl : Sections version l) (hl' : Sections version l') (he : IsEnd last) (he' : IsEnd last')
    (h : Same l l') :
    readIc3 integ (fileOf o version l last t) = readIc3 integ (fileOf o version l' last' t') := by
  rw [readIc3_of integ o hv hl he, readIc3_of integ o hv hl' he', readOf_same integ o version h]

theorem same_of_groups {l l' : List Sec} (h : ∀ g ∈ groupsOfKinds, only g l = only g l') : Same l l' := by
  have hg := fun g hg => h g hg
  have f1 : ∀ code, [code] ∈ groupsOfKinds → first code l = first code l' := by
    intro code hc
    rw [← first_only (K := [code]) (by simp) l, ← first_only (K := [code]) (by simp) l', h _ hc]
  refine ⟨?_, ?_, h _ (by decide), h _ (by decide), h _ (by decide), h _ (by decide)⟩
  · intro code hc
    by_cases e : code = 22
    · subst e
      rw [← first_only (K := [22, 23]) (by simp) l, ← first_only (K := [22, 23]) (by simp) l', h _ (by decide)]
    · refine f1 code ?_
      simp only [List.mem_cons, List.not_mem_nil, or_false] at hc
      rcases hc with rfl | rfl | rfl | rfl | rfl | rfl | rfl | rfl
      · decide
      · decide
      · decide
      · exact absurd rfl e
      · decide
      · decide
      · decide
      · decide
  · have k : ∀ l : List Sec, only [23] (after 22 l) = only [23] (after 22 (only [22, 23] l)) := by
      intro l
      rw [after_only (by simp), only_only (by simp)]
    rw [k l, k l', h _ (by decide)]

/-- C84: the order of the sections matters only inside the groups: files whose sections are those of `l` in another
order, with the same order inside each group, are read alike. -/
theorem C84_order (integ : Bool) (o : Order) (version : Int) (l l' : List Sec) (last last' : Header) (t t' : Bytes)
    (hv : FitsInt 4 version) (hl : Sections version l) (hp : l.Perm l') (he : IsEnd last) (he' : IsEnd last')
    (h : ∀ g ∈ groupsOfKinds, only g l = only g l') :
    readIc3 integ (fileOf o version l last t) = readIc3 integ (fileOf o version l' last' t') := by
  have hs := same_of_groups h
  have hc : countsOf l' = countsOf l := (countsOf_congr (hs.one 10 (by decide))).symm
  refine C84_same integ o version l l' last last' t t' hv hl ⟨fun s hm => hl.wf s (hp.mem_iff.2 hm),
    fun s hm => hl.going s (hp.mem_iff.2 hm), by rw [hc]; exact hl.counts, fun s hm n hn => ?_⟩ he he' hs
  rw [hc] at hn
  exact hl.sizes s (hp.mem_iff.2 hm) n hn

theorem sections_only {version : Int} {l : List Sec} (hl : Sections version l) {K : List Int} (hK : (10 : Int) ∈ K) :
    Sections version (only K l) := by
  have hc : countsOf (only K l) = countsOf l := countsOf_congr (first_only hK l)
  have hm : ∀ s ∈ only K l, s ∈ l := fun s h => (List.mem_filter.1 h).1
  refine ⟨fun s h => hl.wf s (hm s h), fun s h => hl.going s (hm s h), by rw [hc]; exact hl.counts, fun s h n hn => ?_⟩
  rw [hc] at hn
  exact hl.sizes s (hm s h) n hn

/-- C84: sections of unknown kinds, wherever they are and whatever they contain, have no influence. -/
theorem C84_unknown (integ : Bool) (o : Order) (version : Int) (l : List Sec) (last last' : Header) (t t' : Bytes)
    (hv : FitsInt 4 version) (hl : Sections version l) (he : IsEnd last) (he' : IsEnd last') :
    readIc3 integ (fileOf o version l last t) = readIc3 integ (fileOf o version (only readKinds l) last' t') := by
  refine C84_same integ o version _ _ last last' t t' hv hl (sections_only hl (by decide)) he he' ⟨?_, ?_, ?_, ?_, ?_, ?_⟩
  · intro code hc
    refine (first_only ?_ l).symm
    revert code; decide
  · rw [after_only (by decide), only_only (by decide)]
  · rw [only_only (by decide)]
  · rw [only_only (by decide)]
  · rw [only_only (by decide)]
  · rw [only_only (by decide)]

/-- C84, what is lost: a zone that comes before the table of cells is ignored. -/
theorem C84_early_zone (integ : Bool) (o : Order) (version : Int) (a b : List Sec) (z : Sec) (last : Header) (t : Bytes)
    (hv : FitsInt 4 version) (hl : Sections version (a ++ z :: b)) (he : IsEnd last) (hz : z.h.id = 23)
    (ha : ∀ s ∈ a, s.h.id ≠ 22) :
    readIc3 integ (fileOf o version (a ++ z :: b) last t) = readIc3 integ (fileOf o version (a ++ b) last t) := by
  have f1 : ∀ code, code ≠ 23 → first code (a ++ z :: b) = first code (a ++ b) := by
    intro code hc
    have : ¬ z.h.id = code := by rw [hz]; omega
    simp [first, List.find?_append, this]
  have f2 : ∀ K : List Int, (23 : Int) ∉ K → only K (a ++ z :: b) = only K (a ++ b) := by
    intro K hK
    have : ¬ z.h.id ∈ K := by rw [hz]; exact hK
    simp [only, List.filter_append, this]
  have f3 : after 22 (a ++ z :: b) = after 22 (a ++ b) := by
    unfold after
    rw [List.dropWhile_append_of_pos (by simpa using ha), List.dropWhile_append_of_pos (by simpa using ha)]
    have : (22 : Int) ≠ 23 := by decide
    simp [hz]
  have hc : countsOf (a ++ b) = countsOf (a ++ z :: b) := (countsOf_congr (f1 10 (by decide))).symm
  have hm : ∀ s ∈ a ++ b, s ∈ a ++ z :: b := by
    intro s hs
    simp only [List.mem_append, List.mem_cons] at hs ⊢
    exact hs.imp id Or.inr
  refine C84_same integ o version _ _ last last t t hv hl ⟨fun s h => hl.wf s (hm s h), fun s h => hl.going s (hm s h),
    by rw [hc]; exact hl.counts, fun s h n hn => ?_⟩ he he ⟨?_, ?_, ?_, ?_, ?_, ?_⟩
  · rw [hc] at hn
    exact hl.sizes s (hm s h) n hn
  · intro code hcode
    refine f1 code ?_
    rintro rfl
    exact absurd hcode (by decide)
  · rw [f3]
  · exact f2 _ (by decide)
  · exact f2 _ (by decide)
  · exact f2 _ (by decide)
  · exact f2 _ (by decide)

/-- C84: the files that are accepted, without verification of the numberings (`integ = false`, the default) or with it. -/
theorem C84_accepts (integ : Bool) (o : Order) (version : Int) (l : List Sec) (last : Header) (t : Bytes)
    (hv : FitsInt 4 version) (hl : Sections version l) (he : IsEnd last) :
    (∃ f, readIc3 integ (fileOf o version l last t) = .ok f) ↔
      Acceptable o version l ∧ (integ = true → Numbered o l) := by
  rw [readIc3_of integ o hv hl he]
  exact ⟨fun ⟨_, h⟩ => readOf_acceptable hl h, fun ⟨h1, h2⟩ => readOf_can hl h1 h2⟩

/-- C84: what is read is what the sections tell. -/
theorem C84_content (integ : Bool) (o : Order) (version : Int) (l : List Sec) (last : Header) (t : Bytes) (f : FullMesh)
    (hv : FitsInt 4 version) (hl : Sections version l) (he : IsEnd last)
    (h : readIc3 integ (fileOf o version l last t) = .ok f) : ∃ faces points, Tells o version l faces points f := by
  rw [readIc3_of integ o hv hl he] at h
  obtain ⟨faces, points, ht, _⟩ := readOf_tells hl h
  exact ⟨faces, points, ht⟩

/-- C84: a file made by the writers of this library, then changed by another program which inserts sections of unknown
kinds, moves sections or adds bytes after the end: the mesh and its data are still read. -/
theorem C84_written (tbl : FaceTable) (so : List Int → List Int) (host : Order) (e : Endian) (v : Ver)
    (cv : Conv) (f : FullMesh) (b : Bytes) (m : Mesh F64) (faces : List Face) (hn : NamesFit f)
    (hc : completeMesh tbl so f.mesh = .ok m) (h : writeIc3 tbl so host e v cv f = (some b, .ok ()))
    (hs : Storable m faces) (hd : DataStorable v f m) (integ : Bool) :
    ∃ l last, b = fileOf (e.order host) v.num l last [] ∧ Sections v.num l ∧ IsEnd last ∧
      ∀ l' last' t, Sections v.num l' → IsEnd last' → Same l l' →
        ∃ g, readIc3 integ (fileOf (e.order host) v.num l' last' t) = .ok g ∧ SameMesh f m faces g ∧ SameData v cv f g := by
  obtain ⟨w, _, h1, h2, _⟩ := round_trip hn hc h hs hd integ
  obtain ⟨l, last, e1, e2, e3⟩ := written_sections (namesOK_of_fit hn hc h1) h2 (dataOK_of_storable h1 hd)
  obtain ⟨g, g1, g2⟩ := C28_mesh_round_trip tbl so host e v cv f b m faces hn hc h hs hd integ
  obtain ⟨g', g1', g3⟩ := C29_data_round_trip tbl so host e v cv f b m faces hn hc h hs hd integ
  rw [g1] at g1'
  have := Except.ok.inj g1'
  subst this
  refine ⟨l, last, e1, e2, e3, fun l' last' t hl' he' hsame => ⟨g, ?_, g2, g3⟩⟩
  have hv : FitsInt 4 v.num := by cases v <;> decide
  rw [← C84_same integ _ _ l l' last last' [] t hv e2 hl' e3 he' hsame, ← e1]
  exact g1

/-! ## A file made by another program -/

/-- A section of another program. -/
def madeSec (name : String) (id : Int) (ints : List Int) (payload : Bytes) : Sec :=
  ⟨⟨name, id, 256 + payload.length, ints, List.replicate 16 0⟩, payload⟩

/-- A tetrahedron: the points first, a section of an unknown kind, a zone before the table of cells, the parameters last. -/
def madeFile : List Sec :=
  [madeSec "X_NO" 31 [4, 3, 0, 0, 0, 0, 0, 0] (f64sBytes .big [0, 0, 0, 1, 0, 0, 0, 1, 0, 0, 0, 1]),
   madeSec "SOMETHING ELSE" 99 [7, 7, 7, 7, 7, 7, 7, 7] [1, 2, 3],
   madeSec "early" 23 [1, 0, 1, 0, 0, 0, 0, 0] [],
   madeSec "COUNTS" 10 [4, 4, 1, 12, 0, 0, 0, 0] [],
   madeSec "CVOFA" 22 [4, 2, 0, 0, 0, 0, 0, 0] (intsBytes .big 4 [0, -1, 0, -1, 0, -1, 0, -1]),
   madeSec "wall" 23 [1, 0, 3, 0, 0, 0, 0, 0] [],
   madeSec "NOOFA" 21 [4, 12, 0, 0, 0, 0, 0, 0]
     (intsBytes .big 4 [3, 3, 3, 3] ++ intsBytes .big 4 [0, 2, 1, 0, 1, 3, 1, 2, 3, 0, 3, 2]),
   madeSec "P" 42 [1, 2, 0, 0, 0, 0, 0, 0] (f64sBytes .big [5, 6]),
   madeSec "CVPART" 41 [1, 1, 0, 0, 0, 0, 0, 0] (intsBytes .big 4 [0]),
   madeSec "STEP" 11 [12, 0, 0, 0, 0, 0, 0, 0] []]

/-- Its end. -/
def madeEnd : Header := ⟨"EOF", 51, 256, List.replicate 8 0, List.replicate 16 0⟩

/-- Its faces. -/
def madeFaces : List Face := [([0, 2, 1], (0, -1)), ([0, 1, 3], (0, -1)), ([1, 2, 3], (0, -1)), ([0, 3, 2], (0, -1))]

theorem madeEnd_end : IsEnd madeEnd := ⟨⟨by decide, by decide, by decide, by decide, rfl⟩, .inl rfl⟩

theorem madeFile_sections : Sections 3 madeFile where
  wf := by
    have h : ∀ s ∈ madeFile, GoodName s.h.name ∧ FitsInt 4 s.h.id ∧ FitsInt 8 s.h.skip ∧
        (s.h.idata.length = 8 ∧ ∀ n ∈ s.h.idata, FitsInt 8 n) ∧ s.h.rdata.length = 16 ∧
        s.h.skip = 256 + (s.payload.length : Int) ∧ endName s.h.name = false := by decide +kernel
    exact fun s hs => ⟨⟨(h s hs).1, (h s hs).2.1, (h s hs).2.2.1, (h s hs).2.2.2.1, (h s hs).2.2.2.2.1⟩,
      (h s hs).2.2.2.2.2.1, (h s hs).2.2.2.2.2.2⟩
  going := by decide +kernel
  counts := by decide
  sizes := by
    have h : ∀ s ∈ madeFile, ∀ n ∈ room 3 (countsOf madeFile) s.h, (s.payload.length : Int) = n := by decide +kernel
    exact h

theorem madeFile_tables : Tables .big madeFile madeFaces where
  counts := rfl
  number := rfl
  nodes := ⟨_, rfl, rfl, rfl, rfl⟩
  cells := ⟨_, rfl, rfl, rfl, rfl⟩
  fits := by decide

theorem madeFile_acceptable : Acceptable .big 3 madeFile where
  faces := ⟨madeFaces, madeFile_tables, by decide, by decide, by decide⟩
  points := ⟨_, rfl, rfl, rfl⟩
  part := rfl
  zones := by decide +kernel
  data := by
    intro s hs
    have : s = madeSec "P" 42 [1, 2, 0, 0, 0, 0, 0, 0] (f64sBytes .big [5, 6]) := List.mem_singleton.1 hs
    subst this
    exact ⟨by decide +kernel, .inr (.inr ⟨rfl, by decide⟩)⟩
  tensors := by
    intro s hs
    exact absurd hs (List.not_mem_nil)

/-- C84 on this file: it is accepted, whatever follows its end, and what its sections tell is read: the early zone is
ignored, the other one is there, the cell data have two degrees of freedom. -/
example (integ : Bool) (t : Bytes) : ∃ f, readIc3 integ (fileOf .big 3 madeFile madeEnd t) = .ok f ∧ f.mesh.nnode = 4 ∧
    f.mesh.ncell = 1 ∧ f.mesh.bocos.get? "early" = none ∧
    f.mesh.bocos.get? "wall" = some ⟨"wall", .bdface, "boundary", .range 0 3, some (List.replicate 16 0)⟩ ∧
    f.cells.attrs = some ⟨.dataSet, "spectralcell", 2, "instant"⟩ ∧ f.params.get? "step" = some (.int 12) ∧
    ∃ a, f.cells.data.get? "P" = some a ∧ a.shape = [2] := by
  obtain ⟨f, hf⟩ := (C84_accepts integ .big 3 madeFile madeEnd t (by decide) madeFile_sections madeEnd_end).2
    ⟨madeFile_acceptable, fun _ => .inl rfl⟩
  obtain ⟨faces, points, ht⟩ := C84_content integ .big 3 madeFile madeEnd t f (by decide) madeFile_sections madeEnd_end hf
  refine ⟨f, hf, ?_, ?_, ?_, ?_, ?_, ?_, ?_⟩
  · have := ht.nnode
    have e : (countsOf madeFile).no = 4 := rfl
    omega
  · have := ht.ncell
    have e : (countsOf madeFile).cv = 1 := rfl
    omega
  · rw [ht.marks]; decide +kernel
  · rw [ht.marks]; decide +kernel
  · rw [ht.attrs]; decide +kernel
  · rw [ht.params]
    have : lastParam "step" madeFile = some (madeSec "STEP" 11 [12, 0, 0, 0, 0, 0, 0, 0] []) := by decide +kernel
    rw [this]; rfl
  · have h := ht.cells "P"
    have : lastNamed "P" (cellData madeFile) =
        some (madeSec "P" 42 [1, 2, 0, 0, 0, 0, 0, 0] (f64sBytes .big [5, 6])) := by decide +kernel
    rw [this] at h
    obtain ⟨a, ha, hsh⟩ := h
    exact ⟨a, ha, hsh.shape⟩

/-- `C84_order` and `C84_unknown`: the same sections in another order, without the unknown one. -/
example (integ : Bool) (t t' : Bytes) : readIc3 integ (fileOf .big 3 madeFile madeEnd t) =
    readIc3 integ (fileOf .big 3 ((only readKinds madeFile).drop 1 ++ (only readKinds madeFile).take 1) madeEnd t') := by
  have hs : Sections 3 (only readKinds madeFile) := sections_only madeFile_sections (by decide)
  rw [C84_unknown integ .big 3 madeFile madeEnd madeEnd t [] (by decide) madeFile_sections madeEnd_end madeEnd_end]
  exact C84_order integ .big 3 _ _ madeEnd madeEnd [] t' (by decide) hs
    ((List.perm_append_comm (l₁ := (only readKinds madeFile).take 1) (l₂ := (only readKinds madeFile).drop 1))) madeEnd_end
    madeEnd_end (by decide +kernel)

/-- `C84_same`: without the unknown section, and with other bytes after the end. -/
example (integ : Bool) (t t' : Bytes) : readIc3 integ (fileOf .big 3 madeFile madeEnd t) =
    readIc3 integ (fileOf .big 3 (only readKinds madeFile) madeEnd t') :=
  C84_same integ .big 3 madeFile _ madeEnd madeEnd t t' (by decide) madeFile_sections
    (sections_only madeFile_sections (by decide)) madeEnd_end madeEnd_end (same_of_groups (by decide +kernel))

/-- `C84_early_zone`. -/
example (integ : Bool) (t : Bytes) : readIc3 integ (fileOf .big 3 madeFile madeEnd t) =
    readIc3 integ (fileOf .big 3 (madeFile.take 2 ++ madeFile.drop 3) madeEnd t) :=
  C84_early_zone integ .big 3 (madeFile.take 2) (madeFile.drop 3) (madeSec "early" 23 [1, 0, 1, 0, 0, 0, 0, 0] []) madeEnd t
    (by decide) madeFile_sections madeEnd_end rfl (by decide +kernel)

/-- A section of the unknown kind 99. -/
def unknownSec : Sec := madeSec "SOMETHING ELSE" 99 [7, 7, 7, 7, 7, 7, 7, 7] [1, 2, 3]

/-- `C84_written`: the file of the two tetrahedra, with that section at its beginning. -/
example (e : Endian) (v : Ver) (t : Bytes) (integ : Bool) : ∃ b l last,
    writeIc3 cgnsElem2faces id .little e v noConv twoTetra = (some b, .ok ()) ∧
    b = fileOf (e.order .little) v.num l last [] ∧
    ∃ g, readIc3 integ (fileOf (e.order .little) v.num (unknownSec :: l) last t) = .ok g ∧
      SameMesh twoTetra twoTetra.mesh twoTetraFaces g ∧ SameData v noConv twoTetra g := by
  obtain ⟨b, hb⟩ := twoTetra_written e v
  obtain ⟨l, last, h1, h2, h3, h4⟩ := C84_written _ _ _ e v _ _ b _ _ twoTetra_names twoTetra_complete hb twoTetra_storable
    (twoTetra_data v) integ
  have hf : ∀ code, code ≠ 99 → first code (unknownSec :: l) = first code l := by
    intro code hc
    have : ¬ unknownSec.h.id = code := fun h => hc h.symm
    simp [first, this]
  have ho : ∀ K : List Int, (99 : Int) ∉ K → only K (unknownSec :: l) = only K l := by
    intro K hK
    have : ¬ unknownSec.h.id ∈ K := hK
    simp [only, this]
  have hc : countsOf (unknownSec :: l) = countsOf l := countsOf_congr (hf 10 (by decide))
  refine ⟨b, l, last, hb, h1, h4 _ _ t ⟨?_, ?_, by rw [hc]; exact h2.counts, ?_⟩ h3 ⟨?_, ?_, ?_, ?_, ?_, ?_⟩⟩
  · intro s hs
    rcases List.mem_cons.1 hs with rfl | hs
    · exact ⟨⟨by decide, by decide, by decide, by decide, rfl⟩, rfl, by decide⟩
    · exact h2.wf s hs
  · intro s hs
    rcases List.mem_cons.1 hs with rfl | hs
    · decide
    · exact h2.going s hs
  · intro s hs n hn
    rw [hc] at hn
    rcases List.mem_cons.1 hs with rfl | hs
    · cases hn
    · exact h2.sizes s hs n hn
  · intro code hcode
    refine (hf code ?_).symm
    rintro rfl
    exact absurd hcode (by decide)
  · rfl
  · exact (ho _ (by decide)).symm
  · exact (ho _ (by decide)).symm
  · exact (ho _ (by decide)).symm
  · exact (ho _ (by decide)).symm

end Cfd.Ic3
