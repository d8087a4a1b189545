import Verif.Lemmas.Ic3Copy
import Verif.Props.Convert

/-!
# C67: an IC3 file that can be read is copied by the writers without loss
-/

namespace Cfd.Ic3
open Cfd.Spec Cfd.Spec.Ic3

theorem get?_mem {K V : Type} [DecidableEq K] {d : Dict K V} {k : K} {v : V} (h : d.get? k = some v) : (k, v) ∈ d :=
  Dict.mem_of_get? h

section
variable {f : FullMesh} {l : List Face} {v : Ver}

theorem Accepted.storable (ha : Accepted f l) (hc : Copyable v f) : Storable f.mesh l := by
  obtain ⟨fs, h1, h2⟩ := ha.faces
  refine ⟨Or.inl ⟨fs, by rw [h1]; rfl, h2⟩, ha.widths, ha.cells, ha.last, ?_, ha.markKeys,
    fun p hp ht => (hc.zones p hp ht).1, ?_⟩
  · intro x y z hx
    obtain ⟨x', y', z', e, h⟩ := ha.coords
    rw [e] at hx
    simp only [Option.some.injEq, Prod.mk.injEq] at hx
    obtain ⟨rfl, rfl, rfl⟩ := hx
    exact h
  · intro p hp ht
    obtain ⟨a, b, hi, _⟩ := (ha.marks p hp).2.index
    have := (hc.zones p hp ht).2 a b hi
    rw [ha.count] at this
    exact ⟨a, b, hi, this.1, this.2⟩

theorem head_good {n m : Nat} {a : NpArr} (hg : GoodArr n a) (hh : a.shape.head? = some m) : GoodArr m a := by
  have : n = m := by
    rcases hg.1 with h | h | h <;> rw [h] at hh <;> simpa using hh
  rw [← this]; exact hg

theorem Accepted.data (ha : Accepted f l) (hc : Copyable v f) : DataStorable v f f.mesh := by
  obtain ⟨ver, a, hat, hv⟩ := ha.vars
  refine ⟨hv.nodeKeys, hv.cellKeys, ?_, ?_, ?_, ?_⟩
  · intro p hp
    obtain ⟨_, h1, h2, _⟩ := hv.nodes p hp
    simp only [Int.toNat_natCast] at h1 h2
    exact ⟨Or.inl h1, by rw [h1, h2]; simp⟩
  · intro p hp
    obtain ⟨_, d, _, _, _, hg, _⟩ := hv.cells p hp
    exact head_good hg (hc.rows p hp)
  · intro hne
    obtain ⟨p, hp⟩ := List.exists_mem_of_ne_nil _ hne
    have := (hv.nodes p hp).1
    omega
  · intro hne
    obtain ⟨p, hp⟩ := List.exists_mem_of_ne_nil _ hne
    obtain ⟨_, d, _, _, hpos, _, _⟩ := hv.cells p hp
    refine ⟨by omega, ?_, ?_⟩
    · cases v with
      | v2 => simp [dofOf]
      | v3 => simpa [dofOf, hat] using hv.ndof.1
    · by_cases h3 : ∀ p ∈ f.cells.data, p.2.shape.length = 3
      · exact hc.tensors hne h3
      · push Not at h3
        obtain ⟨q, hq, hq3⟩ := h3
        obtain ⟨_, _, _, _, _, _, hd⟩ := hv.cells q hq
        have := hd hq3
        omega

theorem Accepted.complete (ha : Accepted f l) (tbl : FaceTable) (so : List Int → List Int) :
    completeMesh tbl so f.mesh = .ok f.mesh := by
  obtain ⟨fs, h1, _⟩ := ha.faces
  have hmem : ∀ p ∈ f.mesh.bocos, p.2.nodebased = false ∧ isListIndex p.2.index = false := by
    intro p hp
    have hr := (ha.marks p hp).2
    obtain ⟨a, b, hi, _⟩ := hr.index
    refine ⟨?_, by rw [hi]; rfl⟩
    unfold Mark.nodebased
    rw [hr.geodim]
    split <;> decide
  unfold completeMesh needFaces
  rw [if_neg (by simp [h1]), Except_bind_ok]
  unfold needFaceMarks
  rw [if_neg (by
    rw [List.any_eq_true]
    rintro ⟨p, hp, h⟩
    rw [(hmem p hp).1] at h
    simp at h), Except_bind_ok]
  unfold needUnmarked
  rw [if_neg (by simp [h1, Dict.keys]), Except_bind_ok]
  unfold needReindex
  rw [if_neg (by
    rw [List.any_eq_true]
    rintro ⟨p, hp, h⟩
    rw [(hmem p hp).2] at h
    simp at h)]

theorem Accepted.names (ha : Accepted f l) : NamesFit f := by
  obtain ⟨ver, a, hat, hv⟩ := ha.vars
  refine ⟨?_, ?_, hv.nodeNames, hv.cellNames⟩
  · intro p hp
    have := ha.marks p hp
    rw [← this.1]; exact this.2.name
  · intro d hd p hp
    rcases ha.params _ (get?_mem hd) with h | ⟨_, h, _⟩ | ⟨_, h⟩
    · have : d = [] := by simpa using h.1
      subst this; simp at hp
    · simp at h
    · simp at h

theorem Accepted.fits (ha : Accepted f l) (hc : Copyable v f) : MeshFits f.mesh l := by
  refine ⟨hc.counts, ha.count, ?_, ha.numbers, ?_⟩
  · obtain ⟨x, y, z, h, _⟩ := ha.coords
    exact ⟨x, y, z, h⟩
  · intro p hp ht
    obtain ⟨h1, h2⟩ := ha.marks p hp
    obtain ⟨a, b, hi, hb⟩ := h2.index
    obtain ⟨r, hr, hl⟩ := h2.perio
    refine ⟨h1, ?_, h2.type, by rw [hr]; simp [hl], ?_⟩
    · unfold Mark.onFaces
      rw [h2.geodim, if_neg ht]
      decide
    · intro a' b' hi'
      rw [hi] at hi'
      simp only [IndexList.range.injEq] at hi'
      rw [← hi'.2]; exact hb

theorem Accepted.dataFits (ha : Accepted f l) (hc : Copyable v f) (cv : Conv) : DataFits v cv f f.mesh.ncell := by
  obtain ⟨ver, a, hat, hv⟩ := ha.vars
  obtain ⟨n, icv, hp, hn, hicv⟩ := ha.part
  obtain ⟨n', l', hp'⟩ := hc.part
  rw [hp] at hp'
  simp only [Option.some.injEq, Partition.mk.injEq] at hp'
  obtain ⟨rfl, rfl⟩ := hp'
  have notw : ∀ k s, k ≠ "wgt" → f.params.get? k = some s → ∀ d, s ≠ .wgts d := by
    intro k s hk hs d hd
    rcases ha.params _ (get?_mem hs) with h | ⟨_, h, _⟩ | ⟨_, h⟩
    · exact hk h.2
    · rw [hd] at h; simp at h
    · rw [hd] at h; simp at h
  have hsc : ∀ a : NpArr, ReadValues a → ScalarFits v a := by
    intro a hr _ _
    unfold ReadValues at hr
    cases hd : a.data with
    | f64 _ => trivial
    | i64 l => rw [hd] at hr; exact hr.2
    | other _ => rw [hd] at hr; exact hr.elim
  refine ⟨Or.inr ⟨_, hp, hn, Or.inr ⟨l', rfl, hicv l' rfl⟩⟩, ?_, fun s hs => notw "dt" s (by decide) hs,
    fun s hs => notw "time" s (by decide) hs, ?_, ?_, ?_, ?_⟩
  · intro s hs
    obtain ⟨n, hn⟩ := hc.step
    rw [hn] at hs
    simp only [Option.some.injEq] at hs
    subst hs
    show FitsInt 8 n
    rcases ha.params _ (get?_mem hn) with h | ⟨_, h, hf⟩ | ⟨_, h⟩
    · simp at h
    · simp only [SimVal.int.injEq] at h
      subst h; exact hf rfl
    · simp at h
  · intro s hs
    rw [hc.wgt] at hs
    simp only [Option.some.injEq] at hs
    exact ⟨[], hs.symm⟩
  · exact fun p hp => hsc _ (hv.nodes p hp).2.2.2
  · exact fun p hp => hsc _ (hv.cells p hp).1
  · intro hv3 hne
    subst hv3
    have := hc.dof hne
    simp only [dofOf, hat, Option.map_some, Option.getD_some] at this
    have h1 := hv.ndof.1
    exact ⟨a, hat, by simp only at h1; omega, this⟩

end

/-- A mesh like those of the files that the reader accepts is written and read without loss. -/
theorem copy_of_accepted (tbl tbl' : FaceTable) (so so' : List Int → List Int) (host : Order) (e : Endian) (v : Ver) (cv : Conv)
    (integ' : Bool) (f : FullMesh) (l : List Face) (ha : Accepted f l) (hc : Copyable v f) :
    ∃ b g, writeIc3 tbl so host e v cv f = (some b, .ok ()) ∧ readIc3 integ' b = .ok g ∧ Kept v cv f g ∧
      writeIc3 tbl' so' host e v cv g = (some b, .ok ()) := by
  have hs := ha.storable hc
  have hd := ha.data hc
  have hn := ha.names
  have hcm := ha.complete tbl so
  obtain ⟨fs, hfs, hif⟩ := ha.faces
  obtain ⟨b, hb⟩ := C63_writes tbl so host e v cv f f.mesh l hcm hs hd hn (ha.fits hc) (ha.dataFits hc cv)
    (fun hx => by rw [hfs] at hx; simp [Dict.get?] at hx)
  obtain ⟨g, hg, hm⟩ := C28_mesh_round_trip tbl so host e v cv f b f.mesh l hn hcm hb hs hd integ'
  obtain ⟨g', hg', hda⟩ := C29_data_round_trip tbl so host e v cv f b f.mesh l hn hcm hb hs hd integ'
  rw [hg] at hg'
  simp only [Except.ok.injEq] at hg'
  subst hg'
  obtain ⟨ver, at', hat, hv⟩ := ha.vars
  refine ⟨b, g, hb, hg, ?_, ?_⟩
  · refine ⟨hm.ncell, hm.nnode, hm.nface, hm.coords, ⟨l, hs.faces, hm.faces⟩, ?_, ?_, ?_, ?_, hda.cells, ?_, ?_, ?_, hda.dt,
      hda.time⟩
    · have fwd : ∀ name b, f.mesh.bocos.get? name = some b → b.type ≠ "internal" → g.mesh.bocos.get? name = some b := by
        intro name b hb ht
        rw [hm.marks name b hb ht]
        obtain ⟨h1, h2⟩ := ha.marks _ (get?_mem hb)
        obtain ⟨r, hr, hl⟩ := h2.perio
        have hgd := h2.geodim
        rw [if_neg ht] at hgd
        have hp : perio16 b = r := by
          unfold perio16
          rw [hr, Option.getD_some, hl]
          simp
        rw [hp]
        obtain ⟨n, gd, t, i, p⟩ := b
        simp only at h1 hr hgd ⊢
        rw [h1, hr, hgd]
      intro name b ht
      refine ⟨fun hb => ?_, fun hb => fwd name b hb ht⟩
      have hk : name ∈ g.mesh.bocos.keys := Dict.mem_keys_iff.2 ⟨_, hb⟩
      rcases hm.others name hk with rfl | ⟨b', hb', ht'⟩
      · obtain ⟨a, hi⟩ := hm.internal
        rw [hi] at hb
        simp only [Option.some.injEq] at hb
        rw [← hb] at ht
        exact absurd rfl ht
      · have := fwd name b' hb' ht'
        rw [hb] at this
        simp only [Option.some.injEq] at this
        rw [this]; exact hb'
    · obtain ⟨a, hi⟩ := hm.internal
      refine ⟨a, ?_⟩
      rw [ha.count]; exact hi
    · intro name b hb ht
      have hk : name ∈ g.mesh.bocos.keys := Dict.mem_keys_iff.2 ⟨_, hb⟩
      rcases hm.others name hk with rfl | ⟨b', hb', ht'⟩
      · rfl
      · obtain ⟨p, hp⟩ : ∃ p, g.mesh.bocos.get? name = some ⟨name, .bdface, b'.type, b'.index, p⟩ :=
          ⟨_, hm.marks name b' hb' ht'⟩
        rw [hp] at hb
        simp only [Option.some.injEq] at hb
        rw [← hb] at ht
        exact absurd ht ht'
    · obtain ⟨n', icv, hp, hlen, hq⟩ := hm.part
      obtain ⟨n, q, hpf⟩ := hc.part
      rw [hpf] at hq
      simp only at hq
      rw [hp, hpf, hq.1, hq.2.1 q rfl]
      rfl
    · intro name
      rw [hda.nodes name]
      cases hx : f.nodes.get? name with
      | none => rfl
      | some a =>
        have := (hv.nodes _ (get?_mem hx)).2.1
        simp only at this
        simp [Option.filter, this]
    · intro hne
      obtain ⟨a, h1, h2, _⟩ := hda.dof hne
      exact ⟨a, h1, h2⟩
    · obtain ⟨n, hn⟩ := hc.step
      rw [hda.step n hn, hn]
  · refine C31_rewrite_identical tbl tbl' so so' host e v cv f g b f.mesh l hn hcm hb hs hd (Or.inr hc.wgt) ?_ integ' hg
    intro p hp h2
    have := (hv.nodes p hp).2.1
    rw [this] at h2
    simp at h2

/-- C67: for every file that the reader accepts, in V2 or V3 and any byte order, with regular zones and cell data of one
size, both writers accept the mesh; the file written can be read, with and without the integrity check; it has the same
mesh, zones, partition and data; writing it once more gives the same bytes. -/
theorem C67_copy (tbl tbl' : FaceTable) (so so' : List Int → List Int) (host : Order) (e : Endian) (v : Ver) (cv : Conv)
    (integ integ' : Bool) (file : Bytes) (f : FullMesh) (h : readIc3 integ file = .ok f) (hc : Copyable v f) :
    ∃ b g, writeIc3 tbl so host e v cv f = (some b, .ok ()) ∧ readIc3 integ' b = .ok g ∧ Kept v cv f g ∧
      writeIc3 tbl' so' host e v cv g = (some b, .ok ()) := by
  obtain ⟨l, ha⟩ := accepted h
  exact copy_of_accepted tbl tbl' so so' host e v cv integ' f l ha hc

/-- C67, through the other version: what is read from a file is written in version `v`, read back, then written in
version `v'`, whose file is that obtained from the first file directly. Without condition when the last version is V2
(V2 to V3 and back gives the first V2 file); for real values with one degree of freedom when it is V3 and V2 came first. -/
theorem C67_through (tbl tbl' : FaceTable) (so so' : List Int → List Int) (host host' : Order) (e e' : Endian) (v v' : Ver)
    (cv : Conv) (integ integ' : Bool) (file b' : Bytes) (f : FullMesh) (h : readIc3 integ file = .ok f) (hc : Copyable v f)
    (h' : writeIc3 tbl so host' e' v' cv f = (some b', .ok ()))
    (hvv : v' = .v3 → v = .v2 → (∀ p ∈ f.nodes, ∃ l, p.2.data = .f64 l) ∧ (∀ p ∈ f.cells.data, ∃ l, p.2.data = .f64 l) ∧
      ∀ a, f.cells.attrs = some a → a.ndof = 1) :
    ∃ b g, writeIc3 tbl so host e v cv f = (some b, .ok ()) ∧ readIc3 integ' b = .ok g ∧
      writeIc3 tbl' so' host' e' v' cv g = (some b', .ok ()) := by
  obtain ⟨b, g, hb, hg, _, _⟩ := C67_copy tbl tbl' so so' host e v cv integ integ' file f h hc
  obtain ⟨l, ha⟩ := accepted h
  obtain ⟨ver, at', hat, hv⟩ := ha.vars
  refine ⟨b, g, hb, hg, C31_other_version tbl tbl' so so' host host' e e' v v' cv f g b b' f.mesh l ha.names
    (ha.complete tbl so) hb h' (ha.storable hc) (ha.data hc) (Or.inr hc.wgt) ?_ hvv integ' hg⟩
  intro p hp h2
  have := (hv.nodes p hp).2.1
  rw [this] at h2
  simp at h2

/-- C67: a V2 file written by the package, converted to V3 (in any byte order) and back to V2, is the same file. -/
theorem C67_v2_v3_v2 (tbl tbl' : FaceTable) (so so' : List Int → List Int) (host host' : Order) (e e' : Endian) (cv : Conv)
    (integ integ' : Bool) (file : Bytes) (f : FullMesh) (h : readIc3 integ file = .ok f) (hc : Copyable .v3 f)
    (hfile : writeIc3 tbl so host' e' .v2 cv f = (some file, .ok ())) :
    ∃ b g, writeIc3 tbl so host e .v3 cv f = (some b, .ok ()) ∧ readIc3 integ' b = .ok g ∧
      writeIc3 tbl' so' host' e' .v2 cv g = (some file, .ok ()) :=
  C67_through tbl tbl' so so' host host' e e' .v3 .v2 cv integ integ' file file f h hc hfile (fun h _ => by simp at h)

/-- C67: V3 keeps all data exactly, integers included. -/
theorem C67_v3_exact (so : List Int → List Int) (host : Order) (e : Endian) (cv : Conv) (integ integ' : Bool) (tbl : FaceTable)
    (file : Bytes) (f g : FullMesh) (b : Bytes) (h : readIc3 integ file = .ok f) (hc : Copyable .v3 f)
    (hb : writeIc3 tbl so host e .v3 cv f = (some b, .ok ())) (hg : readIc3 integ' b = .ok g) (name : String) :
    g.cells.data.get? name = f.cells.data.get? name ∧ g.nodes.get? name = f.nodes.get? name := by
  obtain ⟨b', g', hb', hg', hk, _⟩ := C67_copy tbl tbl so so host e .v3 cv integ integ' file f h hc
  rw [hb] at hb'
  simp only [Prod.mk.injEq, Option.some.injEq, and_true] at hb'
  subst hb'
  rw [hg] at hg'
  simp only [Except.ok.injEq] at hg'
  subst hg'
  obtain ⟨l, ha⟩ := accepted h
  obtain ⟨ver, at', hat, hv⟩ := ha.vars
  have key : ∀ a : NpArr, ReadValues a → stored .v3 cv a = a := by
    intro a hr
    obtain ⟨sh, d⟩ := a
    unfold ReadValues at hr
    cases d with
    | f64 l => simp [stored, isI64, NpArr.doubles]
    | i64 l => simp only at hr; simp [stored, isI64, hr.1]
    | other l => exact hr.elim
  refine ⟨?_, ?_⟩
  · rw [hk.cells name]
    cases hx : f.cells.data.get? name with
    | none => rfl
    | some a => rw [Option.map_some, key a (hv.cells _ (get?_mem hx)).1]
  · rw [hk.nodes name]
    cases hx : f.nodes.get? name with
    | none => rfl
    | some a => rw [Option.map_some, key a (hv.nodes _ (get?_mem hx)).2.2.2]

/-- What the commands read. -/
theorem input_ok {Loc : Type} {s : Fs Loc} {name : Name} {content : Bytes} (hin : s.content (s.resolve name) = some content)
    {f : FullMesh} (hf : readIc3 false content = .ok f) (hcell : f.mesh.ncell ≠ 0) : Convert.ic3Input s name = .ok f := by
  unfold Convert.ic3Input
  rw [hin]
  unfold readIc3 at hf
  obtain ⟨r, hr, hx⟩ := bind_eq_ok.1 hf
  simp only [hr, Except_bind_ok]
  rw [if_neg ?_]
  · exact hx
  · intro h0
    unfold exportMesh at hx
    obtain ⟨m1, h1, hx⟩ := bind_eq_ok.1 hx
    obtain ⟨c, _, hx⟩ := bind_eq_ok.1 hx
    obtain ⟨m2, h2, hx⟩ := bind_eq_ok.1 hx
    simp only [Except_pure, Except.ok.injEq] at hx
    subst hx
    unfold Mesh.setCoordsNd at h1
    obtain ⟨_, _, h1⟩ := bind_eq_ok.1 h1
    simp only [Except_pure, Except.ok.injEq] at h1
    subst h1
    unfold Mesh.addFaces at h2
    rw [if_pos (by simp [Mesh.faceKinds])] at h2
    simp only [Except.ok.injEq] at h2
    apply hcell
    simp only [← h2, foldl_addBoco]
    simp [Mesh.new, h0]

/-- C67, the commands `cfdwrite_ic3v2` and `cfdwrite_ic3v3` on an IC3 file with at least one cell: they succeed, the name
returned is that of a new file, no other file changes; the new file has the same mesh and data. -/
theorem C67_command {Loc : Type} [DecidableEq Loc] (so : List Int → List Int) (host : Order) (e : Endian) (v : Ver)
    (cv : Conv) (s : Fs Loc) (hfin : ∀ folder : PyPath, FiniteFolder s.has folder) (filename : Name)
    (hname : (PyPath.parse filename).name ≠ []) (outpath : Option Name) (content : Bytes)
    (hin : s.content (s.resolve (PyPath.parse filename).str) = some content) (f : FullMesh)
    (hf : readIc3 false content = .ok f) (hcell : f.mesh.ncell ≠ 0) (hc : Copyable v f) (integ : Bool) :
    ∃ n s' name b g, (∀ fuel, n ≤ fuel → Convert.ic3ToIc3 so host e v cv s fuel filename outpath = some (s', .ok name)) ∧
      s.content (s.resolve name) = none ∧ (∀ l, l ≠ s.resolve name → s'.content l = s.content l) ∧
      s'.content (s.resolve name) = some b ∧ readIc3 integ b = .ok g ∧ Kept v cv f g := by
  obtain ⟨b, g, hb, hg, hk, _⟩ := C67_copy cgnsElem2faces cgnsElem2faces so so host e v cv false integ content f hf hc
  have hread := input_ok hin hf hcell
  have hout : Convert.ic3Output cgnsElem2faces so host e v cv f = .inr (b, .ok ()) := by
    unfold Convert.ic3Output
    rw [hb]
  obtain ⟨n, s', name, hrun⟩ := C36_conversion_succeeds Convert.ic3Input .ok .ok
    (Convert.ic3Output cgnsElem2faces so host e v cv) "ic3".toList (by decide) (by decide) s filename hname outpath hfin
    f f f b hread rfl rfl hout
  obtain ⟨h1, ⟨m0, m1, m2, b', r0, r1, r2, r3, r4⟩, h2⟩ :=
    C36_conversion_writes_new_file _ _ _ _ _ (by decide) _ _ _ _ _ _ (hrun n (Nat.le_refl _))
  cases r1; cases r2
  rw [hread] at r0
  simp only [Except.ok.injEq] at r0
  subst r0
  rw [hout] at r3
  simp only [Sum.inr.injEq, Prod.mk.injEq, and_true] at r3
  subst r3
  exact ⟨n, s', name, b, g, hrun, h1, h2, r4, hg, hk⟩

/-- C60, names, marks and data of any accepted file: names that the format can hold; zones of known types, as ranges
with 16 periodic values; one value per node in node data; one or several rows per cell in cell data. -/
theorem C60_content (integ : Bool) (file : Bytes) (f : FullMesh) (h : readIc3 integ file = .ok f) :
    (∀ p ∈ f.mesh.bocos, UserName p.1 ∧ p.2.name = p.1 ∧ p.2.type ∈ zoneTypes ∧ (∃ a b, p.2.index = .range a b) ∧
      ∃ r, p.2.perio = some r ∧ r.length = 16) ∧
    (∀ p ∈ f.nodes, UserName p.1 ∧ p.2.shape = [f.mesh.nnode] ∧ p.2.size = f.mesh.nnode) ∧
    ∀ p ∈ f.cells.data, UserName p.1 ∧ ∃ d, 0 < d ∧ GoodArr (d * f.mesh.ncell) p.2 := by
  obtain ⟨l, ha⟩ := accepted h
  obtain ⟨ver, at', hat, hv⟩ := ha.vars
  refine ⟨?_, ?_, ?_⟩
  · intro p hp
    obtain ⟨h1, h2⟩ := ha.marks p hp
    obtain ⟨a, b, hi, _⟩ := h2.index
    exact ⟨ha.names.marks p hp, h1, h2.type, ⟨a, b, hi⟩, h2.perio⟩
  · intro p hp
    obtain ⟨_, h1, h2, _⟩ := hv.nodes p hp
    exact ⟨hv.nodeNames p hp, by simpa using h1, by simpa using h2⟩
  · intro p hp
    obtain ⟨_, d, hd, _, _, hg, _⟩ := hv.cells p hp
    refine ⟨hv.cellNames p hp, d.toNat, by omega, ?_⟩
    obtain ⟨k, rfl⟩ := Int.eq_ofNat_of_zero_le (show 0 ≤ d by omega)
    have e : ((k : Int) * (f.mesh.ncell : Int)).toNat = k * f.mesh.ncell := by
      rw [← Int.natCast_mul, Int.toNat_natCast]
    simp only [Int.ofNat_eq_natCast, e] at hg
    simpa using hg

/-! ## Cases -/

/-- The V3 file of `twoTetra`. -/
def twoTetraFile : Bytes := (writeIc3 cgnsElem2faces id .little .native .v3 noConv twoTetra).1.getD []

/-- What is read from this file. -/
def twoTetraRead : FullMesh where
  mesh :=
    { ncell := 2, nnode := 5, nface := 7, cell2node := none
      faces := [("mixed", ⟨⟨7, [("tri3", ⟨.list [0, 1, 2, 3, 4, 5, 6], ⟨some 3,
        [[0, 2, 1], [0, 1, 3], [0, 3, 2], [1, 2, 4], [2, 3, 4], [3, 1, 4], [1, 2, 3]]⟩⟩)]⟩,
        some (some [(0, -1), (0, -1), (0, -1), (1, -1), (1, -1), (1, -1), (0, 1)])⟩)]
      coords := some ([0, 1, 0, 0, 1], [0, 0, 1, 0, 1], [0, 0, 0, 1, 1])
      bocos := [("b", ⟨"b", .bdface, "perio_cart", .range 3 5, some ([1, 2, 3] ++ List.replicate 13 0)⟩),
        ("a", ⟨"a", .bdface, "boundary", .range 0 2, some (List.replicate 16 0)⟩),
        ("internal-domain", ⟨"internal-domain", .intface, "internal", .range 6 6, some (List.replicate 16 0)⟩)] }
  cells := ⟨some ⟨.dataSet, "cellaverage", 1, "instant"⟩,
    [("P", ⟨[2], .f64 [7, 8]⟩), ("I", ⟨[2], .i64 [-1, 4]⟩), ("U", ⟨[2, 3], .f64 [1, 2, 3, 4, 5, 6]⟩)]⟩
  nodes := [("X", ⟨[5], .f64 [1, 2, 3, 4, 5]⟩)]
  params := [("no_count", .int 5), ("fa_count", .int 7), ("cv_count", .int 2), ("noofa_count", .int 21), ("nboco", .int 3),
    ("nfa_b", .int 6), ("nfa_bp", .int 0), ("step", .int 3), ("dt", .f64 0), ("time", .f64 5), ("wgt", .wgts [])]
  partition := some (some ⟨some 2, .arr [0, 1]⟩)

example : (readIc3 true twoTetraFile).toOption = some twoTetraRead := by decide +kernel

-- it can be copied by both versions
theorem twoTetra_copyable (v : Ver) : Copyable v twoTetraRead where
  counts := by decide
  zones := by
    intro p hp ht
    simp only [twoTetraRead, List.mem_cons, List.not_mem_nil, or_false] at hp
    rcases hp with rfl | rfl | rfl
    · refine ⟨by simp, fun a b h => ?_⟩
      simp only [IndexList.range.injEq] at h
      obtain ⟨rfl, rfl⟩ := h
      decide
    · refine ⟨by simp, fun a b h => ?_⟩
      simp only [IndexList.range.injEq] at h
      obtain ⟨rfl, rfl⟩ := h
      decide
    · exact absurd rfl ht
  part := ⟨2, [0, 1], rfl⟩
  step := ⟨3, rfl⟩
  wgt := rfl
  rows := by cases v <;> decide
  dof := by cases v <;> decide
  tensors := by decide

-- and its V2 file, read, is written back as the same bytes: the hypothesis of `C67_v2_v3_v2`
example :
    let file := (writeIc3 cgnsElem2faces id .little .native .v2 noConv twoTetra).1.getD []
    (match readIc3 true file with
      | .error _ => false
      | .ok f => match writeIc3 cgnsElem2faces id .little .native .v2 noConv f with
        | (some b, .ok ()) => b.length == file.length && (b.zip file).all fun p => p.1.toNat == p.2.toNat
        | _ => false) = true := by decide +kernel

theorem twoTetraFile_read (integ : Bool) : readIc3 integ twoTetraFile = .ok twoTetraRead := by
  have h : (readIc3 integ twoTetraFile).toOption = some twoTetraRead := by cases integ <;> decide +kernel
  cases hr : readIc3 integ twoTetraFile with
  | ok r => rw [hr] at h; exact congrArg Except.ok (Option.some.inj h)
  | error e => rw [hr] at h; cases h

/-- C60 and C67 applied to this file. -/
example := C60_content true twoTetraFile twoTetraRead (twoTetraFile_read true)
example (e : Endian) (v : Ver) (cv : Conv) := C67_copy cgnsElem2faces gmshElem2faces id id .little e v cv true false
  twoTetraFile twoTetraRead (twoTetraFile_read true) (twoTetra_copyable v)
example (cv : Conv) : ∃ b b' g, writeIc3 cgnsElem2faces id .big .native .v2 cv twoTetraRead = (some b', .ok ()) ∧
    writeIc3 cgnsElem2faces id .little .big .v3 cv twoTetraRead = (some b, .ok ()) ∧ readIc3 true b = .ok g ∧
    writeIc3 gmshElem2faces id .big .native .v2 cv g = (some b', .ok ()) := by
  obtain ⟨b', -, h', -⟩ := C67_copy cgnsElem2faces gmshElem2faces id id .big .native .v2 cv true false
    twoTetraFile twoTetraRead (twoTetraFile_read true) (twoTetra_copyable .v2)
  obtain ⟨b, g, h1, h2, h3⟩ := C67_through cgnsElem2faces gmshElem2faces id id .little .big .big .native .v3 .v2 cv true true
    twoTetraFile b' twoTetraRead (twoTetraFile_read true) (twoTetra_copyable .v3) h' (by intro h; cases h)
  exact ⟨b, b', g, h', h1, h2, h3⟩
example (cv : Conv) (name : String) : ∃ b g, writeIc3 cgnsElem2faces id .little .big .v3 cv twoTetraRead = (some b, .ok ()) ∧
    readIc3 true b = .ok g ∧ g.nodes.get? name = twoTetraRead.nodes.get? name := by
  obtain ⟨b, g, h1, h2, -⟩ := C67_copy cgnsElem2faces gmshElem2faces id id .little .big .v3 cv true true
    twoTetraFile twoTetraRead (twoTetraFile_read true) (twoTetra_copyable .v3)
  exact ⟨b, g, h1, h2, (C67_v3_exact id .little .big cv true true cgnsElem2faces twoTetraFile twoTetraRead g b (twoTetraFile_read true)
    (twoTetra_copyable .v3) h1 h2 name).2⟩
/-- The file as `m.ic3` in an otherwise empty folder. -/
def twoTetraFs : Fs Name := ⟨id, fun l => if l = "m.ic3".toList then some twoTetraFile else none⟩

theorem twoTetraFs_content : twoTetraFs.content (twoTetraFs.resolve (PyPath.parse "m.ic3".toList).str) = some twoTetraFile := by
  unfold twoTetraFs
  simp only [id_eq]
  rw [if_pos (by decide)]

example (cv : Conv) (v : Ver) := C67_command id .little .native v cv twoTetraFs (oneFile_finite _ _) "m.ic3".toList (by decide) none
  twoTetraFile twoTetraFs_content twoTetraRead (twoTetraFile_read false) (by decide) (twoTetra_copyable v) true

/-- The conditions on zones are needed: the reader only looks at the first face of a zone. In this file of a tetrahedron
the zone `wall` ends at face 9, of 4 faces. -/
def wideZoneFile : Bytes := ((writeIc3 cgnsElem2faces id .little .native .v2 noConv tetra).1.getD []).set 1756 9

/-- Such a file is accepted, and its copy is written without exception, but the copy cannot be read. -/
theorem C67_zone_range_needed :
    (match readIc3 true wideZoneFile with
      | .error _ => none
      | .ok f => match writeIc3 cgnsElem2faces id .little .native .v2 noConv f with
        | (some b, .ok ()) => some (f.mesh.nface, f.mesh.bocos.get? "wall" |>.map (·.index), (readIc3 true b).toOption.isSome)
        | _ => none) = some (4, some (.range 0 9), false) := by decide +kernel

end Cfd.Ic3
