import Verif.Lemmas.Registry

/-!
# Format registry and format detection (C38)
-/

namespace Cfd
open Spec

variable {C : Type}

/-- **C38** (detection). After any history of registrations, a file name is attributed to the format `f`
exactly when `f` is the only format whose last registration gives the suffix of the name; the reader and
the writer are the last ones registered for `f`. -/
theorem C38_detects_iff (h : List (Registration C)) (filename : Name) (f : String) (rd wr : Option C) :
    parseFormat (registerAll h) none filename = .ok (f, rd, wr) ↔
      (∀ g, LastExt h g (PyPath.parse filename).suffix ↔ g = f) ∧
      LastClass h true f rd ∧ LastClass h false f wr := by
  have hm := mem_candidates h (PyPath.parse filename).suffix
  have hn := nodup_candidates h (PyPath.parse filename).suffix
  unfold parseFormat
  simp only
  generalize ((registerAll h).filter fun p =>
    decide (p.2.ext = (PyPath.parse filename).suffix)).map (·.1) = l at hm hn ⊢
  constructor
  · intro hp
    match l, hm, hn, hp with
    | [], _, _, hp => simp at hp
    | [a], hm, _, hp =>
        obtain ⟨p, hg, hp⟩ := bind_eq_ok.1 hp
        simp only [Except_pure, Except.ok.injEq, Prod.mk.injEq] at hp
        obtain ⟨rfl, rfl, rfl⟩ := hp
        obtain ⟨-, h2, h3⟩ := (get?_registerAll h a p).1 (Dict.getE_eq_ok.1 hg)
        exact ⟨fun g => by rw [← hm g]; simp, h2, h3⟩
    | _ :: _ :: _, _, _, hp => simp at hp
  · rintro ⟨h1, h2, h3⟩
    have hl : l = [f] := eq_singleton_of hn f (fun g => (hm g).trans (h1 g))
    subst hl
    have hext := (h1 f).2 rfl
    have hg := (get?_registerAll h f ⟨rd, wr, (PyPath.parse filename).suffix⟩).2 ⟨hext, h2, h3⟩
    simp only
    rw [Dict.getE_eq_ok.2 hg]
    rfl

/-- A history with two formats, one of them registered twice. -/
private def threeRegs : List (Registration Nat) :=
  [⟨true, "IC3", ".ic3".toList, 1⟩, ⟨false, "IC3", ".ic3".toList, 2⟩, ⟨true, "GMSH", ".msh".toList, 3⟩,
   ⟨false, "IC3", ".ic3".toList, 4⟩]

example : parseFormat (registerAll threeRegs) none "dir.msh/x.ic3".toList =
    .ok ("IC3", some 1, some 4) := by decide

/-- **C38** (refusal). Without `--fmt`, the command stops with an error exactly when no format or several
formats have the suffix. -/
theorem C38_refuses_iff (h : List (Registration C)) (filename : Name) :
    (∃ e, parseFormat (registerAll h) none filename = .error e) ↔
      ¬ ∃ f, ∀ g, LastExt h g (PyPath.parse filename).suffix ↔ g = f := by
  constructor
  · rintro ⟨e, he⟩ ⟨f, hf⟩
    have hext := (hf f).2 rfl
    obtain ⟨x, hx, -⟩ := (lastExt_iff h f _).1 hext
    obtain ⟨-, h2, h3⟩ := (get?_registerAll h f x).1 hx
    rw [(C38_detects_iff h filename f x.reader x.writer).2 ⟨hf, h2, h3⟩] at he
    simp at he
  · intro hno
    cases hp : parseFormat (registerAll h) none filename with
    | error e => exact ⟨e, rfl⟩
    | ok r =>
        obtain ⟨f, rd, wr⟩ := r
        exact absurd ⟨f, ((C38_detects_iff h filename f rd wr).1 hp).1⟩ hno

example : parseFormat (registerAll threeRegs) none "x.vtu".toList = .error .runtime := by decide

/-- **C38** (explicit format). A format with a reader given by `--fmt` is used whatever the file name is;
any other name is refused by the command line parser. -/
theorem C38_explicit_format (h : List (Registration C)) (f : String) (dflt : Option String)
    (filename : Name) :
    ((∃ c, LastClass h true f (some c)) →
      fmtOption (registerAll h) (some f) dflt = .ok (some f) ∧
      ∃ rd wr, LastClass h true f rd ∧ LastClass h false f wr ∧
        parseFormat (registerAll h) (some f) filename = .ok (f, rd, wr)) ∧
    ((¬ ∃ c, LastClass h true f (some c)) →
      fmtOption (registerAll h) (some f) dflt = .error .exit) := by
  have key : f ∈ availableReaders (registerAll h) ↔ ∃ c, LastClass h true f (some c) := by
    unfold availableReaders
    simp only [List.mem_map, List.mem_filter]
    constructor
    · rintro ⟨⟨k, x⟩, ⟨hm, hs⟩, rfl⟩
      obtain ⟨c, hc⟩ := Option.isSome_iff_exists.1 hs
      have := ((get?_registerAll h k x).1 (Dict.get?_of_mem (nodup_registerAll h) hm)).2.1
      simp only at hc
      rw [hc] at this
      exact ⟨c, this⟩
    · rintro ⟨c, hc⟩
      obtain ⟨x, hx⟩ : ∃ x, (registerAll h).get? f = some x := by
        cases hg : (registerAll h).get? f with
        | some x => exact ⟨x, rfl⟩
        | none =>
            obtain ⟨pre, r, post, rfl, hn, -⟩ := hc
            exact absurd hn ((registerAll_none _ f).1 hg r (by simp))
      refine ⟨(f, x), ⟨Dict.mem_of_get? hx, ?_⟩, rfl⟩
      obtain ⟨h1, -, h3⟩ := (get?_registerAll h f x).1 hx
      have h4 := (get?_registerAll h f ⟨some c, x.writer, x.ext⟩).2 ⟨h1, hc, h3⟩
      rw [hx] at h4
      rw [Option.some.inj h4]
      rfl
  refine ⟨fun hc => ?_, fun hc => ?_⟩
  · have hm := key.2 hc
    refine ⟨by simp [fmtOption, hm], ?_⟩
    unfold availableReaders at hm
    simp only [List.mem_map, List.mem_filter] at hm
    obtain ⟨⟨k, x⟩, ⟨hm, -⟩, rfl⟩ := hm
    have hg := Dict.get?_of_mem (nodup_registerAll h) hm
    obtain ⟨-, h2, h3⟩ := (get?_registerAll h k x).1 hg
    refine ⟨x.reader, x.writer, h2, h3, ?_⟩
    simp only [parseFormat]
    rw [Dict.getE_eq_ok.2 hg]
    rfl
  · have hm : f ∉ availableReaders (registerAll h) := fun hm => hc (key.1 hm)
    simp [fmtOption, hm]

example : fmtOption (registerAll threeRegs) (some "GMSH") none = .ok (some "GMSH") ∧
    fmtOption (registerAll threeRegs) (some "VTK") none = .error .exit ∧
    parseFormat (registerAll threeRegs) (some "GMSH") "x.ic3".toList = .ok ("GMSH", some 3, none) := by
  decide

/-- **C38** (nothing is discarded). Registering a reader keeps the writers of all formats, and
registering a writer keeps the readers. -/
theorem C38_other_kind_kept (h : List (Registration C)) (r : Registration C) (f : String)
    (c : Option C) (hc : LastClass h (!r.isReader) f c) : LastClass (h ++ [r]) (!r.isReader) f c := by
  rw [lastClass_append]
  right
  refine ⟨?_, hc⟩
  rintro ⟨-, h2⟩
  cases hb : r.isReader <;> rw [hb] at h2 <;> simp at h2

/-- The writer of IC3 after one more reader. -/
example : LastClass (threeRegs ++ [⟨true, "IC3", ".ic3".toList, 9⟩]) false "IC3" (some 4) :=
  C38_other_kind_kept threeRegs ⟨true, "IC3", ".ic3".toList, 9⟩ "IC3" (some 4)
    ((C38_detects_iff threeRegs "x.ic3".toList "IC3" (some 1) (some 4)).1 (by decide)).2.2

/-- The registrations made when the command line tools are imported: IC3, GMSH, CGNS, VTK
(_cli.py:11-15, ic3/__init__.py:1-4, reader_legacy.py:55, writerV2.py:22, writerV3.py:21, gmsh/reader.py:19,
cgns/cgns.py:147, vtk/_vtk.py:45). The V4 classes are not imported. -/
def shipped : List (Registration String) :=
  [⟨true, "IC3", ".ic3".toList, "ic3.reader"⟩, ⟨false, "IC3", ".ic3".toList, "writerV2"⟩,
   ⟨false, "IC3", ".ic3".toList, "writerV3"⟩, ⟨true, "GMSH", ".msh".toList, "gmsh.reader"⟩,
   ⟨true, "CGNS", ".cgns".toList, "cgns.cgnsMesh"⟩, ⟨false, "VTK", ".vtu".toList, "vtkMesh"⟩]

/-- **C38** (the tools as shipped). The suffix decides: `.ic3`, `.msh`, `.cgns` give a format with a
reader, `.vtu` a format without reader, and every other suffix is refused. -/
theorem C38_shipped (filename : Name) :
    parseFormat (registerAll shipped) none filename =
      (let e := (PyPath.parse filename).suffix
       if e = ".ic3".toList then .ok ("IC3", some "ic3.reader", some "writerV3")
       else if e = ".msh".toList then .ok ("GMSH", some "gmsh.reader", none)
       else if e = ".cgns".toList then .ok ("CGNS", some "cgns.cgnsMesh", none)
       else if e = ".vtu".toList then .ok ("VTK", none, some "vtkMesh")
       else .error .runtime) := by
  have hr : registerAll shipped =
      [("IC3", ⟨some "ic3.reader", some "writerV3", ".ic3".toList⟩),
       ("GMSH", ⟨some "gmsh.reader", none, ".msh".toList⟩),
       ("CGNS", ⟨some "cgns.cgnsMesh", none, ".cgns".toList⟩),
       ("VTK", ⟨none, some "vtkMesh", ".vtu".toList⟩)] := by decide
  unfold parseFormat
  rw [hr]
  generalize (PyPath.parse filename).suffix = e
  by_cases h1 : e = ".ic3".toList
  · subst h1; decide
  by_cases h2 : e = ".msh".toList
  · subst h2; decide
  by_cases h3 : e = ".cgns".toList
  · subst h3; decide
  by_cases h4 : e = ".vtu".toList
  · subst h4; decide
  have e1 : decide (".ic3".toList = e) = false := decide_eq_false fun h => h1 h.symm
  have e2 : decide (".msh".toList = e) = false := decide_eq_false fun h => h2 h.symm
  have e3 : decide (".cgns".toList = e) = false := decide_eq_false fun h => h3 h.symm
  have e4 : decide (".vtu".toList = e) = false := decide_eq_false fun h => h4 h.symm
  simp only [List.filter, e1, e2, e3, e4, List.map, h1, h2, h3, h4, if_false]

end Cfd
