import Verif.Spec.SeriesDump
import Verif.Lemmas.Files
import Verif.Props.Files
import Verif.Props.Xdmf
import Verif.Model.VtkPack

/-!
# A dumped series and its description on disk (C90)
-/

namespace Cfd.SeriesDump
open Cfd.Vtk Cfd.Xdmf Cfd.Spec Cfd.Spec.Vtk Cfd.Spec.Xdmf Cfd.Spec.SeriesDump

variable {R V T Loc : Type} [DecidableEq Loc]

/-! ## The files -/

omit [DecidableEq Loc] in
theorem series_split {g : Grid (R × R × R)} {d : DataSetList V T} {h : H5 R V T} (hh : seriesHdf g d = .ok h) :
    ∃ m, exportMesh g = .ok m ∧ dumpHdf m d = .ok h := by
  unfold seriesHdf at hh
  exact bind_eq_ok.1 hh

theorem writeStr_self {s : Fs Loc} {n : Name} {b : List UInt8} {l : Loc} (h : l = s.resolve n) :
    (s.writeStr n b).content l = some b := if_pos h

theorem writeStr_other {s : Fs Loc} {n : Name} {b : List UInt8} {l : Loc} (h : l ≠ s.resolve n) :
    (s.writeStr n b).content l = s.content l := if_neg h

theorem write_other {s : Fs Loc} {p : PyPath} {b : List UInt8} {l : Loc} (h : l ≠ s.resolve p.str) :
    (s.write p b).content l = s.content l := if_neg h

theorem dumped_both {s : Fs Loc} {p : PyPath} {bytes text : List UInt8} :
    Dumped s ((s.write p bytes).writeStr (xmfName p.str) text) p.str (xmfName p.str) bytes text where
  names := rfl
  description := by simp [Fs.write, Fs.writeStr]
  arrays h := by simp [Fs.write, Fs.writeStr, Ne.symm h]
  others l h1 h2 := by simp [Fs.write, Fs.writeStr, h1, h2]

/-- What is written once the path of the HDF5 file is known. -/
theorem dump_ok (env : DumpEnv R V T) (s : Fs Loc) (fuel : Nat) (filename : Name) (overwrite : Bool) (p : PyPath)
    (ht : target s fuel filename overwrite = some p) (g : Grid (R × R × R)) (d : DataSetList V T)
    (h : H5 R V T) (hh : seriesHdf g d = .ok h) (lines : List String)
    (hx : seriesXdmf env.shape g d (String.ofList p.str) = .ok lines) :
    dumpSeries env s fuel filename overwrite true g d =
      some ((s.write p (env.enc h)).writeStr (xmfName p.str) (env.text (String.intercalate "\n" lines)), .ok p.str) := by
  obtain ⟨m, h1, h2⟩ := series_split hh
  unfold dumpSeries
  rw [h1]; dsimp only
  rw [ht]; dsimp only
  rw [h2]
  simp only [if_true, dumpXmf, hx]

/-- **C90** (both files). A series that can be described, dumped with its description and without `overwrite` in a folder with
finitely many files: the name returned is free and it is the first free one; the HDF5 file holds the series; the file beside it,
whose name is the same one with the extension `.xmf`, holds the text of a document whose references are this name and the paths of
the arrays of each step; all other files are as before. -/
theorem C90_both (env : DumpEnv R V T) (s : Fs Loc) (filename : Name) (g : Grid (R × R × R)) (d : DataSetList V T)
    (hd : Describable g env.shape d) (hfin : FiniteFolder s.has (PyPath.parse filename).parent) :
    ∃ n changed p xmf h grids s', SafeName s.has (PyPath.parse filename) changed p ∧ DescriptionName p.str xmf ∧
      seriesHdf g d = .ok h ∧ Describes env.shape g d h (String.ofList p.str) grids ∧
      Dumped s s' p.str xmf (env.enc h) (env.text (documentText grids)) ∧
      ∀ fuel, n ≤ fuel → dumpSeries env s fuel filename false true g d = some (s', .ok p.str) := by
  obtain ⟨n, changed, p, hn⟩ := C35_terminates s.has filename hfin
  obtain ⟨h, grids, h1, h2, h3, h4⟩ := C52_document env.shape g d (String.ofList p.str) hd
  refine ⟨n, changed, p, xmfName p.str, h, grids, _, C35_safe_name _ _ _ _ _ (hn n le_rfl), xmfName_spec _, h1, ⟨h3, h4⟩,
    dumped_both, fun fuel hf => ?_⟩
  exact dump_ok env s fuel filename false p (by simp [target, hn fuel hf]) g d h h1 _ h2

/-- **C90** (both files, given name). With `overwrite` the same files are written at the name given, whatever they held. -/
theorem C90_both_overwrite (env : DumpEnv R V T) (s : Fs Loc) (filename : Name) (g : Grid (R × R × R)) (d : DataSetList V T)
    (hd : Describable g env.shape d) :
    ∃ xmf h grids s', DescriptionName (PyPath.parse filename).str xmf ∧ seriesHdf g d = .ok h ∧
      Describes env.shape g d h (String.ofList (PyPath.parse filename).str) grids ∧
      Dumped s s' (PyPath.parse filename).str xmf (env.enc h) (env.text (documentText grids)) ∧
      ∀ fuel, dumpSeries env s fuel filename true true g d = some (s', .ok (PyPath.parse filename).str) := by
  obtain ⟨h, grids, h1, h2, h3, h4⟩ := C52_document env.shape g d (String.ofList (PyPath.parse filename).str) hd
  exact ⟨xmfName _, h, grids, _, xmfName_spec _, h1, ⟨h3, h4⟩, dumped_both,
    fun fuel => dump_ok env s fuel filename true _ (by simp [target]) g d h h1 _ h2⟩

/-- **C90** (without description). Without `xdmf` only the HDF5 file is written. -/
theorem C90_alone (env : DumpEnv R V T) (s : Fs Loc) (fuel : Nat) (filename : Name) (overwrite : Bool) (g : Grid (R × R × R))
    (d : DataSetList V T) (s' : Fs Loc) (name : Name)
    (h : dumpSeries env s fuel filename overwrite false g d = some (s', .ok name)) :
    ∃ f, seriesHdf g d = .ok f ∧ s'.content (s.resolve name) = some (env.enc f) ∧
      ∀ l, l ≠ s.resolve name → s'.content l = s.content l := by
  unfold dumpSeries at h
  split at h
  · simp at h
  rename_i m hm
  split at h
  · simp at h
  rename_i p hp
  split at h
  · simp at h
  rename_i f hf
  simp only [Bool.false_eq_true, if_false, Option.some.injEq, Prod.mk.injEq, Except.ok.injEq] at h
  obtain ⟨rfl, rfl⟩ := h
  refine ⟨f, by unfold seriesHdf; rw [hm]; exact hf, by simp [Fs.write], fun l hl => by simp [Fs.write, hl]⟩

/-- **C90** (no description). A grid with line cells (KeyError), or an array which has neither one nor two dimensions (ValueError):
the call raises, the HDF5 file is complete at the path chosen, and every other file, an earlier description included, is as before. -/
theorem C90_not_describable (env : DumpEnv R V T) (s : Fs Loc) (fuel : Nat) (filename : Name) (overwrite : Bool) (p : PyPath)
    (hp : if overwrite then p = PyPath.parse filename else ∃ c, findSafe s.has fuel (PyPath.parse filename) = some (c, p))
    (g : Grid (R × R × R)) (d : DataSetList V T) (hg : KnownCells g) (hn : ∀ s ∈ d.steps, s.1.keys.Nodup)
    (hbad : cellsOfType g 3 ≠ [] ∨
      ∃ s ∈ d.steps, ∃ p ∈ s.1, p.1 ≠ "time" ∧ (env.shape p.2).length ≠ 1 ∧ (env.shape p.2).length ≠ 2) :
    ∃ h s', seriesHdf g d = .ok h ∧
      dumpSeries env s fuel filename overwrite true g d =
        some (s', .error (if cellsOfType g 3 ≠ [] then .key else .value)) ∧
      s'.content (s.resolve p.str) = some (env.enc h) ∧ ∀ l, l ≠ s.resolve p.str → s'.content l = s.content l := by
  obtain ⟨h, c, e, -⟩ := seriesHdf_ok hg hn
  have ht : target s fuel filename overwrite = some p := by
    unfold target
    cases overwrite with
    | true => simp only [if_true] at hp ⊢; rw [hp]
    | false =>
      simp only [Bool.false_eq_true, if_false] at hp ⊢
      obtain ⟨c, hc⟩ := hp
      rw [hc]; rfl
  have hx : seriesXdmf env.shape g d (String.ofList p.str) = .error (if cellsOfType g 3 ≠ [] then .key else .value) := by
    by_cases h3 : cellsOfType g 3 = []
    · rw [if_neg (by simp [h3])]
      exact C52_dimensions _ _ _ _ hg h3 (hbad.resolve_left (by simp [h3]))
    · rw [if_pos h3]
      exact (C52_line_cells _ _ _ _ hg h3 hn).2
  obtain ⟨m, h1, h2⟩ := series_split e
  refine ⟨h, s.write p (env.enc h), e, ?_, by simp [Fs.write], fun l hl => by simp [Fs.write, hl]⟩
  unfold dumpSeries
  rw [h1]; dsimp only
  rw [ht]; dsimp only
  rw [h2]
  simp only [if_true, dumpXmf, hx]

/-- What a call may change. -/
theorem dump_changes (env : DumpEnv R V T) (s : Fs Loc) (fuel : Nat) (filename : Name) (xdmf : Bool) (g : Grid (R × R × R))
    (d : DataSetList V T) (s' : Fs Loc) (r : Py Name) (h : dumpSeries env s fuel filename false xdmf g d = some (s', r)) :
    (s' = s ∧ ∃ e, r = .error e) ∨ ∃ changed p, SafeName s.has (PyPath.parse filename) changed p ∧ s'.resolve = s.resolve ∧
      (∀ n, r = .ok n → n = p.str) ∧
      ∀ l, s'.content l ≠ s.content l → l = s.resolve p.str ∨ (xdmf = true ∧ r = .ok p.str ∧ l = s.resolve (xmfName p.str)) := by
  unfold dumpSeries at h
  split at h
  · simp only [Option.some.injEq, Prod.mk.injEq] at h
    exact .inl ⟨h.1.symm, _, h.2.symm⟩
  rename_i m hm
  split at h
  · simp at h
  rename_i p hp
  unfold target at hp
  simp only [Bool.false_eq_true, if_false, Option.map_eq_some_iff] at hp
  obtain ⟨⟨c, q⟩, hq, rfl⟩ := hp
  refine .inr ⟨c, q, C35_safe_name _ _ _ _ _ hq, ?_⟩
  have hw : ∀ b l, (s.write q b).content l ≠ s.content l → l = s.resolve q.str := by
    intro b l hl
    by_contra hne
    exact hl (by simp [Fs.write, hne])
  split at h
  · simp only [Option.some.injEq, Prod.mk.injEq] at h
    obtain ⟨rfl, rfl⟩ := h
    exact ⟨rfl, fun n hn => by simp at hn, fun l hl => .inl (hw _ l hl)⟩
  rename_i f hf
  cases xdmf with
  | false =>
    simp only [Bool.false_eq_true, if_false, Option.some.injEq, Prod.mk.injEq] at h
    obtain ⟨rfl, rfl⟩ := h
    exact ⟨rfl, fun n hn => by simpa using hn.symm, fun l hl => .inl (hw _ l hl)⟩
  | true =>
    simp only [if_true, Option.some.injEq, dumpXmf] at h
    split at h
    · simp only [Prod.mk.injEq] at h
      obtain ⟨rfl, rfl⟩ := h
      exact ⟨rfl, fun n hn => by simp at hn, fun l hl => .inl (hw _ l hl)⟩
    · simp only [Prod.mk.injEq] at h
      obtain ⟨rfl, rfl⟩ := h
      refine ⟨rfl, fun n hn => by simpa using hn.symm, fun l hl => ?_⟩
      by_cases hx : l = s.resolve (xmfName q.str)
      · exact .inr ⟨rfl, rfl, hx⟩
      · left
        apply hw (env.enc f) l
        intro he
        apply hl
        rw [← he]
        show (if l = (s.write q (env.enc f)).resolve (xmfName q.str) then _ else _) = _
        exact if_neg hx

/-- **C90** (refusals). Without `overwrite` a call that raises, for whatever reason, leaves all existing files as they were. -/
theorem C90_refusal_keeps_files (env : DumpEnv R V T) (s : Fs Loc) (fuel : Nat) (filename : Name) (xdmf : Bool)
    (g : Grid (R × R × R)) (d : DataSetList V T) (s' : Fs Loc) (e : PyErr)
    (h : dumpSeries env s fuel filename false xdmf g d = some (s', .error e))
    (l : Loc) (b : List UInt8) (hl : s.content l = some b) : s'.content l = some b := by
  rcases dump_changes env s fuel filename xdmf g d s' _ h with ⟨rfl, -⟩ | ⟨c, p, hs, -, -, hc⟩
  · exact hl
  · by_contra hne
    rcases hc l (by rw [hl]; exact hne) with rfl | ⟨-, h2, -⟩
    · have := hs.1
      simp only [Fs.has, hl] at this
      simp at this
    · simp at h2

/-- The HDF5 path chosen is in the folder of the name given and has the same extension. -/
theorem safe_ext {ex : PyPath → Bool} {p q : PyPath} {c : Bool} {base ext : Name} (hs : SafeName ex p c q)
    (hne : p.parts ≠ []) (hp : p.name = base ++ '.' :: ext) (hb : ∃ c ∈ base, c ≠ '.') (he : ext ≠ []) (hd : '.' ∉ ext) :
    ∃ b, q = child p.parent (b ++ '.' :: ext) ∧ (∃ c ∈ b, c ≠ '.') ∧ ('/' ∉ base → '/' ∉ b) := by
  obtain ⟨x, hx, hxd⟩ := hb
  have hself : p = child p.parent p.name := by
    obtain ⟨root, parts⟩ := p
    simp only [child, PyPath.parent, PyPath.name, PyPath.mk.injEq, true_and]
    simp only at hne
    rw [List.getLast?_eq_some_getLast hne]
    exact (List.dropLast_append_getLast hne).symm
  rcases hs with ⟨-, ⟨-, rfl⟩ | ⟨-, -, stem, suff, i, h1, -, rfl, -⟩⟩
  · exact ⟨base, by rw [← hp]; exact hself, ⟨x, hx, hxd⟩, id⟩
  · have h2 : NameParts p.name base ('.' :: ext) :=
      ⟨hp, .inr ⟨by rintro rfl; simp at hx, ext, he, hd, rfl⟩⟩
    obtain ⟨rfl, rfl⟩ := nameParts_unique h1 h2
    refine ⟨stem ++ ('(' :: Nat.toDigits 10 i ++ [')']), rfl, ⟨x, by simp [hx], hxd⟩, fun hsl => ?_⟩
    simp [hsl, toDigits_no_slash]

/-- The description of a file of a folder. -/
theorem xmfName_child (folder : PyPath) {b ext : Name} (hb : ∃ c ∈ b, c ≠ '.') (hs : '/' ∉ b) (hd : '.' ∉ ext) (hes : '/' ∉ ext) :
    xmfName (child folder (b ++ '.' :: ext)).str = (child folder (b ++ ".xmf".toList)).str := by
  obtain ⟨pre, hpre, h⟩ := child_str folder
  rw [h, h, xmfName, splitext_of_hasExt (root := pre ++ b) (ext := '.' :: ext)
    ⟨by simp, pre, b, ext, rfl, hpre, hs, hb, rfl, hd, hes⟩]
  simp

/-- **C90** (pairs are kept). In a folder where different names are different files: dumping to `base.ext` without `overwrite`, with
or without description, succeeding or not, keeps every existing file `other.ext` of the folder and its description `other.xmf`. So successive dumps to the same name never touch the files of one another. -/
theorem C90_pairs_kept (env : DumpEnv R V T) (s : Fs Loc) (fuel : Nat) (filename : Name) (xdmf : Bool)
    (g : Grid (R × R × R)) (d : DataSetList V T) (s' : Fs Loc) (r : Py Name)
    (h : dumpSeries env s fuel filename false xdmf g d = some (s', r))
    (hnl : NoLinks s (PyPath.parse filename).parent) (base ext : Name) (hp : (PyPath.parse filename).name = base ++ '.' :: ext)
    (hb : ∃ c ∈ base, c ≠ '.') (he : ext ≠ []) (hd : '.' ∉ ext)
    (other : Name) (ho : '/' ∉ other) (b : List UInt8)
    (hex : s.content (s.resolve (child (PyPath.parse filename).parent (other ++ '.' :: ext)).str) = some b) :
    s'.content (s.resolve (child (PyPath.parse filename).parent (other ++ '.' :: ext)).str) = some b ∧
    s'.content (s.resolve (child (PyPath.parse filename).parent (other ++ ".xmf".toList)).str) =
      s.content (s.resolve (child (PyPath.parse filename).parent (other ++ ".xmf".toList)).str) := by
  have hsl : '/' ∉ base ++ '.' :: ext := hp ▸ name_no_slash (parse_good filename)
  simp only [List.mem_append, List.mem_cons, not_or] at hsl
  have hne : (PyPath.parse filename).parts ≠ [] := by
    intro h0
    simp [PyPath.name, h0] at hp
  rcases dump_changes env s fuel filename xdmf g d s' r h with ⟨rfl, -⟩ | ⟨c, p, hs, -, -, hc⟩
  · exact ⟨hex, rfl⟩
  obtain ⟨b2, hq, hb2, hb2s⟩ := safe_ext hs hne hp hb he hd
  have hb2s := hb2s hsl.1
  have hfree := hs.1
  rw [hq] at hfree
  rw [hq, xmfName_child _ hb2 hb2s hd hsl.2.2] at hc
  have hxs : ('/' : Char) ∉ "xmf".toList ∧ ('.' : Char) ∉ "xmf".toList := by decide
  have ex : ∀ n : Name, n ++ ".xmf".toList = n ++ '.' :: "xmf".toList := fun _ => rfl
  have hbo : b2 ≠ other := by
    rintro rfl
    simp only [Fs.has, hex] at hfree
    simp at hfree
  have key : ∀ e2, '/' ∉ e2 → '.' ∉ e2 →
      s'.content (s.resolve (child (PyPath.parse filename).parent (other ++ '.' :: e2)).str) =
        s.content (s.resolve (child (PyPath.parse filename).parent (other ++ '.' :: e2)).str) := by
    intro e2 h1 h2
    by_contra hne
    rcases hc _ hne with h4 | ⟨-, -, h4⟩
    · have := hnl _ _ (by simp [ho, h1]) (by simp [hb2s, hsl.2.2]) h4
      exact hbo (append_dot_inj this h2 hd).1.symm
    · rw [ex] at h4
      have := hnl _ _ (by simp [ho, h1]) (by simp only [List.mem_append, List.mem_cons, not_or]; exact ⟨hb2s, by decide, hxs.1⟩) h4
      exact hbo (append_dot_inj this h2 hxs.2).1.symm
  exact ⟨(key ext hsl.2.2 hd).trans hex, key _ hxs.1 hxs.2⟩

/-- A free name of the current folder is used as it is. -/
theorem target_free {s : Fs Loc} {n : Name} (h0 : n ≠ []) (h1 : n ≠ ['.']) (h2 : '/' ∉ n)
    (hfree : s.content (s.resolve n) = none) (fuel : Nat) :
    target s (fuel + 1) n false = some (PyPath.parse n) ∧ (PyPath.parse n).str = n := by
  have hstr : (PyPath.parse n).str = n := by
    rw [parse_single n h0 h1 h2]
    simp [PyPath.str, List.intercalate]
  refine ⟨?_, hstr⟩
  simp only [target, findSafe, safeLoop, Fs.has, hstr, hfree]
  rfl

/-- **C90** fails for names ending with `.xmf`: for every series that can be described, dumping it with its description to a free
name `base.xmf` returns this name, whose file holds the description instead of the arrays: these are nowhere. -/
theorem C90_xmf_name_refuted (env : DumpEnv R V T) (s : Fs Loc) (base : Name) (hs : '/' ∉ base) (hb : ∃ c ∈ base, c ≠ '.')
    (hfree : s.content (s.resolve (base ++ ".xmf".toList)) = none) (g : Grid (R × R × R)) (d : DataSetList V T)
    (hd : Describable g env.shape d) (fuel : Nat) :
    ∃ grids s', dumpSeries env s (fuel + 1) (base ++ ".xmf".toList) false true g d = some (s', .ok (base ++ ".xmf".toList)) ∧
      s'.content (s.resolve (base ++ ".xmf".toList)) = some (env.text (documentText grids)) ∧
      ∀ l, l ≠ s.resolve (base ++ ".xmf".toList) → s'.content l = s.content l := by
  obtain ⟨ht, hstr⟩ := target_free (n := base ++ ".xmf".toList) (by simp)
    (by intro h; have := congrArg List.length h; simp at this) (by simp [hs]) hfree fuel
  obtain ⟨h, grids, h1, h2, -⟩ := C52_document env.shape g d (String.ofList (PyPath.parse (base ++ ".xmf".toList)).str) hd
  have h3 := dump_ok env s (fuel + 1) _ false _ ht g d h h1 _ h2
  have hx : xmfName (base ++ ".xmf".toList) = base ++ ".xmf".toList := by
    rw [xmfName, splitext_of_hasExt (root := base) (ext := ".xmf".toList)
      ⟨rfl, [], base, "xmf".toList, rfl, .inl rfl, hs, hb, rfl, by decide, by decide⟩]
  rw [hstr, hx] at h3
  refine ⟨grids, _, h3, writeStr_self rfl, fun l hl => ?_⟩
  exact (writeStr_other (s := s.write _ _) hl).trans (write_other (by rw [hstr]; exact hl))

/-- **C90** fails for names that differ by their extensions: dumping one series to `base.e1` and another one to `base.e2`, both free,
without `overwrite`: the file `base.xmf` of the first dump is replaced by the description of the second one. -/
theorem C90_two_extensions_refuted (env : DumpEnv R V T) (s : Fs Loc) (base e1 e2 : Name) (hs : '/' ∉ base)
    (hb : ∃ c ∈ base, c ≠ '.') (he1 : '/' ∉ e1 ∧ '.' ∉ e1) (he2 : '/' ∉ e2 ∧ '.' ∉ e2)
    (hf1 : s.content (s.resolve (base ++ '.' :: e1)) = none) (hf2 : s.content (s.resolve (base ++ '.' :: e2)) = none)
    (hne : s.resolve (base ++ '.' :: e2) ≠ s.resolve (base ++ '.' :: e1))
    (hnx : s.resolve (base ++ '.' :: e2) ≠ s.resolve (base ++ ".xmf".toList))
    (g1 g2 : Grid (R × R × R)) (d1 d2 : DataSetList V T) (hd1 : Describable g1 env.shape d1) (hd2 : Describable g2 env.shape d2)
    (fuel : Nat) :
    ∃ s1 s2 h1 grids1 h2 grids2,
      dumpSeries env s (fuel + 1) (base ++ '.' :: e1) false true g1 d1 = some (s1, .ok (base ++ '.' :: e1)) ∧
      Describes env.shape g1 d1 h1 (String.ofList (base ++ '.' :: e1)) grids1 ∧
      s1.content (s.resolve (base ++ ".xmf".toList)) = some (env.text (documentText grids1)) ∧
      dumpSeries env s1 (fuel + 1) (base ++ '.' :: e2) false true g2 d2 = some (s2, .ok (base ++ '.' :: e2)) ∧
      Describes env.shape g2 d2 h2 (String.ofList (base ++ '.' :: e2)) grids2 ∧
      s2.content (s.resolve (base ++ ".xmf".toList)) = some (env.text (documentText grids2)) := by
  have hname : ∀ e, base ++ '.' :: e ≠ [] ∧ base ++ '.' :: e ≠ ['.'] := by
    intro e
    obtain ⟨c, hc, hcd⟩ := hb
    cases base with
    | nil => simp at hc
    | cons x t => exact ⟨by simp, by intro h; have := congrArg List.length h; simp at this⟩
  have hx : ∀ e, '/' ∉ e ∧ '.' ∉ e → xmfName (base ++ '.' :: e) = base ++ ".xmf".toList := by
    intro e he
    rw [xmfName, splitext_of_hasExt (root := base) (ext := '.' :: e)
      ⟨rfl, [], base, e, rfl, .inl rfl, hs, hb, rfl, he.2, he.1⟩]
  obtain ⟨ht1, hs1⟩ := target_free (hname e1).1 (hname e1).2 (by simp [hs, he1.1]) hf1 fuel
  obtain ⟨h1, grids1, a1, a2, a3, a4⟩ := C52_document env.shape g1 d1 (String.ofList (PyPath.parse (base ++ '.' :: e1)).str) hd1
  have b1 := dump_ok env s (fuel + 1) _ false _ ht1 g1 d1 h1 a1 _ a2
  rw [hs1, hx e1 he1] at b1
  rw [hs1] at a4
  have hf2' : (((s.write (PyPath.parse (base ++ '.' :: e1)) (env.enc h1)).writeStr (base ++ ".xmf".toList)
      (env.text (documentText grids1))).content (s.resolve (base ++ '.' :: e2))) = none := by
    exact (writeStr_other (s := s.write _ _) hnx).trans ((write_other (by rw [hs1]; exact hne)).trans hf2)
  obtain ⟨ht2, hs2⟩ := target_free (s := (s.write (PyPath.parse (base ++ '.' :: e1)) (env.enc h1)).writeStr (base ++ ".xmf".toList)
      (env.text (documentText grids1))) (hname e2).1 (hname e2).2 (by simp [hs, he2.1]) hf2' fuel
  obtain ⟨h2, grids2, c1, c2, c3, c4⟩ := C52_document env.shape g2 d2 (String.ofList (PyPath.parse (base ++ '.' :: e2)).str) hd2
  have b2 := dump_ok env _ (fuel + 1) _ false _ ht2 g2 d2 h2 c1 _ c2
  rw [hs2, hx e2 he2] at b2
  rw [hs2] at c4
  exact ⟨_, _, h1, grids1, h2, grids2, b1, ⟨a3, a4⟩, writeStr_self rfl, b2, ⟨c3, c4⟩, writeStr_self rfl⟩

/-- The command `vtkpack` (C73) dumps without description. -/
theorem vtkpack_dump {K : Type} [LinearOrder K] [Zero T] [DecidableEq T] (env : VtkPack.PackEnv R V T K) (s : Fs Loc) (fuel : Nat)
    (filename : Name) (g : Grid (R × R × R)) (d : DataSetList (List V) T) (shape : List V → List Nat) (text : String → List UInt8) :
    VtkPack.dumpSeries env s fuel filename g d =
      dumpSeries ⟨shape, env.enc, text, env.junk⟩ s fuel filename false false g d := by
  unfold VtkPack.dumpSeries dumpSeries target
  cases exportMesh g with
  | error e => rfl
  | ok m =>
    simp only [Bool.false_eq_true, if_false]
    rcases findSafe s.has fuel (PyPath.parse filename) with - | ⟨c, p⟩
    · rfl
    · simp only [Option.map_some]
      cases dumpHdf m d <;> rfl

/-! ## Examples -/

/-- Bytes of the examples: the number of data sets, and the characters of the text. -/
private def envExample : DumpEnv Int (List Nat) Int :=
  ⟨id, fun h => [UInt8.ofNat h.sets.length], fun t => t.toList.map fun c => UInt8.ofNat c.toNat, []⟩

/-- A file system whose locations are the path strings, with `d/a.h5` and its description. -/
private def fsPair : Fs Name :=
  { resolve := id
    content := fun l => if l = "d/a.h5".toList then some [1] else if l = "d/a.xmf".toList then some [2] else none }

private theorem fsPair_finite : FiniteFolder fsPair.has (PyPath.parse "d/a.h5".toList).parent := by
  refine ⟨["a.h5".toList, "a.xmf".toList], fun n hn => ?_⟩
  have e : (PyPath.parse "d/a.h5".toList).parent = ⟨false, [['d']]⟩ := by decide
  rw [e] at hn
  simp only [Fs.has, fsPair, child, PyPath.str, id, Bool.false_eq_true, if_false] at hn
  simp only [List.intercalate] at hn
  by_contra hc
  simp only [List.mem_cons, List.not_mem_nil, or_false, not_or] at hc
  have h1 : ¬ (['d'] ++ (['/'] ++ n) = "d/a.h5".toList) := by
    intro h; exact hc.1 (by simpa using h)
  have h2 : ¬ (['d'] ++ (['/'] ++ n) = "d/a.xmf".toList) := by
    intro h; exact hc.2 (by simpa using h)
  simp at hn h1 h2
  simp [h1, h2] at hn

example := C90_both envExample fsPair "d/a.h5".toList twoCells twoSteps twoSteps_describable fsPair_finite
example := C90_both_overwrite envExample fsPair "d/a.h5".toList twoCells twoSteps twoSteps_describable

/-- Different names are different files. -/
private theorem fsPair_noLinks : NoLinks fsPair (PyPath.parse "d//a.h5".toList).parent := by
  intro n n' _ _ h
  obtain ⟨pre, -, hp⟩ := child_str (PyPath.parse "d//a.h5".toList).parent
  rw [hp, hp] at h
  exact List.append_cancel_left h

/-- The pair of `d/a.h5` and its description is kept by a dump to this name. -/
example : ∃ fuel s' name, dumpSeries envExample fsPair fuel "d//a.h5".toList false true twoCells twoSteps = some (s', .ok name) ∧
    s'.content "d/a.h5".toList = some [1] ∧ s'.content "d/a.xmf".toList = some [2] := by
  obtain ⟨n, c, p, xmf, h, grids, s', -, -, -, -, -, h6⟩ :=
    C90_both envExample fsPair "d//a.h5".toList twoCells twoSteps twoSteps_describable fsPair_finite
  exact ⟨n, s', p.str, h6 n le_rfl, C90_pairs_kept envExample fsPair n "d//a.h5".toList true twoCells twoSteps s' _ (h6 n le_rfl)
    fsPair_noLinks "a".toList "h5".toList (by decide) (by decide) (by decide) (by decide) "a".toList (by decide) [1] (by decide)⟩

/-- The name is the first free one. -/
example : findSafe fsPair.has 9 (PyPath.parse "d//a.h5".toList) = some (true, PyPath.parse "d/a(1).h5".toList) := by decide

/-- The description is not possible: the grid has a line cell. -/
example := C90_not_describable envExample fsPair 9 "d/a.h5".toList false (PyPath.parse "d/a(1).h5".toList)
  ⟨true, by decide⟩ { twoCells with items := [(3, [0, 1])] } twoSteps (by unfold KnownCells; decide +kernel)
  (by decide +kernel) (.inl (by decide +kernel))

example : ∃ s' e, dumpSeries envExample fsPair 9 "d/a.h5".toList false true { twoCells with items := [(3, [0, 1])] } twoSteps =
    some (s', .error e) ∧ s'.content "d/a.xmf".toList = some [2] := by
  obtain ⟨h, s', -, h2, -⟩ := C90_not_describable envExample fsPair 9 "d/a.h5".toList false (PyPath.parse "d/a(1).h5".toList)
    ⟨true, by decide⟩ { twoCells with items := [(3, [0, 1])] } twoSteps (by unfold KnownCells; decide +kernel)
    (by decide +kernel) (.inl (by decide +kernel))
  exact ⟨s', _, h2, C90_refusal_keeps_files _ _ _ _ _ _ _ _ _ h2 _ [2] (by decide)⟩

example : ∃ s', dumpSeries envExample fsPair 9 "d/a.h5".toList false false twoCells twoSteps =
      some (s', .ok "d/a(1).h5".toList) ∧ s'.content "d/a.xmf".toList = some [2] := by
  obtain ⟨⟨s', r⟩, h⟩ : ∃ q, dumpSeries envExample fsPair 9 "d/a.h5".toList false false twoCells twoSteps = some q := by
    rw [← Option.isSome_iff_exists]; decide +kernel
  have hr : (dumpSeries envExample fsPair 9 "d/a.h5".toList false false twoCells twoSteps).map (·.2) =
      some (.ok "d/a(1).h5".toList) := by decide +kernel
  rw [h] at hr
  simp only [Option.map_some, Option.some.injEq] at hr
  subst hr
  obtain ⟨f, -, -, h3⟩ := C90_alone _ _ _ _ _ _ _ _ _ h
  exact ⟨s', h, h3 "d/a.xmf".toList (by decide)⟩

example := C90_xmf_name_refuted envExample fsPair "a".toList (by decide) (by decide) (by decide) twoCells twoSteps
  twoSteps_describable 0
example := C90_two_extensions_refuted envExample fsPair "a".toList "h5".toList "hdf".toList (by decide) (by decide) (by decide)
  (by decide) (by decide) (by decide) (by decide) (by decide) twoCells twoCells twoSteps twoSteps twoSteps_describable
  twoSteps_describable 0

end Cfd.SeriesDump
