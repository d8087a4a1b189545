import Verif.Lemmas.Files

/-!
# Safe output names and conversions (C35, C36)
-/

namespace Cfd
open Spec

/-- **C35** (what is returned). Whatever the file system, when `find_safe_newfile` returns for the file
called `s`, the path left is free, and it is the original one or the first free numbered one of the same
folder. -/
theorem C35_safe_name (ex : PyPath → Bool) (s : Name) (fuel : Nat) (changed : Bool) (q : PyPath)
    (h : findSafe ex fuel (PyPath.parse s) = some (changed, q)) :
    SafeName ex (PyPath.parse s) changed q :=
  findSafe_sound (parse_good s) h

/-- A file system with `d/a.ic3` and `d/a(1).ic3`. -/
private def fsExample (p : PyPath) : Bool :=
  decide (p ∈ [PyPath.parse "d/a.ic3".toList, PyPath.parse "d/a(1).ic3".toList])

example := C35_safe_name fsExample "d//a.ic3".toList 5 true (PyPath.parse "d/a(2).ic3".toList) (by decide)

example : findSafe fsExample 5 (PyPath.parse "d//a.ic3".toList) =
    some (true, PyPath.parse "d/a(2).ic3".toList) := by decide
example : findSafe fsExample 5 (PyPath.parse "./a.ic3".toList) =
    some (false, PyPath.parse "a.ic3".toList) := by decide

/-- **C35** (termination). In a folder with finitely many files the search ends: there is a number of
tests which is enough, and more tests change nothing. -/
theorem C35_terminates (ex : PyPath → Bool) (s : Name) (hfin : FiniteFolder ex (PyPath.parse s).parent) :
    ∃ n changed q, ∀ fuel, n ≤ fuel → findSafe ex fuel (PyPath.parse s) = some (changed, q) :=
  findSafe_terminates (parse_good s) hfin

/-- A folder with one file. -/
example := C35_terminates _ "d/a.ic3".toList (oneFile_finite "d/a.ic3".toList [1] _)

example : FiniteFolder fsExample (PyPath.parse "d/a.ic3".toList).parent := by
  refine ⟨["a.ic3".toList, "a(1).ic3".toList], fun n hn => ?_⟩
  simp only [fsExample, decide_eq_true_eq, List.mem_cons, List.not_mem_nil, or_false] at hn
  have e : (PyPath.parse "d/a.ic3".toList).parent = ⟨false, [['d']]⟩ := by decide
  have e1 : PyPath.parse "d/a.ic3".toList = ⟨false, [['d'], "a.ic3".toList]⟩ := by decide
  have e2 : PyPath.parse "d/a(1).ic3".toList = ⟨false, [['d'], "a(1).ic3".toList]⟩ := by decide
  rw [e, e1, e2] at hn
  simpa [child] using hn

/-- **C35** (folder and suffix). The path left is in the same folder. It has the same suffix, provided
the original name does not end with a dot. -/
theorem C35_same_folder_suffix (ex : PyPath → Bool) (s : Name) (fuel : Nat) (changed : Bool)
    (q : PyPath) (h : findSafe ex fuel (PyPath.parse s) = some (changed, q)) :
    q.parent = (PyPath.parse s).parent ∧
    ((PyPath.parse s).name.getLast? ≠ some '.' → q.suffix = (PyPath.parse s).suffix) := by
  obtain ⟨-, ⟨-, rfl⟩ | ⟨-, -, stem, suff, i, h1, -, rfl, -⟩⟩ := C35_safe_name ex s fuel changed q h
  · exact ⟨rfl, fun _ => rfl⟩
  · refine ⟨child_parent _ _, fun hdot => ?_⟩
    have h2 := numbered_parts h1 hdot i
    have h3 := nameParts_stemSuffix (child (PyPath.parse s).parent (numberedName stem suff i))
    rw [child_name] at h3
    rw [(nameParts_unique h3 h2).2, (nameParts_unique (nameParts_stemSuffix _) h1).2]

example := C35_same_folder_suffix fsExample "d//a.ic3".toList 5 true (PyPath.parse "d/a(2).ic3".toList) (by decide)

/-- **C35** fails for names ending with a dot: the file `a.` has no suffix, the name chosen next to it
is `a.(1)`, whose suffix is `.(1)`. -/
theorem C35_final_dot_refuted :
    ∃ (ex : PyPath → Bool) (s : Name) (q : PyPath), findSafe ex 5 (PyPath.parse s) = some (true, q) ∧
      (PyPath.parse s).suffix = [] ∧ q.suffix = ".(1)".toList :=
  ⟨fun p => decide (p = PyPath.parse "a.".toList), "a.".toList, PyPath.parse "a.(1)".toList,
    by decide⟩

/-! ## C36 -/

section
variable {Loc M : Type} [DecidableEq Loc]

/-- **C36** A conversion never modifies nor removes an existing file, be it the input file or any other
one, for all readers, transformations, writers (raising or not), file names and output folders, `ext`
being the suffix of the output format. -/
theorem C36_conversion_keeps_files (reader : Fs Loc → Name → Py M) (prepare transform : M → Py M)
    (writer : M → PyErr ⊕ (List UInt8 × Py Unit)) (ext : Name) (hext : ext ≠ [])
    (s : Fs Loc) (fuel : Nat) (filename : Name) (outpath : Option Name) (s' : Fs Loc) (r : Py Name)
    (h : writeGeneric reader prepare transform writer ext s fuel filename outpath = some (s', r))
    (l : Loc) (b : List UInt8) (hl : s.content l = some b) : s'.content l = some b := by
  unfold writeGeneric at h
  split at h
  · simp only [Option.some.injEq, Prod.mk.injEq] at h; rw [← h.1]; exact hl
  · split at h
    · simp at h
    · simp only [Option.some.injEq, Prod.mk.injEq] at h; rw [← h.1]; exact hl
    · rename_i p hp
      split at h
      · simp only [Option.some.injEq, Prod.mk.injEq] at h; rw [← h.1]; exact hl
      · rename_i m' _
        simp only [Option.some.injEq] at h
        have hfree := outputName_free hext hp
        rcases runWriter_content writer s p m' l with h1 | h1
        · rw [h] at h1; rw [h1]; exact hl
        · rw [h1, hfree] at hl; simp at hl

/-- **C36** (where it writes). When a conversion succeeds, the name it returns is that of the new file,
which did not exist, and no other location has changed. -/
theorem C36_conversion_writes_new_file (reader : Fs Loc → Name → Py M) (prepare transform : M → Py M)
    (writer : M → PyErr ⊕ (List UInt8 × Py Unit)) (ext : Name) (hext : ext ≠ [])
    (s : Fs Loc) (fuel : Nat) (filename : Name) (outpath : Option Name) (s' : Fs Loc) (name : Name)
    (h : writeGeneric reader prepare transform writer ext s fuel filename outpath = some (s', .ok name)) :
    s.content (s.resolve name) = none ∧
    (∃ m0 m1 m2 bytes, reader s (PyPath.parse filename).str = .ok m0 ∧ prepare m0 = .ok m1 ∧
      transform m1 = .ok m2 ∧ writer m2 = .inr (bytes, .ok ()) ∧
      s'.content (s.resolve name) = some bytes) ∧
    ∀ l, l ≠ s.resolve name → s'.content l = s.content l := by
  unfold writeGeneric at h
  split at h
  · simp at h
  · rename_i m hm
    obtain ⟨m0, hm0, hm1⟩ := bind_eq_ok.1 hm
    split at h
    · simp at h
    · simp at h
    · rename_i p hp
      split at h
      · simp at h
      · rename_i m' hm'
        have hfree := outputName_free hext hp
        simp only [Option.some.injEq] at h
        unfold runWriter at h
        split at h
        · simp at h
        · simp at h
        · rename_i b u hw
          simp only [Prod.mk.injEq, Except.ok.injEq] at h
          obtain ⟨rfl, rfl⟩ := h
          refine ⟨hfree, ⟨m0, m, m', b, hm0, hm1, hm', hw, by simp [Fs.write]⟩, fun l hl => by simp [Fs.write, hl]⟩

/-- **C36** (name of the output). The new file is in the folder `--outpath`, or in the current folder
without this option, and it has the suffix of the output format. -/
theorem C36_output_place (reader : Fs Loc → Name → Py M) (prepare transform : M → Py M)
    (writer : M → PyErr ⊕ (List UInt8 × Py Unit)) (e : Name) (he : e ≠ []) (hd : '.' ∉ e)
    (s : Fs Loc) (fuel : Nat) (filename : Name) (hf : (PyPath.parse filename).name ≠ [])
    (outpath : Option Name) (s' : Fs Loc) (name : Name)
    (h : writeGeneric reader prepare transform writer ('.' :: e) s fuel filename outpath =
      some (s', .ok name)) :
    ∃ q : PyPath, name = q.str ∧ q.suffix = '.' :: e ∧
      q.parent = (match outpath with | none => PyPath.parse [] | some d => PyPath.parse d) := by
  unfold writeGeneric at h
  split at h
  · simp at h
  · split at h
    · simp at h
    · simp at h
    · rename_i p hp
      split at h
      · simp at h
      · have hname : name = p.str := by
          simp only [Option.some.injEq] at h
          unfold runWriter at h
          split at h
          · simp at h
          · simp at h
          · simp only [Prod.mk.injEq, Except.ok.injEq] at h
            exact h.2.symm
        refine ⟨p, hname, ?_⟩
        unfold outputName at hp
        cases outpath with
        | none => exact outputName_place he hd (parse_good _) (removeDir_parent filename hf) hp
        | some d => exact outputName_place he hd (changeDir_good _ _) (changeDir_parent d filename hf) hp

/-- **C36** (termination) when the output folder has finitely many files, a conversion returns. -/
theorem C36_conversion_terminates (reader : Fs Loc → Name → Py M) (prepare transform : M → Py M)
    (writer : M → PyErr ⊕ (List UInt8 × Py Unit)) (ext : Name) (hext : ext ≠ [])
    (s : Fs Loc) (filename : Name) (outpath : Option Name)
    (hfin : ∀ folder : PyPath, FiniteFolder s.has folder) :
    ∃ n r, ∀ fuel, n ≤ fuel →
      writeGeneric reader prepare transform writer ext s fuel filename outpath = some r := by
  have key : ∃ n r, ∀ fuel, n ≤ fuel → outputName s fuel filename outpath ext = some r := by
    have aux : ∀ q : PyPath, GoodPath q → ∃ n r, ∀ fuel, n ≤ fuel → (match q.withSuffix ext with
        | .error e => some (.error e)
        | .ok file => (findSafe s.has fuel file).map fun r => (.ok r.2 : Py PyPath)) = some r := by
      intro q hq
      cases hw : q.withSuffix ext with
      | error e => exact ⟨0, .error e, fun _ _ => rfl⟩
      | ok file =>
          obtain ⟨n, c, x, hn⟩ := findSafe_terminates (withSuffix_good hq hext hw) (hfin file.parent)
          exact ⟨n, .ok x, fun fuel hf => by simp [hn fuel hf]⟩
    unfold outputName
    cases outpath with
    | none => exact aux _ (parse_good _)
    | some d =>
        exact aux _ (changeDir_good _ _)
  obtain ⟨n, r, hn⟩ := key
  unfold writeGeneric
  split
  · exact ⟨0, _, fun _ _ => rfl⟩
  · rename_i m _
    cases r with
    | error e => exact ⟨n, (s, .error e), fun fuel hf => by rw [hn fuel hf]⟩
    | ok p =>
        cases ht : transform m with
        | error e => exact ⟨n, (s, .error e), fun fuel hf => by rw [hn fuel hf]⟩
        | ok m' => exact ⟨n, runWriter writer s p m', fun fuel hf => by rw [hn fuel hf]⟩

/-- **C36** (success) when the file name is not empty, the output folder has finitely many files and the reader, the
options and the writer succeed, the conversion returns the name of the new file. -/
theorem C36_conversion_succeeds (reader : Fs Loc → Name → Py M) (prepare transform : M → Py M)
    (writer : M → PyErr ⊕ (List UInt8 × Py Unit)) (e : Name) (he : e ≠ []) (hs : '/' ∉ e)
    (s : Fs Loc) (filename : Name) (hf : (PyPath.parse filename).name ≠ []) (outpath : Option Name)
    (hfin : ∀ folder : PyPath, FiniteFolder s.has folder) (m0 m1 m2 : M) (b : List UInt8)
    (h0 : reader s (PyPath.parse filename).str = .ok m0) (h1 : prepare m0 = .ok m1) (h2 : transform m1 = .ok m2)
    (h3 : writer m2 = .inr (b, .ok ())) :
    ∃ n s' name, ∀ fuel, n ≤ fuel →
      writeGeneric reader prepare transform writer ('.' :: e) s fuel filename outpath = some (s', .ok name) := by
  have key : ∃ n p, ∀ fuel, n ≤ fuel → outputName s fuel filename outpath ('.' :: e) = some (.ok p) := by
    have aux : ∀ q : PyPath, GoodPath q → q.name ≠ [] → ∃ n p, ∀ fuel, n ≤ fuel → (match q.withSuffix ('.' :: e) with
        | .error e => some (.error e)
        | .ok file => (findSafe s.has fuel file).map fun r => (.ok r.2 : Py PyPath)) = some (.ok p) := by
      intro q hq hqn
      have hw : q.withSuffix ('.' :: e) = .ok ⟨q.root, q.parts.dropLast ++ [q.stem ++ '.' :: e]⟩ := by
        unfold PyPath.withSuffix
        rw [if_neg (by simp [hs]), if_neg (by simp [he]), if_neg hqn]
      obtain ⟨n, c, x, hn⟩ := findSafe_terminates (withSuffix_good hq (by simp) hw) (hfin _)
      rw [hw]
      exact ⟨n, x, fun fuel hf => by simp [hn fuel hf]⟩
    obtain ⟨g1, g2, g3⟩ := name_good (parse_good filename) hf
    unfold outputName
    cases outpath with
    | none =>
      refine aux _ (parse_good _) ?_
      simp only [removeDir]
      rw [parse_single _ g1 g2 g3]
      simpa [PyPath.name] using g1
    | some d =>
      refine aux _ (changeDir_good _ _) ?_
      simp only [changeDir]
      rw [parse_single _ g1 g2 g3]
      simpa [PyPath.name, PyPath.join] using g1
  obtain ⟨n, p, hn⟩ := key
  refine ⟨n, s.write p b, p.str, fun fuel hfu => ?_⟩
  unfold writeGeneric
  rw [h0, Except_bind_ok, h1]
  simp only [hn fuel hfu, h2]
  unfold runWriter
  rw [h3]

/-- **C36** (data sets). `dumphdf` without `overwrite` keeps all existing files, except the one which has
the place of the XMF file when this one is asked for: a beginning of the name of the HDF5 file followed by
`.xmf`. -/
theorem C36_dump_keeps_files (s : Fs Loc) (fuel : Nat) (filename : Name) (xdmf : Bool)
    (h5 xmf : List UInt8) (s' : Fs Loc) (name : Name)
    (h : dumphdf s fuel filename false xdmf h5 xmf = some (s', name))
    (l : Loc) (b : List UInt8) (hl : s.content l = some b) :
    s'.content l = some b ∨
      (xdmf = true ∧ ∃ stem : Name, stem <+: name ∧ l = s.resolve (stem ++ ".xmf".toList)) := by
  unfold dumphdf at h
  simp only [Bool.false_eq_true, if_false, Option.map_map, Option.map_eq_some_iff,
    Function.comp_apply, Prod.mk.injEq] at h
  obtain ⟨⟨c, p⟩, h1, rfl, rfl⟩ := h
  have hfree := (findSafe_sound (parse_good _) h1).1
  simp only [Fs.has] at hfree
  have hkeep : (s.write p h5).content l = some b := by
    simp only [Fs.write]
    split
    · rename_i h2
      rw [← h2, hl] at hfree
      simp at hfree
    · exact hl
  cases xdmf with
  | false => exact Or.inl hkeep
  | true =>
    by_cases hx : l = s.resolve (xmfName p.str)
    · exact Or.inr ⟨rfl, (splitext p.str).1, splitext_prefix _, hx⟩
    · refine Or.inl ?_
      simp only [if_true]
      rw [← hkeep]
      exact if_neg hx

/-- **C36** (data sets). Without `overwrite` the HDF5 file is written to the returned path, where there was
no file; with `overwrite` it is written to the given path. -/
theorem C36_dump_target (s : Fs Loc) (fuel : Nat) (filename : Name) (overwrite : Bool)
    (h5 xmf : List UInt8) (s' : Fs Loc) (name : Name)
    (h : dumphdf s fuel filename overwrite false h5 xmf = some (s', name)) :
    s'.content (s.resolve name) = some h5 ∧
    (overwrite = false → s.content (s.resolve name) = none) ∧
    (overwrite = true → name = (PyPath.parse filename).str) := by
  unfold dumphdf at h
  cases overwrite with
  | true =>
    simp only [if_true, Option.map_some, Option.some.injEq, Prod.mk.injEq] at h
    obtain ⟨rfl, rfl⟩ := h
    simp [Fs.write]
  | false =>
    simp only [Bool.false_eq_true, if_false, Option.map_map, Option.map_eq_some_iff,
      Function.comp_apply, Prod.mk.injEq] at h
    obtain ⟨⟨c, p⟩, h1, rfl, rfl⟩ := h
    have hfree := (findSafe_sound (parse_good _) h1).1
    simp only [Fs.has] at hfree
    simpa [Fs.write] using hfree

end

/-! ### A concrete file system, whose locations are the path strings -/

/-- The input file `m.ic3` and the file `m(1).ic3`, both in the current folder. -/
private def fsTwo : Fs Name :=
  { resolve := id
    content := fun l => if l = "m.ic3".toList then some [1] else if l = "m(1).ic3".toList then some [2]
      else none }

private def copyWriter : List UInt8 → PyErr ⊕ (List UInt8 × Py Unit) := fun b => .inr (b, .ok ())
private def copyReader (s : Fs Name) (n : Name) : Py (List UInt8) :=
  match s.content (s.resolve n) with
  | some b => .ok b
  | none => .error .os

/-- The conversion of `m.ic3` when `m.ic3` and `m(1).ic3` exist. -/
private def twoResult := writeGeneric copyReader .ok .ok copyWriter ".ic3".toList fsTwo 9 "./m.ic3".toList none

/-- The theorems of C36 on this conversion: what the file system holds, and the new file. -/
example : ∃ s', twoResult = some (s', .ok "m(2).ic3".toList) ∧ s'.content "m.ic3".toList = some [1] ∧
    fsTwo.content "m(2).ic3".toList = none ∧
    ∃ q : PyPath, "m(2).ic3".toList = q.str ∧ q.suffix = ".ic3".toList ∧ q.parent = PyPath.parse [] := by
  obtain ⟨s', h⟩ : ∃ s', twoResult = some (s', .ok "m(2).ic3".toList) := ⟨_, rfl⟩
  refine ⟨s', h, ?_, ?_, ?_⟩
  · exact C36_conversion_keeps_files _ _ _ _ _ (by decide) _ _ _ _ _ _ h _ [1] (by decide)
  · exact (C36_conversion_writes_new_file _ _ _ _ _ (by decide) _ _ _ _ _ _ h).1
  · exact C36_output_place _ _ _ _ "ic3".toList (by decide) (by decide) _ _ _ (by decide) none _ _ h

example := C36_conversion_terminates copyReader .ok .ok copyWriter ".ic3".toList (by decide) _ "./m.ic3".toList none
  (oneFile_finite "m.ic3".toList [1])
example := C36_conversion_succeeds copyReader .ok .ok copyWriter "ic3".toList (by decide) (by decide) _ "./m.ic3".toList
  (by decide) none (oneFile_finite "m.ic3".toList [1]) [1] [1] [1] [1] (by decide) rfl rfl rfl

/-- The theorems of C36 on a dump to `m.ic3` without `overwrite`. -/
example : ∃ s', dumphdf fsTwo 9 "m.ic3".toList false false [8] [9] = some (s', "m(2).ic3".toList) ∧
    s'.content "m(2).ic3".toList = some [8] ∧ s'.content "m.ic3".toList = some [1] := by
  obtain ⟨s', h⟩ : ∃ s', dumphdf fsTwo 9 "m.ic3".toList false false [8] [9] = some (s', "m(2).ic3".toList) := ⟨_, rfl⟩
  refine ⟨s', h, (C36_dump_target _ _ _ _ _ _ _ _ h).1, ?_⟩
  exact (C36_dump_keeps_files _ _ _ _ _ _ _ _ h "m.ic3".toList [1] (by decide)).resolve_right (fun h => by cases h.1)

/-- Converting `m.ic3` to the same format in the same folder writes `m(2).ic3`. -/
example : (writeGeneric copyReader .ok .ok copyWriter ".ic3".toList fsTwo 9 "./m.ic3".toList none).map
    (fun r => (r.2, r.1.content "m.ic3".toList, r.1.content "m(2).ic3".toList)) =
    some (.ok "m(2).ic3".toList, some [1], some [1]) := by decide

/-- **C36** fails for the cube: `cfdwritecube` overwrites an existing file. -/
theorem C36_cube_overwrites_refuted :
    ∃ (s : Fs Name) (filename : Name) (m : List UInt8) (l : Name) (b : List UInt8),
      s.content l = some b ∧ (writeCube copyWriter s filename m).1.content l ≠ some b :=
  ⟨fsTwo, "m.ic3".toList, [7], "m.ic3".toList, [1], by decide⟩

/-- **C36** fails for the XMF file: without `overwrite`, `dumphdf(xdmf=True)` overwrites an existing file
with the name of the HDF5 file and the suffix `.xmf`. -/
theorem C36_xmf_overwrites_refuted :
    ∃ (s : Fs Name) (filename : Name) (s' : Fs Name) (name l : Name) (b : List UInt8),
      dumphdf s 5 filename false true [8] [9] = some (s', name) ∧
      s.content l = some b ∧ s'.content l ≠ some b :=
  ⟨⟨id, fun l => if l = "d.xmf".toList then some [3] else none⟩, "d.h5".toList, _, _, "d.xmf".toList, [3],
    rfl, by decide, by decide⟩

end Cfd
