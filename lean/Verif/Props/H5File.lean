import Verif.Model.H5File
import Verif.Lemmas.Basic

/-!
# C69: metadata of the HDF5 files of the package
-/

namespace Cfd.H5

variable {C : Type}

/-- C69: opening for writing succeeds exactly when h5py may create the file, the type is one of the five types and a
version is given. -/
theorem C69_write_iff (empty : C) (release : String) (self : Obj) (mode : String) (t : Option String) (n : Option Int)
    (disk : Option (Content C)) (hm : mode ∈ ["w", "w-", "x"]) :
    (self.open empty release mode t n disk).2.2 = .ok () ↔
      (mode = "w" ∨ disk = none) ∧ (∃ x, t = some x ∧ x ∈ ["external", "dataset", "datalist", "probes", "cfdmesh"]) ∧
        n ≠ none := by
  have key : ∀ c, h5pyFile empty mode disk = .ok c → (mode = "w" ∨ disk = none) := by
    intro c hc
    simp only [List.mem_cons, List.not_mem_nil, or_false] at hm
    rcases hm with rfl | rfl | rfl
    · exact .inl rfl
    · cases disk with
      | none => exact .inr rfl
      | some d => simp [h5pyFile] at hc
    · cases disk with
      | none => exact .inr rfl
      | some d => simp [h5pyFile] at hc
  have key' : (mode = "w" ∨ disk = none) → ∃ c, h5pyFile empty mode disk = .ok c := by
    simp only [List.mem_cons, List.not_mem_nil, or_false] at hm
    rcases hm with rfl | rfl | rfl
    · intro _; exact ⟨_, rfl⟩
    · rintro (h | h)
      · simp at h
      · subst h; exact ⟨_, rfl⟩
    · rintro (h | h)
      · simp at h
      · subst h; exact ⟨_, rfl⟩
  have hmw : mode = "w" ∨ mode = "w-" ∨ mode = "x" := by simpa using hm
  unfold Obj.open
  cases hc : h5pyFile empty mode disk with
  | error e =>
    simp only [reduceCtorEq, false_iff]
    rintro ⟨h, _⟩
    obtain ⟨c, hc'⟩ := key' h
    rw [hc] at hc'
    simp at hc'
  | ok c =>
    simp only [if_pos hmw]
    have h1 := key c hc
    cases t with
    | none => simp
    | some x =>
      simp only
      by_cases hx : x ∈ availableTypes
      · rw [if_neg (not_not.2 hx)]
        cases n with
        | none => simp
        | some n => simp only [true_iff]; exact ⟨h1, ⟨x, rfl, hx⟩, by simp⟩
      · rw [if_pos hx]
        simp only [reduceCtorEq, false_iff]
        rintro ⟨_, ⟨y, hy, hy'⟩, _⟩
        simp only [Option.some.injEq] at hy
        subst hy
        exact hx hy'

/-- C69: what was given when a file was opened for writing is what any later object reads, whatever was put in the file
in between; the release of the package too. -/
theorem C69_write_read (empty : C) (release release' : String) (self other : Obj) (mode rmode : String) (t : String) (n : Int)
    (disk disk' : Option (Content C)) (self' : Obj) (hm : mode ∈ ["w", "w-", "x"]) (hr : rmode ∈ ["r", "r+"])
    (h : self.open empty release mode (some t) (some n) disk = (self', disk', .ok ())) :
    ∃ c, disk' = some c ∧ ∀ (tree : C) (t' : Option String) (n' : Option Int), ∃ o,
      other.open empty release' rmode t' n' (some { c with tree := tree }) = (o, some { c with tree := tree }, .ok ()) ∧
      o.datatype = some (.str t) ∧ o.version = some (some (.int n)) ∧ o.cfdtoolsVersion = some (.str release) ∧
      o.openedmode = some rmode := by
  have hmw : mode = "w" ∨ mode = "w-" ∨ mode = "x" := by simpa using hm
  have hrr : rmode = "r" ∨ rmode = "r+" := by simpa using hr
  have hrw : ¬ (rmode = "w" ∨ rmode = "w-" ∨ rmode = "x") := by rcases hrr with rfl | rfl <;> decide
  have hf : ∀ c, h5pyFile empty mode disk = .ok c → c.attrs = [] := by
    intro c hc
    rcases hmw with rfl | rfl | rfl
    · simp only [h5pyFile] at hc
      simp at hc; rw [← hc]
    · cases disk with
      | none => simp [h5pyFile] at hc; rw [← hc]
      | some d => simp [h5pyFile] at hc
    · cases disk with
      | none => simp [h5pyFile] at hc; rw [← hc]
      | some d => simp [h5pyFile] at hc
  unfold Obj.open at h
  cases hc : h5pyFile empty mode disk with
  | error e => rw [hc] at h; simp at h
  | ok c =>
    rw [hc] at h
    simp only [if_pos hmw] at h
    by_cases hx : t ∈ availableTypes
    · rw [if_neg (not_not.2 hx)] at h
      simp only [hf c hc, Prod.mk.injEq, and_true] at h
      obtain ⟨_, h2⟩ := h
      refine ⟨_, h2.symm, fun tree t' n' => ?_⟩
      unfold Obj.open
      simp only [h5pyFile, if_pos hrr, if_neg hrw]
      exact ⟨_, rfl, rfl, rfl, rfl, rfl⟩
    · rw [if_pos hx] at h
      simp at h

private theorem truthy_iff {a : Attr} : a.truthy = true ↔ a ≠ .str "" ∧ a ≠ .int 0 := by
  cases a <;> simp [Attr.truthy]

/-- C69: opening for reading never changes the file, and finds it exactly when it exists; a missing version is read as 0
when there is a (non empty) type, as absent otherwise (files of other programs). -/
theorem C69_read (empty : C) (release : String) (self : Obj) (mode : String) (hm : mode ∈ ["r", "r+"]) (t : Option String)
    (n : Option Int) :
    (∀ disk : Option (Content C), (self.open empty release mode t n disk).2.1 = disk) ∧
    (self.open empty release mode t n (none : Option (Content C))).2.2 = .error .os ∧
    ∀ c : Content C, (self.open empty release mode t n (some c)).2.2 = .ok () ∧
      (self.open empty release mode t n (some c)).1.datatype = c.attrs.get? "cfd_datatype" ∧
      (∀ a, c.attrs.get? "data_version" = some a → (self.open empty release mode t n (some c)).1.version = some (some a)) ∧
      (c.attrs.get? "data_version" = none →
        (∀ s, s ≠ .str "" → s ≠ .int 0 → c.attrs.get? "cfd_datatype" = some s →
          (self.open empty release mode t n (some c)).1.version = some (some (.int 0))) ∧
        (∀ s, s = .str "" ∨ s = .int 0 → c.attrs.get? "cfd_datatype" = some s →
          (self.open empty release mode t n (some c)).1.version = some none) ∧
        (c.attrs.get? "cfd_datatype" = none → (self.open empty release mode t n (some c)).1.version = some none)) := by
  have hr : mode = "r" ∨ mode = "r+" := by simpa using hm
  have hw : ¬ (mode = "w" ∨ mode = "w-" ∨ mode = "x") := by rcases hr with rfl | rfl <;> decide
  refine ⟨?_, ?_, ?_⟩
  · intro disk
    unfold Obj.open
    cases disk <;> simp only [h5pyFile, if_pos hr, if_neg hw]
  · unfold Obj.open
    simp only [h5pyFile, if_pos hr]
  · intro c
    unfold Obj.open
    simp only [h5pyFile, if_pos hr, if_neg hw, true_and]
    refine ⟨?_, ?_⟩
    · intro a ha; rw [ha]
    · intro hv
      rw [hv]
      refine ⟨?_, ?_, ?_⟩
      · intro s hs hi h
        rw [h]
        simp [truthy_iff.2 ⟨hs, hi⟩]
      · intro s hs h
        rw [h]
        rcases hs with rfl | rfl <;> simp [Attr.truthy]
      · intro h
        rw [h]
        simp

/-- C69: modes 'w-' and 'x' never change an existing file; mode 'a' always raises, with the file created when there was
none. -/
theorem C69_other_modes (empty : C) (release : String) (self : Obj) (t : Option String) (n : Option Int) :
    (∀ (mode : String) (c : Content C), mode ∈ ["w-", "x"] →
      self.open empty release mode t n (some c) = (self, some c, .error .os)) ∧
    (∀ c : Content C, self.open empty release "a" t n (some c) = (self, some c, .error .runtime)) ∧
    self.open empty release "a" t n none = (self, some ⟨[], false, empty⟩, .error .runtime) := by
  refine ⟨?_, ?_, ?_⟩
  · intro mode c hm
    have : mode = "w-" ∨ mode = "x" := by simpa using hm
    rcases this with rfl | rfl <;> rfl
  · intro c; rfl
  · rfl

/-- C69: a call with mode 'w' that is refused (no version, or a type which is not one of the five) has already emptied
the file: the tree of an existing file is lost. -/
theorem C69_refused_write_keeps_file_refuted (empty : C) (release : String) (self : Obj) (t : Option String)
    (n : Option Int) (c : Content C)
    (h : (self.open empty release "w" t n (some c)).2.2 ≠ .ok ()) :
    ∃ d, (self.open empty release "w" t n (some c)).2.1 = some d ∧ d.tree = empty ∧
      d.attrs.get? "data_version" = none := by
  revert h
  unfold Obj.open
  have e : h5pyFile empty "w" (some c) = .ok ⟨[], false, empty⟩ := rfl
  rw [e]
  simp only
  rw [if_pos (by simp)]
  cases t with
  | none => intro _; exact ⟨_, rfl, rfl, rfl⟩
  | some x =>
    simp only
    split
    · intro _; exact ⟨_, rfl, rfl, rfl⟩
    · cases n with
      | none => intro _; exact ⟨_, rfl, rfl, rfl⟩
      | some n => intro h; exact absurd rfl h

-- a call refused: the type is unknown
example : (Obj.new.open [] "1" "w" (some "mesh") (some 0) (some (⟨[("cfd_datatype", .str "dataset")], false, [5]⟩ : Content (List Nat)))).2 =
    (some ⟨[], false, []⟩, .error .assertion) := by decide

-- a call accepted, and the file read
example : (Obj.new.open [] "1" "w" (some "dataset") (some 2) (none : Option (Content (List Nat)))).2 =
    (some ⟨[("cfdtools_version", .str "1"), ("cfd_datatype", .str "dataset"), ("data_version", .int 2)], false, []⟩,
      .ok ()) := by decide

/-- One call of `open`: mode, type, version, and the file found. -/
abbrev Call (C : Type) := String × Option String × Option Int × Option (Content C)

/-- A file is opened for reading. -/
def Reads (c : Call C) : Prop := c.1 ∈ ["r", "r+"] ∧ c.2.2.2 ≠ none

/-- A file is opened for writing without exception. -/
def Writes (empty : C) (release : String) (c : Call C) : Prop :=
  c.1 ∈ ["w", "w-", "x"] ∧ (Obj.new.open empty release c.1 c.2.1 c.2.2.1 c.2.2.2).2.2 = .ok ()

theorem step_obj (empty : C) (release : String) (self : Obj) (c : Call C) :
    (Reads c → ∃ b v m, (self.open empty release c.1 c.2.1 c.2.2.1 c.2.2.2).1.h5ver = some b ∧
      (self.open empty release c.1 c.2.1 c.2.2.1 c.2.2.2).1.version = some v ∧
      (self.open empty release c.1 c.2.1 c.2.2.1 c.2.2.2).1.openedmode = some m) ∧
    (¬ Reads c → (self.open empty release c.1 c.2.1 c.2.2.1 c.2.2.2).1.h5ver = self.h5ver ∧
      (self.open empty release c.1 c.2.1 c.2.2.1 c.2.2.2).1.version = self.version ∧
      ((self.open empty release c.1 c.2.1 c.2.2.1 c.2.2.2).1.openedmode ≠ none ↔
        self.openedmode ≠ none ∨ Writes empty release c)) := by
  obtain ⟨mode, t, n, disk⟩ := c
  refine ⟨?_, ?_⟩
  · rintro ⟨h1, h2⟩
    have hr : mode = "r" ∨ mode = "r+" := by simpa using h1
    have hw : ¬ (mode = "w" ∨ mode = "w-" ∨ mode = "x") := by rcases hr with rfl | rfl <;> decide
    cases disk with
    | none => exact absurd rfl h2
    | some d =>
      unfold Obj.open
      simp only [h5pyFile, if_pos hr, if_neg hw]
      exact ⟨_, _, _, rfl, rfl, rfl⟩
  · intro hn
    unfold Writes Obj.open
    cases hc : h5pyFile empty mode disk with
    | error e => simp
    | ok d =>
      simp only
      by_cases hw : mode = "w" ∨ mode = "w-" ∨ mode = "x"
      · have hm : mode ∈ ["w", "w-", "x"] := by simpa using hw
        simp only [if_pos hw, hm, true_and]
        cases t with
        | none => simp
        | some x =>
          simp only
          by_cases hx : x ∈ availableTypes
          · simp only [if_neg (not_not.2 hx)]
            cases n <;> simp
          · simp only [if_pos hx]
            simp
      · have hm : mode ∉ ["w", "w-", "x"] := by simpa using hw
        by_cases hr : mode = "r" ∨ mode = "r+"
        · exfalso
          refine hn ⟨by simpa using hr, ?_⟩
          intro hd
          simp only at hd
          subst hd
          simp [h5pyFile, hr] at hc
        · simp [if_neg hw, if_neg hr, hm]

theorem calls_obj (empty : C) (release : String) (calls : List (Call C)) (self : Obj)
    (hi : self.h5ver = none ↔ self.version = none) (hj : self.h5ver ≠ none → self.openedmode ≠ none) :
    ((self.calls empty release calls).h5ver = none ↔ self.h5ver = none ∧ ¬ ∃ c ∈ calls, Reads c) ∧
    ((self.calls empty release calls).h5ver = none ↔ (self.calls empty release calls).version = none) ∧
    ((self.calls empty release calls).openedmode ≠ none ↔ self.openedmode ≠ none ∨ (∃ c ∈ calls, Reads c) ∨
      ∃ c ∈ calls, Writes empty release c) := by
  induction calls generalizing self with
  | nil => simp [Obj.calls, hi]
  | cons c t ih =>
    obtain ⟨s1, s2⟩ := step_obj empty release self c
    have e : self.calls empty release (c :: t) = Obj.calls empty release (self.open empty release c.1 c.2.1 c.2.2.1 c.2.2.2).1 t := rfl
    rw [e]
    generalize (self.open empty release c.1 c.2.1 c.2.2.1 c.2.2.2).1 = o at s1 s2 ⊢
    by_cases hr : Reads c
    · obtain ⟨b, v, m, h1, h2, h3⟩ := s1 hr
      obtain ⟨k1, k2, k3⟩ := ih o (by rw [h1, h2]; simp) (by rw [h3]; simp)
      refine ⟨?_, k2, ?_⟩
      · rw [k1, h1]
        simp [hr]
      · rw [k3, h3]
        simp [hr]
    · obtain ⟨h1, h2, h3⟩ := s2 hr
      obtain ⟨k1, k2, k3⟩ := ih o (by rw [h1, h2]; exact hi) (by
        rw [h1]; intro h; exact h3.2 (.inl (hj h)))
      refine ⟨?_, k2, ?_⟩
      · rw [k1, h1]
        simp [hr]
      · rw [k3, h3]
        simp only [List.exists_mem_cons_iff, hr, false_or]
        constructor
        · rintro ((h | h) | h | h)
          · exact .inl h
          · exact .inr (.inr (.inl h))
          · exact .inr (.inl h)
          · exact .inr (.inr (.inr h))
        · rintro (h | h | h | h)
          · exact .inl (.inl h)
          · exact .inr (.inl h)
          · exact .inl (.inr h)
          · exact .inr (.inr h)

/-- C69, history of an object: after any sequence of calls of `open`, `printinfo` raises AttributeError exactly when some
file was opened for writing and none for reading; it succeeds otherwise. -/
theorem C69_printinfo (empty : C) (release : String) (calls : List (Call C)) :
    ((Obj.new.calls empty release calls).printinfo = .error .attribute ↔
      (∃ c ∈ calls, Writes empty release c) ∧ ¬ ∃ c ∈ calls, Reads c) ∧
    ((∃ r, (Obj.new.calls empty release calls).printinfo = .ok r) ↔
      (∃ c ∈ calls, Reads c) ∨ ¬ ∃ c ∈ calls, Writes empty release c) := by
  obtain ⟨k1, k2, k3⟩ := calls_obj empty release calls Obj.new (by simp [Obj.new]) (by simp [Obj.new])
  generalize Obj.new.calls empty release calls = o at k1 k2 k3 ⊢
  simp only [Obj.new, ne_eq, not_true, false_or, true_and] at k1 k3
  unfold Obj.printinfo
  cases hm : o.openedmode with
  | none =>
    rw [hm] at k3
    simp only [not_true, false_iff, not_or] at k3
    simp [k3.1, k3.2]
  | some m =>
    rw [hm] at k3
    simp only [reduceCtorEq, not_false_eq_true, true_iff] at k3
    cases hh : o.h5ver with
    | none =>
      have := k1.1 hh
      have hw := k3.resolve_left this
      simp [this, hw]
    | some b =>
      have hv : o.version ≠ none := fun h => by
        have := k2.2 h
        rw [hh] at this
        simp at this
      have hr : ∃ c ∈ calls, Reads c := by
        by_contra hx
        have := k1.2 hx
        rw [hh] at this
        simp at this
      cases hv' : o.version with
      | none => exact absurd hv' hv
      | some v => simp [hr]

/-- C69: `printinfo` on a file opened for reading shows its release, type and version, each exactly when the file has one that is
neither empty nor 0. -/
theorem C69_printed (empty : C) (release : String) (self : Obj) (mode : String) (hm : mode ∈ ["r", "r+"]) (t : Option String)
    (n : Option Int) (c : Content C) :
    ∃ a b v, (self.open empty release mode t n (some c)).1.printinfo = .ok [a, b, v] ∧
      (∀ x, a = some x ↔ c.attrs.get? "cfdtools_version" = some x ∧ x ≠ .str "" ∧ x ≠ .int 0) ∧
      (∀ x, b = some x ↔ c.attrs.get? "cfd_datatype" = some x ∧ x ≠ .str "" ∧ x ≠ .int 0) ∧
      (∀ x, v = some x ↔ c.attrs.get? "data_version" = some x ∧ x ≠ .str "" ∧ x ≠ .int 0) := by
  have hr : mode = "r" ∨ mode = "r+" := by simpa using hm
  have hw : ¬ (mode = "w" ∨ mode = "w-" ∨ mode = "x") := by rcases hr with rfl | rfl <;> decide
  unfold Obj.open
  simp only [h5pyFile, if_pos hr, if_neg hw, Obj.printinfo]
  refine ⟨_, _, _, rfl, ?_, ?_, ?_⟩
  · intro x
    rw [Option.filter_eq_some_iff, truthy_iff]
  · intro x
    rw [Option.filter_eq_some_iff, truthy_iff]
  · intro x
    rw [Option.filter_eq_some_iff, truthy_iff]
    cases c.attrs.get? "data_version" with
    | some a => rfl
    | none =>
      refine ⟨fun ⟨h, _, h0⟩ => ?_, fun h => by simp at h⟩
      simp only at h
      rw [Option.ite_none_right_eq_some] at h
      exact absurd (Option.some.inj h.2).symm h0

example : ((Obj.new.open (C := List Nat) [] "2" "r" none none
    (some ⟨[("cfd_datatype", .str "probes"), ("data_version", .int 0), ("cfdtools_version", .str "1")], false, [4]⟩)).1.printinfo =
      .ok [some (.str "1"), some (.str "probes"), none]) := by decide

-- a file opened for writing: no information can be printed
example : (Obj.new.calls (C := List Nat) [] "1" [("w", some "probes", some 1, none)]).printinfo = .error .attribute := by
  decide

/-- `C69_write_iff`: a file that exists is not replaced with the mode `x`, and a type is needed. -/
example (t : Option String) (n : Option Int) (c : Content (List Nat)) : (Obj.new.open [] "1" "x" t n (some c)).2.2 ≠ .ok () :=
  fun h => by simpa using ((C69_write_iff [] "1" Obj.new "x" t n (some c) (by decide)).1 h).1
example (disk : Option (Content (List Nat))) : (Obj.new.open [] "1" "w" (some "probes") (some 1) disk).2.2 = .ok () :=
  (C69_write_iff [] "1" Obj.new "w" (some "probes") (some 1) disk (by decide)).2 ⟨.inl rfl, ⟨"probes", rfl, by decide⟩, by decide⟩

/-- `C69_write_read`: a file of a data set, filled with anything and read by an object used before. -/
example (tree : List Nat) : ∃ c o, (Obj.new.open [] "1" "w" (some "dataset") (some 2) (none : Option (Content (List Nat)))).2.1 = some c ∧
    (Obj.new.calls (C := List Nat) [] "0" [("w", some "probes", some 1, none)]).open [] "2" "r" none none (some { c with tree := tree }) =
      (o, some { c with tree := tree }, .ok ()) ∧ o.datatype = some (.str "dataset") ∧ o.version = some (some (.int 2)) ∧
    o.cfdtoolsVersion = some (.str "1") := by
  obtain ⟨c, h, hr⟩ := C69_write_read [] "1" "2" Obj.new (Obj.new.calls (C := List Nat) [] "0" [("w", some "probes", some 1, none)]) "w" "r"
    "dataset" 2 (none : Option (Content (List Nat))) _ (Obj.new.open [] "1" "w" (some "dataset") (some 2) (none : Option (Content (List Nat)))).1 (by decide) (by decide) rfl
  obtain ⟨o, h1, h2, h3, h4, -⟩ := hr tree none none
  exact ⟨c, o, h, h1, h2, h3, h4⟩

/-- `C69_read`: a file without version. -/
example (c : List Nat) : (Obj.new.open [] "1" "r" none none (some ⟨[("cfd_datatype", .str "cfdmesh")], false, c⟩)).1.version =
    some (some (.int 0)) :=
  (((C69_read [] "1" Obj.new "r" (by decide) none none).2.2 ⟨[("cfd_datatype", .str "cfdmesh")], false, c⟩).2.2.2 rfl).1 (.str "cfdmesh")
    (by decide) (by decide) rfl

end Cfd.H5
