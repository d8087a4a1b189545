import Verif.Spec.Slice
import Verif.Spec.Data
import Verif.Model.Data
import Verif.Spec.Extrude
import Verif.Lemmas.Basic
import Verif.Lemmas.Lists
import Mathlib.Tactic.Ring
import Mathlib.Tactic.FieldSimp
import Mathlib.Algebra.Order.Field.Basic
import Mathlib.Data.Rat.Defs
import Mathlib.Algebra.Order.Field.Rat

/-! # Data sets and mesh transformations (C37, C51, C53, C54, C55) -/

namespace Cfd
open Spec

/-! ## C37 -/

section
variable {V : Type}

/-- C37 (node data kept in a dictionary): `pop_nodedata(name)` returns the data, or `None`, and leaves a
mesh without data called `name`; nothing else changes. Missing: the other kinds of data, see the
refutations below. -/
theorem C37_node_dict_partial (m : MeshData V) (d : Dict String V) (hd : m.nodedata = .dict d)
    (hk : d.keys.Nodup) (name : String) :
    ∃ d', m.popNodedata name = (.ok (d.get? name), { m with nodedata := .dict d' }) ∧
      d'.get? name = none ∧ ∀ other, other ≠ name → d'.get? other = d.get? other := by
  unfold MeshData.popNodedata
  rw [hd]
  cases h : d.get? name with
  | none =>
    refine ⟨d, ?_, h, fun _ _ => rfl⟩
    simp only [h]
    rw [← hd]
  | some v =>
    simp only [h]
    exact ⟨d.erase name, rfl, Dict.get?_erase_self hk name, fun o ho => Dict.get?_erase_ne _ ho⟩

example := C37_node_dict_partial (⟨none, .dict [("p", 1), ("u", 2), ("t", 3)]⟩ : MeshData Nat) _ rfl
  (by decide) "u"

/-- C37 refuted for cell data, on every mesh: `pop_celldata` changes nothing. -/
theorem C37_cell_data_kept_refuted (m : MeshData V) (name : String) : (m.popCelldata name).2 = m := by
  unfold MeshData.popCelldata
  split
  · rfl
  · split <;> rfl

/-- C37 refuted for `--remove-cell-data`: it changes nothing, whatever the names; when it succeeds the
data is still there. -/
theorem C37_remove_option_refuted (m m' : MeshData V) (names : List String)
    (h : m.removeCellData names = .ok m') : m' = m := by
  induction names generalizing m with
  | nil => simp only [MeshData.removeCellData, Except.ok.injEq] at h; exact h.symm
  | cons n t ih =>
    unfold MeshData.removeCellData at h
    have h1 := C37_cell_data_kept_refuted m n
    split at h
    · rename_i m1 hp
      rw [hp] at h1
      simp only at h1
      rw [← h1]; exact ih _ h
    · simp at h

example := C37_remove_option_refuted (⟨some [("p", 1), ("u", 2)], .dict []⟩ : MeshData Nat) _ ["p", "u"] rfl

/-- An unknown name raises KeyError although the caller expects `None`. -/
theorem C37_unknown_name_refuted (m : MeshData V) (d : Dict String V) (hd : m.celldata = some d) (name : String)
    (t : List String) (h : d.get? name = none) : m.removeCellData (name :: t) = .error .key := by
  unfold MeshData.removeCellData MeshData.popCelldata
  rw [hd]
  simp only [h]

example := C37_unknown_name_refuted (⟨some [("p", 1), ("u", 2)], .dict []⟩ : MeshData Nat) _ rfl "rho" ["p"]
  (by decide)

/-- C37 refuted for node data read from an IC3 file (a `DataSet`): AttributeError. -/
theorem C37_node_dataset_refuted :
    ∃ m : MeshData Nat, m.popNodedata "p" = (.error .attribute, m) ∧ ∃ d, m.nodedata = .dataset d ∧
      d.get? "p" = some 1 :=
  ⟨⟨none, .dataset [("p", 1)]⟩, by decide, _, rfl, rfl⟩

theorem erase_eq_filter {d : Dict String V} (hd : d.keys.Nodup) (k : String) :
    d.erase k = d.filter fun p => p.1 ≠ k := by
  induction d with
  | nil => rfl
  | cons p t ih =>
    have hd : p.1 ∉ Dict.keys t ∧ (Dict.keys t).Nodup := List.nodup_cons.1 hd
    by_cases h : p.1 = k
    · subst h
      simp only [Dict.erase, if_true, List.filter_cons, ne_eq, not_true, decide_false, Bool.false_eq_true, if_false]
      exact (List.filter_eq_self.2 fun q hq => by
        simp only [decide_not, Bool.not_eq_true', decide_eq_false_iff_not]
        intro he
        exact hd.1 (he ▸ List.mem_map_of_mem (f := Prod.fst) hq)).symm
    · simp only [Dict.erase, h, if_false, List.filter_cons, ne_eq, not_false_eq_true, decide_true, if_true, ih hd.2]

/-- C37 (marks): `remove_boco(name)` removes this mark, keeping the others in their order; it raises KeyError if there is
none. -/
theorem C37_mark {R : Type} (m : Mesh R) (hk : m.bocos.keys.Nodup) (name : String) :
    (name ∉ m.bocos.keys → m.removeBoco name = .error .key) ∧
    (name ∈ m.bocos.keys → ∃ m', m.removeBoco name = .ok m' ∧ m' = { m with bocos := m'.bocos } ∧
      m'.bocos = m.bocos.filter (fun p => p.1 ≠ name) ∧ name ∉ m'.bocos.keys ∧
      ∀ other, other ≠ name → m'.bocos.get? other = m.bocos.get? other) := by
  unfold Mesh.removeBoco
  refine ⟨fun h => by rw [if_neg h], fun h => ⟨_, by rw [if_pos h], rfl, ?_, ?_, ?_⟩⟩
  · exact erase_eq_filter hk name
  · rw [erase_eq_filter hk]
    intro h
    obtain ⟨p, hp, he⟩ := List.mem_map.1 h
    simp [he] at hp
  · exact fun other ho => Dict.get?_erase_ne _ ho

example := C37_mark { (Mesh.new 0 0 : Mesh Int) with
  bocos := [("in", ⟨"in", .bdface, "boundary", .range 0 1, none⟩),
    ("out", ⟨"out", .bdface, "boundary", .range 2 3, none⟩)] } (by decide) "in"

example : (({ Mesh.new 0 0 with bocos := [("in", ⟨"in", .bdface, "boundary", .range 0 1, none⟩),
    ("out", ⟨"out", .bdface, "boundary", .range 2 3, none⟩)] } : Mesh Int).removeBoco "in").map (·.bocos.keys) = .ok ["out"] := by
  decide

/-- Hypotheses of `C37_node_dict_partial` and a removal among several data. -/
example : (MeshData.popNodedata ⟨none, .dict [("p", 1), ("u", 2), ("t", 3)]⟩ "u" : Py (Option Nat) × MeshData Nat) =
    (.ok (some 2), ⟨none, .dict [("p", 1), ("t", 3)]⟩) := by decide

/-- `--remove-cell-data p` reports success and keeps `p`. -/
example : MeshData.removeCellData (V := Nat) ⟨some [("p", 1), ("u", 2)], .dict []⟩ ["p", "u"] =
    .ok ⟨some [("p", 1), ("u", 2)], .dict []⟩ := by decide
end

/-! ## C53 -/

section
open DataAttrs

theorem xreps_eq (cls : DataClass) : cls.xreps = Spec.spaceReps cls := by cases cls <;> rfl

theorem treps_eq (cls : DataClass) : cls.treps = Spec.timeReps cls := by cases cls <;> rfl

/-- C53: an assignment that raises leaves the data set unchanged, and raises exactly for the values
that are not allowed: unknown representations, or degrees of freedom without spectral cells. -/
theorem C53_assign (a : DataAttrs) (s : Assign) :
    (∃ a', a.assign s = .ok a') ↔ match s with
      | .xrep x => x ∈ Spec.spaceReps a.cls
      | .trep t => t ∈ Spec.timeReps a.cls
      | .ndof n => n = 1 ∨ a.xrep = "spectralcell" := by
  rw [← xreps_eq, ← treps_eq]
  cases s <;> simp only [assign, setXrep, setNdof, setTrep, pyAssert] <;>
    split <;> simp_all [bind, Except.bind, pure, Except.pure]

/-- Representations always have allowed values, in every history. -/
theorem C53_representations (cls : DataClass) (x : String) (n : Int) (t : String) (a : DataAttrs)
    (h : DataAttrs.init cls x n t = .ok a) (l : List Assign) :
    (a.history l).cls = cls ∧ (a.history l).xrep ∈ Spec.spaceReps cls ∧ (a.history l).trep ∈ Spec.timeReps cls := by
  rw [← xreps_eq, ← treps_eq]
  have h0 : a.cls = cls ∧ a.xrep ∈ cls.xreps ∧ a.trep ∈ cls.treps := by
    simp only [DataAttrs.init, setTrep, setXrep, setNdof, bind_eq_ok, pyAssert_eq_ok] at h
    obtain ⟨a1, ⟨_, h1, e1⟩, a2, ⟨_, h2, e2⟩, _, h3, e3⟩ := h
    simp only [pure, Except.pure, Except.ok.injEq] at e1 e2 e3
    subst e1 e2 e3
    exact ⟨rfl, by simpa using h2, by simpa using h1⟩
  clear h
  induction l generalizing a with
  | nil => exact h0
  | cons s t ih =>
    unfold history
    rw [List.foldl_cons]
    apply ih
    split
    · rename_i a' ha
      cases s <;> simp only [assign, setXrep, setNdof, setTrep, bind_eq_ok, pyAssert_eq_ok] at ha <;>
        obtain ⟨_, h1, e1⟩ := ha <;> simp only [pure, Except.pure, Except.ok.injEq] at e1 <;> subst e1 <;>
        simp_all
    · exact h0

example := C53_representations .dataSet "spectralcell" 4 "instant" _ rfl
  [.ndof 3, .xrep "nodal", .trep "pod", .trep "timeevol"]

/-- C53 (partial): degrees of freedom imply spectral cells in every history in which the representation
is only changed to spectral cells, or while there is one degree of freedom. Missing: histories that
change the representation of a data set having several degrees of freedom (refuted below). -/
theorem C53_ndof_partial (cls : DataClass) (x : String) (n : Int) (t : String) (a : DataAttrs)
    (h : DataAttrs.init cls x n t = .ok a) (l : List Assign)
    (hl : ∀ pre y post, l = pre ++ Assign.xrep y :: post → y = "spectralcell" ∨ (a.history pre).ndof = 1) :
    (a.history l).ndof = 1 ∨ (a.history l).xrep = "spectralcell" := by
  have h0 : a.ndof = 1 ∨ a.xrep = "spectralcell" := by
    simp only [DataAttrs.init, setTrep, setXrep, setNdof, bind_eq_ok, pyAssert_eq_ok] at h
    obtain ⟨a1, ⟨_, h1, e1⟩, a2, ⟨_, h2, e2⟩, _, h3, e3⟩ := h
    simp only [pure, Except.pure, Except.ok.injEq] at e1 e2 e3
    subst e1 e2 e3
    simpa using h3
  clear h
  induction l generalizing a with
  | nil => exact h0
  | cons s t ih =>
    have hstep : ∀ b : DataAttrs, b = (match a.assign s with | .ok a' => a' | .error _ => a) →
        (b.ndof = 1 ∨ b.xrep = "spectralcell") := by
      intro b hb
      split at hb
      · rename_i a' ha
        subst hb
        cases s with
        | xrep y =>
          have := hl [] y t rfl
          simp only [assign, setXrep, bind_eq_ok, pyAssert_eq_ok, pure, Except.pure, Except.ok.injEq] at ha
          obtain ⟨_, _, rfl⟩ := ha
          rcases this with h1 | h1
          · right; exact h1
          · left; exact h1
        | ndof n =>
          simp only [assign, setNdof, bind_eq_ok, pyAssert_eq_ok, pure, Except.pure, Except.ok.injEq] at ha
          obtain ⟨_, h1, rfl⟩ := ha
          simpa using h1
        | trep n =>
          simp only [assign, setTrep, bind_eq_ok, pyAssert_eq_ok, pure, Except.pure, Except.ok.injEq] at ha
          obtain ⟨_, h1, rfl⟩ := ha
          exact h0
      · subst hb; exact h0
    have heq : a.history (s :: t) = DataAttrs.history (match a.assign s with | .ok a' => a' | .error _ => a) t := rfl
    rw [heq]
    apply ih
    · intro pre y post he
      have := hl (s :: pre) y post (by rw [he]; rfl)
      exact this
    · exact hstep _ rfl

/-- The representation is changed while there is one degree of freedom only. -/
example := C53_ndof_partial .dataSet "cellaverage" 1 "instant" _ rfl [.xrep "nodal", .xrep "spectralcell", .ndof 4]
  (by
    intro pre y post h
    match pre, h with
    | [], h => simp only [List.nil_append, List.cons.injEq, DataAttrs.Assign.xrep.injEq] at h; exact .inr rfl
    | [_], h =>
        simp only [List.cons_append, List.nil_append, List.cons.injEq, DataAttrs.Assign.xrep.injEq] at h
        exact .inl h.2.1.symm
    | [_, _], h => simp at h
    | _ :: _ :: _ :: t, h => simp at h)

/-- C53 refuted: set spectral cells, 4 degrees of freedom, then cell averages. -/
theorem C53_refuted :
    ∃ a l, DataAttrs.init .dataSet "cellaverage" 1 "instant" = .ok a ∧
      (a.history l).ndof = 4 ∧ (a.history l).xrep = "cellaverage" :=
  ⟨⟨.dataSet, "cellaverage", 1, "instant"⟩, [.xrep "spectralcell", .ndof 4, .xrep "cellaverage"],
    by decide, by decide, by decide⟩

/-- A history meeting the hypothesis of `C53_ndof_partial`, with refused assignments. -/
example : (DataAttrs.mk .dataSet "cellaverage" 1 "instant").history
    [.ndof 3, .xrep "spectralcell", .ndof 4, .xrep "other", .trep "pod", .trep "timeevol"] =
    ⟨.dataSet, "spectralcell", 4, "timeevol"⟩ := by decide
example : DataAttrs.init .dataSet "cellaverage" 4 "instant" = .error .assertion := by decide
end

/-! ## C54 -/

section
variable {V T : Type} [Zero T] [DecidableEq T]

/-- A list of data sets built by a history of additions. -/
def addAll (d : DataSetList V T) (l : List (Dict String V × Option T)) : DataSetList V T :=
  l.foldl (fun d p => d.addDatalist p.1 p.2) d

/-- C54: in every history, step `i` holds the data of the `i`-th addition, and its time unless that
time is zero. -/
theorem C54_steps (d : DataSetList V T) (l : List (Dict String V × Option T)) :
    (addAll d l).steps = d.steps ++ l.map fun p => (p.1, if p.2 = some 0 then none else p.2) := by
  induction l generalizing d with
  | nil => simp [addAll]
  | cons p t ih =>
    unfold addAll
    rw [List.foldl_cons]
    have := ih (d.addDatalist p.1 p.2)
    unfold addAll at this
    rw [this]
    obtain ⟨p1, p2⟩ := p
    cases p2 with
    | none => simp [DataSetList.addDatalist]
    | some x =>
      simp only [DataSetList.addDatalist, List.map_cons, List.append_assoc, List.cons_append, List.nil_append,
        Option.some.injEq]

/-- C54 (partial): with non-zero times, group `i` of the dumped file holds the data and the time of the
`i`-th addition. Missing: times equal to zero. -/
theorem C54_aligned_partial (attrs : DataAttrs) (l : List (Dict String V × Option T))
    (h0 : ∀ p ∈ l, p.2 ≠ some 0) :
    (addAll (⟨attrs, []⟩ : DataSetList V T) l).steps = l ∧
    ∀ i data time, l[i]? = some (data, time) →
      (addAll (⟨attrs, []⟩ : DataSetList V T) l).dumpGroup[i]? = some (DataSetList.groupName i, data, time) := by
  have h1 : (addAll (⟨attrs, []⟩ : DataSetList V T) l).steps = l := by
    rw [C54_steps]
    simp only [List.nil_append]
    conv_rhs => rw [← List.map_id l]
    apply List.map_congr_left
    intro p hp
    rw [if_neg (h0 p hp)]; rfl
  refine ⟨h1, ?_⟩
  intro i data time hi
  unfold DataSetList.dumpGroup
  rw [h1, List.getElem?_map, List.getElem?_zipIdx, hi]
  simp

example := C54_aligned_partial ⟨.dataSetList, "cellaverage", 1, "timeevol"⟩
  [([("p", 7)], some 2), ([("p", 8)], none), (([] : Dict String Nat), some (3 : Int))] (by decide)

/-- C54 refuted: the first step at time 0 has no time in the file. -/
theorem C54_time_zero_refuted :
    (addAll (⟨⟨.dataSetList, "cellaverage", 1, "timeevol"⟩, []⟩ : DataSetList Nat Int)
      [([("p", 7)], some 0), ([("p", 8)], some 1)]).dumpGroup =
      [("i000000", [("p", 7)], none), ("i000001", [("p", 8)], some 1)] := by decide +kernel

/-- C54 for one data set: `add_data` stores the value, keeps the others, and records the time unless it
is zero. -/
theorem C54_add_data (d : DataSet V T) (name : String) (v : V) (time : Option T) :
    (d.addData name v time).data.get? name = some v ∧
    (∀ other, other ≠ name → (d.addData name v time).data.get? other = d.data.get? other) ∧
    (∀ t, time = some t → t ≠ 0 → (d.addData name v time).time = some t) ∧
    (time = none ∨ time = some 0 → (d.addData name v time).time = d.time) := by
  refine ⟨Dict.get?_set_self _ _ _, fun o ho => Dict.get?_set_ne _ _ ho, ?_, ?_⟩
  · rintro t rfl ht
    simp [DataSet.addData, ht]
  · rintro (rfl | rfl) <;> simp [DataSet.addData]

/-- Non-zero times. -/
example : (addAll (⟨⟨.dataSetList, "cellaverage", 1, "timeevol"⟩, []⟩ : DataSetList Nat Int)
    [([("p", 7)], some 2), ([("p", 8)], none), ([], some 3)]).dumpGroup =
    [("i000000", [("p", 7)], some 2), ("i000001", [("p", 8)], none), ("i000002", [], some 3)] := by
  decide +kernel
end

/-! ## C51 -/

section
variable {K : Type} [Field K]
open TimeSeries

theorem diffs_cons (a b : K) (t : List K) : diffs (a :: b :: t) = (b - a) :: diffs (b :: t) := by
  simp [diffs]

theorem diffs_length (t : List K) : (diffs t).length = t.length - 1 := by
  simp [diffs]

theorem diffs_sum (a : K) (t : List K) : (diffs (a :: t)).sum = (a :: t).getLast (by simp) - a := by
  induction t generalizing a with
  | nil => simp [diffs]
  | cons b t ih =>
    rw [diffs_cons, List.sum_cons, ih b]
    simp only [List.getLast_cons_cons]
    ring

theorem filter_range {α : Type} (t : List α) (k l h : Nat) :
    ((t.zipIdx k).filter fun p => decide (l ≤ p.2) && decide (p.2 < h)).map (·.1) = (t.take (h - k)).drop (l - k) := by
  induction t generalizing k with
  | nil => simp
  | cons a t ih =>
    rw [List.zipIdx_cons, List.filter_cons]
    by_cases h2 : k < h
    · obtain ⟨n, hn⟩ : ∃ n, h - k = n + 1 := ⟨h - k - 1, by omega⟩
      have e1 : h - (k + 1) = n := by omega
      by_cases h1 : l ≤ k
      · rw [if_pos (by simp [h1, h2]), List.map_cons, ih, hn, e1, show l - k = 0 by omega, show l - (k + 1) = 0 by omega]
        simp
      · obtain ⟨m, hm⟩ : ∃ m, l - k = m + 1 := ⟨l - k - 1, by omega⟩
        rw [if_neg (by simp [h1]), ih, hn, e1, hm, show l - (k + 1) = m by omega]
        simp
    · rw [if_neg (by simp [h2]), ih, show h - k = 0 by omega, show h - (k + 1) = 0 by omega]
      simp

theorem pySlice_selected {α : Type} (t : List α) (lo hi : Option Int) : pySlice t lo hi = Spec.selected t lo hi := by
  unfold pySlice Spec.selected
  have h := filter_range t 0 (sliceBounds t.length lo hi).1 (sliceBounds t.length lo hi).2
  simp only [Nat.sub_zero] at h
  rw [← h]
  congr 1
  apply List.filter_congr
  intro p hp
  have hlt : p.2 < t.length := by
    obtain ⟨x, i⟩ := p
    have := List.snd_lt_of_mem_zipIdx hp
    simpa using this
  have e1 : decide ((sliceBounds t.length lo hi).1 ≤ p.2) = Spec.fromBound t.length lo p.2 := by
    unfold sliceBounds Spec.fromBound
    cases lo with
    | none => simp
    | some k =>
      simp only
      split <;> (rw [decide_eq_decide]; omega)
  have e2 : decide (p.2 < (sliceBounds t.length lo hi).2) = Spec.toBound t.length hi p.2 := by
    unfold sliceBounds Spec.toBound
    cases hi with
    | none => simpa using hlt
    | some k =>
      simp only
      split <;> (rw [decide_eq_decide]; omega)
  rw [e1, e2]

/-- C51: the average time step of the selected samples is (last - first) / (number - 1), and the number
of samples is the one selected. -/
theorem C51_average (t : List K) (lo hi : Option Int) (sel : List K) (hsel : Spec.selected t lo hi = sel)
    (first last : K) (hf : sel.head? = some first) (hl : sel.getLast? = some last) :
    dtstats t lo hi = ((last - first) / ((sel.length - 1 : Nat) : K), sel.length) := by
  unfold dtstats
  simp only [pySlice_selected, hsel]
  obtain ⟨a, t', rfl⟩ : ∃ a t', sel = a :: t' := by
    cases sel with
    | nil => simp at hf
    | cons a t' => exact ⟨a, t', rfl⟩
  simp only [List.head?_cons, Option.some.injEq] at hf
  subst hf
  rw [List.getLast?_eq_some_getLast (by simp), Option.some.injEq] at hl
  rw [diffs_sum, diffs_length, hl]

example := C51_average [0, 1, 3, 6, (10 : ℚ)] (some (-4)) (some (-1)) [1, 3, 6] (by decide +kernel) 1 6 (by decide +kernel) (by decide +kernel)
example := C51_average [0, 1, 3, 6, (10 : ℚ)] (some 1) none _ rfl 1 10 (by decide +kernel) (by decide +kernel)

/-- C51: the average is between any bounds of the time steps. -/
theorem C51_between [LinearOrder K] [IsStrictOrderedRing K] (t : List K) (lo hi : Option Int) (sel : List K)
    (hsel : Spec.selected t lo hi = sel) (h2 : 2 ≤ sel.length) (a b : K)
    (hab : ∀ i x y, sel[i]? = some x → sel[i + 1]? = some y → a ≤ y - x ∧ y - x ≤ b) :
    a ≤ (dtstats t lo hi).1 ∧ (dtstats t lo hi).1 ≤ b := by
  have hd : ∀ d ∈ diffs sel, a ≤ d ∧ d ≤ b := by
    intro d hd
    obtain ⟨i, hi, rfl⟩ := List.mem_iff_getElem.1 hd
    rw [diffs_length] at hi
    have e1 : sel[i]? = some sel[i] := List.getElem?_eq_getElem (by omega)
    have e2 : sel[i + 1]? = some sel[i + 1] := List.getElem?_eq_getElem (by omega)
    have := hab i _ _ e1 e2
    simpa [diffs, Nat.add_comm] using this
  have hpos : (0 : K) < ((diffs sel).length : K) := by
    rw [diffs_length]
    have : 0 < sel.length - 1 := by omega
    exact_mod_cast this
  have hsum : ∀ l : List K, (∀ d ∈ l, a ≤ d ∧ d ≤ b) → a * (l.length : K) ≤ l.sum ∧ l.sum ≤ b * (l.length : K) := by
    intro l
    induction l with
    | nil => simp
    | cons x l ih =>
      intro h
      have h1 := ih fun d hd => h d (List.mem_cons_of_mem _ hd)
      have h3 := h x (by simp)
      simp only [List.sum_cons, List.length_cons, Nat.cast_add, Nat.cast_one]
      constructor
      · have := add_le_add h3.1 h1.1
        calc a * ((l.length : K) + 1) = a + a * (l.length : K) := by ring
          _ ≤ _ := this
      · have := add_le_add h3.2 h1.2
        calc x + l.sum ≤ b + b * (l.length : K) := this
          _ = b * ((l.length : K) + 1) := by ring
  unfold dtstats
  simp only [pySlice_selected, hsel]
  rw [le_div_iff₀ hpos, div_le_iff₀ hpos]
  exact hsum _ hd

example := C51_between [0, 1, 3, 6, (10 : ℚ)] (some 1) none [1, 3, 6, 10] (by decide +kernel) (by decide) 2 4 (by
  intro i x y hx hy
  match i with
  | 0 | 1 | 2 => simp at hx hy; subst hx hy; constructor <;> decide +kernel
  | 3 => simp at hy
  | n + 4 => simp at hx)

example : dtstats [0, 1, 3, 6, (10 : ℚ)] (some 1) none = (3, 4) := by decide +kernel
end

section

theorem spectroVar_ok {samples : Dict String Nat} {nit h n : Nat} {name : String}
    (hn : samples.get? name = some n) (hl : ∀ i < nit, h * (i + 2) + 1 ≤ n) :
    spectroVar samples nit h name = .ok (name, nit, h + 1 - 2) := by
  unfold spectroVar
  have : (List.range nit).mapM (spectroWindow samples h name) = .ok ((List.range nit).map fun _ => ()) := by
    apply mapM_ok_of_forall
    intro i hi
    have h1 := hl i (List.mem_range.1 hi)
    have h2 : h * (i + 2) = h * i + 2 * h := by ring
    unfold spectroWindow
    simp only [Dict.getE, hn, Except_bind_ok]
    rw [if_pos]
    unfold sliceLen
    left
    omega
  rw [this]; rfl

theorem mapM_error_of_exists {α β : Type} {f : α → Py β} {l : List α} {e : PyErr}
    (he : ∃ a ∈ l, f a = .error e) (hall : ∀ a ∈ l, (∃ b, f a = .ok b) ∨ f a = .error e) :
    l.mapM f = .error e := by
  induction l with
  | nil => simp at he
  | cons a t ih =>
    rw [List.mapM_cons]
    rcases hall a (by simp) with ⟨b, hb⟩ | hb
    · rw [hb]
      have : t.mapM f = .error e := by
        apply ih
        · obtain ⟨x, hx, hxe⟩ := he
          rcases List.mem_cons.1 hx with rfl | hx
          · rw [hb] at hxe; simp at hxe
          · exact ⟨x, hx, hxe⟩
        · exact fun x hx => hall x (List.mem_cons_of_mem _ hx)
      simp only [Except_bind_ok, this]
      rfl
    · rw [hb]; rfl

theorem spectroVar_short {samples : Dict String Nat} {nit h n : Nat} {name : String}
    (hn : samples.get? name = some n) (hl : ∃ i < nit, n < h * (i + 2) + 1 ∧ n ≠ h * i + 1) :
    spectroVar samples nit h name = .error .value := by
  unfold spectroVar
  have : (List.range nit).mapM (spectroWindow samples h name) = .error .value := by
    have hw : ∀ i, spectroWindow samples h name i =
        if sliceLen n (h * i) (h * (i + 2) + 1) = 2 * h + 1 ∨ sliceLen n (h * i) (h * (i + 2) + 1) = 1 then .ok ()
        else .error .value := by
      intro i
      unfold spectroWindow
      simp only [Dict.getE, hn, Except_bind_ok]
    apply mapM_error_of_exists
    · obtain ⟨i, hi, hlt, hne⟩ := hl
      refine ⟨i, List.mem_range.2 hi, ?_⟩
      rw [hw, if_neg]
      have h2 : h * (i + 2) = h * i + 2 * h := by ring
      unfold sliceLen
      omega
    · intro i _
      rw [hw]
      split
      · exact Or.inl ⟨_, rfl⟩
      · exact Or.inr rfl
  rw [this]; rfl

/-- The variables kept by a spectrum or spectrogram. -/
def keptNames (samples : Dict String Nat) (filter : List String) : List String :=
  (if filter = [] then samples.keys else filter).erase "time"

/-- C51: spectrogram of variables with as many samples as the times, with an even window of `2 h`
samples and more than `h` samples: when `h` does not divide the number of samples, the result has
`h - 1` frequencies, `ntot / h - 1` times, and every variable has exactly one value per time and
frequency; otherwise the call raises. Missing: windows for which `h` divides the number of samples, and odd
windows, for which the claim is refuted (exact shapes in `C51_odd_window`). -/
theorem C51_spectrogram_partial (samples : Dict String Nat) (filter : List String) (ntot h : Nat) (hh : 1 ≤ h)
    (hlt : h < ntot) (hall : ∀ p ∈ samples, p.2 = ntot) (htime : "time" ∈ samples.keys)
    (hf : filter ≠ [] → "time" ∈ filter) (hknown : ∀ n ∈ filter, n ∈ samples.keys)
    (hvar : keptNames samples filter ≠ []) :
    (¬ h ∣ ntot → spectrogram "timeevol" samples filter (2 * h) = .ok ⟨h - 1, ntot / h - 1,
      (keptNames samples filter).map fun n => (n, ntot / h - 1, h - 1)⟩) ∧
    (h ∣ ntot → spectrogram "timeevol" samples filter (2 * h) = .error .value) := by
  have hget : ∀ n ∈ samples.keys, samples.get? n = some ntot := by
    intro n hn
    obtain ⟨v, hv⟩ := Dict.mem_keys_iff.1 hn
    rw [hv, show v = ntot from hall _ (Dict.mem_of_get? hv)]
  set L := (if filter = [] then samples.keys else filter) with hL
  have hLt : "time" ∈ L := by
    rw [hL]; split
    · exact htime
    · exact hf ‹_›
  have hLk : ∀ n ∈ L.erase "time", samples.get? n = some ntot := by
    intro n hn
    have : n ∈ L := List.mem_of_mem_erase hn
    rw [hL] at this
    split at this
    · exact hget n this
    · exact hget n (hknown n this)
  have hk : keptNames samples filter = L.erase "time" := rfl
  have hdiv : 2 * ntot / (2 * h) = ntot / h := Nat.mul_div_mul_left _ _ (by omega)
  have hge1 : 1 ≤ ntot / h := (Nat.one_le_div_iff (by omega)).2 (by omega)
  have hhalf : 2 * h / 2 = h := by omega
  have hdm := Nat.div_add_mod ntot h
  have hmod := Nat.mod_lt ntot (show 0 < h by omega)
  have hrun : spectrogram "timeevol" samples filter (2 * h) =
      ((L.erase "time").mapM (spectroVar samples (ntot / h - 1) h)).map fun vars =>
        ⟨sliceLen (2 * h) 2 (h + 1), strideLen ntot h h - 1, vars⟩ := by
    unfold spectrogram removeTime
    simp only [← hL, if_pos hLt, Except_bind_ok, htime, pyAssert, Dict.getE, hget "time" htime, decide_true,
      Bool.and_self, if_true]
    rw [if_neg (show 2 * h ≠ 0 by omega), if_neg (show 2 * h ≠ 0 by omega), hhalf, hdiv,
      if_neg (show h ≠ 0 by omega), if_neg (by omega)]
    cases (L.erase "time").mapM (spectroVar samples (ntot / h - 1) h) <;> rfl
  constructor
  · intro hnd
    have hm0 : 0 < ntot % h := Nat.pos_of_ne_zero fun h0 => hnd (Nat.dvd_of_mod_eq_zero h0)
    have hok : (L.erase "time").mapM (spectroVar samples (ntot / h - 1) h) =
        .ok ((L.erase "time").map fun n => (n, ntot / h - 1, h + 1 - 2)) := by
      apply mapM_ok_of_forall
      intro n hn
      apply spectroVar_ok (hLk n hn)
      intro i hi
      have : h * (i + 2) ≤ h * (ntot / h) := Nat.mul_le_mul_left _ (by omega)
      omega
    rw [hrun, hok, hk]
    simp only [Except.map, Except.ok.injEq, SpectroShape.mk.injEq]
    refine ⟨by unfold sliceLen; omega, ?_, ?_⟩
    · unfold strideLen
      congr 1
      have e : ntot - h + h - 1 = ntot - 1 := by omega
      rw [e]
      apply Nat.div_eq_of_lt_le
      · rw [Nat.mul_comm]; omega
      · rw [Nat.succ_mul, Nat.mul_comm]; omega
    · apply List.map_congr_left
      intro n _
      have : h + 1 - 2 = h - 1 := by omega
      rw [this]
  · intro hd
    have hm0 : ntot % h = 0 := Nat.mod_eq_zero_of_dvd hd
    have hq2 : 2 ≤ ntot / h := by
      by_contra hq
      have : ntot / h = 1 := by omega
      rw [this] at hdm
      omega
    have herr : (L.erase "time").mapM (spectroVar samples (ntot / h - 1) h) = .error .value := by
      have hbad : ∀ n ∈ L.erase "time", spectroVar samples (ntot / h - 1) h n = .error .value := by
        intro n hn
        apply spectroVar_short (hLk n hn)
        have h2 : h * (ntot / h - 2 + 2) = h * (ntot / h - 2) + 2 * h := by ring
        have : ntot / h - 2 + 2 = ntot / h := by omega
        rw [this] at h2
        refine ⟨ntot / h - 2, by omega, ?_, by omega⟩
        rw [this]
        omega
      apply mapM_error_of_exists
      · rw [hk] at hvar
        obtain ⟨n, hn⟩ := List.exists_mem_of_ne_nil _ hvar
        exact ⟨n, hn, hbad n hn⟩
      · exact fun n hn => Or.inr (hbad n hn)
    rw [hrun, herr]; rfl

example := C51_spectrogram_partial [("time", 11), ("p", 11), ("u", 11)] ["time", "u"] 11 2 (by decide) (by decide)
  (by decide) (by decide) (by decide) (by decide) (by decide)

/-- Hypotheses met, and the two outcomes: 11 samples and 12 samples with windows of 4 samples. -/
example : spectrogram "timeevol" [("time", 11), ("p", 11), ("u", 11)] [] 4 =
    .ok ⟨1, 4, [("p", 4, 1), ("u", 4, 1)]⟩ := by decide
example : spectrogram "timeevol" [("time", 12), ("p", 12)] [] 4 = .error .value := by decide

/-- C51 refuted for odd windows: no exception, but the values have 5 times and there are 8 times. -/
theorem C51_odd_window_refuted :
    spectrogram "timeevol" [("time", 10), ("p", 10)] [] 3 = .ok ⟨0, 8, [("p", 5, 0)]⟩ := by decide

/-- C51: without bounds, a spectrum has one value per frequency for each variable. -/
theorem C51_spectrum (samples : Dict String Nat) (filter : List String) (ntot : Nat) (hpos : 1 ≤ ntot)
    (hall : ∀ p ∈ samples, p.2 = ntot) (htime : "time" ∈ samples.keys)
    (hf : filter ≠ [] → "time" ∈ filter) (hknown : ∀ n ∈ filter, n ∈ samples.keys) :
    spectrum "timeevol" samples filter none none =
      .ok (ntot, (keptNames samples filter).map fun n => (n, ntot)) := by
  have hget : ∀ n ∈ samples.keys, samples.get? n = some ntot := by
    intro n hn
    obtain ⟨v, hv⟩ := Dict.mem_keys_iff.1 hn
    rw [hv, show v = ntot from hall _ (Dict.mem_of_get? hv)]
  set L := (if filter = [] then samples.keys else filter) with hL
  have hLt : "time" ∈ L := by
    rw [hL]; split
    · exact htime
    · exact hf ‹_›
  have hLk : ∀ n ∈ L.erase "time", samples.get? n = some ntot := by
    intro n hn
    have : n ∈ L := List.mem_of_mem_erase hn
    rw [hL] at this
    split at this
    · exact hget n this
    · exact hget n (hknown n this)
  have hm : (L.erase "time").mapM (spectrumVar samples) = .ok ((L.erase "time").map fun n => (n, ntot)) := by
    apply mapM_ok_of_forall
    intro n hn
    simp only [spectrumVar, Dict.getE, hLk n hn, Except_bind_ok]
    rw [if_neg (by omega)]
  unfold spectrum removeTime
  simp only [← hL, if_pos hLt, Except_bind_ok, htime, pyAssert, Dict.getE, hget "time" htime, decide_true,
      Bool.and_self, if_true, sliceBounds, Nat.sub_zero]
  rw [hm]
  rfl

example := C51_spectrum [("time", 11), ("p", 11), ("u", 11)] ["time", "u"] 11 (by decide) (by decide) (by decide) (by decide)
  (by decide)

/-- C51 refuted for bounds: the frequencies are those of the selected samples, the values those of all
samples. -/
theorem C51_spectrum_bounds_refuted :
    spectrum "timeevol" [("time", 10), ("p", 10)] [] (some 2) none = .ok (8, [("p", 10)]) := by decide

/-- A filter that does not name the time is refused. -/
theorem C51_filter_without_time (samples : Dict String Nat) (filter : List String) (w : Nat)
    (h0 : filter ≠ []) (h : "time" ∉ filter) : spectrogram "timeevol" samples filter w = .error .value := by
  unfold spectrogram removeTime
  rw [if_neg h0, if_neg h]; rfl

end

example := C51_filter_without_time [("time", 11), ("p", 11)] ["p"] 4 (by decide) (by decide)

/-! ## C55 -/

section
variable {R : Type}

/-- Every node of the mesh has a position. -/
def HasCoords (m : Mesh R) : Prop :=
  ∃ x y z, m.coords = some (x, y, z) ∧ x.length = m.nnode ∧ y.length = m.nnode ∧ z.length = m.nnode

theorem setCoords_ok {m : Mesh R} {x y z : List R} (hx : x.length = m.nnode) (hy : y.length = m.nnode)
    (hz : z.length = m.nnode) : m.setCoords x y z = .ok { m with coords := some (x, y, z) } := by
  unfold Mesh.setCoords
  simp only [hx, hy, hz]
  rfl

theorem ext_nodeAt {m m' : Mesh R} (h : HasCoords m) (h' : HasCoords m') (hn : m.nnode = m'.nnode)
    (heq : ∀ i, nodeAt m i = nodeAt m' i) : m.coords = m'.coords := by
  obtain ⟨x, y, z, hc, hx, hy, hz⟩ := h
  obtain ⟨x', y', z', hc', hx', hy', hz'⟩ := h'
  rw [hc, hc']
  have key : ∀ i (hi : i < m.nnode), x[i]'(by omega) = x'[i]'(by omega) ∧ y[i]'(by omega) = y'[i]'(by omega) ∧
      z[i]'(by omega) = z'[i]'(by omega) := by
    intro i hi
    have := heq i
    unfold nodeAt at this
    rw [hc, hc'] at this
    simp only [List.getElem?_eq_getElem (show i < x.length by omega),
      List.getElem?_eq_getElem (show i < y.length by omega),
      List.getElem?_eq_getElem (show i < z.length by omega),
      List.getElem?_eq_getElem (show i < x'.length by omega),
      List.getElem?_eq_getElem (show i < y'.length by omega),
      List.getElem?_eq_getElem (show i < z'.length by omega), Option.some.injEq, Prod.mk.injEq] at this
    exact this
  have e1 : x = x' := List.ext_getElem (by omega) fun i h1 _ => (key i (by omega)).1
  have e2 : y = y' := List.ext_getElem (by omega) fun i h1 _ => (key i (by omega)).2.1
  have e3 : z = z' := List.ext_getElem (by omega) fun i h1 _ => (key i (by omega)).2.2
  rw [e1, e2, e3]

/-- C55: scaling multiplies the coordinates of every node, direction by direction, and changes nothing
else. -/
theorem C55_scale [Mul R] (m : Mesh R) (h : HasCoords m) (s : R × R × R) :
    ∃ m', m.scale s = .ok m' ∧ m' = { m with coords := m'.coords } ∧ HasCoords m' ∧
      ∀ i, nodeAt m' i = (nodeAt m i).map fun p => (p.1 * s.1, p.2.1 * s.2.1, p.2.2 * s.2.2) := by
  obtain ⟨x, y, z, hc, hx, hy, hz⟩ := h
  unfold Mesh.scale
  rw [hc]
  simp only
  rw [setCoords_ok (by simpa using hx) (by simpa using hy) (by simpa using hz)]
  refine ⟨_, rfl, rfl, ⟨_, _, _, rfl, by simpa using hx, by simpa using hy, by simpa using hz⟩, ?_⟩
  intro i
  unfold nodeAt
  simp only [hc, List.getElem?_map]
  cases x[i]? <;> cases y[i]? <;> cases z[i]? <;> rfl

/-- C55: scaling twice is scaling by the product. -/
theorem C55_scale_compose [Semigroup R] (m : Mesh R) (h : HasCoords m) (a b : R × R × R) :
    (m.scale a >>= fun m' => m'.scale b) = m.scale (a.1 * b.1, a.2.1 * b.2.1, a.2.2 * b.2.2) := by
  obtain ⟨x, y, z, hc, hx, hy, hz⟩ := h
  unfold Mesh.scale
  rw [hc]
  simp only
  rw [setCoords_ok (by simpa using hx) (by simpa using hy) (by simpa using hz),
    setCoords_ok (by simpa using hx) (by simpa using hy) (by simpa using hz), Except_bind_ok]
  simp only [List.map_map]
  rw [setCoords_ok (by simpa using hx) (by simpa using hy) (by simpa using hz)]
  simp only [Function.comp_def, mul_assoc]

/-- C55: scaling by one changes nothing. -/
theorem C55_scale_one [MulOneClass R] (m : Mesh R) (h : HasCoords m) : m.scale (1, 1, 1) = .ok m := by
  obtain ⟨x, y, z, hc, hx, hy, hz⟩ := h
  unfold Mesh.scale
  rw [hc]
  simp only [mul_one, List.map_id']
  rw [setCoords_ok hx hy hz, ← hc]

/-- C55: scaling by inverse factors undoes a scaling. -/
theorem C55_scale_inverse [Monoid R] (m m' : Mesh R) (h : HasCoords m) (a b : R × R × R)
    (h1 : a.1 * b.1 = 1) (h2 : a.2.1 * b.2.1 = 1) (h3 : a.2.2 * b.2.2 = 1) (hs : m.scale a = .ok m') :
    m'.scale b = .ok m := by
  have := C55_scale_compose m h a b
  rw [hs, h1, h2, h3, C55_scale_one m h] at this
  exact this

/-- C55: coordinates kept as Python lists (Gmsh import) are never scaled: a float factor raises TypeError. -/
theorem C55_lists_float_refuted (m : Mesh R) (h : HasCoords m) (s : Mesh.Factor × Mesh.Factor × Mesh.Factor)
    (hs : s.1 = .float ∨ s.2.1 = .float ∨ s.2.2 = .float) : m.scaleLists s = .error .type := by
  obtain ⟨x, y, z, hc, _, _, _⟩ := h
  unfold Mesh.scaleLists
  rw [hc]
  obtain ⟨a, b, c⟩ := s
  cases a <;> cases b <;> cases c <;> simp [Mesh.listTimes] at hs ⊢ <;> rfl

/-- C55: and integer factors are refused, except 1 which changes nothing. -/
theorem C55_lists_int (m : Mesh R) (h : HasCoords m) (hn : m.nnode ≠ 0) (a b c : Int) :
    m.scaleLists (.int a, .int b, .int c) = if a = 1 ∧ b = 1 ∧ c = 1 then .ok m else .error .assertion := by
  obtain ⟨x, y, z, hc, hx, hy, hz⟩ := h
  have key : ∀ (l : List R) (k : Int), l.length = m.nnode → ((List.replicate k.toNat l).flatten.length = m.nnode ↔ k = 1) := by
    intro l k hl
    simp only [List.length_flatten, List.map_replicate, List.sum_replicate_nat, hl]
    constructor
    · intro h
      have : k.toNat = 1 := Nat.eq_of_mul_eq_mul_right (Nat.pos_of_ne_zero hn) (by rw [h, one_mul])
      omega
    · rintro rfl; simp
  unfold Mesh.scaleLists
  rw [hc]
  simp only [Mesh.listTimes, Except_bind_ok]
  unfold Mesh.setCoords pyAssert
  simp only [key x a hx, key y b hy, key z c hz]
  by_cases h1 : a = 1 <;> by_cases h2 : b = 1 <;> by_cases h3 : c = 1 <;> simp [h1, h2, h3, ← hc] <;> rfl

/-- C55: `morph` succeeds exactly when its function returns three arrays of the number of nodes, which
become the coordinates; nothing else changes. -/
theorem C55_morph (m : Mesh R) (x y z : List R) (hc : m.coords = some (x, y, z))
    (f : List R → List R → List R → List R × List R × List R) (x' y' z' : List R) (hf : f x y z = (x', y', z')) :
    m.morph f = if x'.length = m.nnode ∧ y'.length = m.nnode ∧ z'.length = m.nnode
      then .ok { m with coords := some (x', y', z') } else .error .assertion := by
  unfold Mesh.morph
  rw [hc]
  simp only [hf]
  unfold Mesh.setCoords pyAssert
  by_cases h1 : x'.length = m.nnode <;> by_cases h2 : y'.length = m.nnode <;>
    by_cases h3 : z'.length = m.nnode <;> simp [h1, h2, h3]

/-- C55: a function acting point by point moves every node by it. -/
theorem C55_morph_pointwise (m : Mesh R) (h : HasCoords m) (g : R × R × R → R × R × R)
    (f : List R → List R → List R → List R × List R × List R)
    (hf : ∀ x y z, x.length = y.length → y.length = z.length → f x y z =
      ((x.zip (y.zip z)).map (fun p => (g p).1), (x.zip (y.zip z)).map (fun p => (g p).2.1),
        (x.zip (y.zip z)).map (fun p => (g p).2.2))) :
    ∃ m', m.morph f = .ok m' ∧ m' = { m with coords := m'.coords } ∧ HasCoords m' ∧
      ∀ i, nodeAt m' i = (nodeAt m i).map g := by
  obtain ⟨x, y, z, hc, hx, hy, hz⟩ := h
  rw [C55_morph m x y z hc f _ _ _ (hf x y z (by omega) (by omega)), if_pos (by simp; omega)]
  refine ⟨_, rfl, rfl, ⟨_, _, _, rfl, by simp; omega, by simp; omega, by simp; omega⟩, ?_⟩
  intro i
  unfold nodeAt
  simp only [hc, List.getElem?_map]
  by_cases hi : i < m.nnode
  · rw [List.getElem?_eq_getElem (show i < (x.zip (y.zip z)).length by simp; omega),
      List.getElem?_eq_getElem (show i < x.length by omega),
      List.getElem?_eq_getElem (show i < y.length by omega),
      List.getElem?_eq_getElem (show i < z.length by omega)]
    simp
  · rw [List.getElem?_eq_none (show (x.zip (y.zip z)).length ≤ i by simp; omega),
      List.getElem?_eq_none (show x.length ≤ i by omega)]
    rfl

/-- A mesh of two nodes, scaled. -/
def exScaled : Mesh Int := { (Mesh.new 1 2 : Mesh Int) with coords := some ([1, 2], [3, 4], [5, 6]) }
example : HasCoords exScaled := ⟨_, _, _, rfl, rfl, rfl, rfl⟩
example : (exScaled.scale (2, 1, -1)).map (·.coords) = .ok (some ([2, 4], [3, 4], [-5, -6])) := by decide
example : exScaled.morph (fun x y _ => (x, y, [0])) = .error .assertion := by decide
end

theorem exScaled_coords : HasCoords exScaled := ⟨_, _, _, rfl, rfl, rfl, rfl⟩
/-- The theorems of C55 on two points. -/
example := C55_scale exScaled exScaled_coords (2, 1, -1)
example := C55_scale_compose exScaled exScaled_coords (2, 1, -1) (3, 3, 5)
example := C55_scale_one exScaled exScaled_coords
example : ∃ m', exScaled.scale (1, -1, -1) = .ok m' ∧ m'.scale (1, -1, -1) = .ok exScaled := by
  obtain ⟨m', h, -⟩ := C55_scale exScaled exScaled_coords (1, -1, -1)
  exact ⟨m', h, C55_scale_inverse exScaled m' exScaled_coords _ _ (by decide) (by decide) (by decide) h⟩
example := C55_lists_float_refuted exScaled exScaled_coords (.int 1, .float, .int 1) (by simp)
example := C55_lists_int exScaled exScaled_coords (by decide) 2 1 1
example := C55_morph exScaled _ _ _ rfl (fun x y _ => (x, y, [0])) _ _ _ rfl
example := C55_morph_pointwise exScaled exScaled_coords (fun p => (p.2.1, p.1, p.1 * p.2.2))
  (fun x y z => ((x.zip (y.zip z)).map fun p => p.2.1, (x.zip (y.zip z)).map fun p => p.1,
    (x.zip (y.zip z)).map fun p => p.1 * p.2.2)) (fun _ _ _ _ _ => rfl)

end Cfd
