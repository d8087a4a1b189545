import Verif.Spec.DataGeo
import Verif.Lemmas.Basic
import Verif.Props.Data
import Mathlib.Data.List.Induction

/-! # The geometry of a data set (C97), entries named `time` (C54) -/

namespace Cfd
open Spec GeoProp

section
variable {K M : Type} [Zero K] [DecidableEq K]

theorem Coord.truth_error {strict : Bool} {c : Coord K} : (∃ e, c.truth strict = .error e) ↔ ¬ Testable strict c := by
  rcases c with _ | l | l
  · simp [Coord.truth, Testable]
  · simp [Coord.truth, Testable]
  · rcases l with _ | ⟨a, _ | ⟨b, t⟩⟩ <;> cases strict <;> simp [Coord.truth, Testable]

theorem Coord.truth_true {strict : Bool} {c : Coord K} : c.truth strict = .ok true ↔ Held c := by
  rcases c with _ | l | l
  · simp [Coord.truth, Held]
  · simp [Coord.truth, Held]
  · rcases l with _ | ⟨a, _ | ⟨b, t⟩⟩ <;> cases strict <;> simp [Coord.truth, Held]

theorem Coord.testable_of_ok {strict : Bool} {c : Coord K} {b : Bool} (h : c.truth strict = .ok b) :
    Testable strict c := by
  by_contra hc
  obtain ⟨e, he⟩ := Coord.truth_error.mpr hc
  rw [h] at he; cases he

theorem GeoProp.setIf_cases (strict : Bool) (g : GeoProp K M) (n : String) (c : Coord K) :
    (¬ Testable strict c ∧ ¬ Held c ∧ setIf strict g n c = (.error .value, g)) ∨
    (Testable strict c ∧ Held c ∧ setIf strict g n c = (.ok (), Dict.set g n (.coord c))) ∨
    (Testable strict c ∧ ¬ Held c ∧ setIf strict g n c = (.ok (), g)) := by
  rcases h : c.truth strict with e | b
  · left
    refine ⟨Coord.truth_error.mp ⟨e, h⟩, fun hh => ?_, ?_⟩
    · rw [Coord.truth_true.mpr hh] at h; cases h
    · have : e = .value := by
        rcases c with _ | l | l
        · simp [Coord.truth] at h
        · simp [Coord.truth] at h
        · rcases l with _ | ⟨a, _ | ⟨b, t⟩⟩ <;> cases strict <;> simp [Coord.truth] at h <;> exact h.symm
      subst this
      simp [setIf, h]
  · right
    have ht := Coord.testable_of_ok h
    cases b with
    | true => exact Or.inl ⟨ht, Coord.truth_true.mp h, by simp [setIf, h]⟩
    | false =>
      refine Or.inr ⟨ht, fun hh => ?_, by simp [setIf, h]⟩
      rw [Coord.truth_true.mpr hh] at h; cases h

theorem Spec.IsLast.append {α β : Type} {has : α → β → Prop} {l : List α} {v : Option β} (a : α)
    (h : IsLast has l v) (v' : Option β)
    (hv : (∃ b, has a b ∧ v' = some b) ∨ ((∀ b, ¬ has a b) ∧ v' = v)) : IsLast has (l ++ [a]) v' := by
  rcases hv with ⟨b, hb, rfl⟩ | ⟨hn, rfl⟩
  · exact Or.inr ⟨b, rfl, l, a, [], rfl, hb, by simp⟩
  · rcases h with ⟨rfl, h⟩ | ⟨b, rfl, before, a0, after, rfl, hb, hafter⟩
    · left
      refine ⟨rfl, fun a' ha' => ?_⟩
      rcases List.mem_append.mp ha' with ha' | ha'
      · exact h a' ha'
      · rw [List.mem_singleton.mp ha']; exact hn
    · right
      refine ⟨b, rfl, before, a0, after ++ [a], by simp, hb, fun a' ha' => ?_⟩
      rcases List.mem_append.mp ha' with ha' | ha'
      · exact hafter a' ha'
      · rw [List.mem_singleton.mp ha']; exact hn

/-- C97 (any history): whatever the calls of `set_nodes` and `set_mesh`, and whichever of them raised, what
the data set shows is, for each name, what the last call giving it gave: `x` always, `y` when it is a list with
values or an array of one nonzero value, `z` likewise and only if `y` could be tested. Any other name is absent. -/
theorem C97_history_partial (strict : Bool) (l : List (Call K M)) :
    IsLast GivesX l ((GeoProp.history strict l).get? "x") ∧
    IsLast GivesY l ((GeoProp.history strict l).get? "y") ∧
    IsLast (GivesZ strict) l ((GeoProp.history strict l).get? "z") ∧
    IsLast GivesMesh l ((GeoProp.history strict l).get? "mesh") ∧
    ∀ n, n ∉ ["x", "y", "z", "mesh"] → (GeoProp.history strict l).get? n = none := by
  induction l using List.reverseRecOn with
  | nil => simp [IsLast, GeoProp.history, Dict.get?]
  | append_singleton l c ih =>
    obtain ⟨hx, hy, hz, hm, ho⟩ := ih
    have e : GeoProp.history strict (l ++ [c]) = call strict (GeoProp.history strict l) c := by
      simp [GeoProp.history]
    rw [e]
    generalize GeoProp.history strict l = g at *
    cases c with
    | mesh m =>
      simp only [call, setMesh]
      refine ⟨hx.append _ _ (.inr ⟨by simp [GivesX], ?_⟩), hy.append _ _ (.inr ⟨by simp [GivesY], ?_⟩),
        hz.append _ _ (.inr ⟨by simp [GivesZ], ?_⟩), hm.append _ _ (.inl ⟨_, rfl, ?_⟩), fun n hn => ?_⟩
      · exact Dict.get?_set_ne _ _ (by decide)
      · exact Dict.get?_set_ne _ _ (by decide)
      · exact Dict.get?_set_ne _ _ (by decide)
      · exact Dict.get?_set_self _ _ _
      · rw [Dict.get?_set_ne _ _ (by simp at hn; tauto)]; exact ho n hn
    | nodes x y z =>
      simp only [call, setNodes]
      have key : ∀ g', (∀ n, n ≠ "x" → n ≠ "y" → n ≠ "z" → Dict.get? g' n = Dict.get? g n) →
          Dict.get? g' "x" = some (.coord x) →
          (Held y ∧ Dict.get? g' "y" = some (.coord y) ∨ ¬ Held y ∧ Dict.get? g' "y" = Dict.get? g "y") →
          ((Testable strict y ∧ Held z) ∧ Dict.get? g' "z" = some (.coord z) ∨
            ¬ (Testable strict y ∧ Held z) ∧ Dict.get? g' "z" = Dict.get? g "z") →
          IsLast GivesX (l ++ [Call.nodes x y z]) (Dict.get? g' "x") ∧
          IsLast GivesY (l ++ [Call.nodes x y z]) (Dict.get? g' "y") ∧
          IsLast (GivesZ strict) (l ++ [Call.nodes x y z]) (Dict.get? g' "z") ∧
          IsLast GivesMesh (l ++ [Call.nodes x y z]) (Dict.get? g' "mesh") ∧
          ∀ n, n ∉ ["x", "y", "z", "mesh"] → Dict.get? g' n = none := by
        intro g' h0 h1 h2 h3
        refine ⟨hx.append _ _ (.inl ⟨_, rfl, h1⟩), hy.append _ _ ?_, hz.append _ _ ?_,
          hm.append _ _ (.inr ⟨by simp [GivesMesh], h0 _ (by decide) (by decide) (by decide)⟩), fun n hn => ?_⟩
        · rcases h2 with ⟨h, e⟩ | ⟨h, e⟩
          · exact .inl ⟨_, ⟨h, rfl⟩, e⟩
          · exact .inr ⟨fun b hb => h hb.1, e⟩
        · rcases h3 with ⟨h, e⟩ | ⟨h, e⟩
          · exact .inl ⟨_, ⟨h.1, h.2, rfl⟩, e⟩
          · exact .inr ⟨fun b hb => h ⟨hb.1, hb.2.1⟩, e⟩
        · simp only [List.mem_cons, List.not_mem_nil, not_or, or_false] at hn
          rw [h0 n hn.1 hn.2.1 hn.2.2.1]
          exact ho n (by simp [hn])
      rcases setIf_cases strict (Dict.set g "x" (.coord x)) "y" y with ⟨ty, hhy, ey⟩ | ⟨ty, hhy, ey⟩ | ⟨ty, hhy, ey⟩ <;>
        rw [ey] <;> simp only []
      · exact key _ (fun n h1 _ _ => Dict.get?_set_ne _ _ h1) (Dict.get?_set_self _ _ _)
          (.inr ⟨hhy, Dict.get?_set_ne _ _ (by decide)⟩) (.inr ⟨fun h => ty h.1, Dict.get?_set_ne _ _ (by decide)⟩)
      · rcases setIf_cases strict (Dict.set (Dict.set g "x" (.coord x)) "y" (.coord y)) "z" z with
          ⟨tz, hhz, ez⟩ | ⟨tz, hhz, ez⟩ | ⟨tz, hhz, ez⟩ <;> rw [ez] <;>
          refine key _ (fun n h1 h2 h3 => ?_) ?_ ?_ ?_ <;> simp_all [Dict.get?_set]
      · rcases setIf_cases strict (Dict.set g "x" (.coord x)) "z" z with
          ⟨tz, hhz, ez⟩ | ⟨tz, hhz, ez⟩ | ⟨tz, hhz, ez⟩ <;> rw [ez] <;>
          refine key _ (fun n h1 h2 h3 => ?_) ?_ ?_ ?_ <;> simp_all [Dict.get?_set]

/-- C97 (acceptance): `set_nodes` raises (ValueError) exactly when `y`, or `z`, is an array of several values (or an
empty one with a recent numpy). -/
theorem C97_accepted_partial (strict : Bool) (g : GeoProp K M) (x y z : Coord K) :
    ((g.setNodes strict x y z).1 = .ok () ↔ Testable strict y ∧ Testable strict z) ∧
    ((g.setNodes strict x y z).1 = .error .value ↔ ¬ (Testable strict y ∧ Testable strict z)) := by
  unfold setNodes
  rcases setIf_cases strict (Dict.set g "x" (.coord x)) "y" y with ⟨ty, _, ey⟩ | ⟨ty, _, ey⟩ | ⟨ty, _, ey⟩ <;>
    simp only [ey]
  · simp [ty]
  · rcases setIf_cases strict (Dict.set (Dict.set g "x" (.coord x)) "y" (.coord y)) "z" z with
      ⟨tz, _, ez⟩ | ⟨tz, _, ez⟩ | ⟨tz, _, ez⟩ <;> simp [ez, ty, tz]
  · rcases setIf_cases strict (Dict.set g "x" (.coord x)) "z" z with
      ⟨tz, _, ez⟩ | ⟨tz, _, ez⟩ | ⟨tz, _, ez⟩ <;> simp [ez, ty, tz]

/-- C97 (new data set): after one accepted call on a new data set, the names show what was given exactly when no
argument beyond `x` is an empty list, an empty array, or an array of the single value zero (those are dropped), and
`x` is not `None` (it is stored). -/
theorem C97_new_partial (strict : Bool) (x y z : Coord K) (hy : Testable strict y) (hz : Testable strict z) :
    ((GeoProp.history strict [Call.nodes (M := M) x y z]).get? "x" = Expected x ∧
     (GeoProp.history strict [Call.nodes (M := M) x y z]).get? "y" = Expected y ∧
     (GeoProp.history strict [Call.nodes (M := M) x y z]).get? "z" = Expected z) ↔
    x ≠ .none ∧ (y = .none ∨ Held y) ∧ (z = .none ∨ Held z) := by
  have hexp : ∀ c : Coord K, c ≠ .none → Expected (M := M) c = some (.coord c) := by
    intro c hc; cases c <;> simp_all [Expected]
  have hex0 : ∀ c : Coord K, Held c → Expected (M := M) c = some (.coord c) := by
    intro c hc; exact hexp c (by rintro rfl; exact hc)
  have hexn : ∀ c : Coord K, ¬ Held c → (none = Expected (M := M) c ↔ c = .none ∨ Held c) := by
    intro c hc
    by_cases h : c = .none
    · subst h; simp [Expected]
    · simp [hexp c h, h, hc]
  have hxx : (some (GeoVal.coord x) = Expected (M := M) x ↔ x ≠ .none) := by
    cases x <;> simp [Expected]
  have e : GeoProp.history (M := M) strict [Call.nodes x y z] = (setNodes strict [] x y z).2 := rfl
  rw [e]
  unfold setNodes
  rcases setIf_cases (M := M) strict (Dict.set [] "x" (.coord x)) "y" y with ⟨ty, hhy, ey⟩ | ⟨ty, hhy, ey⟩ | ⟨ty, hhy, ey⟩
  · exact absurd hy ty
  · rcases setIf_cases (M := M) strict (Dict.set (Dict.set [] "x" (.coord x)) "y" (.coord y)) "z" z with
      ⟨tz, hhz, ez⟩ | ⟨tz, hhz, ez⟩ | ⟨tz, hhz, ez⟩
    · exact absurd hz tz
    · simp [ey, ez, Dict.get?_set, hxx, hex0 y hhy, hex0 z hhz, hhy, hhz]
    · have := hexn z hhz
      simp [ey, ez, Dict.get?_set, hxx, hex0 y hhy, hhy] 
      simp [Dict.get?, this]
  · rcases setIf_cases (M := M) strict (Dict.set [] "x" (.coord x)) "z" z with
      ⟨tz, hhz, ez⟩ | ⟨tz, hhz, ez⟩ | ⟨tz, hhz, ez⟩
    · exact absurd hz tz
    · have := hexn y hhy
      simp [ey, ez, Dict.get?_set, hxx, hex0 z hhz, hhz]
      simp [Dict.get?, this]
    · have h1 := hexn y hhy
      have h2 := hexn z hhz
      simp [ey, ez, Dict.get?_set, hxx]
      simp [Dict.get?, h1, h2]

end

/-- C97 fails as stated: two arrays of two values cannot be given (and `x` has changed, while the former `y` stays);
an array holding the single value zero is accepted and lost; a second call with `x` alone leaves the former `y`. -/
theorem C97_refuted :
    (∃ g : GeoProp Int Unit, (g.setNodes false (.array [5, 6]) (.array [7, 8]) .none).1 = .error .value ∧
      (g.setNodes false (.array [5, 6]) (.array [7, 8]) .none).2.get? "x" = some (.coord (.array [5, 6])) ∧
      (g.setNodes false (.array [5, 6]) (.array [7, 8]) .none).2.get? "y" = some (.coord (.list [3, 4]))) ∧
    ((GeoProp.setNodes (M := Unit) false [] (.array [(1 : Int)]) (.array [2]) (.array [0])).1 = .ok () ∧
      (GeoProp.setNodes (M := Unit) false [] (.array [(1 : Int)]) (.array [2]) (.array [0])).2.get? "z" = none) ∧
    (GeoProp.history (M := Unit) false
      [.nodes (.list [(1 : Int), 2]) (.list [3, 4]) .none, .nodes (.list [5, 6, 7]) .none .none]).get? "y" =
        some (.coord (.list [3, 4])) :=
  ⟨⟨[("x", .coord (.list [1, 2])), ("y", .coord (.list [3, 4]))], by decide, by decide, by decide⟩,
    ⟨by decide, by decide⟩, by decide⟩

/-- C97 (lists of data sets): `DataSetList.dataSet` never returns. A list of names given is left without its first
`time`, and as it was when it has none. -/
theorem C97_dataset_of_list_refuted (keys filter : List String) :
    (∃ e, (dataSetOf .dataSetList keys filter).1 = .error e) ∧
    (dataSetOf .dataSetList keys filter).2 = filter.erase "time" := by
  unfold dataSetOf
  by_cases h : filter = []
  · subst h; simp [DataClass.method, DataClass.methods]
  · by_cases ht : "time" ∈ filter
    · simp [h, removeTime, ht, DataClass.method, DataClass.methods]
    · simp [h, removeTime, ht, List.erase_of_not_mem ht]

/-! ## C54: entries named `time` -/

section
variable {V T : Type} [Zero T] [DecidableEq T]

omit [Zero T] [DecidableEq T] in
theorem filter_set_time (l : Dict String (V ⊕ T)) (v : V ⊕ T) :
    (l.set "time" v).filter (fun q => decide (q.1 ≠ "time")) = l.filter fun q => decide (q.1 ≠ "time") := by
  induction l with
  | nil => simp [Dict.set]
  | cons p l ih =>
    obtain ⟨k, w⟩ := p
    by_cases h : k = "time"
    · subst h; simp [Dict.set]
    · simp only [Dict.set, h, if_false, List.filter_cons] at ih ⊢
      simp only [ne_eq, h, not_false_eq_true, decide_true, if_true]
      rw [ih]

/-- C54 (entries named `time`): group `i` of the file holds the entries of the `i`-th dictionary that are not named
`time`, in their order, and the attribute `time` is the time given if it is not zero, otherwise the entry `time` of
the dictionary, if it has one. -/
theorem C54_entries (l : List (Dict String (V ⊕ T) × Option T)) (i : Nat) (d : Dict String (V ⊕ T)) (time : Option T)
    (h : l[i]? = some (d, time)) :
    (∃ shown, (dumpHistory l)[i]? = some (DataSetList.groupName i, d.filter fun q => q.1 ≠ "time", shown) ∧
      TimeShown (d.get? "time") time shown) ∧ (dumpHistory l).length = l.length := by
  refine ⟨⟨(stepEntries d time).get? "time", ?_, ?_⟩, by simp [dumpHistory, dumpEntries]⟩
  · unfold dumpHistory dumpEntries
    rw [List.getElem?_map, List.getElem?_zipIdx, List.getElem?_map, h]
    simp only [Option.map_some, Nat.zero_add, Option.some.injEq, Prod.mk.injEq, true_and, and_true]
    cases time with
    | none => rfl
    | some t =>
      by_cases ht : t = 0
      · simp [stepEntries, ht]
      · simp only [stepEntries, ht, if_false]
        exact filter_set_time d _
  · cases time with
    | none => exact .inr ⟨.inl rfl, rfl⟩
    | some t =>
      by_cases ht : t = 0
      · exact .inr ⟨.inr (by rw [ht]), by simp [stepEntries, ht]⟩
      · exact .inl ⟨t, rfl, ht, by simp only [stepEntries, ht, if_false]; exact Dict.get?_set_self _ _ _⟩

/-- C54 (entries named `time`): when no dictionary has such an entry, the file is the one of `C54_aligned_partial`. -/
theorem C54_entries_same (attrs : DataAttrs) (l : List (Dict String V × Option T)) (h : ∀ p ∈ l, "time" ∉ p.1.keys) :
    dumpHistory (l.map fun p => (p.1.map fun q => (q.1, (Sum.inl q.2 : V ⊕ T)), p.2)) =
      (addAll (⟨attrs, []⟩ : DataSetList V T) l).dumpGroup.map fun g =>
        (g.1, g.2.1.map fun q => (q.1, Sum.inl q.2), g.2.2.map Sum.inr) := by
  apply List.ext_getElem?
  intro i
  have hl : (addAll (⟨attrs, []⟩ : DataSetList V T) l).dumpGroup =
      (l.map fun p => (p.1, if p.2 = some 0 then none else p.2)).zipIdx.map fun p =>
        (DataSetList.groupName p.2, p.1.1, p.1.2) := by
    unfold DataSetList.dumpGroup
    rw [C54_steps]
    rfl
  rw [hl, List.getElem?_map, List.getElem?_map, List.getElem?_zipIdx, List.getElem?_map]
  cases hi : l[i]? with
  | none => simp [dumpHistory, dumpEntries, hi]
  | some p =>
    obtain ⟨d, time⟩ := p
    have hd : "time" ∉ d.keys := h _ (List.mem_of_getElem? hi)
    obtain ⟨⟨shown, hs, ht⟩, -⟩ := C54_entries (l.map fun p => (p.1.map fun q => (q.1, (Sum.inl q.2 : V ⊕ T)), p.2)) i
      (d.map fun q => (q.1, Sum.inl q.2)) time (by rw [List.getElem?_map, hi]; rfl)
    rw [hs]
    have hf : (d.map fun q => (q.1, (Sum.inl q.2 : V ⊕ T))).filter (fun q => decide (q.1 ≠ "time")) =
        d.map fun q => (q.1, Sum.inl q.2) := by
      rw [List.filter_eq_self]
      intro q hq
      obtain ⟨r, hr, rfl⟩ := List.mem_map.1 hq
      simp only [ne_eq, decide_not, Bool.not_eq_eq_eq_not, Bool.not_true, decide_eq_false_iff_not]
      intro e
      exact hd (List.mem_map.2 ⟨r, hr, e⟩)
    have hg : Dict.get? (d.map fun q => (q.1, (Sum.inl q.2 : V ⊕ T))) "time" = none := by
      rw [Dict.get?_eq_none_iff]
      intro hm
      obtain ⟨q, hq, e⟩ := List.mem_map.1 hm
      obtain ⟨r, hr, rfl⟩ := List.mem_map.1 hq
      exact hd (List.mem_map.2 ⟨r, hr, e⟩)
    rw [hg] at ht
    simp only [hf, Option.map_some, Nat.zero_add, Option.some.injEq, Prod.mk.injEq, true_and]
    rcases ht with ⟨t, rfl, h0, rfl⟩ | ⟨rfl | rfl, rfl⟩
    · simp [h0]
    · simp
    · simp

/-- C54 refuted for a field named `time`: the time of the step takes its place; without a time, the field is an
attribute and not a data set. -/
theorem C54_field_time_refuted :
    dumpHistory [([("p", Sum.inl [7, 8]), ("time", .inl [1, 2])], some (3 : Int)), ([("time", .inl [(4 : Nat), 5])], none)] =
      [(DataSetList.groupName 0, [("p", .inl [7, 8])], some (.inr 3)), (DataSetList.groupName 1, [], some (.inl [4, 5]))] := rfl

example := C54_entries [([("p", Sum.inl 7)], some (2 : Int)), ([("time", .inl (8 : Nat)), ("p", .inl 9)], some 0)] 1 _ _ rfl
example := C54_entries_same (T := Int) ⟨.dataSetList, "cellaverage", 1, "timeevol"⟩
  [([("p", 7)], some 2), ([("p", 8), ("q", 9)], none), (([] : Dict String Nat), some 0)] (by decide)

end

/-! ## Cases -/

/-- A history: positions of a line, a mesh, then a call with arrays that raises. -/
def geoCalls : List (GeoProp.Call Int String) :=
  [.nodes (.list [1, 2]) (.list [3, 4]) (.list [5, 6]), .mesh "box", .nodes (.array [7, 8]) (.array [9, 9]) (.list [1])]

example : GeoProp.history false geoCalls =
    [("x", .coord (.array [7, 8])), ("y", .coord (.list [3, 4])), ("z", .coord (.list [5, 6])), ("mesh", .mesh "box")] := by
  decide

/-- The theorem on that history: `z` is the one of the first call, the last one giving it. -/
example : IsLast (GivesZ false) geoCalls (some (.coord (.list [5, 6]))) :=
  (C97_history_partial false geoCalls).2.2.1

/-- Lists are accepted and shown as given. -/
example : (GeoProp.setNodes (M := Unit) true [] (.array [1, (2 : Int)]) (.list [3, 4]) .none).1 = .ok () :=
  (C97_accepted_partial true [] _ _ _).1.mpr ⟨trivial, trivial⟩

example : (GeoProp.history true [Call.nodes (M := Unit) (.array [1, (2 : Int)]) (.list [3, 4]) .none]).get? "y" =
    some (.coord (.list [3, 4])) :=
  ((C97_new_partial true (.array [1, 2]) (.list [3, 4]) .none trivial trivial).mpr
    ⟨by simp, .inr (by simp [Held]), .inl rfl⟩).2.1

example : dataSetOf .dataSetList [] ["time", "P"] = (.error .attribute, ["P"]) := by decide

end Cfd
