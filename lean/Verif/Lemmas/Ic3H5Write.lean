import Verif.Lemmas.Ic3H5Sol
import Verif.Lemmas.Ic3V4Zones
import Verif.Lemmas.Ic3V4Sol
import Mathlib.Tactic.FinCases

/-! Files that tell the same; the files of the V4 writer (C85). -/

namespace Cfd.Ic3
open Spec Spec.Ic3

/-! ## What is read is what the items tell -/

theorem dataset_item (c : H5File) (p n : String) :
    c.dataset p n = (match item c p n with | some d => .ok d | none => .error .key) := by
  cases h : item c p n with
  | some d => exact dataset_iff.2 h
  | none =>
    unfold item at h
    unfold H5File.dataset Dict.getE
    cases hg : c.groups.get? p with
    | none => rfl
    | some g =>
      rw [hg, Option.bind_some] at h
      simp only [Except_bind_ok]
      rw [h]

theorem dataset_same {c c' : H5File} {p n : String} (h : item c p n = item c' p n) : c.dataset p n = c'.dataset p n := by
  rw [dataset_item, dataset_item, h]

theorem count_same {c c' : H5File} {n : String} (h : attr c "/" n = attr c' "/" n) : c.count n = c'.count n := by
  have key : ∀ c : H5File, c.count n = (match attr c "/" n with
      | some (.int k) => if 0 ≤ k then .ok k.toNat else .error .value
      | some _ => .error .type
      | none => .error .key) := by
    intro c
    unfold H5File.count attr Dict.getE
    cases hg : c.groups.get? "/" with
    | none => rfl
    | some g =>
      simp only [Except_bind_ok, Option.bind_some]
      cases ha : g.attrs.get? n with
      | none => rfl
      | some v => cases v <;> rfl
  rw [key, key, h]

theorem rootData_same {c c' : H5File} {n : String} (h : item c "/" n = item c' "/" n) : c.rootData n = c'.rootData n := by
  unfold H5File.rootData
  rw [dataset_same h]

theorem periodic_item (c : H5File) (l : String) : c.periodic l = (match item c ("/Boundaries/" ++ l) "periodic_transform" with
    | none => .ok none
    | some (.reals _ v) => .ok (some v)
    | some _ => .error .type) := by
  unfold H5File.periodic item
  cases hg : c.groups.get? ("/Boundaries/" ++ l) with
  | none => rfl
  | some g =>
    simp only [Option.bind_some]
    cases g.data.get? "periodic_transform" with
    | none => rfl
    | some d => cases d <;> rfl

theorem zones_same {c c' : H5File} (h : SameH5 c c') : c.zones = c'.zones := by
  have hp : c.periodicOf = c'.periodicOf := by
    funext l
    unfold H5File.periodicOf
    rw [periodic_item, periodic_item, h.perio]
  unfold H5File.zones
  have hg := h.group
  cases h1 : c.groups.get? "/Boundaries" with
  | none =>
    rw [h1] at hg
    cases h2 : c'.groups.get? "/Boundaries" with
    | none => simp only; rw [rootData_same (h.root "Boundaries" (by simp))]
    | some g => rw [h2] at hg; cases hg
  | some g =>
    rw [h1] at hg
    cases h2 : c'.groups.get? "/Boundaries" with
    | none => rw [h2] at hg; cases hg
    | some g' =>
      simp only
      unfold H5File.ints H5File.texts
      rw [dataset_same (h.zones "offsets" (by simp)), dataset_same (h.zones "labels" (by simp)),
        dataset_same (h.zones "kinds" (by simp)), hp]

theorem mesh_same {c c' : H5File} (h : SameH5 c c') : c.mesh = c'.mesh := by
  unfold H5File.mesh
  rw [count_same (h.counts "no_count" (by simp)), count_same (h.counts "fa_count" (by simp)),
    count_same (h.counts "cv_count" (by simp)), zones_same h]
  unfold H5File.ints H5File.intsFlat H5File.reals
  rw [dataset_same (h.faces "noofa_i" (by simp)), dataset_same (h.faces "noofa_v" (by simp)),
    dataset_same (h.faces "cvofa" (by simp)), dataset_same (h.root "coordinates" (by simp))]

theorem readVar_same {s s' : H5File} {cv : Nat} {p n : String} (h : item s p n = item s' p n) (d : Dict String NpArr) :
    s.readVar cv p d n = s'.readVar cv p d n := by
  unfold H5File.readVar H5File.reals
  rw [dataset_same h]

theorem nested_same {s s' : H5File} (h : SameSolH5 s s') : s.nestedStats = s'.nestedStats := by
  have key : ∀ s : H5File, s.nestedStats = true ↔ ∃ p ∈ s.groups.map (·.1), "/VolumeStats/".toList <+: p.toList := by
    intro s
    unfold H5File.nestedStats
    rw [List.any_eq_true]
    simp only [decide_eq_true_eq]
    rfl
  have := (key s).trans (h.nested.trans (key s').symm)
  cases h1 : s.nestedStats <;> cases h2 : s'.nestedStats <;> simp_all

theorem foldlM_congr {α β : Type} {f g : β → α → Py β} (l : List α) (b : β) (h : ∀ b, ∀ a ∈ l, f b a = g b a) :
    l.foldlM f b = l.foldlM g b := by
  induction l generalizing b with
  | nil => rfl
  | cons a t ih =>
    rw [List.foldlM_cons, List.foldlM_cons, h b a (by simp)]
    cases g b a with
    | error e => rfl
    | ok c => exact ih c fun b x hx => h b x (by simp [hx])

theorem readVars_same {s s' : H5File} (h : SameSolH5 s s') (cv : Nat) : s.readVars cv = s'.readVars cv := by
  unfold H5File.readVars
  rw [foldlM_congr (f := s.readVar cv "/") (g := s'.readVar cv "/") ["rho", "rhou", "rhoe"] [] (fun b a ha =>
    readVar_same (h.fields a (by fin_cases ha <;> simp)) b)]
  congr 1
  funext d
  rw [h.stats]
  cases hg : s'.groups.get? "/VolumeStats" with
  | none => simp only; rw [rootData_same (h.fields "VolumeStats" (by simp))]
  | some g =>
    simp only
    rw [nested_same h]
    split
    · rfl
    · refine foldlM_congr _ _ fun b a _ => readVar_same ?_ b
      unfold item
      rw [h.stats]

theorem readInfo_same {s s' : H5File} (h : SameSolH5 s s') : s.readInfo = s'.readInfo := by
  have key : ∀ (s : H5File) p, s.attributes p = (match (s.groups.get? p).map (·.attrs) with
      | none => []
      | some g => g.insertionSort fun a b => a.1 ≤ b.1) := by
    intro s p
    unfold H5File.attributes
    cases s.groups.get? p <;> rfl
  unfold H5File.readInfo
  rw [key s, key s', h.attrs, key s "/VolumeStats", key s' "/VolumeStats", h.stats]

theorem readH5_same {c c' : H5File} {s s' : Option H5File} (h : SameH5 c c')
    (hs : Option.Rel SameSolH5 s s') : readH5 c s = readH5 c' s' := by
  unfold readH5
  rw [mesh_same h]
  cases hs with
  | none => rfl
  | some hs =>
    simp only
    congr 1
    funext x
    rw [readVars_same hs, readInfo_same hs]

/-! ## The files of the writer -/

theorem boundaries_ne (l : String) : ∀ p ∈ ["/", "/Connectivities", "/Connectivities/Cell", "/Connectivities/Face", "/Boundaries"],
    ("/Boundaries/" ++ l) ≠ p := by
  intro p hp e
  have e2 := congrArg String.toList e
  rw [String.toList_append] at e2
  fin_cases hp <;> simp at e2

theorem perioGroups_get (x : MeshFile) (l : String) :
    Dict.get? (perioGroups x) ("/Boundaries/" ++ l) =
      (x.perio.get? l).map fun v => ⟨[], [("periodic_transform", .reals [v.length] v)]⟩ := by
  unfold perioGroups
  generalize x.perio = d
  induction d with
  | nil => rfl
  | cons a t ih =>
    rw [List.map_cons]
    by_cases e : a.1 = l
    · simp [Dict.get?, e]
    · have e2 : ¬ ("/Boundaries/" ++ a.1 = "/Boundaries/" ++ l) := by
        intro h
        apply e
        have := congrArg String.toList h
        rw [String.toList_append, String.toList_append] at this
        exact String.toList_injective (List.append_cancel_left this)
      rw [Dict.get?, Dict.get?, if_neg e2, if_neg e]
      exact ih

theorem meshH5_boundary (x : MeshFile) (l : String) : (meshH5 x).groups.get? ("/Boundaries/" ++ l) =
      (x.perio.get? l).map fun v => ⟨[], [("periodic_transform", .reals [v.length] v)]⟩ := by
  rw [← perioGroups_get]
  have h := boundaries_ne l
  unfold meshH5
  simp only [List.cons_append, List.nil_append]
  have h1 := h "/" (by simp)
  have h2 := h "/Connectivities" (by simp)
  have h3 := h "/Connectivities/Cell" (by simp)
  have h4 := h "/Connectivities/Face" (by simp)
  have h5 := h "/Boundaries" (by simp)
  rw [Dict.get?, if_neg h1.symm, Dict.get?, if_neg h2.symm, Dict.get?, if_neg h3.symm, Dict.get?, if_neg h4.symm, Dict.get?,
    if_neg h5.symm]

theorem meshH5_transform (x : MeshFile) (l : String) : transformH5 (meshH5 x) l = x.perio.get? l := by
  unfold transformH5 item
  rw [meshH5_boundary]
  cases x.perio.get? l <;> rfl

theorem meshH5_counts (x : MeshFile) : CountsH5 (meshH5 x) x.no x.fa x.cv := ⟨rfl, rfl, rfl⟩

theorem meshH5_zones (x : MeshFile) : (meshH5 x).zones =
    .ok ⟨x.labels, x.kinds, x.offsets, (x.labels.map fun l => (l, x.perio.get? l)).filterMap fun p => p.2.map fun v => (p.1, v)⟩ := by
  have hp : (meshH5 x).periodicOf = fun l => .ok (l, x.perio.get? l) := by
    funext l
    unfold H5File.periodicOf
    rw [periodic_item]
    unfold item
    rw [meshH5_boundary]
    cases x.perio.get? l <;> rfl
  unfold H5File.zones
  rw [hp]
  rw [show (meshH5 x).groups.get? "/Boundaries" = some ⟨[], [("labels", .texts x.labels), ("offsets", .ints [x.offsets.length] x.offsets),
      ("kinds", .ints [x.kinds.length] x.kinds)]⟩ from rfl]
  simp only
  rw [show (meshH5 x).ints "/Boundaries" "offsets" = .ok x.offsets from rfl,
    show (meshH5 x).texts "/Boundaries" "labels" = .ok x.labels from rfl,
    show (meshH5 x).ints "/Boundaries" "kinds" = .ok x.kinds from rfl, Except_bind_ok, Except_bind_ok, Except_bind_ok]
  have : ∀ l : List String, l.mapM (fun l => (Except.ok (l, x.perio.get? l) : Py _)) = .ok (l.map fun l => (l, x.perio.get? l)) := by
    intro l
    induction l with
    | nil => rfl
    | cons a t ih => rw [List.mapM_cons, ih]; rfl
  rw [this]
  rfl

theorem meshH5_mesh (x : MeshFile) : (meshH5 x).mesh = .ok { x with
      cells := []
      perio := (x.labels.map fun l => (l, x.perio.get? l)).filterMap fun p => p.2.map fun v => (p.1, v) } := by
  unfold H5File.mesh
  rw [count_iff.2 (meshH5_counts x).nodes, count_iff.2 (meshH5_counts x).faces, count_iff.2 (meshH5_counts x).cells, meshH5_zones,
    show (meshH5 x).ints "/Connectivities/Face" "noofa_i" = .ok x.noofaI from rfl,
    show (meshH5 x).ints "/Connectivities/Face" "noofa_v" = .ok x.noofaV from rfl,
    show (meshH5 x).intsFlat "/Connectivities/Face" "cvofa" = .ok x.cvofa from rfl,
    show (meshH5 x).reals "/" "coordinates" = .ok ([x.coordinates.length], x.coordinates) from rfl]
  rfl

theorem perio_labels (x : MeshFile) {l : String} (h : l ∈ x.labels) :
    Dict.get? ((x.labels.map fun l => (l, x.perio.get? l)).filterMap fun p => p.2.map fun v => (p.1, v)) l = x.perio.get? l := by
  have := perio_get (c := meshH5 x) h
  simp only [meshH5_transform] at this
  exact this

theorem mapM_congr' {α β : Type} {f g : α → Py β} (l : List α) (h : ∀ a ∈ l, f a = g a) : l.mapM f = l.mapM g := by
  induction l with
  | nil => rfl
  | cons a t ih => rw [List.mapM_cons, List.mapM_cons, h a (by simp), ih fun x hx => h x (by simp [hx])]

theorem meshH5_read (x : MeshFile) : readMeshV4 { x with
      cells := []
      perio := (x.labels.map fun l => (l, x.perio.get? l)).filterMap fun p => p.2.map fun v => (p.1, v) } = readMeshV4 x := by
  unfold readMeshV4
  congr 1
  funext csr
  congr 1
  funext cvofa
  congr 1
  refine mapM_congr' _ fun q hq => ?_
  have hl : q.1 ∈ x.labels := by
    unfold zoneQuads at hq
    exact (List.of_mem_zip hq).1
  unfold readZoneV4
  rw [perio_labels x hl]

theorem h5Reals_get (d : Dict String (List F64)) (n : String) :
    Dict.get? (h5Reals d) n = (d.get? n).map fun v => .reals [v.length] v := by
  unfold h5Reals
  induction d with
  | nil => rfl
  | cons a t ih =>
    rw [List.map_cons, Dict.get?, Dict.get?]
    split
    · rfl
    · exact ih

theorem h5Reals_keys (d : Dict String (List F64)) : (h5Reals d).keys = d.keys := by
  unfold h5Reals Dict.keys
  rw [List.map_map]; rfl

theorem readVar_written {s : H5File} {p : String} {a : Dict String SimVal} {d : Dict String (List F64)}
    (h : s.groups.get? p = some ⟨a, h5Reals d⟩) (cv : Nat) : s.readVar cv p = readVarV4 cv d := by
  funext cells var
  unfold H5File.readVar readVarV4 H5File.reals
  rw [dataset_item]
  unfold item
  rw [h, Option.bind_some]
  simp only
  rw [h5Reals_get]
  unfold Dict.getE
  cases d.get? var <;> rfl

theorem solH5_vars (s : SolFile) (hv : "VolumeStats" ∉ s.data.keys) (cv : Nat) : (solH5 s).readVars cv = readVarsV4 cv s := by
  have e1 : (solH5 s).readVar cv "/" = readVarV4 cv s.data := readVar_written (a := [("step", s.step), ("time", s.time)]) (by
    unfold solH5; rfl) cv
  unfold H5File.readVars readVarsV4
  rw [e1]
  congr 1
  funext d
  cases hs : s.stats with
  | none =>
    have hg : (solH5 s).groups.get? "/VolumeStats" = none := by unfold solH5; rw [hs]; rfl
    have hr : (solH5 s).rootData "VolumeStats" = false := by
      unfold H5File.rootData
      rw [dataset_item]
      unfold item
      rw [show (solH5 s).groups.get? "/" = some ⟨[("step", s.step), ("time", s.time)], h5Reals s.data⟩ from rfl, Option.bind_some]
      simp only
      rw [h5Reals_get, Dict.get?_eq_none_iff.2 hv]
      rfl
    rw [hg]
    simp only
    rw [hr]
    rfl
  | some g =>
    have hg : (solH5 s).groups.get? "/VolumeStats" = some ⟨g.wgts, h5Reals g.data⟩ := by unfold solH5; rw [hs]; rfl
    have hn : (solH5 s).nestedStats = false := by
      unfold H5File.nestedStats solH5
      rw [hs]
      show (["/", "/VolumeStats"].any fun p => decide ("/VolumeStats/".toList <+: p.toList)) = false
      decide +kernel
    rw [hg]
    simp only
    rw [hn, readVar_written hg]
    simp only [Bool.false_eq_true, if_false]
    unfold linkNames
    rw [h5Reals_keys]

theorem solH5_info (s : SolFile) : (solH5 s).readInfo = readInfoV4 s := by
  unfold H5File.readInfo readInfoV4
  rw [List.foldl_append]
  have e1 : (solH5 s).attributes "/" = [("step", s.step), ("time", s.time)] := by
    unfold H5File.attributes
    rw [show (solH5 s).groups.get? "/" = some ⟨[("step", s.step), ("time", s.time)], h5Reals s.data⟩ from rfl]
    simp only [List.insertionSort_cons, List.insertionSort_nil, List.orderedInsert]
    rw [if_pos (by decide)]
  rw [e1]
  have e2 : ([("step", s.step), ("time", s.time)] : Dict String SimVal).foldl (fun (d : Dict String SimVal) p => d.set p.1 p.2)
      [("step", .int 0), ("time", .int 0)] = [("step", s.step), ("time", s.time)] := rfl
  rw [e2]
  unfold H5File.attributes
  cases hs : s.stats with
  | none =>
    have hg : (solH5 s).groups.get? "/VolumeStats" = none := by unfold solH5; rw [hs]; rfl
    rw [hg]; rfl
  | some g =>
    have hg : (solH5 s).groups.get? "/VolumeStats" = some ⟨g.wgts, h5Reals g.data⟩ := by unfold solH5; rw [hs]; rfl
    rw [hg]

theorem readH5_written (x : MeshFile) (s : Option SolFile) (hv : ∀ s', s = some s' → "VolumeStats" ∉ s'.data.keys) :
    readH5 (meshH5 x) (s.map solH5) = readV4 x s := by
  unfold readH5 readV4
  rw [meshH5_mesh, Except_bind_ok, meshH5_read]
  congr 1
  funext r
  cases s with
  | none => rfl
  | some s =>
    simp only [Option.map_some]
    rw [solH5_vars s (hv s rfl), solH5_info]

/-- No solution file has a dataset `VolumeStats`. -/
theorem solFile_names {cv : Conv} {f : FullMesh} {s : SolFile} (h : solFile cv f = .ok s) : "VolumeStats" ∉ s.data.keys := by
  unfold solFile at h
  simp only [bind_eq_ok, Except_pure, Except.ok.injEq] at h
  obtain ⟨step, -, time, -, data, hd, stats, -, rfl⟩ := h
  simp only
  unfold solVars at hd
  split at hd
  · have : data.keys = solNames.map String.toLower := by
      have key : ∀ (l : List String) (r : List (String × List F64)), l.mapM (solEntry cv f.cells.data) = .ok r →
          r.map (·.1) = l.map String.toLower := by
        intro l
        induction l with
        | nil => intro r h; cases h; rfl
        | cons a t ih =>
          intro r h
          rw [List.mapM_cons] at h
          simp only [bind_eq_ok, Except_pure, Except.ok.injEq] at h
          obtain ⟨b, hb, bs, hbs, rfl⟩ := h
          unfold solEntry at hb
          simp only [bind_eq_ok, Except_pure, Except.ok.injEq] at hb
          obtain ⟨v, -, rfl⟩ := hb
          rw [List.map_cons, List.map_cons, ih _ hbs]
      exact key _ _ hd
    rw [this]
    decide +kernel
  · cases hd
    decide

end Cfd.Ic3
