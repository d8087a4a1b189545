import Verif.Lemmas.ProbeArrays
import Verif.Props.Plotline

/-!
# Probe data and maps, whatever the shapes of the arrays (C48, C75)
-/

namespace Cfd.Probes
open Cfd.Spec.Probes

variable {F : Type}

/-- What `check_data` keeps true: what was loaded is there, everything there has its value. -/
def AllValues (N : PhyNum F) (loaded : Data F) (file : String → Option (Raw F)) (d : Data F) : Prop :=
  Keeps loaded d ∧ ∀ k v, d.get? k = some v → ArrayValue N loaded file k v ∨ (k = "time" ∧ TimeValue loaded file v)

theorem column_one {rows : List (List F)} {t : List F} (h : rows.mapM (fun r => npGet r (1 : Int)) = .ok t) :
    rows.map (fun r => r[1]?) = t.map some := by
  have h2 := mapM_ok_iff.1 h
  clear h
  induction h2 with
  | nil => rfl
  | cons hab _ ih =>
    rename_i a b _ _ _
    simp only [List.map_cons, ih]
    congr 1
    exact (npGet_nonneg (by decide)).1 hab

theorem all_read {N : PhyNum F} {loaded : Data F} {fs : String → Option (Raw F)} {pre var : String} {d d' : Data F}
    (hi : AllValues N loaded (fileOf fs pre) d) (hn : var ∉ d.keys)
    (h : readData N fs pre var (decide (var ∈ ["X", "Y", "Z"])) d = (.ok true, d')) :
    AllValues N loaded (fileOf fs pre) d' := by
  have hno : ∀ {e : Data F} {k : String}, Keeps loaded e → k ∉ e.keys → loaded.get? k = none := by
    intro e k hk hn
    cases hl : loaded.get? k with
    | none => rfl
    | some w => exact absurd (Dict.mem_keys_iff.2 ⟨w, hk k w hl⟩) hn
  have hset : ∀ {e : Data F} {k : String} {v : Val F}, AllValues N loaded (fileOf fs pre) e → k ∉ e.keys →
      (ArrayValue N loaded (fileOf fs pre) k v ∨ (k = "time" ∧ TimeValue loaded (fileOf fs pre) v)) →
      AllValues N loaded (fileOf fs pre) (e.set k v) := by
    intro e k v he hk hv
    refine ⟨keeps_trans he.1 (keeps_set hk), fun j w hj => ?_⟩
    by_cases hjk : j = k
    · subst hjk
      rw [Dict.get?_set_self] at hj
      obtain rfl := Option.some.inj hj
      exact hv
    · rw [Dict.get?_set_ne _ _ hjk] at hj
      exact he.2 j w hj
  have hco : ∀ {b : Bool}, decide (var ∈ ["X", "Y", "Z"]) = b → (isCoordinate var ↔ b = true) := by
    intro b hb
    subst hb
    simp [isCoordinate]
  rcases readData_inv h with ⟨l, hf, rfl⟩ | ⟨r, rows, hf, hc, rfl⟩ | ⟨rows, hf, hc, hrest⟩
  · exact hset hi hn (.inl (.file var _ _ (hno hi.1 hn) hf rfl))
  · refine hset hi hn (.inl (.file var _ _ (hno hi.1 hn) hf ?_))
    have : isCoordinate var := (hco rfl).2 hc
    simp [fileVal, this]
  · have hnc : ¬ isCoordinate var := by rw [hco rfl, hc]; simp
    have h1 := hset hi hn (.inl (.file var _ (.mat (rows.map (·.drop 3))) (hno hi.1 hn) hf (by simp [fileVal, hnc])))
    rcases hrest with ⟨-, rfl⟩ | ⟨ht, t, hmap, rfl⟩
    · exact h1
    · exact hset h1 ht (.inr ⟨rfl, .inr ⟨hno h1.1 ht, var, rows, t, hnc, hf, column_one hmap, rfl⟩⟩)

theorem all_check {N : PhyNum F} {loaded : Data F} {fs : String → Option (Raw F)} {pre var : String} {d d' : Data F} {b : Bool}
    (hi : AllValues N loaded (fileOf fs pre) d) (h : checkData N fs pre var d = (.ok b, d')) :
    AllValues N loaded (fileOf fs pre) d' := by
  refine check_preserves (fun _ => True) (AllValues N loaded (fileOf fs pre)) (fun _ _ _ _ _ _ _ => trivial) ?_ ?_ (rank var + 1)
    var (by omega) trivial d b d' hi h
  · intro var d d' _ hi hn h
    exact all_read hi hn h
  · intro var d0 d d' _ hi0 hn hi hf h
    obtain ⟨hne, v, w, rfl, hw, h2, hv⟩ := compute_broadcast h
    have hnone : loaded.get? var = none := by
      cases hl : loaded.get? var with
      | none => rfl
      | some x => exact absurd (Dict.mem_keys_iff.2 ⟨x, hi0.1 var x hl⟩) hn
    refine ⟨fun k x hk => ?_, fun k x hk => ?_⟩
    · have : k ≠ var := by rintro rfl; rw [hnone] at hk; cases hk
      rw [Dict.get?_set_ne _ _ this]
      exact hi.1 k x hk
    · by_cases e : k = var
      · subst e
        rw [Dict.get?_set_self] at hk
        obtain rfl := Option.some.inj hk
        refine .inl (.computed k v w hnone hf hne (fun j hj => ?_) h2 hv)
        rcases hi.2 j (w j) (hw j hj) with h | ⟨rfl, -⟩
        · exact h
        · exact absurd hj (needs_time k)
      · rw [Dict.get?_set_ne _ _ e] at hk
        exact hi.2 k x hk

/-- **C48, values whatever the shapes.** When `check_data` accepts a variable, the dictionary holds its value, and every other
variable added has its own value too: that of its file, or that of the formula at each time and point, an array with a single
line (or point) being used for all. -/
theorem C48_any_shape (N : PhyNum F) (fs : String → Option (Raw F)) (pre var : String) (d : Data F) (b : Bool)
    (h : (checkData N fs pre var d).1 = .ok b) :
    (∃ v, (checkData N fs pre var d).2.get? var = some v) ∧
    ∀ k v, (checkData N fs pre var d).2.get? k = some v →
      ArrayValue N d (fun k => fs (pre ++ "." ++ k)) k v ∨ (k = "time" ∧ TimeValue d (fun k => fs (pre ++ "." ++ k)) v) := by
  refine ⟨Dict.mem_keys_iff.1 ((C48_always N fs pre var d).2.2.1 b h), ?_⟩
  have hs : checkData N fs pre var d = (.ok b, (checkData N fs pre var d).2) := by rw [← h]
  exact (all_check (loaded := d) ⟨fun _ _ h => h, fun k v hk => .inl (.loaded k v hk)⟩ hs).2

/-- **C75, values whatever the files.** A saved map holds the values of the requested variable: those at all times, or the
amplitudes of its frequencies; against the values of the requested coordinate and the times of a file. -/
theorem C75_values (env : PlotEnv F) (fs : String → Option (Raw F)) (o : PlotArgs) (fig : Figure F)
    (h : plotline env fs o = .ok fig) :
    ∃ rows t, ArrayValue env.toPhyNum [] (fileOf fs o.pre) o.data (.mat rows) ∧
      (ArrayValue env.toPhyNum [] (fileOf fs o.pre) o.axis (.vec fig.x) ∨
        (o.axis = "time" ∧ TimeValue [] (fileOf fs o.pre) (.vec fig.x))) ∧
      (ArrayValue env.toPhyNum [] (fileOf fs o.pre) "time" t ∨ TimeValue [] (fileOf fs o.pre) t) ∧
      (o.freq = false → t = .vec fig.y ∧ fig.z = rows) ∧
      (o.freq = true → fig.y = ((env.freq rows.length (env.avg (steps env t))).take (rows.length / 200)).drop 1 ∧
        fig.z = ((env.spectrum rows).take (rows.length / 200)).drop 1) := by
  have hlen := (C75_requested env fs o fig h).1
  obtain ⟨b1, d1, b2, d2, e1, e2, h⟩ := plotline_inv h
  have hall := all_check (all_check (loaded := []) (d := []) ⟨fun _ _ h => h, fun k v hk => by cases hk⟩ e1) e2
  have hfirst : ∀ {c}, firstChar o.data = .ok c → c = o.data := by
    intro c hc
    unfold firstChar at hc
    have : o.data.toList.length = 1 := by rw [String.length_toList]; exact hlen
    split at hc
    · cases hc
    · rename_i a l hl
      rw [hl] at this
      have hl' : l = [] := by simpa using this
      subst hl'
      rw [← Except.ok.inj hc, ← hl, String.ofList_toList]
  have hdata : ∀ {rows}, d2.get? o.data = some (.mat rows) → ArrayValue env.toPhyNum [] (fileOf fs o.pre) o.data (.mat rows) := by
    intro rows hr
    rcases hall.2 _ _ hr with h | ⟨e, -⟩
    · exact h
    · rw [e] at hlen; exact absurd hlen (by decide +kernel)
  have htime : ∀ {t}, d2.get? "time" = some t →
      (ArrayValue env.toPhyNum [] (fileOf fs o.pre) "time" t ∨ TimeValue [] (fileOf fs o.pre) t) := by
    intro t ht
    rcases hall.2 _ _ ht with h | ⟨-, h⟩
    · exact .inl h
    · exact .inr h
  split at h
  · rename_i hf
    obtain ⟨c, x, t, rows, hc, hx, ht, hr, -, rfl⟩ := freqmap_ok h
    obtain rfl := hfirst hc
    exact ⟨rows, t, hdata hr, hall.2 _ _ hx, htime ht, by rw [hf]; simp, fun _ => ⟨rfl, rfl⟩⟩
  · rename_i hf
    obtain ⟨c, x, t, rows, hc, hx, ht, hr, rfl⟩ := timemap_ok h
    obtain rfl := hfirst hc
    exact ⟨rows, .vec t, hdata hr, hall.2 _ _ hx, htime ht, fun _ => ⟨rfl, rfl⟩, fun h => absurd h hf⟩

/-! ## Examples -/

/-- Pressure at two times, density at one: the density is used at both times. -/
def mixedFiles : String → Option (Raw Int) := fun n =>
  if n = "probe.P" then some (.arr (.mat [[0, 7, 2, 10, 20], [1, 8, 2, 30, 40]]))
  else if n = "probe.RHO" then some (.arr (.vec [0, 7, 2, 2, 4]))
  else none

theorem mixed_computed : checkData intPhy mixedFiles "probe" "Asound" [] =
    (.ok true, [("P", .mat [[10, 20], [30, 40]]), ("time", .vec [7, 8]), ("RHO", .vec [2, 4]), ("Asound", .mat [[70, 70], [210, 140]])]) := by
  have hp : checkData intPhy mixedFiles "probe" "P" [] = (.ok true, [("P", .mat [[10, 20], [30, 40]]), ("time", .vec [7, 8])]) := by
    rw [checkData, show loadData intPhy mixedFiles "probe" "P" [] =
      (.ok true, [("P", .mat [[10, 20], [30, 40]]), ("time", .vec [7, 8])]) from by decide +kernel]
    decide +kernel
  have hr : checkData intPhy mixedFiles "probe" "RHO" [("P", .mat [[10, 20], [30, 40]]), ("time", .vec [7, 8])] =
      (.ok true, [("P", .mat [[10, 20], [30, 40]]), ("time", .vec [7, 8]), ("RHO", .vec [2, 4])]) := by
    rw [checkData, show loadData intPhy mixedFiles "probe" "RHO" [("P", .mat [[10, 20], [30, 40]]), ("time", .vec [7, 8])] =
      (.ok true, [("P", .mat [[10, 20], [30, 40]]), ("time", .vec [7, 8]), ("RHO", .vec [2, 4])]) from by decide +kernel]
    decide +kernel
  rw [checkData, show loadData intPhy mixedFiles "probe" "Asound" [] = (.ok false, []) from by decide +kernel]
  simp only
  split
  · rename_i h; exact absurd h (by decide +kernel)
  · rename_i ds h
    rw [show dependencyVars.get? "Asound" = some ["P", "RHO"] from by decide +kernel] at h
    obtain rfl := Option.some.inj h
    rw [checkDeps, hp]
    simp only
    rw [checkDeps, hr]
    simp only
    rw [checkDeps]
    decide +kernel

example := C48_any_shape intPhy mixedFiles "probe" "Asound" [] true (by rw [mixed_computed])

example : ∃ rows t, ArrayValue intPhy [] (fileOf someFiles "probe") "P" (.mat rows) ∧ t = Val.vec [(7 : Int), 8] ∧ rows = [[10, 20], [30, 40]] := by
  obtain ⟨rows, t, h, -, -, h2, -⟩ := C75_values intPlot someFiles defaults _
    (C75_time_map_partial intPlot someFiles defaults _ _ _ someFiles_map (by decide +kernel) rfl rfl (fun _ => rfl))
  obtain ⟨rfl, h3⟩ := h2 rfl
  exact ⟨rows, _, h, rfl, h3.symm⟩

end Cfd.Probes
