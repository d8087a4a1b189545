import Verif.Lemmas.Plotline

/-!
# Maps of probe lines (C75)
-/

namespace Cfd.Probes
open Cfd.Spec.Probes

variable {F : Type}

/-- What `contourf` accepts. -/
theorem contourf_ok {x : List F} {y z : Val F} {r : List F × List F × List (List F)} (h : contourf x y z = .ok r) :
    ∃ rows t, z = .mat rows ∧ y = .vec t ∧ r = (x, t, rows) ∧ 2 ≤ rows.length ∧ t.length = rows.length := by
  unfold contourf at h
  split at h
  · rename_i rows y
    simp only at h
    split at h
    · cases h
    · rename_i h1
      split at h
      · rename_i h2
        exact ⟨rows, y, rfl, rfl, (Except.ok.inj h).symm, by omega, h2.2⟩
      · cases h
  · cases h

theorem checkAxis_ok {v : Val F} {x : List F} (h : checkAxis v = .ok x) : v = .vec x := by
  cases v with
  | vec l => rw [Except.ok.inj h]
  | mat _ => cases h

/-- What a saved time map is made of. -/
theorem timemap_ok {env : PlotEnv F} {o : PlotArgs} {d : Data F} {fig : Figure F} (h : plotTimemap env o d = .ok fig) :
    ∃ var x t rows, firstChar o.data = .ok var ∧ d.get? o.axis = some (.vec x) ∧ d.get? "time" = some (.vec t) ∧
      d.get? var = some (.mat rows) ∧ fig = ⟨o.pre ++ "." ++ var ++ ".time.png", o.axis, "time", x, t, rows⟩ := by
  unfold plotTimemap at h
  obtain ⟨var, hvar, h⟩ := bind_eq_ok.1 h
  obtain ⟨-, -, h⟩ := bind_eq_ok.1 h
  obtain ⟨-, -, h⟩ := bind_eq_ok.1 h
  obtain ⟨a, ha, h⟩ := bind_eq_ok.1 h
  obtain ⟨x, hx, h⟩ := bind_eq_ok.1 h
  obtain ⟨t, ht, h⟩ := bind_eq_ok.1 h
  obtain ⟨v, hv, h⟩ := bind_eq_ok.1 h
  obtain ⟨r, hr, h⟩ := bind_eq_ok.1 h
  obtain ⟨rows, t', hz, hy, hr', -, -⟩ := contourf_ok hr
  rw [hz] at hv
  rw [hy] at ht
  rw [hr'] at h
  obtain ⟨-, -, h⟩ := bind_eq_ok.1 h
  rw [checkAxis_ok hx] at ha
  exact ⟨var, x, t', rows, hvar, Dict.getE_eq_ok.1 ha, Dict.getE_eq_ok.1 ht, Dict.getE_eq_ok.1 hv, (Except.ok.inj h).symm⟩

/-- What a saved frequency map is made of. -/
theorem freqmap_ok {env : PlotEnv F} {o : PlotArgs} {d : Data F} {fig : Figure F} (h : plotFreqmap env o d = .ok fig) :
    ∃ var x t rows, firstChar o.data = .ok var ∧ d.get? o.axis = some (.vec x) ∧ d.get? "time" = some t ∧
      d.get? var = some (.mat rows) ∧ 600 ≤ rows.length ∧
      fig = ⟨o.pre ++ "." ++ var ++ ".freq.png", o.axis, "frequency", x,
        slice1 (rows.length / 200) (env.freq rows.length (env.avg (steps env t))),
        slice1 (rows.length / 200) (env.spectrum rows)⟩ := by
  unfold plotFreqmap at h
  obtain ⟨var, hvar, h⟩ := bind_eq_ok.1 h
  obtain ⟨t, ht, h⟩ := bind_eq_ok.1 h
  simp only at h
  split at h
  · cases h
  obtain ⟨v, hv, h⟩ := bind_eq_ok.1 h
  obtain ⟨-, -, h⟩ := bind_eq_ok.1 h
  obtain ⟨a, ha, h⟩ := bind_eq_ok.1 h
  obtain ⟨x, hx, h⟩ := bind_eq_ok.1 h
  rw [checkAxis_ok hx] at ha
  obtain ⟨z, hz, h⟩ := bind_eq_ok.1 h
  cases v with
  | vec l => cases hz
  | mat rows =>
    obtain ⟨r, hr, h⟩ := bind_eq_ok.1 h
    obtain ⟨rows', t', h1, h2, hr', h3, h4⟩ := contourf_ok hr
    rw [hr'] at h
    obtain ⟨-, -, h⟩ := bind_eq_ok.1 h
    simp only [Val.mat.injEq, Val.vec.injEq] at h1 h2
    rw [← h1, ← h2, ← Except.ok.inj hz] at h
    rw [← h1, ← Except.ok.inj hz] at h3
    refine ⟨var, x, t, rows, hvar, Dict.getE_eq_ok.1 ha, Dict.getE_eq_ok.1 ht, Dict.getE_eq_ok.1 hv, ?_, (Except.ok.inj h).symm⟩
    simp only [slice1, Val.rows, List.length_drop, List.length_take] at h3
    omega

theorem plotline_inv {env : PlotEnv F} {fs : String → Option (Raw F)} {o : PlotArgs} {fig : Figure F} (h : plotline env fs o = .ok fig) :
    ∃ b1 d1 b2 d2, checkData env.toPhyNum fs o.pre o.data [] = (.ok b1, d1) ∧ checkData env.toPhyNum fs o.pre o.axis d1 = (.ok b2, d2) ∧
      (if o.freq then plotFreqmap env o d2 else plotTimemap env o d2) = .ok fig := by
  unfold plotline at h
  split at h
  · cases h
  · rename_i b1 d1 e1
    split at h
    · cases h
    · rename_i b2 d2 e2
      exact ⟨b1, d1, b2, d2, e1, e2, h⟩

/-- The first character of the name, and the name itself if it has one character. -/
theorem firstChar_ok {s c : String} (h : firstChar s = .ok c) : c.length = 1 := by
  unfold firstChar at h
  split at h
  · cases h
  · rw [← Except.ok.inj h]; simp

theorem firstChar_one {s : String} (h : s.length = 1) : firstChar s = .ok s := by
  unfold firstChar
  rw [← String.length_toList] at h
  split
  · rename_i e; rw [e] at h; cases h
  · rename_i c t e
    rw [e] at h
    have : t = [] := by simpa using h
    subst this
    rw [← e, String.ofList_toList]

/-- **C75, never another variable.** Whatever the files and options, if a map is saved, the variable has a name of one character, and
the name of the figure is the prefix, this name and the kind of map. -/
theorem C75_requested (env : PlotEnv F) (fs : String → Option (Raw F)) (o : PlotArgs) (fig : Figure F)
    (h : plotline env fs o = .ok fig) :
    o.data.length = 1 ∧ fig.name = o.pre ++ "." ++ o.data ++ (if o.freq then ".freq.png" else ".time.png") ∧ fig.xlabel = o.axis := by
  obtain ⟨b1, d1, b2, d2, e1, e2, h⟩ := plotline_inv h
  have hmap : ∃ c x rows, firstChar o.data = .ok c ∧ d2.get? o.axis = some (.vec x) ∧ d2.get? c = some (.mat rows) ∧
      fig.name = o.pre ++ "." ++ c ++ (if o.freq then ".freq.png" else ".time.png") ∧ fig.xlabel = o.axis := by
    split at h
    · rename_i hf
      obtain ⟨c, x, t, rows, h1, h2, -, h3, -, h4⟩ := freqmap_ok h
      exact ⟨c, x, rows, h1, h2, h3, by rw [h4, hf]; rfl, by rw [h4]⟩
    · rename_i hf
      have hf : o.freq = false := by simpa using hf
      obtain ⟨c, x, t, rows, h1, h2, -, h3, h4⟩ := timemap_ok h
      exact ⟨c, x, rows, h1, h2, h3, by rw [h4, hf]; rfl, by rw [h4]⟩
  obtain ⟨c, x, rows, hc, hx, hv, hn, hl⟩ := hmap
  have h1c := firstChar_ok hc
  have hsc : o.data = c := by
    by_contra hs
    have hnr := first_not_reached (file := fileOf fs o.pre) hc hs
    have hct : c ≠ "time" := by rintro rfl; exact absurd h1c (by decide +kernel)
    have hJ2 := vecOf_check (vecOf_check (d := []) (by intro k v hk; cases hk) e1) e2
    rcases check_keys e2 c (Dict.mem_keys_iff.2 ⟨_, hv⟩) with h | h | h
    · rcases check_keys e1 c h with h | h | h
      · cases h
      · exact hct h
      · exact hnr h
    · exact hct h
    · obtain ⟨w, hw, hw'⟩ := reach_vec hJ2 hx rfl h
      rw [hv] at hw
      obtain rfl := Option.some.inj hw
      cases hw'
  subst hsc
  exact ⟨h1c, hn, hl⟩

/-- **C75 is refuted for names of several characters** (`U-X`, `RHO`, `Mach`, `Asound`, `INVX+`, ...): whatever the files and other
options, no map is saved. The plots use the first character of the name. -/
theorem C75_long_names_refuted (env : PlotEnv F) (fs : String → Option (Raw F)) (o : PlotArgs) (h : 2 ≤ o.data.length) :
    ∃ e, plotline env fs o = .error e := by
  cases hp : plotline env fs o with
  | error e => exact ⟨e, rfl⟩
  | ok fig =>
    have := (C75_requested env fs o fig hp).1
    omega

/-- A map which has at least two positions and two lines, of the sizes of the axes. -/
structure Drawable (fig : Figure F) : Prop where
  positions : 2 ≤ fig.x.length
  lines : 2 ≤ fig.y.length
  values : fig.z.length = fig.y.length
  width : ∀ r, fig.z.head? = some r → r.length = fig.x.length

theorem contourf_sizes {x : List F} {y z : Val F} {r : List F × List F × List (List F)} (h : contourf x y z = .ok r)
    (name xl yl : String) : Drawable (⟨name, xl, yl, r.1, r.2.1, r.2.2⟩ : Figure F) := by
  unfold contourf at h
  split at h
  · rename_i rows y
    simp only at h
    split at h
    · cases h
    · rename_i h1
      split at h
      · rename_i h2
        rw [← Except.ok.inj h]
        refine ⟨by simp only; omega, by simp only; omega, h2.2.symm, ?_⟩
        intro r hr
        simp only at hr ⊢
        rw [h2.1, hr]
        rfl
      · cases h
  · cases h

/-- **C75, sizes.** Whatever the files and options, a saved map has at least two positions and two times (or frequencies),
and as many lines of values as times: a line of one probe or a file of one time gives no map. -/
theorem C75_sizes (env : PlotEnv F) (fs : String → Option (Raw F)) (o : PlotArgs) (fig : Figure F)
    (h : plotline env fs o = .ok fig) : Drawable fig := by
  obtain ⟨-, d1, -, d2, -, -, h⟩ := plotline_inv h
  split at h
  · unfold plotFreqmap at h
    obtain ⟨var, hvar, h⟩ := bind_eq_ok.1 h
    obtain ⟨t, ht, h⟩ := bind_eq_ok.1 h
    simp only at h
    split at h
    · cases h
    obtain ⟨v, hv, h⟩ := bind_eq_ok.1 h
    obtain ⟨-, -, h⟩ := bind_eq_ok.1 h
    obtain ⟨a, ha, h⟩ := bind_eq_ok.1 h
    obtain ⟨x, hx, h⟩ := bind_eq_ok.1 h
    obtain ⟨z, hz, h⟩ := bind_eq_ok.1 h
    obtain ⟨r, hr, h⟩ := bind_eq_ok.1 h
    obtain ⟨-, -, h⟩ := bind_eq_ok.1 h
    rw [← Except.ok.inj h]
    exact contourf_sizes hr _ _ _
  · unfold plotTimemap at h
    obtain ⟨var, hvar, h⟩ := bind_eq_ok.1 h
    obtain ⟨-, -, h⟩ := bind_eq_ok.1 h
    obtain ⟨-, -, h⟩ := bind_eq_ok.1 h
    obtain ⟨a, ha, h⟩ := bind_eq_ok.1 h
    obtain ⟨x, hx, h⟩ := bind_eq_ok.1 h
    obtain ⟨t, ht, h⟩ := bind_eq_ok.1 h
    obtain ⟨v, hv, h⟩ := bind_eq_ok.1 h
    obtain ⟨r, hr, h⟩ := bind_eq_ok.1 h
    obtain ⟨-, -, h⟩ := bind_eq_ok.1 h
    rw [← Except.ok.inj h]
    exact contourf_sizes hr _ _ _

/-- The time of the files. -/
structure TimeIs (t : List F) (m : Nat) (d : Data F) : Prop where
  time : ∀ v, d.get? "time" = some v → v = .vec t ∧ t.length = m
  set : ∀ k, k ∈ d.keys → ¬ isCoordinate k → "time" ∈ d.keys

theorem timeIs_check {N : PhyNum F} {fs : String → Option (Raw F)} {pre var : String} {t : List F} {m n : Nat}
    (hc : Consistent N [] (fileOf fs pre) (.mat m n)) (ht : SameTimes (fileOf fs pre) t) (hv : var ≠ "time") {d d' : Data F} {b : Bool}
    (hi : TimeIs t m d) (h : checkData N fs pre var d = (.ok b, d')) : TimeIs t m d' := by
  have hset : ∀ (d : Data F) (var : String) (v : Val F), var ≠ "time" → TimeIs t m d → (¬ isCoordinate var → "time" ∈ d.keys) →
      TimeIs t m (d.set var v) := by
    intro d var v hv hi hq
    have hk : "time" ∈ (d.set var v).keys ↔ "time" ∈ d.keys := by
      rw [Dict.mem_keys_iff, Dict.mem_keys_iff, Dict.get?_set_ne _ _ (Ne.symm hv)]
    constructor
    · intro w hw
      rw [Dict.get?_set_ne _ _ (Ne.symm hv)] at hw
      exact hi.time w hw
    · intro k hkk hkc
      rw [hk]
      by_cases e : k = var
      · subst e; exact hq hkc
      · refine hi.set k ?_ hkc
        obtain ⟨w, hw⟩ := Dict.mem_keys_iff.1 hkk
        rw [Dict.get?_set_ne _ _ e] at hw
        exact Dict.mem_keys_iff.2 ⟨w, hw⟩
  refine check_preserves (fun k => k ≠ "time") (TimeIs t m) ?_ ?_ ?_ (rank var + 1) var (by omega) hv d b d' hi h
  · intro var ds _ _ hds v hv
    have := needs_deps var
    rw [hds] at this
    split at this
    · cases this
    · obtain rfl := Option.some.inj this
      exact (needs_plain hv).2
  · intro var d d' hvt hi hn h
    have hcoord : decide (var ∈ ["X", "Y", "Z"]) = decide (isCoordinate var) := decide_eq_decide.2 (by simp [isCoordinate])
    rw [hcoord] at h
    rcases readData_inv h with ⟨l, hf, rfl⟩ | ⟨r, rows, hf, hcv, rfl⟩ | ⟨rows, hf, hcv, ⟨hin, rfl⟩ | ⟨hin, t', ht', rfl⟩⟩
    · refine hset _ _ _ hvt hi fun hcv => ?_
      obtain ⟨v, e, -, hs⟩ := hc.files var _ hf
      cases e
      exact absurd (hs hcv) id
    · exact hset _ _ _ hvt hi fun h => absurd (by simpa using hcv) h
    · refine hset _ _ _ hvt hi fun _ => ?_
      rw [Dict.mem_keys_iff, Dict.get?_set_ne _ _ (Ne.symm hvt)] at hin
      exact Dict.mem_keys_iff.2 hin
    · have hcv : ¬ isCoordinate var := by simpa using hcv
      have htt : t' = t ∧ t.length = m := by
        have h1 := ht var rows hf hcv
        rw [mapM_ok_iff] at ht'
        have h2 : rows.map (fun r => r[1]?) = t'.map some := by
          rw [← List.forall₂_eq_eq_eq, List.forall₂_map_left_iff, List.forall₂_map_right_iff]
          refine ht'.imp ?_
          intro r x hx
          rw [show (1 : Int) = ((1 : Nat) : Int) from rfl, npGet_nat] at hx
          exact hx
        rw [h1] at h2
        have h3 : t = t' := List.map_injective_iff.2 (Option.some_injective _) h2
        refine ⟨h3.symm, ?_⟩
        obtain ⟨v, e, -, hs⟩ := hc.files var _ hf
        simp only [fileVal, if_neg hcv, Option.some.injEq] at e
        subst e
        have := congrArg List.length h1
        simp only [List.length_map] at this
        rw [← this, ← (hs hcv).1, List.length_map]
      rw [htt.1]
      constructor
      · intro v hv
        rw [Dict.get?_set_self] at hv
        exact ⟨(Option.some.inj hv).symm, htt.2⟩
      · intro k _ _
        exact Dict.mem_keys_iff.2 ⟨_, Dict.get?_set_self _ _ _⟩
  · intro var _ d d' hvt _ _ hi hn h
    obtain ⟨hne, x, w, rfl, hw, -⟩ := compute_inv h
    refine hset _ _ _ hvt hi fun _ => ?_
    obtain ⟨k, hk⟩ := List.exists_mem_of_ne_nil _ hne
    exact hi.set k (Dict.mem_keys_iff.2 ⟨_, hw k hk⟩) (needs_plain hk).1

/-- The dictionary when the plot starts. -/
theorem ready {env : PlotEnv F} {fs : String → Option (Raw F)} {o : PlotArgs} {x t : List F} {rows : List (List F)}
    (hm : CanMap env.toPhyNum (fileOf fs o.pre) o.data o.axis x t rows) (hd : o.data ≠ "time") :
    t.length = rows.length ∧ ∃ d, plotline env fs o = (if o.freq then plotFreqmap env o d else plotTimemap env o d) ∧
      d.get? o.data = some (.mat rows) ∧ d.get? o.axis = some (.vec x) ∧ d.get? "time" = some (.vec t) := by
  have hax : o.axis ≠ "time" := by
    intro e
    have := hm.coordinate
    rw [e] at this
    exact absurd this (by decide +kernel)
  obtain ⟨d1, v1, e1, -, g1, k1, hv1⟩ := (check_ok hm.files (rank o.data + 1) o.data (by omega) [] good_self (.inr rfl)).1
    (available_of_value hm.data)
  obtain ⟨d2, v2, e2, hk, -, k2, hv2⟩ := (check_ok hm.files (rank o.axis + 1) o.axis (by omega) d1 g1 (.inl hax)).1
    (available_of_value hm.axis)
  have t1 := timeIs_check hm.files hm.times hd (d := []) ⟨by intro v h; (cases h), by intro k h; cases h⟩ e1
  have t2 := timeIs_check hm.files hm.times hax t1 e2
  have hin := t1.set o.data (Dict.mem_keys_iff.2 ⟨_, k1⟩) hm.physical
  obtain ⟨v, hv⟩ := Dict.mem_keys_iff.1 hin
  have hv' := t2.time v (hk _ _ hv)
  refine ⟨hv'.2, d2, ?_, ?_, ?_, ?_⟩
  · unfold plotline
    simp only [e1, e2]
  · rw [hk _ _ k1, value_unique hm.files hm.data v1 hv1]
  · rw [k2, value_unique hm.files hm.axis v2 hv2]
  · rw [hk _ _ hv, hv'.1]

theorem rows_length {N : PhyNum F} {file : String → Option (Raw F)} {data axis : String} {x t : List F} {rows : List (List F)}
    (hm : CanMap N file data axis x t rows) (hd : data ≠ "time") : ∀ r ∈ rows, r.length = x.length :=
  ((shape_of_value hm.files hm.data).2 hm.physical hd).2

theorem contourf_same {x y : List F} {rows : List (List F)} (h : 2 ≤ rows.length) (hx : 2 ≤ x.length) (hy : y.length = rows.length)
    (hr : ∀ r ∈ rows, r.length = x.length) : contourf x (.vec y) (.mat rows) = .ok (x, y, rows) := by
  cases rows with
  | nil => simp at h
  | cons a l =>
    unfold contourf
    simp only [List.head?_cons, Option.map_some, Option.getD_some, hr a (by simp)]
    rw [if_neg (by omega), if_pos ⟨trivial, hy⟩]

/-- **C75, time map** (partial: names of one character). The figure `prefix.var.time.png` shows the value of the variable at each point
and time, against the coordinate and the times of the files. -/
theorem C75_time_map_partial (env : PlotEnv F) (fs : String → Option (Raw F)) (o : PlotArgs) (x t : List F) (rows : List (List F))
    (hm : CanMap env.toPhyNum (fileOf fs o.pre) o.data o.axis x t rows) (h1 : o.data.length = 1) (hf : o.freq = false)
    (hcm : env.cmap o.cmap o.nlevels = .ok ()) (hr : ∀ fig, env.render fig o.cmap o.nlevels = .ok ()) :
    plotline env fs o = .ok ⟨o.pre ++ "." ++ o.data ++ ".time.png", o.axis, "time", x, t, rows⟩ := by
  have hd : o.data ≠ "time" := by intro e; rw [e] at h1; exact absurd h1 (by decide +kernel)
  obtain ⟨hl, d, e, kd, ka, kt⟩ := ready hm hd
  have hs : sizes o.verbose o.axis o.data d = .ok () := by
    unfold sizes
    split
    · rw [Dict.getE_eq_ok.2 ka, Dict.getE_eq_ok.2 kd, Dict.getE_eq_ok.2 kt]; rfl
    · rfl
  rw [e, hf]
  simp only [Bool.false_eq_true, if_false]
  unfold plotTimemap
  rw [firstChar_one h1]
  simp only [Except_bind_ok, hcm, hs, Dict.getE_eq_ok.2 ka, Dict.getE_eq_ok.2 kd, Dict.getE_eq_ok.2 kt, checkAxis]
  rw [contourf_same hm.size.1 hm.size.2 hl (rows_length hm hd)]
  simp only [Except_bind_ok, hr]
  rfl

/-- **C75, frequency map** (partial: names of one character, at least 600 times). The figure `prefix.var.freq.png` shows the amplitudes
of the frequencies of ranks 1 to `m/200 - 1`. -/
theorem C75_freq_map_partial (env : PlotEnv F) (fs : String → Option (Raw F)) (o : PlotArgs) (x t : List F) (rows : List (List F))
    (hm : CanMap env.toPhyNum (fileOf fs o.pre) o.data o.axis x t rows) (h1 : o.data.length = 1) (hf : o.freq = true)
    (hlong : 600 ≤ rows.length)
    (hfreq : ∀ k s, (env.freq k s).length = k)
    (hspec : (env.spectrum rows).length = rows.length ∧ ∀ r ∈ env.spectrum rows, r.length = x.length)
    (hcm : env.cmap o.cmap o.nlevels = .ok ()) (hr : ∀ fig, env.render fig o.cmap o.nlevels = .ok ()) :
    plotline env fs o = .ok ⟨o.pre ++ "." ++ o.data ++ ".freq.png", o.axis, "frequency", x,
      ((env.freq rows.length (env.avg ((t.drop 1).zipWith env.sub t))).take (rows.length / 200)).drop 1,
      ((env.spectrum rows).take (rows.length / 200)).drop 1⟩ := by
  have hd : o.data ≠ "time" := by intro e; rw [e] at h1; exact absurd h1 (by decide +kernel)
  obtain ⟨hl, d, e, kd, ka, kt⟩ := ready hm hd
  rw [e, hf]
  simp only [if_true]
  unfold plotFreqmap
  rw [firstChar_one h1]
  simp only [Except_bind_ok, hcm, Dict.getE_eq_ok.2 ka, Dict.getE_eq_ok.2 kd, Dict.getE_eq_ok.2 kt, checkAxis, steps, psd, Val.rows]
  rw [if_neg ?_, contourf_same ?_ hm.size.2 ?_ ?_]
  · simp only [Except_bind_ok, hr]
    rfl
  · simp only [slice1, List.length_drop, List.length_take, hspec.1]
    omega
  · simp only [slice1, List.length_drop, List.length_take, hspec.1, hfreq]
  · intro r hrm
    exact hspec.2 r (List.mem_of_mem_take (List.mem_of_mem_drop hrm))
  · rw [List.isEmpty_iff, ← List.length_eq_zero_iff, List.length_zipWith, List.length_drop]
    omega

/-- **C75, short series.** The frequency map of a series of less than 600 times always fails. -/
theorem C75_short_series (env : PlotEnv F) (fs : String → Option (Raw F)) (o : PlotArgs) (x t : List F) (rows : List (List F))
    (hm : CanMap env.toPhyNum (fileOf fs o.pre) o.data o.axis x t rows) (hf : o.freq = true) (hs : rows.length < 600) :
    ∃ e, plotline env fs o = .error e := by
  cases hp : plotline env fs o with
  | error e => exact ⟨e, rfl⟩
  | ok fig =>
    exfalso
    have h1 := (C75_requested env fs o fig hp).1
    have hd : o.data ≠ "time" := by intro e; rw [e] at h1; exact absurd h1 (by decide +kernel)
    obtain ⟨-, d, e, kd, -, -⟩ := ready hm hd
    rw [e, hf] at hp
    simp only [if_true] at hp
    obtain ⟨c, x', t', rows', hc, -, -, hv, hl, -⟩ := freqmap_ok hp
    rw [firstChar_one h1] at hc
    obtain rfl := Except.ok.inj hc
    rw [kd] at hv
    simp only [Option.some.injEq, Val.mat.injEq] at hv
    subst hv
    omega

/-- **C75, axis.** Along an axis with several lines that is not a coordinate (a file of a physical variable), no map is saved. -/
theorem C75_axis_lines (env : PlotEnv F) (fs : String → Option (Raw F)) (o : PlotArgs) (m n : Nat)
    (hc : Consistent env.toPhyNum [] (fileOf fs o.pre) (.mat m n)) (hax : ¬ isCoordinate o.axis) (hat : o.axis ≠ "time") :
    ∃ e, plotline env fs o = .error e := by
  cases hp : plotline env fs o with
  | error e => exact ⟨e, rfl⟩
  | ok fig =>
    exfalso
    obtain ⟨b1, d1, b2, d2, e1, e2, h⟩ := plotline_inv hp
    have hvec : ∃ x, d2.get? o.axis = some (.vec x) := by
      split at h
      · obtain ⟨c, x, t, rows, -, h2, -⟩ := freqmap_ok h
        exact ⟨x, h2⟩
      · obtain ⟨c, x, t, rows, -, h2, -⟩ := timemap_ok h
        exact ⟨x, h2⟩
    obtain ⟨x, hx⟩ := hvec
    have g1 : Good env.toPhyNum [] (fun k => fs (o.pre ++ "." ++ k)) d1 := by
      obtain ⟨h1, h2⟩ := check_ok hc (rank o.data + 1) o.data (by omega) [] good_self (.inr rfl)
      by_cases ha : Available [] (fun k => fs (o.pre ++ "." ++ k)) o.data
      · obtain ⟨d', w, e, -, hg, -⟩ := h1 ha
        rw [e1] at e
        rw [(Prod.mk.inj e).2]; exact hg
      · obtain ⟨d', e, -, hg⟩ := h2 ha
        rw [e1] at e
        rw [(Prod.mk.inj e).2]; exact hg
    have hval : HasValue env.toPhyNum [] (fun k => fs (o.pre ++ "." ++ k)) o.axis (.vec x) := by
      obtain ⟨h1, h2⟩ := check_ok hc (rank o.axis + 1) o.axis (by omega) d1 g1 (.inl hat)
      by_cases ha : Available [] (fun k => fs (o.pre ++ "." ++ k)) o.axis
      · obtain ⟨d', w, e, -, hg, -⟩ := h1 ha
        rw [e2] at e
        rw [(Prod.mk.inj e).2] at hx
        exact hg.values _ _ hx hat
      · obtain ⟨d', e, -, hg⟩ := h2 ha
        rw [e2] at e
        simp at e
    exact (shape_of_value hc hval).2 hax hat

/-! ## Examples -/

/-- Drawing always succeeds; no FFT. -/
def intPlot : PlotEnv Int where
  toPhyNum := intPhy
  avg l := l.head?.getD 0
  freq n s := (List.range n).map fun i : Nat => (i : Int) * s
  spectrum z := z
  cmap _ _ := .ok ()
  render _ _ _ := .ok ()

/-- The options of `ic3probe_plotline probe`. -/
def defaults : PlotArgs := ⟨"probe", false, "P", "X", false, "turbo", 30⟩

theorem someFiles_map : CanMap intPhy (fileOf someFiles "probe") "P" "X" [100, 101] [7, 8] [[10, 20], [30, 40]] where
  files := someFiles_consistent
  times := by
    intro k rows h hk
    have hk' : ∀ s, "probe" ++ "." ++ k = "probe" ++ "." ++ s → k = s := by
      intro s e
      have := congrArg String.toList e
      simp only [String.toList_append, List.append_cancel_left_eq] at this
      exact String.toList_inj.1 this
    simp only [fileOf, someFiles] at h
    split at h
    · cases h; rfl
    · split at h
      · cases h; rfl
      · split at h
        · cases h; rfl
        · split at h
          · rename_i e; exact absurd (.inl (hk' "X" e)) hk
          · cases h
  size := by decide
  physical := by decide +kernel
  data := .file _ (.arr (.mat [[0, 7, 2, 10, 20], [1, 8, 2, 30, 40]])) _ rfl (by decide +kernel) rfl
  coordinate := .inl rfl
  axis := .file _ (.arr (.mat [[0, 7, 2, 100, 101], [1, 8, 2, 100, 101]])) _ rfl (by decide +kernel) (by decide +kernel)

example : plotline intPlot someFiles defaults =
    .ok ⟨"probe.P.time.png", "X", "time", [100, 101], [7, 8], [[10, 20], [30, 40]]⟩ :=
  C75_time_map_partial intPlot someFiles defaults _ _ _ someFiles_map (by decide +kernel) rfl rfl (fun _ => rfl)

/-- `--data RHO` has a file but cannot be plotted. -/
example : ∃ e, plotline intPlot someFiles { defaults with data := "RHO" } = .error e :=
  C75_long_names_refuted intPlot someFiles { defaults with data := "RHO" } (by decide +kernel)

example : ∃ e, plotline intPlot someFiles { defaults with freq := true } = .error e :=
  C75_short_series intPlot someFiles { defaults with freq := true } _ _ _ someFiles_map rfl (by decide)

example : ∃ e, plotline intPlot someFiles { defaults with axis := "RHO" } = .error e :=
  C75_axis_lines intPlot someFiles { defaults with axis := "RHO" } _ _ someFiles_consistent (by decide +kernel) (by decide +kernel)

example : ∃ fig, plotline intPlot someFiles defaults = .ok fig ∧ Drawable fig :=
  ⟨_, C75_time_map_partial intPlot someFiles defaults _ _ _ someFiles_map (by decide +kernel) rfl rfl (fun _ => rfl),
    C75_sizes _ _ _ _ (C75_time_map_partial intPlot someFiles defaults _ _ _ someFiles_map (by decide +kernel) rfl rfl (fun _ => rfl))⟩

/-- `C75_requested`. -/
example := C75_requested intPlot someFiles defaults _
  (C75_time_map_partial intPlot someFiles defaults _ _ _ someFiles_map (by decide +kernel) rfl rfl (fun _ => rfl))

/-- 600 lines of two points. -/
def longFiles : String → Option (Raw Int) := fun n =>
  if n = "probe.P" then some (.arr (.mat ((List.range 600).map fun i : Nat => [(i : Int), 2 * i, 2, i, i + 1])))
  else if n = "probe.X" then some (.arr (.vec [0, 0, 2, 100, 101]))
  else none

theorem longFiles_map : CanMap intPhy (fileOf longFiles "probe") "P" "X" [100, 101] ((List.range 600).map fun i : Nat => 2 * (i : Int))
    ((List.range 600).map fun i : Nat => [(i : Int), i + 1]) := by
  have hk : ∀ k s, "probe" ++ "." ++ k = "probe" ++ "." ++ s → k = s := by
    intro k s e
    have := congrArg String.toList e
    simp only [String.toList_append, List.append_cancel_left_eq] at this
    exact String.toList_inj.1 this
  have hv : fileVal "P" (.arr (.mat ((List.range 600).map fun i : Nat => [(i : Int), 2 * i, 2, i, i + 1]))) =
      some (.mat ((List.range 600).map fun i : Nat => [(i : Int), i + 1])) := by
    simp [fileVal, isCoordinate]
  have hsh : HasShape (.mat ((List.range 600).map fun i : Nat => [(i : Int), i + 1]).length ([100, 101] : List Int).length)
      (.mat ((List.range 600).map fun i : Nat => [(i : Int), i + 1])) := ⟨rfl, by simp⟩
  have h600 : ∀ {α : Type} (f : Nat → α), ((List.range 600).map f).length = 600 := fun f => by
    rw [List.length_map, List.length_range]
  refine ⟨⟨⟨by rw [h600]; decide, by decide⟩, (by intro k v h; cases h), ?_, (by intros; rfl)⟩, ?_, ⟨by rw [h600]; decide, by decide⟩,
    by decide +kernel, ?_, .inl rfl, ?_⟩
  · intro k r h
    simp only [fileOf, longFiles] at h
    split at h
    · rename_i e; have := hk _ "P" e; subst this
      obtain rfl := Option.some.inj h
      refine ⟨_, hv, stats_ok (sh := .mat 600 2) ⟨by decide, by decide⟩ ⟨h600 _, by simp⟩, fun _ => hsh⟩
    · split at h
      · rename_i e; have := hk _ "X" e; subst this
        obtain rfl := Option.some.inj h
        exact ⟨_, rfl, by decide +kernel, fun h => absurd (.inl rfl) h⟩
      · cases h
  · intro k rows h _
    simp only [fileOf, longFiles] at h
    split at h
    · simp only [Option.some.injEq, Raw.arr.injEq, Val.mat.injEq] at h
      rw [← h, List.map_map, List.map_map]
      rfl
    · split at h <;> cases h
  · exact .file _ _ _ rfl (by simp only [fileOf, longFiles]; rfl) hv
  · exact .file _ (.arr (.vec [0, 0, 2, 100, 101])) _ rfl (by decide +kernel) rfl

/-- Two lines are kept. -/
example : plotline intPlot longFiles { defaults with freq := true } =
    .ok ⟨"probe.P.freq.png", "X", "frequency", [100, 101], [2, 4], [[1, 2], [2, 3]]⟩ := by
  rw [C75_freq_map_partial intPlot longFiles { defaults with freq := true } _ _ _ longFiles_map (by decide +kernel) rfl
    (by rw [List.length_map, List.length_range]) (by intro k s; simp only [intPlot, List.length_map, List.length_range]) (by simp [intPlot]) rfl (fun _ => rfl)]
  decide +kernel

end Cfd.Probes
