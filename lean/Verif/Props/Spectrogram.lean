import Verif.Lemmas.Spectrogram
import Verif.Props.Spectrum

/-!
# C92: what the spectrogram of a series shows

`DataSet.dataSet_spectrogram` in exact arithmetic, with the documented transforms and window of numpy.
-/

namespace Cfd.Spectrum
open Cfd.Spec.Spectrum

/-- What a successful call returns. -/
theorem spectrogram_ok {trep : String} {data : Dict String (List ℝ)} {filter : List String} {window : Nat}
    {res : Dict String (Var ℝ (WithBot ℝ))} (h : dataSetSpectrogram exactLog trep data filter window = .ok res) :
    ∃ t, data.get? "time" = some t ∧ 2 ≤ windowSize window t.length ∧
      (∀ name ∈ kept data filter, ∃ rows,
        ((List.range (2 * t.length / windowSize window t.length - 1)).mapM fun i =>
          (do let x ← data.getE name; spectroRow exactLog x (windowSize window t.length / 2) i)) = .ok rows ∧
        res.get? name = some (.rows rows)) ∧
      ("freq" ∉ kept data filter → res.get? "freq" = some (.vec (((fftfreq (windowSize window t.length)
        (TimeSeries.dtstats t none none).1).take (windowSize window t.length / 2 + 1)).drop 2))) ∧
      ("time" ∉ kept data filter → res.get? "time" =
        some (.vec (everyFrom t (windowSize window t.length / 2) (windowSize window t.length / 2)).dropLast)) := by
  unfold dataSetSpectrogram at h
  obtain ⟨names, hn, h⟩ := bind_eq_ok.1 h
  obtain ⟨_, _, h⟩ := bind_eq_ok.1 h
  obtain ⟨t, ht, h⟩ := bind_eq_ok.1 h
  have e : names = kept data filter := by
    unfold removeTime at hn
    unfold kept
    revert hn
    generalize (if filter = [] then data.keys else filter) = l
    intro hn
    split at hn
    · exact (Except.ok.inj hn).symm
    · cases hn
  subst e
  simp only [dtstats_none_length] at h
  split at h
  · cases h
  split at h
  · cases h
  split at h
  · cases h
  rename_i h0 h1 h2
  obtain ⟨k1, k2⟩ := fold_spectrogram _ _ _ _ _ _ _ h
  refine ⟨t, Dict.getE_eq_ok.1 ht, ?_, k1, fun hf => ?_, fun hf => ?_⟩
  · change ¬ windowSize window t.length / 2 = 0 at h1
    omega
  · rw [k2 _ hf]
    rfl
  · rw [k2 _ hf]
    rfl

private theorem mapM_exists {α β : Type} {f : α → Py β} {l : List α} : (∃ r, l.mapM f = .ok r) ↔ ∀ a ∈ l, ∃ b, f a = .ok b := by
  induction l with
  | nil => simp [pure, Except.pure]
  | cons a t ih =>
    rw [List.mapM_cons, List.forall_mem_cons, ← ih]
    constructor
    · rintro ⟨r, h⟩
      obtain ⟨b, hb, h⟩ := bind_eq_ok.1 h
      obtain ⟨c, hc, -⟩ := bind_eq_ok.1 h
      exact ⟨⟨b, hb⟩, ⟨c, hc⟩⟩
    · rintro ⟨⟨b, hb⟩, ⟨c, hc⟩⟩
      rw [hb, Except_bind_ok, hc, Except_bind_ok]
      exact ⟨_, rfl⟩

private theorem get?_lengths (data : Dict String (List ℝ)) (k : String) :
    Dict.get? (data.map fun p => (p.1, p.2.length)) k = (data.get? k).map List.length := by
  induction data with
  | nil => rfl
  | cons p l ih =>
    obtain ⟨k', v⟩ := p
    show (if k' = k then some v.length else _) = Option.map _ (if k' = k then some v else _)
    split
    · rfl
    · exact ih

/-- **C92, when there is a spectrogram**: the condition is that of the shapes (C51). -/
theorem C92_succeeds (trep : String) (data : Dict String (List ℝ)) (filter : List String) (window : Nat) :
    (∃ res, dataSetSpectrogram exactLog trep data filter window = .ok res) ↔
      ∃ s, spectrogram trep (data.map fun p => (p.1, p.2.length)) filter window = .ok s := by
  have hk : Dict.keys (data.map fun p => (p.1, p.2.length)) = data.keys := by
    unfold Dict.keys
    rw [List.map_map]
    rfl
  have hg : ∀ k, Dict.getE (data.map fun p => (p.1, p.2.length)) k = (data.getE k).map List.length := by
    intro k
    unfold Dict.getE
    rw [get?_lengths]
    cases data.get? k <;> rfl
  unfold dataSetSpectrogram spectrogram
  rw [hk, hg]
  cases removeTime (if filter = [] then data.keys else filter) with
  | error e => simp [bind, Except.bind]
  | ok names =>
  simp only [Except_bind_ok]
  cases pyAssert (decide (trep = "timeevol") && decide ("time" ∈ data.keys)) with
  | error e => simp [bind, Except.bind]
  | ok u =>
  simp only [Except_bind_ok]
  cases data.getE "time" with
  | error e => simp [bind, Except.bind, Except.map]
  | ok t =>
  simp only [Except_bind_ok, Except.map, dtstats_none_length]
  rw [show (if window = 0 then t.length / 100 else window) = windowSize window t.length from rfl]
  generalize windowSize window t.length = w
  by_cases h0 : w = 0
  · simp [h0]
  rw [if_neg h0, if_neg h0]
  by_cases h1 : w / 2 = 0
  · simp [h1]
  rw [if_neg h1, if_neg h1]
  by_cases h2 : 2 * t.length / w = 0 ∧ names ≠ []
  · simp [h2]
  rw [if_neg h2, if_neg h2]
  have hrow : ∀ name i, (∃ r, (do let x ← data.getE name; spectroRow exactLog x (w / 2) i) = .ok r) ↔
      ∃ r, spectroWindow (data.map fun p => (p.1, p.2.length)) (w / 2) name i = .ok r := by
    intro name i
    unfold spectroWindow
    rw [hg]
    cases data.getE name with
    | error e => simp [bind, Except.bind, Except.map]
    | ok x =>
      simp only [Except_bind_ok, Except.map]
      rw [row_isOk x (w / 2) i (by omega)]
      constructor
      · intro h; exact ⟨(), if_pos h⟩
      · rintro ⟨r, h⟩
        by_contra hc
        rw [if_neg hc] at h
        cases h
  constructor
  · rintro ⟨res, h⟩
    obtain ⟨k1, -⟩ := fold_spectrogram _ _ _ _ _ _ _ h
    have : ∃ vars, names.mapM (spectroVar (data.map fun p => (p.1, p.2.length)) (2 * t.length / w - 1) (w / 2)) = .ok vars := by
      refine ⟨_, mapM_ok_of_forall (g := fun name => (name, 2 * t.length / w - 1, w / 2 + 1 - 2)) ?_⟩
      intro name hname
      obtain ⟨rows, hrows, -⟩ := k1 name hname
      unfold spectroVar
      have hw : (List.range (2 * t.length / w - 1)).mapM (spectroWindow (data.map fun p => (p.1, p.2.length)) (w / 2) name) =
          .ok ((List.range (2 * t.length / w - 1)).map fun _ => ()) := by
        apply mapM_ok_of_forall
        intro i hi
        have : ∃ r, (do let x ← data.getE name; spectroRow exactLog x (w / 2) i) = .ok r := by
          have := mapM_exists.1 ⟨_, hrows⟩ i hi
          exact this
        obtain ⟨r, hr⟩ := (hrow name i).1 this
        rw [hr]
      rw [hw]
      rfl
    obtain ⟨vars, hv⟩ := this
    rw [hv]
    exact ⟨_, rfl⟩
  · rintro ⟨s, h⟩
    obtain ⟨vars, hv, -⟩ := bind_eq_ok.1 h
    apply fold_isOk
    intro name hname
    have hvar := mapM_exists.1 ⟨_, hv⟩ name hname
    obtain ⟨v, hv'⟩ := hvar
    obtain ⟨l, hl, -⟩ := bind_eq_ok.1 hv'
    rw [mapM_exists]
    intro i hi
    exact (hrow name i).2 (mapM_exists.1 ⟨_, hl⟩ i hi)

/-- **C92, values.** Samples at `n` regular times: row `i` of a variable shows what there is, in the samples `h i … h i + 2 h` under
the window of Hann, of the oscillations of frequencies `k / ((2 h + 1) dt)`, `k` from 2 to `h`: the logarithm of the modulus of the
sum of the samples times `exp(-2 pi i f t)`. -/
theorem C92_rows (trep : String) (data : Dict String (List ℝ)) (filter : List String) (window n : Nat) (t0 dt : ℝ) (hdt : 0 < dt)
    (ht : data.get? "time" = some (samples n t0 dt id)) (name : String) (hname : name ∈ kept data filter) (x : List ℝ)
    (hx : data.get? name = some x) (hlen : x.length = n) (res : Dict String (Var ℝ (WithBot ℝ)))
    (hr : dataSetSpectrogram exactLog trep data filter window = .ok res) (h : Nat) (hh : h = windowSize window n / 2) :
    ∃ rows, res.get? name = some (.rows rows) ∧ rows.length = 2 * n / windowSize window n - 1 ∧
      ∀ i row, rows[i]? = some row → h * i + 2 * h < n ∧ row.length = h - 1 ∧
        ∀ (k : Nat) (a : WithBot ℝ), row[k]? = some a →
          a = logR (content (fun j => x.getD j 0) (fun j => t0 + j * dt) h (h * i) ((k + 2 : Nat) / ((2 * h + 1 : Nat) * dt))) := by
  obtain ⟨t, ht', hw, hv, -, -⟩ := spectrogram_ok hr
  rw [ht] at ht'
  cases ht'
  have hl : (samples n t0 dt id).length = n := by simp [samples]
  rw [hl] at hw hv
  obtain ⟨rows, hrows, hres⟩ := hv name hname
  rw [← hh] at hrows
  have hfa := mapM_ok_iff.1 hrows
  have hn2 : 2 * h ≤ windowSize window n := by omega
  have hlr := hfa.length_eq
  rw [List.length_range] at hlr
  refine ⟨rows, hres, hlr.symm, ?_⟩
  intro i row hi
  obtain ⟨hil, rfl⟩ := List.getElem?_eq_some_iff.1 hi
  have hrow := hfa.get (i := i) (by rw [List.length_range]; omega) hil
  simp only [List.get_eq_getElem, List.getElem_range, Dict.getE_eq_ok.2 hx, Except_bind_ok] at hrow
  have hroom : h * i + 2 * h ≤ n := by
    have h1 : windowSize window n * (2 * n / windowSize window n) ≤ 2 * n := Nat.mul_div_le _ _
    have h2 : 2 * h * (2 * n / windowSize window n) ≤ windowSize window n * (2 * n / windowSize window n) :=
      Nat.mul_le_mul_right _ hn2
    have h3 : h * (i + 2) ≤ h * (2 * n / windowSize window n) := Nat.mul_le_mul_left _ (by omega)
    have h4 : 2 * h * (2 * n / windowSize window n) = 2 * (h * (2 * n / windowSize window n)) := by ring
    have h5 : h * (i + 2) = h * i + 2 * h := by ring
    omega
  have h5 : h * (i + 2) = h * i + 2 * h := by ring
  have hfull : h * i + 2 * h < n := by
    have := (row_isOk x h i (by omega)).1 ⟨_, hrow⟩
    unfold sliceLen at this
    rw [hlen] at this
    omega
  rw [row_full (by omega), Except.ok.injEq] at hrow
  refine ⟨hfull, by rw [← hrow]; simp, ?_⟩
  intro k a hk
  rw [← hrow, List.getElem?_map] at hk
  obtain ⟨k', hk', rfl⟩ := Option.map_eq_some_iff.1 hk
  rw [List.getElem?_eq_some_iff] at hk'
  obtain ⟨_, rfl⟩ := hk'
  rw [List.getElem_range, line_content (fun j => x.getD j 0) (t0 := t0) hdt]

/-- **C92, times.** The time of row `i` is that of the middle of its samples `h i … h i + 2 h`. -/
theorem C92_times (trep : String) (data : Dict String (List ℝ)) (filter : List String) (window n : Nat) (t0 dt : ℝ)
    (ht : data.get? "time" = some (samples n t0 dt id)) (hk : "time" ∉ kept data filter) (res : Dict String (Var ℝ (WithBot ℝ)))
    (hr : dataSetSpectrogram exactLog trep data filter window = .ok res) (h : Nat) (hh : h = windowSize window n / 2) :
    ∃ times, res.get? "time" = some (.vec times) ∧ times.length = (n - 1) / h - 1 ∧
      ∀ i s, times[i]? = some s → s = t0 + (h * i + h : Nat) * dt := by
  obtain ⟨t, ht', hw, -, -, htm⟩ := spectrogram_ok hr
  rw [ht] at ht'
  cases ht'
  have hl : (samples n t0 dt id).length = n := by simp [samples]
  rw [hl] at hw htm
  rw [← hh] at htm
  have hpos : 0 < h := by omega
  have hlt : ∀ i, i < strideLen n h h → h + h * i < n := by
    intro i hi
    unfold strideLen at hi
    have h1 : h * (i + 1) ≤ h * ((n - h + h - 1) / h) := Nat.mul_le_mul_left _ hi
    have h2 : h * ((n - h + h - 1) / h) ≤ n - h + h - 1 := Nat.mul_div_le _ _
    have h3 : h * (i + 1) = h * i + h := by ring
    by_contra hc
    have h4 : (n - h + h - 1) / h < i + 1 ∨ n < h := by
      rcases Nat.lt_or_ge n h with h5 | h5
      · exact .inr h5
      · omega
    rcases h4 with h4 | h4
    · omega
    · have : (n - h + h - 1) / h = 0 := Nat.div_eq_of_lt (by omega)
      omega
  have hev : everyFrom (samples n t0 dt id) h h = (List.range (strideLen n h h)).map fun i => t0 + (h * i + h : Nat) * dt := by
    unfold everyFrom
    rw [hl]
    apply List.filterMap_eq_map_iff_forall_eq_some.2
    intro i hi
    have := hlt i (List.mem_range.1 hi)
    rw [Nat.add_comm] at this ⊢
    simp only [samples, List.getElem?_map, List.getElem?_range this, Option.map_some, id]
  have hsl : strideLen n h h = (n - 1) / h ∨ (strideLen n h h ≤ 1 ∧ (n - 1) / h ≤ 1) := by
    unfold strideLen
    rcases Nat.lt_or_ge n h with h5 | h5
    · right
      have a : (n - h + h - 1) / h = 0 := Nat.div_eq_of_lt (by omega)
      have b : (n - 1) / h = 0 := Nat.div_eq_of_lt (by omega)
      omega
    · left
      congr 1
      omega
  refine ⟨_, htm hk, ?_, ?_⟩
  · rw [List.length_dropLast, hev, List.length_map, List.length_range]
    omega
  · intro i s hs
    rw [hev, List.getElem?_dropLast] at hs
    split at hs
    · rw [List.getElem?_map] at hs
      obtain ⟨j, hj, rfl⟩ := Option.map_eq_some_iff.1 hs
      obtain ⟨_, rfl⟩ := List.getElem?_eq_some_iff.1 hj
      rw [List.getElem_range]
    · cases hs

/-- The frequencies written beside the values. -/
theorem freq_labels {trep : String} {data : Dict String (List ℝ)} {filter : List String} {window n : Nat} (hn : 2 ≤ n) {t0 dt : ℝ}
    (ht : data.get? "time" = some (samples n t0 dt id)) (hk : "freq" ∉ kept data filter) {res : Dict String (Var ℝ (WithBot ℝ))}
    (hr : dataSetSpectrogram exactLog trep data filter window = .ok res) :
    ∃ freq, res.get? "freq" = some (.vec freq) ∧ freq.length = windowSize window n / 2 - 1 ∧ 2 ≤ windowSize window n ∧
      ∀ k, k < windowSize window n / 2 - 1 → freq[k]? = some ((if 2 * (k + 2) < windowSize window n then ((k + 2 : Nat) : ℝ)
        else (k + 2 : Nat) - windowSize window n) / (windowSize window n * dt)) := by
  obtain ⟨t, ht', hw, -, hf, -⟩ := spectrogram_ok hr
  rw [ht] at ht'
  cases ht'
  have hl : (samples n t0 dt id).length = n := by simp [samples]
  rw [hl] at hw hf
  rw [dtstats_regular hn] at hf
  refine ⟨_, hf hk, ?_, hw, ?_⟩
  · rw [List.length_drop, List.length_take, fftfreq_length]
    omega
  · intro k hkl
    rw [List.getElem?_drop, List.getElem?_take_of_lt (by omega), Nat.add_comm 2 k, fftfreq_get (by omega)]

/-- **C92, frequencies, odd windows**: the frequencies are those at which the values are computed (`C92_rows`). -/
theorem C92_frequencies_partial (trep : String) (data : Dict String (List ℝ)) (filter : List String) (window n : Nat) (hn : 2 ≤ n)
    (t0 dt : ℝ) (ht : data.get? "time" = some (samples n t0 dt id)) (hk : "freq" ∉ kept data filter)
    (res : Dict String (Var ℝ (WithBot ℝ))) (hr : dataSetSpectrogram exactLog trep data filter window = .ok res)
    (h : Nat) (hodd : windowSize window n = 2 * h + 1) :
    ∃ freq, res.get? "freq" = some (.vec freq) ∧ freq.length = h - 1 ∧
      ∀ (k : Nat) (f : ℝ), freq[k]? = some f → f = (k + 2 : Nat) / ((2 * h + 1 : Nat) * dt) := by
  obtain ⟨freq, h1, h2, -, h3⟩ := freq_labels hn ht hk hr
  have e : windowSize window n / 2 = h := by omega
  rw [e] at h2 h3
  refine ⟨freq, h1, h2, fun k f hf => ?_⟩
  have hlt : k < h - 1 := by
    rw [← h2]
    exact (List.getElem?_eq_some_iff.1 hf).1
  rw [h3 k hlt, Option.some.injEq, hodd, if_pos (by omega)] at hf
  exact hf.symm

/-- **C92, frequencies, even windows: refuted** for every series and every even window of at least four samples. The values are
computed on `2 h + 1` samples, the frequencies for `2 h`: each but the last is too high by the factor `(2 h + 1) / (2 h)`, and the
last one is negative. -/
theorem C92_even_frequencies_refuted (trep : String) (data : Dict String (List ℝ)) (filter : List String) (window n : Nat) (hn : 2 ≤ n)
    (t0 dt : ℝ) (hdt : 0 < dt) (ht : data.get? "time" = some (samples n t0 dt id)) (hk : "freq" ∉ kept data filter)
    (res : Dict String (Var ℝ (WithBot ℝ))) (hr : dataSetSpectrogram exactLog trep data filter window = .ok res)
    (h : Nat) (hh : 2 ≤ h) (heven : windowSize window n = 2 * h) :
    ∃ freq last, res.get? "freq" = some (.vec freq) ∧ freq.length = h - 1 ∧ freq.getLast? = some last ∧ last = -1 / (2 * dt) ∧ last < 0 ∧
      ∀ (k : Nat) (f : ℝ), k + 2 < h → freq[k]? = some f →
        f = (k + 2 : Nat) / ((2 * h + 1 : Nat) * dt) * ((2 * h + 1 : Nat) / (2 * h : Nat)) ∧ (k + 2 : Nat) / ((2 * h + 1 : Nat) * dt) < f := by
  obtain ⟨freq, h1, h2, -, h3⟩ := freq_labels hn ht hk hr
  have e : windowSize window n / 2 = h := by omega
  rw [e] at h2 h3
  have hp : (0 : ℝ) < (2 * h : Nat) := Nat.cast_pos.2 (by omega)
  have hq : (0 : ℝ) < (2 * h + 1 : Nat) := Nat.cast_pos.2 (by omega)
  refine ⟨freq, -1 / (2 * dt), h1, h2, ?_, rfl, ?_, ?_⟩
  · rw [List.getLast?_eq_getElem?, h2, h3 (h - 1 - 1) (by omega), heven, if_neg (by omega), Option.some.injEq,
      show h - 1 - 1 + 2 = h by omega]
    push_cast at hp ⊢
    have : (h : ℝ) ≠ 0 := by intro h0; rw [h0] at hp; simp at hp
    field_simp
    ring
  · rw [neg_div, neg_lt_zero]
    positivity
  · intro k f hkh hf
    rw [h3 k (by omega), Option.some.injEq, heven, if_pos (by omega)] at hf
    rw [← hf]
    have hk2 : (0 : ℝ) < (k + 2 : Nat) := Nat.cast_pos.2 (by omega)
    refine ⟨by field_simp, ?_⟩
    apply div_lt_div_of_pos_left hk2 (mul_pos hp hdt)
    apply mul_lt_mul_of_pos_right _ hdt
    exact_mod_cast Nat.lt_succ_self _

/-- **C92, other samples have no influence**: two series with the same times that agree on the samples `h i … h i + 2 h` have the
same row `i`. -/
theorem C92_local (trep trep' : String) (data data' : Dict String (List ℝ)) (filter filter' : List String) (window n : Nat) (t0 dt : ℝ)
    (hdt : 0 < dt) (ht : data.get? "time" = some (samples n t0 dt id)) (ht' : data'.get? "time" = some (samples n t0 dt id))
    (name name' : String) (hname : name ∈ kept data filter) (hname' : name' ∈ kept data' filter') (x x' : List ℝ)
    (hx : data.get? name = some x) (hx' : data'.get? name' = some x') (hlen : x.length = n) (hlen' : x'.length = n)
    (res res' : Dict String (Var ℝ (WithBot ℝ))) (hr : dataSetSpectrogram exactLog trep data filter window = .ok res)
    (hr' : dataSetSpectrogram exactLog trep' data' filter' window = .ok res') (i : Nat)
    (hag : ∀ j, windowSize window n / 2 * i ≤ j → j ≤ windowSize window n / 2 * i + 2 * (windowSize window n / 2) → x[j]? = x'[j]?) :
    ∃ rows rows', res.get? name = some (.rows rows) ∧ res'.get? name' = some (.rows rows') ∧ rows[i]? = rows'[i]? := by
  obtain ⟨rows, h1, h2, h3⟩ := C92_rows trep data filter window n t0 dt hdt ht name hname x hx hlen res hr _ rfl
  obtain ⟨rows', h1', h2', h3'⟩ := C92_rows trep' data' filter' window n t0 dt hdt ht' name' hname' x' hx' hlen' res' hr' _ rfl
  refine ⟨rows, rows', h1, h1', ?_⟩
  by_cases hi : i < rows.length
  · have hi' : i < rows'.length := by omega
    obtain ⟨-, a1, a2⟩ := h3 i _ (List.getElem?_eq_getElem hi)
    obtain ⟨-, b1, b2⟩ := h3' i _ (List.getElem?_eq_getElem hi')
    rw [List.getElem?_eq_getElem hi, List.getElem?_eq_getElem hi', Option.some.injEq]
    apply List.ext_getElem (by omega)
    intro k k1 k2
    rw [a2 k _ (List.getElem?_eq_getElem k1), b2 k _ (List.getElem?_eq_getElem k2)]
    congr 1
    unfold content
    congr 2
    apply List.map_congr_left
    intro j hj
    rw [List.mem_range] at hj
    have : x.getD (windowSize window n / 2 * i + j) 0 = x'.getD (windowSize window n / 2 * i + j) 0 := by
      rw [List.getD_eq_getElem?_getD, List.getD_eq_getElem?_getD, hag _ (by omega) (by omega)]
    beta_reduce
    rw [this]
  · rw [List.getElem?_eq_none (by omega), List.getElem?_eq_none (by omega)]

private theorem logR_mul {c a : ℝ} (hc : c ≠ 0) : logR (|c| * a) = logR a + ((Real.log |c| : ℝ) : WithBot ℝ) := by
  unfold logR
  by_cases ha : a = 0
  · simp [ha]
  · rw [if_neg (mul_ne_zero (abs_ne_zero.2 hc) ha), if_neg ha, Real.log_mul (abs_ne_zero.2 hc) ha, add_comm]
    rfl

/-- **C92, unit of the variable**: a variable multiplied by `c ≠ 0` has the same spectrogram plus the logarithm of `|c|`. -/
theorem C92_scaled (trep trep' : String) (data data' : Dict String (List ℝ)) (filter filter' : List String) (window n : Nat) (t0 dt : ℝ)
    (hdt : 0 < dt) (ht : data.get? "time" = some (samples n t0 dt id)) (ht' : data'.get? "time" = some (samples n t0 dt id))
    (name name' : String) (hname : name ∈ kept data filter) (hname' : name' ∈ kept data' filter') (x : List ℝ) (c : ℝ) (hc : c ≠ 0)
    (hx : data.get? name = some x) (hx' : data'.get? name' = some (x.map fun v => c * v)) (hlen : x.length = n)
    (res res' : Dict String (Var ℝ (WithBot ℝ))) (hr : dataSetSpectrogram exactLog trep data filter window = .ok res)
    (hr' : dataSetSpectrogram exactLog trep' data' filter' window = .ok res') :
    ∃ rows, res.get? name = some (.rows rows) ∧
      res'.get? name' = some (.rows (rows.map fun row => row.map fun a => a + ((Real.log |c| : ℝ) : WithBot ℝ))) := by
  obtain ⟨rows, h1, h2, h3⟩ := C92_rows trep data filter window n t0 dt hdt ht name hname x hx hlen res hr _ rfl
  obtain ⟨rows', h1', h2', h3'⟩ := C92_rows trep' data' filter' window n t0 dt hdt ht' name' hname' _ hx' (by simpa using hlen) res' hr' _ rfl
  refine ⟨rows, h1, ?_⟩
  rw [h1']
  congr 2
  apply List.ext_getElem (by rw [List.length_map]; omega)
  intro i i1 i2
  rw [List.length_map] at i2
  obtain ⟨-, a1, a2⟩ := h3 i _ (List.getElem?_eq_getElem i2)
  obtain ⟨-, b1, b2⟩ := h3' i _ (List.getElem?_eq_getElem i1)
  rw [List.getElem_map]
  apply List.ext_getElem (by rw [List.length_map]; omega)
  intro k k1 k2
  rw [List.length_map] at k2
  rw [List.getElem_map, a2 k _ (List.getElem?_eq_getElem k2), b2 k _ (List.getElem?_eq_getElem k1), ← logR_mul hc]
  congr 1
  unfold content
  rw [← Real.norm_eq_abs, ← Complex.norm_real c, ← norm_mul, ← List.sum_map_mul_left]
  congr 2
  apply List.map_congr_left
  intro j _
  have : (x.map fun v => c * v).getD (windowSize window n / 2 * i + j) 0 = c * x.getD (windowSize window n / 2 * i + j) 0 := by
    rw [List.getD_eq_getElem?_getD, List.getD_eq_getElem?_getD, List.getElem?_map]
    cases x[windowSize window n / 2 * i + j]? <;> simp
  beta_reduce
  rw [this]
  push_cast
  ring

/-! ### Cases -/

/-- Eleven samples of two variables, the second being -3 times the first but for the last two samples. -/
noncomputable def eleven : Dict String (List ℝ) :=
  [("time", samples 11 5 2 id), ("p", [1, 2, 4, 0, 3, 1, 1, 7, 2, 0, 5]), ("q", [-3, -6, -12, 0, -9, -3, -3, -21, -6, 8, 9]),
    ("r", [-3, -6, -12, 0, -9, -3, -3, -21, -6, 0, -15])]

theorem eleven_ok (w : Nat) (hw : w = 4 ∨ w = 5 ∨ w = 7) : ∃ res, dataSetSpectrogram exactLog "timeevol" eleven [] w = .ok res := by
  rw [C92_succeeds]
  have e : (eleven.map fun p => (p.1, p.2.length)) = [("time", 11), ("p", 11), ("q", 11), ("r", 11)] := by
    simp [eleven, samples]
  rw [e]
  rcases hw with rfl | rfl | rfl
  · exact ⟨_, show spectrogram "timeevol" [("time", 11), ("p", 11), ("q", 11), ("r", 11)] [] 4 =
      .ok ⟨1, 4, [("p", 4, 1), ("q", 4, 1), ("r", 4, 1)]⟩ by decide⟩
  · exact ⟨_, show spectrogram "timeevol" [("time", 11), ("p", 11), ("q", 11), ("r", 11)] [] 5 =
      .ok ⟨1, 4, [("p", 3, 1), ("q", 3, 1), ("r", 3, 1)]⟩ by decide⟩
  · exact ⟨_, show spectrogram "timeevol" [("time", 11), ("p", 11), ("q", 11), ("r", 11)] [] 7 =
      .ok ⟨2, 2, [("p", 2, 2), ("q", 2, 2), ("r", 2, 2)]⟩ by decide⟩

theorem eleven_kept : kept eleven [] = ["p", "q", "r"] := by
  unfold kept
  rw [if_pos rfl]
  decide

/-- `C92_rows`: second row of `p` with windows of 4: what there is of frequency 2 / 10 in the samples 2 to 6. -/
example (res : Dict String (Var ℝ (WithBot ℝ))) (hr : dataSetSpectrogram exactLog "timeevol" eleven [] 4 = .ok res) :
    ∃ rows, res.get? "p" = some (.rows rows) ∧ rows.length = 4 ∧ ∀ row, rows[1]? = some row → row.length = 1 ∧
      ∀ a, row[0]? = some a → a = logR (content (fun j => ([1, 2, 4, 0, 3, 1, 1, 7, 2, 0, 5] : List ℝ).getD j 0)
        (fun j => 5 + j * 2) 2 2 ((0 + 2 : Nat) / ((2 * 2 + 1 : Nat) * 2))) := by
  obtain ⟨rows, h1, h2, h3⟩ := C92_rows "timeevol" eleven [] 4 11 5 2 two_pos rfl "p" (by rw [eleven_kept]; decide) _ rfl rfl res hr 2 rfl
  refine ⟨rows, h1, h2, fun row hrow => ?_⟩
  obtain ⟨-, h4, h5⟩ := h3 1 row hrow
  exact ⟨h4, fun a ha => h5 0 a ha⟩
example := eleven_ok 4 (.inl rfl)

/-- `C92_times`: times 9, 13, 17, 21. -/
example (res : Dict String (Var ℝ (WithBot ℝ))) (hr : dataSetSpectrogram exactLog "timeevol" eleven [] 4 = .ok res) :
    ∃ times, res.get? "time" = some (.vec times) ∧ times.length = 4 ∧ ∀ s, times[3]? = some s → s = 21 := by
  obtain ⟨times, h1, h2, h3⟩ := C92_times "timeevol" eleven [] 4 11 5 2 rfl (by rw [eleven_kept]; decide) res hr 2 rfl
  refine ⟨times, h1, h2, fun s hs => ?_⟩
  rw [h3 3 s hs]
  norm_num

/-- `C92_frequencies_partial`: windows of 7 samples, frequencies 2 / 14 and 3 / 14. -/
example (res : Dict String (Var ℝ (WithBot ℝ))) (hr : dataSetSpectrogram exactLog "timeevol" eleven [] 7 = .ok res) :
    ∃ freq, res.get? "freq" = some (.vec freq) ∧ freq.length = 2 ∧ ∀ f, freq[1]? = some f → f = 3 / 14 := by
  obtain ⟨freq, h1, h2, h3⟩ := C92_frequencies_partial "timeevol" eleven [] 7 11 (by decide) 5 2 rfl (by rw [eleven_kept]; decide) res hr 3 rfl
  refine ⟨freq, h1, h2, fun f hf => ?_⟩
  rw [h3 1 f hf]
  norm_num

/-- `C92_even_frequencies_refuted`: windows of 4 samples, the only frequency is -1 / 4 although the values are those of 1 / 5. -/
example (res : Dict String (Var ℝ (WithBot ℝ))) (hr : dataSetSpectrogram exactLog "timeevol" eleven [] 4 = .ok res) :
    ∃ freq, res.get? "freq" = some (.vec freq) ∧ freq.length = 1 ∧ freq.getLast? = some (-1 / 4) := by
  obtain ⟨freq, last, h1, h2, h3, h4, -⟩ := C92_even_frequencies_refuted "timeevol" eleven [] 4 11 (by decide) 5 2 two_pos rfl
    (by rw [eleven_kept]; decide) res hr 2 (by decide) rfl
  refine ⟨freq, h1, h2, ?_⟩
  rw [h3, h4]
  norm_num

/-- `C92_local`: `q` and `r` have the same second row (samples 2 to 6). -/
example (res : Dict String (Var ℝ (WithBot ℝ))) (hr : dataSetSpectrogram exactLog "timeevol" eleven [] 4 = .ok res) :
    ∃ rows rows', res.get? "q" = some (.rows rows) ∧ res.get? "r" = some (.rows rows') ∧ rows[1]? = rows'[1]? := by
  refine C92_local "timeevol" "timeevol" eleven eleven [] [] 4 11 5 2 two_pos rfl rfl "q" "r" (by rw [eleven_kept]; decide)
    (by rw [eleven_kept]; decide) _ _ rfl rfl rfl rfl res res hr hr 1 ?_
  intro j h1 h2
  have : windowSize 4 11 = 4 := rfl
  rw [this] at h1 h2
  obtain rfl | rfl | rfl | rfl | rfl : j = 2 ∨ j = 3 ∨ j = 4 ∨ j = 5 ∨ j = 6 := by omega
  all_goals rfl

/-- `C92_scaled`: `r` is `-3 p`. -/
example (res : Dict String (Var ℝ (WithBot ℝ))) (hr : dataSetSpectrogram exactLog "timeevol" eleven [] 4 = .ok res) :
    ∃ rows, res.get? "p" = some (.rows rows) ∧
      res.get? "r" = some (.rows (rows.map fun row => row.map fun a => a + ((Real.log |(-3 : ℝ)| : ℝ) : WithBot ℝ))) := by
  refine C92_scaled "timeevol" "timeevol" eleven eleven [] [] 4 11 5 2 two_pos rfl rfl "p" "r" (by rw [eleven_kept]; decide)
    (by rw [eleven_kept]; decide) [1, 2, 4, 0, 3, 1, 1, 7, 2, 0, 5] (-3) (by norm_num) rfl ?_ rfl res res hr hr
  have e : eleven.get? "r" = some [-3, -6, -12, 0, -9, -3, -3, -21, -6, 0, -15] := rfl
  rw [e]
  norm_num

end Cfd.Spectrum
