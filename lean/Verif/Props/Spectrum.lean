import Verif.Lemmas.Spectrum
import Verif.Lemmas.Exact
import Verif.Props.Data

/-!
# C91: what the spectrum of a series shows

`DataSet.dataSet_spectrum` in exact arithmetic, with the documented transforms of numpy.
-/

namespace Cfd.Spectrum
open Cfd.Spec.Spectrum

/-- The variables of a spectrum: those of the filter, or all, but one `time`. -/
def kept (data : Dict String (List ℝ)) (filter : List String) : List String :=
  (if filter = [] then data.keys else filter).erase "time"

/-- What a successful call returns. -/
theorem spectrum_ok {trep : String} {data : Dict String (List ℝ)} {filter : List String} {lo hi : Option Int}
    {res : Dict String (List ℝ)} (h : dataSetSpectrum exact trep data filter lo hi = .ok res) :
    ∃ t, data.get? "time" = some t ∧
      (∀ name ∈ kept data filter, ∃ x, x ≠ [] ∧ data.get? name = some x ∧
        res.get? name = some ((List.range x.length).map fun k => ‖line x.length (fun j => x.getD j 0) k‖)) ∧
      ("freq" ∉ kept data filter → res.get? "freq" =
        some (fftfreq (TimeSeries.dtstats t lo hi).2 (TimeSeries.dtstats t lo hi).1)) := by
  unfold dataSetSpectrum at h
  obtain ⟨_, _, h⟩ := bind_eq_ok.1 h
  obtain ⟨t, ht, h⟩ := bind_eq_ok.1 h
  obtain ⟨names, hn, h⟩ := bind_eq_ok.1 h
  have e : names = kept data filter := by
    unfold removeTime at hn
    unfold kept
    revert hn
    generalize (if filter = [] then data.keys else filter) = l
    intro hn
    split at hn
    · exact (Except.ok.inj hn).symm
    · cases hn
  subst e
  obtain ⟨h1, h2⟩ := fold_spectrum _ _ _ _ _ h
  refine ⟨t, Dict.getE_eq_ok.1 ht, ?_, fun hf => by rw [h2 _ hf]; rfl⟩
  intro name hname
  obtain ⟨x, a, hx, ha, hr⟩ := h1 name hname
  have hne : x ≠ [] := by
    rintro rfl
    simp [fft] at ha
  rw [fft_list hne] at ha
  refine ⟨x, hne, hx, ?_⟩
  rw [hr, ← Except.ok.inj ha, List.map_map]
  rfl

/-- **C91, when there is a spectrum**: exactly when the data set is a time evolution with its times, the filter names the time if
there is one, and every variable asked exists and has a sample. -/
theorem C91_succeeds (trep : String) (data : Dict String (List ℝ)) (filter : List String) (lo hi : Option Int) :
    (∃ res, dataSetSpectrum exact trep data filter lo hi = .ok res) ↔
      trep = "timeevol" ∧ (∃ t, data.get? "time" = some t) ∧ (filter ≠ [] → "time" ∈ filter) ∧
        ∀ name ∈ (if filter = [] then data.keys else filter).erase "time", ∃ x, data.get? name = some x ∧ x ≠ [] := by
  constructor
  · rintro ⟨res, h⟩
    obtain ⟨t, ht, hv, -⟩ := spectrum_ok h
    unfold dataSetSpectrum at h
    obtain ⟨_, ha, h⟩ := bind_eq_ok.1 h
    obtain ⟨_, _, h⟩ := bind_eq_ok.1 h
    obtain ⟨names, hn, h⟩ := bind_eq_ok.1 h
    refine ⟨?_, ⟨t, ht⟩, ?_, ?_⟩
    · unfold pyAssert at ha
      split at ha
      · rename_i hb
        simp only [Bool.and_eq_true, decide_eq_true_eq] at hb
        exact hb.1
      · cases ha
    · intro hf
      unfold removeTime at hn
      rw [if_neg hf] at hn
      by_contra hc
      rw [if_neg hc] at hn
      cases hn
    · intro name hname
      obtain ⟨x, h1, h2, -⟩ := hv name hname
      exact ⟨x, h2, h1⟩
  · rintro ⟨rfl, ⟨t, ht⟩, hf, hv⟩
    have hk : "time" ∈ data.keys := Dict.mem_keys_iff.2 ⟨t, ht⟩
    unfold dataSetSpectrum
    have htm : "time" ∈ (if filter = [] then data.keys else filter) := by
      split
      · exact hk
      · rename_i h; exact hf h
    have hrem : removeTime (if filter = [] then data.keys else filter) = .ok (kept data filter) := by
      unfold removeTime; rw [if_pos htm]; rfl
    simp only [hk, decide_true, Bool.and_self, pyAssert, if_true, Except_bind_ok, Dict.getE_eq_ok.2 ht, hrem]
    have key : ∀ (l : List String) (init : Dict String (List ℝ)), (∀ name ∈ l, ∃ x, data.get? name = some x ∧ x ≠ []) →
        ∃ res, l.foldlM (addSpectrum exact data) init = .ok res := by
      intro l
      induction l with
      | nil => intro init _; exact ⟨init, rfl⟩
      | cons a l ih =>
        intro init h
        obtain ⟨x, hx, hne⟩ := h a (.head _)
        obtain ⟨res, hr⟩ := ih (init.set a (((List.range x.length).map (line x.length fun j => x.getD j 0)).map exact.abs))
          fun n hn => h n (.tail _ hn)
        refine ⟨res, ?_⟩
        rw [List.foldlM_cons]
        have : addSpectrum exact data init a = .ok (init.set a (((List.range x.length).map (line x.length fun j => x.getD j 0)).map exact.abs)) := by
          unfold addSpectrum
          rw [Dict.getE_eq_ok.2 hx, Except_bind_ok, fft_list hne, Except_bind_ok, Except_pure]
        rw [this, Except_bind_ok, hr]
    exact key _ _ hv

private theorem diffs_regular (n : Nat) (t0 dt : ℝ) :
    TimeSeries.diffs (samples n t0 dt id) = List.replicate (n - 1) dt := by
  unfold TimeSeries.diffs samples
  apply List.ext_getElem
  · simp
  · intro i h1 h2
    simp only [List.getElem_zipWith, List.getElem_drop, List.getElem_map, List.getElem_range, List.getElem_replicate, id]
    push_cast
    ring

/-- The step and the number of samples. -/
theorem dtstats_regular {n : Nat} (hn : 2 ≤ n) (t0 dt : ℝ) : TimeSeries.dtstats (samples n t0 dt id) none none = (dt, n) := by
  have hs : pySlice (samples n t0 dt id) none none = samples n t0 dt id := by
    rw [pySlice_selected]
    unfold Spec.selected
    rw [List.filter_eq_self.2 (by intro p _; simp [Spec.fromBound, Spec.toBound])]
    simp
  unfold TimeSeries.dtstats
  simp only [hs, diffs_regular, List.sum_replicate, List.length_replicate]
  have h1 : ((n - 1 : Nat) : ℝ) ≠ 0 := Nat.cast_ne_zero.2 (by omega)
  rw [Prod.mk.injEq]
  refine ⟨by rw [nsmul_eq_mul]; field_simp, by simp [samples]⟩

private theorem freq_abs {n k m : Nat} (hk : k < n) (h0 : 0 < m) (h2 : 2 * m < n) {dt : ℝ} (hdt : 0 < dt) {f : ℝ}
    (hf : f * (n * dt) = m) :
    |(if 2 * k < n then (k : ℝ) else k - n) / (n * dt)| = f ↔ k = m ∨ k + m = n := by
  have hpos : (0 : ℝ) < n * dt := mul_pos (Nat.cast_pos.2 (by omega)) hdt
  rw [abs_div, abs_of_pos hpos, div_eq_iff hpos.ne', hf]
  by_cases h : 2 * k < n
  · rw [if_pos h, abs_of_nonneg (Nat.cast_nonneg k)]
    constructor
    · intro e; left; exact_mod_cast e
    · rintro (e | e)
      · exact_mod_cast e
      · omega
  · rw [if_neg h, abs_of_nonpos (by
      have : (k : ℝ) ≤ n := by exact_mod_cast hk.le
      linarith)]
    constructor
    · intro e
      right
      have : (n : ℝ) = k + m := by linarith
      have : n = k + m := by exact_mod_cast this
      omega
    · rintro (e | e)
      · omega
      · have : (n : ℝ) = k + m := by rw [← e]; push_cast; ring
        linarith

/-- The values of one variable. -/
theorem line_of_signal {n : Nat} (hn : 0 < n) (t0 : ℝ) {dt : ℝ} (hdt : 0 < dt) (mean : ℝ) (tones : List Tone)
    (hres : ∀ w ∈ tones, Resolved n dt w) (hd : (tones.map Tone.freq).Nodup) {k : Nat} (hk : k < n) :
    Line n mean tones ((if 2 * k < n then (k : ℝ) else k - n) / (n * dt))
      ‖line n (fun j => signal mean tones (t0 + j * dt)) k‖ := by
  have hpos : (0 : ℝ) < n * dt := mul_pos (Nat.cast_pos.2 hn) hdt
  rw [line_signal hn t0 dt mean tones k hk]
  have hzero : ∀ w ∈ tones, |(if 2 * k < n then (k : ℝ) else k - n) / (n * dt)| ≠ w.freq → toneLine n t0 dt w k = 0 := by
    intro w hw hne
    obtain ⟨m, h0, h2, hm⟩ := hres w hw
    have := toneLine_eq hn h0 h2 t0 dt w hm k hk
    rw [if_neg (fun h => hne ((freq_abs hk h0 h2 hdt hm).2 h))] at this
    exact norm_eq_zero.1 this
  refine ⟨?_, ?_, ?_⟩
  · intro hf
    have hk0 : k = 0 := by
      rw [div_eq_zero_iff] at hf
      rcases hf with hf | hf
      · by_cases h : 2 * k < n
        · rw [if_pos h] at hf
          exact_mod_cast hf
        · rw [if_neg h] at hf
          have : (k : ℝ) = n := by linarith
          have : k = n := by exact_mod_cast this
          omega
      · exact absurd hf hpos.ne'
    rw [if_pos hk0, sum_none _ (fun w hw => hzero w hw ?_), add_zero, norm_mul, Complex.norm_natCast, Complex.norm_real,
      Real.norm_eq_abs]
    rw [hf, abs_zero]
    obtain ⟨m, h0, -, hm⟩ := hres w hw
    intro e
    rw [← e, zero_mul] at hm
    have : m = 0 := by exact_mod_cast hm.symm
    omega
  · intro w hw hf
    obtain ⟨m, h0, h2, hm⟩ := hres w hw
    have hkm := (freq_abs hk h0 h2 hdt hm).1 hf
    rw [if_neg (by omega), zero_add, sum_single hd hw _ (fun w' hw' hne => hzero w' hw' (by rw [hf]; exact hne.symm)),
      toneLine_eq hn h0 h2 t0 dt w hm k hk, if_pos hkm]
  · intro hf hne
    rw [if_neg, sum_none _ (fun w hw => hzero w hw (hne w hw)), add_zero, norm_zero]
    rintro rfl
    apply hf
    simp

/-- **C91, oscillations.** A variable that is a mean value plus oscillations, sampled at `n` regular times over a whole number of
periods of each (of more than two samples each, frequencies apart): the spectrum has `n` lines; each oscillation shows at its
frequency and the opposite one with `n / 2` times its amplitude, whatever its phase and the first time; the mean shows at
frequency 0, times `n`; all other lines are 0. -/
theorem C91_tones (data : Dict String (List ℝ)) (filter : List String) (n : Nat) (hn : 2 ≤ n) (t0 dt : ℝ) (hdt : 0 < dt)
    (ht : data.get? "time" = some (samples n t0 dt id)) (hf : "freq" ∉ kept data filter) (name : String)
    (hname : name ∈ kept data filter) (mean : ℝ) (tones : List Tone)
    (hx : data.get? name = some (samples n t0 dt (signal mean tones)))
    (hres : ∀ w ∈ tones, Resolved n dt w) (hd : (tones.map Tone.freq).Nodup) (res : Dict String (List ℝ))
    (h : dataSetSpectrum exact "timeevol" data filter none none = .ok res) :
    ∃ freq amp, res.get? "freq" = some freq ∧ res.get? name = some amp ∧ freq.length = n ∧ amp.length = n ∧ freq.Nodup ∧
      (∀ w ∈ tones, w.freq ∈ freq ∧ -w.freq ∈ freq) ∧ 0 ∈ freq ∧
      ∀ (k : Nat) (f a : ℝ), freq[k]? = some f → amp[k]? = some a → Line n mean tones f a := by
  obtain ⟨t, ht', hv, hfr⟩ := spectrum_ok h
  rw [ht] at ht'
  cases ht'
  obtain ⟨x, hne, hx', hr⟩ := hv name hname
  rw [hx] at hx'
  cases hx'
  have hn0 : 0 < n := by omega
  have hpos : (0 : ℝ) < n * dt := mul_pos (Nat.cast_pos.2 hn0) hdt
  rw [dtstats_regular hn] at hfr
  have hlen : (samples n t0 dt (signal mean tones)).length = n := by simp [samples]
  rw [hlen] at hr
  have hcg : ∀ k, line n (fun j => (samples n t0 dt (signal mean tones)).getD j 0) k =
      line n (fun j => signal mean tones (t0 + j * dt)) k := by
    intro k
    unfold line
    apply Finset.sum_congr rfl
    intro j hj
    rw [Finset.mem_range] at hj
    simp [samples, hj]
  have hval : ∀ k, k < n → (fftfreq n dt)[k]? = some ((if 2 * k < n then (k : ℝ) else k - n) / (n * dt)) := fun k hk => fftfreq_get hk dt
  have hmem : ∀ k, k < n → (if 2 * k < n then (k : ℝ) else k - n) / (n * dt) ∈ fftfreq n dt := fun k hk =>
    List.mem_of_getElem? (hval k hk)
  refine ⟨_, _, hfr hf, hr, fftfreq_length n dt, by simp, ?_, ?_, ?_, ?_⟩
  · rw [List.nodup_iff_injective_getElem]
    rintro ⟨i, hi⟩ ⟨j, hj⟩ e
    rw [fftfreq_length] at hi hj
    have e1 := hval i hi
    have e2 := hval j hj
    rw [List.getElem?_eq_getElem (by rw [fftfreq_length]; exact hi)] at e1
    rw [List.getElem?_eq_getElem (by rw [fftfreq_length]; exact hj)] at e2
    simp only at e
    rw [e, e2, Option.some.injEq, div_left_inj' hpos.ne'] at e1
    have hi' : (i : ℝ) < n := by exact_mod_cast hi
    have hj' : (j : ℝ) < n := by exact_mod_cast hj
    have hi0 : (0 : ℝ) ≤ i := Nat.cast_nonneg i
    have hj0 : (0 : ℝ) ≤ j := Nat.cast_nonneg j
    rw [Fin.mk.injEq]
    split at e1 <;> split at e1
    · exact_mod_cast e1.symm
    · linarith
    · linarith
    · have : (i : ℝ) = j := by linarith
      exact_mod_cast this
  · intro w hw
    obtain ⟨m, h0, h2, hm⟩ := hres w hw
    constructor
    · have := hmem m (by omega)
      rw [if_pos h2, ← hm, mul_div_assoc, div_self hpos.ne', mul_one] at this
      exact this
    · have := hmem (n - m) (by omega)
      rw [if_neg (by omega), Nat.cast_sub (by omega), show (n : ℝ) - m - n = -m by ring, ← hm, ← neg_mul, mul_div_assoc,
        div_self hpos.ne', mul_one] at this
      exact this
  · have := hmem 0 hn0
    simpa [hn0] using this
  · intro k f a hkf hka
    have hk : k < n := by
      by_contra hc
      rw [List.getElem?_eq_none (by rw [fftfreq_length]; omega)] at hkf
      cases hkf
    rw [hval k hk, Option.some.injEq] at hkf
    rw [List.getElem?_map, List.getElem?_range hk, Option.map_some, Option.some.injEq, hcg] at hka
    rw [← hkf, ← hka]
    exact line_of_signal hn0 t0 hdt mean tones hres hd hk

/-- **C91, any series.** The line 0 is the modulus of the sum of the samples, the spectrum is symmetric, and the sum of the squares of
the lines is `n` times the sum of the squares of the samples. -/
theorem C91_energy (trep : String) (data : Dict String (List ℝ)) (filter : List String) (lo hi : Option Int) (name : String)
    (hname : name ∈ kept data filter) (x : List ℝ) (hx : data.get? name = some x) (res : Dict String (List ℝ))
    (h : dataSetSpectrum exact trep data filter lo hi = .ok res) :
    ∃ amp, res.get? name = some amp ∧ amp.length = x.length ∧ amp.head? = some |x.sum| ∧
      (∀ k, 0 < k → k < x.length → amp[x.length - k]? = amp[k]?) ∧
      (amp.map fun a => a ^ 2).sum = (x.length : ℝ) * (x.map fun v => v ^ 2).sum := by
  obtain ⟨t, -, hv, -⟩ := spectrum_ok h
  obtain ⟨x', hne, hx', hr⟩ := hv name hname
  rw [hx] at hx'
  cases hx'
  have hn : 0 < x.length := List.length_pos_iff.2 hne
  refine ⟨_, hr, by simp, ?_, ?_, ?_⟩
  · rw [List.head?_eq_getElem?, List.getElem?_map, List.getElem?_range hn, Option.map_some, line_zero, Complex.norm_real,
      Real.norm_eq_abs]
    congr 2
    conv_rhs => rw [list_eq x]
    rfl
  · intro k h0 hk
    rw [List.getElem?_map, List.getElem?_map, List.getElem?_range (by omega), List.getElem?_range hk, Option.map_some,
      Option.map_some, line_symm hn _ _ hk.le]
  · rw [List.map_map]
    have := line_energy hn (fun j => x.getD j 0)
    have e : (x.map fun v => v ^ 2) = (List.range x.length).map fun j => x.getD j 0 ^ 2 := by
      conv_lhs => rw [list_eq x]
      rw [List.map_map]
      rfl
    rw [e]
    exact this

/-- **C91, origin of the samples.** Samples taken from another one on, the first ones put at the end, have the same lines. -/
theorem C91_rotated (trep trep' : String) (data data' : Dict String (List ℝ)) (filter filter' : List String) (lo hi lo' hi' : Option Int)
    (name : String) (hname : name ∈ kept data filter) (hname' : name ∈ kept data' filter') (x : List ℝ) (r : Nat)
    (hx : data.get? name = some x) (hx' : data'.get? name = some (x.rotate r)) (res res' : Dict String (List ℝ))
    (h : dataSetSpectrum exact trep data filter lo hi = .ok res) (h' : dataSetSpectrum exact trep' data' filter' lo' hi' = .ok res') :
    res'.get? name = res.get? name := by
  obtain ⟨-, -, hv, -⟩ := spectrum_ok h
  obtain ⟨-, -, hv', -⟩ := spectrum_ok h'
  obtain ⟨y, hne, hy, hr⟩ := hv name hname
  obtain ⟨y', hne', hy', hr'⟩ := hv' name hname'
  rw [hx] at hy
  cases hy
  rw [hx'] at hy'
  cases hy'
  have hn : 0 < x.length := List.length_pos_iff.2 hne
  rw [hr, hr', List.length_rotate, Option.some.injEq]
  apply List.map_congr_left
  intro k _
  rw [← line_rotate hn (fun j => x.getD j 0) r k]
  congr 1
  unfold line
  apply Finset.sum_congr rfl
  intro j hj
  rw [Finset.mem_range] at hj
  have hm : (j + r) % x.length < x.length := Nat.mod_lt _ hn
  simp [List.getD_eq_getElem?_getD, List.getElem?_rotate hj]

/-- **C91, bounds.** Bounds on the samples change the frequencies only, not the values. -/
theorem C91_bounds (trep : String) (data : Dict String (List ℝ)) (filter : List String) (lo hi lo' hi' : Option Int)
    (res res' : Dict String (List ℝ)) (h : dataSetSpectrum exact trep data filter lo hi = .ok res)
    (h' : dataSetSpectrum exact trep data filter lo' hi' = .ok res') (name : String) (hname : name ∈ kept data filter) :
    res'.get? name = res.get? name := by
  obtain ⟨-, -, hv, -⟩ := spectrum_ok h
  obtain ⟨-, -, hv', -⟩ := spectrum_ok h'
  obtain ⟨y, -, hy, hr⟩ := hv name hname
  obtain ⟨y', -, hy', hr'⟩ := hv' name hname
  rw [hy] at hy'
  cases hy'
  rw [hr, hr']

/-! ### Cases -/

/-- Eight samples of `3 + 2 cos(2 pi t / 4 + 1)`, every second from time 5 on, and a second variable. -/
noncomputable def wave : Dict String (List ℝ) :=
  [("time", samples 8 5 1 id), ("p", samples 8 5 1 (signal 3 [⟨2, 1 / 4, 1⟩])), ("u", [1, 2, 3])]

theorem wave_resolved : ∀ w ∈ [(⟨2, 1 / 4, 1⟩ : Tone)], Resolved 8 1 w := by
  intro w hw
  rw [List.mem_singleton] at hw
  subst hw
  exact ⟨2, by decide, by decide, by norm_num⟩

theorem wave_ok (lo hi : Option Int) : ∃ res, dataSetSpectrum exact "timeevol" wave ["p", "time"] lo hi = .ok res := by
  refine (C91_succeeds _ _ _ _ _).2 ⟨rfl, ⟨_, rfl⟩, fun _ => by simp, ?_⟩
  intro name hname
  have e : (if ["p", "time"] = ([] : List String) then wave.keys else ["p", "time"]).erase "time" = ["p"] := by decide
  rw [e, List.mem_singleton] at hname
  subst hname
  exact ⟨_, rfl, by simp [samples]⟩

theorem wave_kept : kept wave ["p", "time"] = ["p"] := by
  unfold kept
  decide

/-- `C91_tones` on this data set: 24 at frequency 0, 8 at the frequencies 1/4 and -1/4, 0 at the others. -/
example : ∃ res freq amp, dataSetSpectrum exact "timeevol" wave ["p", "time"] none none = .ok res ∧
    res.get? "freq" = some freq ∧ res.get? "p" = some amp ∧ freq.length = 8 ∧ amp.length = 8 ∧
    1 / 4 ∈ freq ∧ -(1 / 4) ∈ freq ∧ ∀ (k : Nat) (f a : ℝ), freq[k]? = some f → amp[k]? = some a →
      (f = 0 → a = 24) ∧ (|f| = 1 / 4 → a = 8) ∧ (f ≠ 0 → |f| ≠ 1 / 4 → a = 0) := by
  obtain ⟨res, h⟩ := wave_ok none none
  obtain ⟨freq, amp, h1, h2, h3, h4, -, h5, -, h6⟩ := C91_tones wave ["p", "time"] 8 (by decide) 5 1 one_pos rfl
    (by rw [wave_kept]; decide) "p" (by rw [wave_kept]; decide) 3 [⟨2, 1 / 4, 1⟩] rfl wave_resolved (by simp) res h
  obtain ⟨h7, h8⟩ := h5 _ (.head _)
  refine ⟨res, freq, amp, h, h1, h2, h3, h4, h7, h8, fun k f a hf ha => ?_⟩
  obtain ⟨l1, l2, l3⟩ := h6 k f a hf ha
  refine ⟨fun hz => ?_, fun hz => ?_, fun hz hw => ?_⟩
  · rw [l1 hz]; norm_num
  · rw [l2 _ (.head _) hz]; norm_num
  · exact l3 hz (by simpa using hw)

/-- `C91_energy` on a series of three samples. -/
example : ∃ res amp, dataSetSpectrum exact "timeevol" [("time", [0, 1, 2]), ("u", [1, 2, 3])] [] none none = .ok res ∧
    res.get? "u" = some amp ∧ amp.length = 3 ∧ amp.head? = some 6 ∧ amp[2]? = amp[1]? ∧ (amp.map fun a => a ^ 2).sum = 42 := by
  obtain ⟨res, h⟩ : ∃ res, dataSetSpectrum exact "timeevol" [("time", [0, 1, 2]), ("u", [1, 2, 3])] [] none none = .ok res := by
    refine (C91_succeeds _ _ _ _ _).2 ⟨rfl, ⟨_, rfl⟩, fun h => absurd rfl h, ?_⟩
    intro name hname
    have hu : name = "u" := by simpa [Dict.keys, List.erase_cons] using hname
    subst hu
    exact ⟨_, rfl, by simp⟩
  obtain ⟨amp, h1, h2, h3, h4, h5⟩ := C91_energy "timeevol" [("time", [0, 1, 2]), ("u", [1, 2, 3])] [] none none "u"
    (by simp [kept, Dict.keys, List.erase_cons]) [1, 2, 3] rfl res h
  refine ⟨res, amp, h, h1, h2, ?_, h4 1 (by decide) (by decide), ?_⟩
  · rw [h3, show ([1, 2, 3] : List ℝ).sum = 6 by norm_num]
    norm_num
  · rw [h5]
    norm_num

/-- `C91_rotated`: the same samples from the third one on. -/
example (res res' : Dict String (List ℝ))
    (h : dataSetSpectrum exact "timeevol" [("time", [0, 1, 2]), ("u", [1, 2, 3])] ["u", "time"] none none = .ok res)
    (h' : dataSetSpectrum exact "timeevol" [("time", [2, 3, 4]), ("u", [3, 1, 2])] ["time", "u"] none none = .ok res') :
    res'.get? "u" = res.get? "u" :=
  C91_rotated "timeevol" "timeevol" _ _ ["u", "time"] ["time", "u"] none none none none "u" (by unfold kept; decide)
    (by unfold kept; decide) [1, 2, 3] 2 rfl rfl res res' h h'

/-- **C91 with bounds is refuted**: with the samples from the fifth one on, the oscillation of frequency 1/4 is shown beside the
frequency -1/2, and there are 4 frequencies for 8 values. -/
theorem C91_bounds_refuted : ∃ res freq amp, dataSetSpectrum exact "timeevol" wave ["p", "time"] (some 4) none = .ok res ∧
    res.get? "freq" = some freq ∧ res.get? "p" = some amp ∧ freq.length = 4 ∧ amp.length = 8 ∧
    freq[2]? = some (-(1 / 2) : ℝ) ∧ amp[2]? = some (8 : ℝ) := by
  obtain ⟨res, h⟩ := wave_ok none none
  obtain ⟨res', h'⟩ := wave_ok (some 4) none
  have hp : "p" ∈ kept wave ["p", "time"] := by rw [wave_kept]; decide
  have hq : "freq" ∉ kept wave ["p", "time"] := by rw [wave_kept]; decide
  obtain ⟨freq, amp, h1, h2, h3, h4, -, -, -, h6⟩ := C91_tones wave ["p", "time"] 8 (by decide) 5 1 one_pos rfl
    hq "p" hp 3 [⟨2, 1 / 4, 1⟩] rfl wave_resolved (by simp) res h
  obtain ⟨t, ht, -, hfr⟩ := spectrum_ok h
  obtain ⟨t', ht', -, hfr'⟩ := spectrum_ok h'
  cases ht
  cases ht'
  have hs : TimeSeries.dtstats (samples 8 5 1 id) (some 4) none = (1, 4) := by
    have e : pySlice (samples 8 5 1 id) (some 4) none = samples 4 9 1 id := by
      have b : sliceBounds 8 (some 4) none = (4, 8) := by decide
      have hl : (samples 8 5 1 id).length = 8 := by simp [samples]
      unfold pySlice
      rw [hl, b]
      simp only [samples, List.range_succ]
      norm_num
    have := dtstats_regular (n := 4) (by decide) 9 1
    unfold TimeSeries.dtstats at this ⊢
    rw [e]
    have e' : pySlice (samples 4 9 1 id) none none = samples 4 9 1 id := by
      have b : sliceBounds 4 none none = (0, 4) := by decide
      have hl : (samples 4 9 1 id).length = 4 := by simp [samples]
      unfold pySlice
      rw [hl, b]
      exact List.take_of_length_le (by rw [hl])
    rw [e'] at this
    exact this
  have hfr'' := hfr' hq
  rw [hs] at hfr''
  refine ⟨res', _, amp, h', hfr'', (C91_bounds "timeevol" wave _ none none (some 4) none res res' h h' "p" hp).trans h2,
    fftfreq_length 4 1, h4, ?_, ?_⟩
  · show (fftfreq 4 1)[2]? = some (-(1 / 2))
    rw [fftfreq_get (n := 4) (k := 2) (by decide)]
    norm_num
  · have hf2 : freq[2]? = some (1 / 4) := by
      have e := hfr hq
      rw [dtstats_regular (by decide), h1, Option.some.injEq] at e
      rw [e, fftfreq_get (by decide)]
      norm_num
    have ha : amp[2]? = some (amp[2]'(by rw [h4]; decide)) := List.getElem?_eq_getElem _
    rw [ha, (h6 2 _ _ hf2 ha).2.1 _ (.head _) (by norm_num)]
    norm_num

/-- `C91_bounds` on the same data set. -/
example (res res' : Dict String (List ℝ)) (h : dataSetSpectrum exact "timeevol" wave ["p", "time"] none none = .ok res)
    (h' : dataSetSpectrum exact "timeevol" wave ["p", "time"] (some 1) (some (-1)) = .ok res') : res'.get? "p" = res.get? "p" :=
  C91_bounds _ _ _ _ _ _ _ res res' h h' "p" (by rw [wave_kept]; decide)

end Cfd.Spectrum
