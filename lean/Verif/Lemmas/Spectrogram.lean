import Verif.Spec.Spectrogram
import Verif.Lemmas.Spectrum
import Verif.Lemmas.Exact

namespace Cfd.Spectrum
open Cfd.Spec.Spectrum Finset

theorem slice_get {x : List ℝ} {a m j : Nat} (hj : j < m) (ha : a + m ≤ x.length) :
    ((x.take (a + m)).drop a).getD j 0 = x.getD (a + j) 0 := by
  rw [List.getD_eq_getElem?_getD, List.getElem?_drop, List.getElem?_take_of_lt (by omega), ← List.getD_eq_getElem?_getD]

/-- A full window. -/
theorem timesHanning_full {a : List ℝ} {h : Nat} (hl : a.length = 2 * h + 1) :
    timesHanning exactLog h a = .ok ((List.range (2 * h + 1)).map fun j => a.getD j 0 * hann h j) := by
  unfold timesHanning
  rw [if_pos hl, Except.ok.injEq]
  apply List.ext_getElem
  · simp [exactLog, hl]
  · intro i h1 h2
    have hi : i < a.length := by simp at h2; omega
    simp [exactLog, hi]

theorem rfft_full {h : Nat} (y : Nat → ℝ) : rfft exact ((List.range (2 * h + 1)).map y) =
    .ok ((List.range (h + 1)).map (line (2 * h + 1) y)) := by
  unfold rfft
  rw [fft_eq (by omega), Except_bind_ok, Except_pure, Except.ok.injEq, ← List.map_take, List.length_map, List.length_range,
    List.take_range]
  congr 2
  omega

/-- One row, of a full window. -/
theorem row_full {x : List ℝ} {h i : Nat} (hl : h * (i + 2) < x.length) :
    spectroRow exactLog x h i =
      .ok ((List.range (h - 1)).map fun k => logR ‖line (2 * h + 1) (fun j => x.getD (h * i + j) 0 * hann h j) (k + 2)‖) := by
  have e : h * (i + 2) + 1 = h * i + (2 * h + 1) := by ring
  unfold spectroRow
  rw [e, timesHanning_full (by rw [List.length_drop, List.length_take]; omega), Except_bind_ok]
  show (rfft exact _ >>= _) = _
  rw [rfft_full, Except_bind_ok, Except_pure, Except.ok.injEq, List.map_map, List.map_map, ← List.map_drop]
  apply List.ext_getElem
  · simp
  · intro k h1 h2
    simp only [List.getElem_map, List.getElem_drop, List.getElem_range, Function.comp]
    show logR ‖_‖ = _
    rw [Nat.add_comm 2 k]
    congr 2
    unfold line
    apply sum_congr rfl
    intro j hj
    rw [mem_range] at hj
    show ((((x.take (h * i + (2 * h + 1))).drop (h * i)).getD j 0 * hann h j : ℝ) : ℂ) * _ = _
    rw [slice_get hj (by omega)]

/-- Refusal. -/
theorem row_isOk (x : List ℝ) (h i : Nat) (hh : 1 ≤ h) : (∃ r, spectroRow exactLog x h i = .ok r) ↔
    sliceLen x.length (h * i) (h * (i + 2) + 1) = 2 * h + 1 ∨ sliceLen x.length (h * i) (h * (i + 2) + 1) = 1 := by
  have hlen : ((x.take (h * (i + 2) + 1)).drop (h * i)).length = sliceLen x.length (h * i) (h * (i + 2) + 1) := by
    simp [sliceLen]
  unfold spectroRow
  rw [← hlen]
  generalize (x.take (h * (i + 2) + 1)).drop (h * i) = a
  have hok : ∀ y : List ℝ, y ≠ [] → ∃ b, rfft exactLog.toNumbers y = .ok b := by
    intro y hy
    unfold rfft
    rw [show exactLog.toNumbers = exact from rfl, fft_list hy, Except_bind_ok, Except_pure]
    exact ⟨_, rfl⟩
  constructor
  · rintro ⟨r, hr⟩
    obtain ⟨b, hb, -⟩ := bind_eq_ok.1 hr
    unfold timesHanning at hb
    split at hb
    · exact .inl ‹_›
    · split at hb
      · exact .inr rfl
      · cases hb
  · intro hc
    have : ∃ y, timesHanning exactLog h a = .ok y ∧ y ≠ [] := by
      unfold timesHanning
      rcases hc with hc | hc
      · rw [if_pos hc]
        refine ⟨_, rfl, fun h0 => ?_⟩
        have := congrArg List.length h0
        simp [exactLog, hc] at this
      · rw [if_neg (by omega)]
        obtain ⟨v, rfl⟩ := List.length_eq_one_iff.1 hc
        refine ⟨_, rfl, fun h0 => ?_⟩
        have := congrArg List.length h0
        simp [exactLog] at this
    obtain ⟨y, hy, hne⟩ := this
    obtain ⟨b, hb⟩ := hok y hne
    exact ⟨_, by rw [hy, Except_bind_ok, hb, Except_bind_ok, Except_pure]⟩

/-- A line of the transform of a window, in terms of the times. -/
theorem line_content (x : Nat → ℝ) {t0 dt : ℝ} (hdt : 0 < dt) (h a k : Nat) :
    ‖line (2 * h + 1) (fun j => x (a + j) * hann h j) k‖ =
      content x (fun j => t0 + j * dt) h a (k / ((2 * h + 1 : Nat) * dt)) := by
  have hne : (((2 * h + 1 : Nat) : ℝ)) ≠ 0 := Nat.cast_ne_zero.2 (by omega)
  have hneC : (((2 * h + 1 : Nat) : ℂ)) ≠ 0 := Nat.cast_ne_zero.2 (by omega)
  have hdC : (dt : ℂ) ≠ 0 := by exact_mod_cast hdt.ne'
  unfold content
  have e : ((List.range (2 * h + 1)).map fun j => ((hann h j * x (a + j) : ℝ) : ℂ) *
      Complex.exp (-2 * Real.pi * Complex.I * ((k / ((2 * h + 1 : Nat) * dt) : ℝ) : ℂ) * ((t0 + ((a + j : Nat) : ℝ) * dt : ℝ) : ℂ))).sum =
      Complex.exp (((-2 * Real.pi * (k / ((2 * h + 1 : Nat) * dt)) * (t0 + a * dt) : ℝ) : ℂ) * Complex.I) *
        line (2 * h + 1) (fun j => x (a + j) * hann h j) k := by
    unfold line
    rw [mul_sum]
    show ∑ j ∈ range (2 * h + 1), _ = _
    apply sum_congr rfl
    intro j _
    unfold unit
    rw [mul_left_comm, ← Complex.exp_add]
    congr 1
    · push_cast; ring
    · congr 1
      push_cast
      push_cast at hneC
      field_simp
      ring
  rw [e, norm_mul, Complex.norm_exp_ofReal_mul_I, one_mul]

theorem fold_spectrogram {K C L : Type} [Mul K] [CommRing C] (N : LogNumbers K C L) (data : Dict String (List K)) (nit h : Nat)
    (names : List String) (init res : Dict String (Var K L)) (hr : names.foldlM (addSpectrogram N data nit h) init = .ok res) :
    (∀ name ∈ names, ∃ rows, ((List.range nit).mapM fun i => (do let x ← data.getE name; spectroRow N x h i)) = .ok rows ∧
      res.get? name = some (.rows rows)) ∧
    ∀ name, name ∉ names → res.get? name = init.get? name := by
  induction names generalizing init with
  | nil =>
    cases hr
    exact ⟨fun _ h => by simp at h, fun _ _ => rfl⟩
  | cons a l ih =>
    rw [List.foldlM_cons] at hr
    obtain ⟨d, hd, hr⟩ := bind_eq_ok.1 hr
    obtain ⟨rows, hrows, hd⟩ := bind_eq_ok.1 hd
    cases hd
    obtain ⟨h1, h2⟩ := ih _ hr
    refine ⟨?_, ?_⟩
    · intro name hname
      by_cases hl : name ∈ l
      · exact h1 name hl
      · have hna : name = a := by simpa [hl] using hname
        subst hna
        exact ⟨rows, hrows, by rw [h2 _ hl, Dict.get?_set_self]⟩
    · intro name hname
      rw [List.mem_cons, not_or] at hname
      rw [h2 _ hname.2, Dict.get?_set_ne _ _ hname.1]

theorem fold_isOk {K C L : Type} [Mul K] [CommRing C] (N : LogNumbers K C L) (data : Dict String (List K)) (nit h : Nat)
    (names : List String) (init : Dict String (Var K L))
    (hn : ∀ name ∈ names, ∃ rows, ((List.range nit).mapM fun i => (do let x ← data.getE name; spectroRow N x h i)) = .ok rows) :
    ∃ res, names.foldlM (addSpectrogram N data nit h) init = .ok res := by
  induction names generalizing init with
  | nil => exact ⟨init, rfl⟩
  | cons a l ih =>
    obtain ⟨rows, hr⟩ := hn a (.head _)
    obtain ⟨res, hres⟩ := ih (init.set a (.rows rows)) fun n hm => hn n (.tail _ hm)
    refine ⟨res, ?_⟩
    rw [List.foldlM_cons]
    have : addSpectrogram N data nit h init a = .ok (init.set a (.rows rows)) := by
      unfold addSpectrogram
      rw [hr]
      rfl
    rw [this, Except_bind_ok, hres]

theorem dtstats_none_length (t : List ℝ) : (TimeSeries.dtstats t none none).2 = t.length := by
  unfold TimeSeries.dtstats pySlice
  simp [sliceBounds]

end Cfd.Spectrum
