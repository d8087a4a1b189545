import Verif.Lemmas.Spectrum
import Verif.Spec.PlaneValues
import Mathlib.Tactic.FieldSimp
import Mathlib.Tactic.LinearCombination
import Mathlib.Tactic.Linarith
import Mathlib.Tactic.Positivity

/-! # Averages, deviations and modes of samples -/

namespace Cfd.PlaneValues
open Cfd.Spec.PlaneValues Cfd.Spec.Spectrum Cfd.Spectrum Finset

theorem average_range (n : Nat) (y : Nat → ℝ) : average ((List.range n).map y) = (∑ j ∈ range n, y j) / n := by
  unfold average
  rw [List.length_map, List.length_range]
  rfl

theorem deviation_range (n : Nat) (y : Nat → ℝ) :
    deviation exactModes ((List.range n).map y) = √((∑ j ∈ range n, (y j - (∑ j ∈ range n, y j) / n) ^ 2) / n) := by
  unfold deviation
  rw [average_range, List.map_map, average_range]
  rfl

theorem modeValue_range {n k : Nat} (hk : k < n) (y : Nat → ℝ) :
    modeValue exactModes k ((List.range n).map y) = line n y k * ((1 / √n : ℝ) : ℂ) := by
  unfold modeValue fftOrtho
  rw [show exactModes.toNumbers = exact from rfl, fft_eq (by omega) y]
  simp only [Except_bind_ok, Except_pure, List.map_map]
  rw [List.getD_eq_getElem?_getD, List.getElem?_map, List.getElem?_range hk, List.length_map, List.length_range]
  rfl

theorem modeAbs_range {n k : Nat} (hk : k < n) (y : Nat → ℝ) :
    exactModes.abs (modeValue exactModes k ((List.range n).map y)) = ‖line n y k‖ / √n := by
  rw [modeValue_range hk]
  show ‖_‖ = _
  rw [norm_mul, Complex.norm_real, Real.norm_eq_abs, abs_of_nonneg (by positivity)]
  ring

/-- The sum of the squares of the deviations. -/
theorem sum_sq_deviation {n : Nat} (hn : 0 < n) (y : Nat → ℝ) :
    ∑ j ∈ range n, (y j - (∑ j ∈ range n, y j) / n) ^ 2 = ∑ j ∈ range n, y j ^ 2 - (∑ j ∈ range n, y j) ^ 2 / n := by
  have hn' : (n : ℝ) ≠ 0 := Nat.cast_ne_zero.2 hn.ne'
  set s := ∑ j ∈ range n, y j with hs
  have : ∀ j, (y j - s / n) ^ 2 = y j ^ 2 - (2 * s / n) * y j + s ^ 2 / n ^ 2 := fun j => by ring
  simp only [this]
  rw [sum_add_distrib, sum_sub_distrib, ← mul_sum, ← hs, sum_const, card_range, nsmul_eq_mul]
  field_simp
  ring

/-- The squares of the lines but the first one. -/
theorem lines_energy {n : Nat} (hn : 0 < n) (y : Nat → ℝ) :
    ∑ k ∈ range n, (if k = 0 then 0 else ‖line n y k‖ ^ 2) = n * ∑ j ∈ range n, (y j - (∑ j ∈ range n, y j) / n) ^ 2 := by
  have hn' : (n : ℝ) ≠ 0 := Nat.cast_ne_zero.2 hn.ne'
  have h1 := line_energy hn y
  have h2 : ∑ k ∈ range n, ‖line n y k‖ ^ 2 =
      ∑ k ∈ range n, (if k = 0 then 0 else ‖line n y k‖ ^ 2) + ‖line n y 0‖ ^ 2 := by
    have : ∀ k ∈ range n, ‖line n y k‖ ^ 2 = (if k = 0 then 0 else ‖line n y k‖ ^ 2) + (if k = 0 then ‖line n y 0‖ ^ 2 else 0) := by
      intro k _
      by_cases h : k = 0
      · subst h; simp
      · simp [h]
    rw [sum_congr rfl this, sum_add_distrib, sum_ite_eq' (range n) 0, if_pos (mem_range.2 hn)]
  have h3 : ‖line n y 0‖ ^ 2 = (∑ j ∈ range n, y j) ^ 2 := by
    rw [line_zero, Complex.norm_real, Real.norm_eq_abs, sq_abs]
  rw [sum_sq_deviation hn, mul_sub, ← h1, h2, h3, mul_div_cancel₀ _ hn']
  ring

/-- The standard deviation is at most the largest distance to any given value. -/
theorem deviation_le {x : List ℝ} {tol c : ℝ} (h0 : 0 ≤ tol) (h : ∀ v ∈ x, |v - c| ≤ tol) : deviation exactModes x ≤ tol := by
  rcases Nat.eq_zero_or_pos x.length with h1 | hn
  · rw [List.length_eq_zero_iff] at h1
    subst h1
    show √_ ≤ tol
    simp [average, h0]
  · have e := list_eq x
    rw [e, deviation_range, sum_sq_deviation hn]
    set n := x.length
    set y : Nat → ℝ := fun j => x.getD j 0
    have hn' : (0 : ℝ) < n := Nat.cast_pos.2 hn
    have hy : ∀ j ∈ range n, (y j - c) ^ 2 ≤ tol ^ 2 := by
      intro j hj
      have hj' : j < x.length := mem_range.1 hj
      have hm : y j ∈ x := by
        show x.getD j 0 ∈ x
        rw [List.getD_eq_getElem?_getD, List.getElem?_eq_getElem hj']
        exact List.getElem_mem hj'
      exact sq_le_sq' (by have := abs_le.1 (h _ hm); linarith) (abs_le.1 (h _ hm)).2
    have h1 : ∑ j ∈ range n, (y j - c) ^ 2 ≤ n * tol ^ 2 := by
      have := sum_le_sum hy
      rwa [sum_const, card_range, nsmul_eq_mul] at this
    have h2 : ∑ j ∈ range n, (y j - c) ^ 2 = ∑ j ∈ range n, y j ^ 2 - 2 * c * ∑ j ∈ range n, y j + n * c ^ 2 := by
      have : ∀ j, (y j - c) ^ 2 = y j ^ 2 - (2 * c) * y j + c ^ 2 := fun j => by ring
      simp only [this]
      rw [sum_add_distrib, sum_sub_distrib, ← mul_sum, sum_const, card_range, nsmul_eq_mul]
    rw [h2] at h1
    set s := ∑ j ∈ range n, y j
    set q := ∑ j ∈ range n, y j ^ 2
    rw [Real.sqrt_le_left h0, div_le_iff₀ hn']
    have h3 : s ^ 2 / n - 2 * c * s + n * c ^ 2 = (s - n * c) ^ 2 / n := by field_simp; ring
    have h4 : 0 ≤ (s - n * c) ^ 2 / n := by positivity
    nlinarith

/-! ## Oscillations -/

variable {n : Nat} {t0 dt mean : ℝ} {tones : List Tone}

theorem toneLine_zero (hn : 0 < n) (hres : ∀ w ∈ tones, Resolved n dt w) : ∀ w ∈ tones, toneLine n t0 dt w 0 = 0 := by
  intro w hw
  obtain ⟨m, h0, h2, hm⟩ := hres w hw
  have := toneLine_eq hn h0 h2 t0 dt w hm 0 hn
  rw [if_neg (by omega)] at this
  exact norm_eq_zero.1 this

theorem sum_signal (hn : 0 < n) (hres : ∀ w ∈ tones, Resolved n dt w) :
    ∑ j ∈ range n, signal mean tones (t0 + j * dt) = n * mean := by
  have h := line_signal hn t0 dt mean tones 0 hn
  rw [line_zero, if_pos rfl, sum_none _ (toneLine_zero hn hres), add_zero] at h
  exact_mod_cast h

/-- At most one oscillation shows in a line. -/
theorem norm_sq_tones (hn : 0 < n) (hres : ∀ w ∈ tones, Resolved n dt w) (hd : (tones.map Tone.freq).Nodup) {k : Nat} (hk : k < n) :
    ‖(tones.map fun w => toneLine n t0 dt w k).sum‖ ^ 2 = (tones.map fun w => ‖toneLine n t0 dt w k‖ ^ 2).sum := by
  by_cases h : ∃ w ∈ tones, toneLine n t0 dt w k ≠ 0
  · obtain ⟨w, hw, hne⟩ := h
    have hother : ∀ w' ∈ tones, w'.freq ≠ w.freq → toneLine n t0 dt w' k = 0 := by
      intro w' hw' hf
      obtain ⟨m, h0, h2, hm⟩ := hres w hw
      obtain ⟨m', h0', h2', hm'⟩ := hres w' hw'
      have e := toneLine_eq hn h0 h2 t0 dt w hm k hk
      have e' := toneLine_eq hn h0' h2' t0 dt w' hm' k hk
      by_contra hc
      have c1 : k = m ∨ k + m = n := by
        by_contra hx
        rw [if_neg hx] at e
        exact hne (norm_eq_zero.1 e)
      have c2 : k = m' ∨ k + m' = n := by
        by_contra hx
        rw [if_neg hx] at e'
        exact hc (norm_eq_zero.1 e')
      have hmm : m = m' := by omega
      rw [← hmm, ← hm] at hm'
      have hnd : (n : ℝ) * dt ≠ 0 := by
        intro hz
        rw [hz, mul_zero] at hm
        have : m = 0 := by exact_mod_cast hm.symm
        omega
      exact hf (mul_right_cancel₀ hnd hm')
    rw [sum_single hd hw _ hother, sum_single hd hw _ (fun w' hw' hf => by rw [hother w' hw' hf]; simp)]
  · push Not at h
    rw [sum_none _ h, sum_none _ (fun w hw => by rw [h w hw]; simp)]
    simp

theorem sum_two {m : Nat} (h0 : 0 < m) (h2 : 2 * m < n) (a : ℝ) :
    ∑ k ∈ range n, (if k = m ∨ k + m = n then a else 0) = 2 * a := by
  have : ∀ k ∈ range n, (if k = m ∨ k + m = n then a else 0) = (if k = m then a else 0) + (if k = n - m then a else 0) := by
    intro k hk
    rw [mem_range] at hk
    by_cases c1 : k = m
    · rw [if_pos (.inl c1), if_pos c1, if_neg (by omega), add_zero]
    · by_cases c2 : k + m = n
      · rw [if_pos (.inr c2), if_neg c1, if_pos (by omega), zero_add]
      · rw [if_neg (by tauto), if_neg c1, if_neg (by omega), add_zero]
  rw [sum_congr rfl this, sum_add_distrib, sum_ite_eq' (range n) m, sum_ite_eq' (range n) (n - m),
    if_pos (mem_range.2 (by omega)), if_pos (mem_range.2 (by omega))]
  ring

theorem deviation_signal (hn : 0 < n) (hres : ∀ w ∈ tones, Resolved n dt w) (hd : (tones.map Tone.freq).Nodup) :
    deviation exactModes (samples n t0 dt (signal mean tones)) = √(tones.map fun w => w.amp ^ 2 / 2).sum := by
  have hn' : (n : ℝ) ≠ 0 := Nat.cast_ne_zero.2 hn.ne'
  unfold samples
  rw [deviation_range]
  congr 1
  have h := lines_energy hn fun j => signal mean tones (t0 + j * dt)
  have h2 : ∀ k ∈ range n, (if k = 0 then 0 else ‖line n (fun j => signal mean tones (t0 + j * dt)) k‖ ^ 2) =
      (tones.map fun w => ‖toneLine n t0 dt w k‖ ^ 2).sum := by
    intro k hk
    rw [mem_range] at hk
    by_cases c : k = 0
    · subst c
      rw [if_pos rfl, sum_none _ (fun w hw => by rw [toneLine_zero hn hres w hw]; simp)]
    · rw [if_neg c, line_signal hn t0 dt mean tones k hk, if_neg c, zero_add, norm_sq_tones hn hres hd hk]
  rw [sum_congr rfl h2] at h
  have h3 : ∑ k ∈ range n, (tones.map fun w => ‖toneLine n t0 dt w k‖ ^ 2).sum =
      n * (n * (tones.map fun w => w.amp ^ 2 / 2).sum) := by
    clear h h2 hd
    induction tones with
    | nil => simp
    | cons w l ih =>
      simp only [List.map_cons, List.sum_cons]
      rw [sum_add_distrib, ih fun w' hw' => hres w' (.tail _ hw')]
      obtain ⟨m, h0, h2, hm⟩ := hres w (.head _)
      have : ∀ k ∈ range n, ‖toneLine n t0 dt w k‖ ^ 2 = if k = m ∨ k + m = n then (n * |w.amp| / 2) ^ 2 else 0 := by
        intro k hk
        rw [toneLine_eq hn h0 h2 t0 dt w hm k (mem_range.1 hk)]
        split <;> simp
      rw [sum_congr rfl this, sum_two h0 h2]
      have ha : |w.amp| ^ 2 = w.amp ^ 2 := sq_abs _
      linear_combination (n : ℝ) ^ 2 / 2 * ha
  rw [h3] at h
  have := mul_left_cancel₀ hn' h
  rw [← this, mul_div_cancel_left₀ _ hn']

theorem average_signal (hn : 0 < n) (hres : ∀ w ∈ tones, Resolved n dt w) :
    average (samples n t0 dt (signal mean tones)) = mean := by
  unfold samples
  rw [average_range, sum_signal hn hres, mul_div_cancel_left₀ _ (Nat.cast_ne_zero.2 hn.ne')]

theorem div_sqrt (hn : 0 < n) (a : ℝ) : n * a / √n = √n * a := by
  have h : √(n : ℝ) * √n = n := Real.mul_self_sqrt (Nat.cast_nonneg n)
  have hp : √(n : ℝ) ≠ 0 := (Real.sqrt_pos.2 (Nat.cast_pos.2 hn)).ne'
  rw [div_eq_iff hp]
  linear_combination -a * h

theorem mode_signal (hn : 0 < n) (hres : ∀ w ∈ tones, Resolved n dt w) (hd : (tones.map Tone.freq).Nodup) {k : Nat}
    (h1 : 1 ≤ k) (hk : k < n) :
    ModeOf n dt tones k (exactModes.abs (modeValue exactModes k (samples n t0 dt (signal mean tones)))) := by
  unfold samples
  rw [modeAbs_range hk, line_signal hn t0 dt mean tones k hk, if_neg (by omega), zero_add]
  have hiff : ∀ m : Nat, m < n → (((m : ℝ) = k ∨ (m : ℝ) = n - k) ↔ (k = m ∨ k + m = n)) := by
    intro m _
    constructor
    · rintro (h | h)
      · left; exact_mod_cast h.symm
      · right
        have : (k : ℝ) + m = n := by linarith
        exact_mod_cast this
    · rintro (h | h)
      · left; rw [h]
      · right
        have : (k : ℝ) + m = n := by exact_mod_cast h
        linarith
  constructor
  · intro w hw hf
    obtain ⟨m, h0, h2, hm⟩ := hres w hw
    rw [hm, hiff m (by omega)] at hf
    rw [sum_single hd hw, toneLine_eq hn h0 h2 t0 dt w hm k hk, if_pos hf, mul_div_assoc, div_sqrt hn]
    · ring
    · intro w' hw' hne
      obtain ⟨m', h0', h2', hm'⟩ := hres w' hw'
      have e := toneLine_eq hn h0' h2' t0 dt w' hm' k hk
      rw [if_neg] at e
      · exact norm_eq_zero.1 e
      · intro hc
        have hmm : m = m' := by omega
        rw [← hmm, ← hm] at hm'
        have hnd : (n : ℝ) * dt ≠ 0 := by
          intro hz
          rw [hz, mul_zero] at hm
          have : m = 0 := by exact_mod_cast hm.symm
          omega
        exact hne (mul_right_cancel₀ hnd hm')
  · intro h
    rw [sum_none, norm_zero, zero_div]
    intro w hw
    obtain ⟨m, h0, h2, hm⟩ := hres w hw
    have e := toneLine_eq hn h0 h2 t0 dt w hm k hk
    rw [if_neg] at e
    · exact norm_eq_zero.1 e
    · intro hc
      have := h w hw
      rw [hm] at this
      rcases (hiff m (by omega)).2 hc with h' | h'
      · exact this.1 h'
      · exact this.2 h'

theorem phase_signal (hn : 0 < n) (hres : ∀ w ∈ tones, Resolved n dt w) (hd : (tones.map Tone.freq).Nodup) {k : Nat}
    (h1 : 1 ≤ k) (hk : 2 * k < n) {w : Tone} (hw : w ∈ tones) (hf : w.freq * (n * dt) = k) (ha : 0 < w.amp) :
    AngleAt t0 w (exactModes.angle (modeValue exactModes k (samples n t0 dt (signal mean tones)))) := by
  unfold samples
  rw [modeValue_range (by omega), line_signal hn t0 dt mean tones k (by omega), if_neg (by omega), zero_add, sum_single hd hw]
  · rw [toneLine_sum hn t0 dt w hf k, if_pos (by simp), if_neg]
    · rw [mul_zero, add_zero]
      set θ : ℝ := 2 * Real.pi * w.freq * t0 + w.phase with hθ
      have hpos : 0 < w.amp / 2 * n * (1 / √n) := by
        have : (0 : ℝ) < n := Nat.cast_pos.2 hn
        have := Real.sqrt_pos.2 this
        positivity
      have e : (w.amp / 2 * Complex.exp (θ * Complex.I) * n * ((1 / √n : ℝ) : ℂ) : ℂ) =
          ((w.amp / 2 * n * (1 / √n) : ℝ) : ℂ) * Complex.exp (θ * Complex.I) := by
        push_cast; ring
      rw [e]
      show AngleAt t0 w (Complex.arg _)
      rw [Complex.arg_real_mul _ hpos, Complex.arg_exp_mul_I]
      have hm := toIocMod_mem_Ioc Real.two_pi_pos (-Real.pi) θ
      refine ⟨hm.1, by have := hm.2; linarith, -toIocDiv Real.two_pi_pos (-Real.pi) θ, ?_⟩
      have := self_sub_toIocDiv_zsmul Real.two_pi_pos (-Real.pi) θ
      rw [← this, zsmul_eq_mul, hθ]
      push_cast
      ring
    · intro h
      have h' : (n : ℤ) ∣ 2 * (k : ℤ) := by
        have := (dvd_neg (α := ℤ)).2 h
        rwa [show -(-(k : ℤ) - k) = 2 * k by ring] at this
      have := Int.le_of_dvd (by omega) h'
      omega
  · intro w' hw' hne
    obtain ⟨m', h0', h2', hm'⟩ := hres w' hw'
    have e := toneLine_eq hn h0' h2' t0 dt w' hm' k (by omega)
    rw [if_neg] at e
    · exact norm_eq_zero.1 e
    · intro hc
      have hmm : k = m' := by omega
      rw [← hmm, ← hf] at hm'
      have hnd : (n : ℝ) * dt ≠ 0 := by
        intro hz
        rw [hz, mul_zero] at hf
        have : k = 0 := by exact_mod_cast hf.symm
        omega
      exact hne (mul_right_cancel₀ hnd hm')

end Cfd.PlaneValues
