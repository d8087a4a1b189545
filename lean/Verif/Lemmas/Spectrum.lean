import Verif.Spec.Spectrum
import Verif.Lemmas.Basic
import Mathlib.Algebra.BigOperators.Field
import Mathlib.Tactic.Ring
import Mathlib.Tactic.FieldSimp
import Mathlib.Tactic.Linarith
import Mathlib.Tactic.LinearCombination
import Mathlib.Tactic.Tauto
import Mathlib.Algebra.BigOperators.Intervals

namespace Cfd.Spectrum
open Cfd.Spec.Spectrum Finset

/-- `exp(2 pi i d / n)`. -/
noncomputable def unit (n : Nat) (d : ℤ) : ℂ := Complex.exp (2 * Real.pi * Complex.I * d / n)

theorem unit_add (n : Nat) (a b : ℤ) : unit n (a + b) = unit n a * unit n b := by
  unfold unit
  rw [← Complex.exp_add]
  congr 1
  push_cast
  ring

theorem unit_mul (n : Nat) (a : ℤ) (j : Nat) : unit n (a * j) = unit n a ^ j := by
  unfold unit
  rw [← Complex.exp_nat_mul]
  congr 1
  push_cast
  ring

theorem unit_eq_one {n : Nat} (hn : 0 < n) (d : ℤ) : unit n d = 1 ↔ (n : ℤ) ∣ d := by
  have hn' : (n : ℂ) ≠ 0 := Nat.cast_ne_zero.2 hn.ne'
  have hpi : (2 * Real.pi * Complex.I : ℂ) ≠ 0 := Complex.two_pi_I_ne_zero
  unfold unit
  rw [Complex.exp_eq_one_iff]
  constructor
  · rintro ⟨k, hk⟩
    refine ⟨k, ?_⟩
    have : (d : ℂ) = n * k := by
      field_simp at hk
      have h2 : (2 * Real.pi * Complex.I : ℂ) * d = (2 * Real.pi * Complex.I) * (n * k) := by
        linear_combination (2 * Real.pi * Complex.I : ℂ) * hk
      exact mul_left_cancel₀ hpi h2
    exact_mod_cast this
  · rintro ⟨k, rfl⟩
    refine ⟨k, ?_⟩
    push_cast
    field_simp

theorem unit_pow {n : Nat} (hn : 0 < n) (d : ℤ) : unit n d ^ n = 1 := by
  rw [← unit_mul, unit_eq_one hn]
  exact Dvd.intro_left d rfl

theorem sum_unit {n : Nat} (hn : 0 < n) (d : ℤ) : ∑ j ∈ range n, unit n (d * j) = if (n : ℤ) ∣ d then (n : ℂ) else 0 := by
  have h : ∑ j ∈ range n, unit n (d * j) = ∑ j ∈ range n, unit n d ^ j := sum_congr rfl fun j _ => unit_mul n d j
  rw [h]
  split
  · rename_i hd
    rw [(unit_eq_one hn d).2 hd]
    simp
  · rename_i hd
    have h1 : unit n d ≠ 1 := fun e => hd ((unit_eq_one hn d).1 e)
    rw [geom_sum_eq h1, unit_pow hn, sub_self, zero_div]

theorem norm_unit (n : Nat) (d : ℤ) : ‖unit n d‖ = 1 := by
  unfold unit
  have : (2 * Real.pi * Complex.I * d / n : ℂ) = ((2 * Real.pi * d / n : ℝ) : ℂ) * Complex.I := by
    push_cast; ring
  rw [this, Complex.norm_exp_ofReal_mul_I]

/-- The transform, line `k`. -/
noncomputable def line (n : Nat) (x : Nat → ℝ) (k : Nat) : ℂ := ∑ j ∈ range n, (x j : ℂ) * unit n (-(k : ℤ) * j)

theorem root_pow (n j k : Nat) : exact.root n ^ (j * k) = unit n (-(k : ℤ) * j) := by
  unfold unit
  show Complex.exp _ ^ (j * k) = _
  rw [← Complex.exp_nat_mul]
  congr 1
  push_cast
  ring

theorem zipIdx_sum {α M : Type} [AddCommMonoid M] (f : Nat → α) (g : α → Nat → M) (n : Nat) :
    ((((List.range n).map f).zipIdx).map fun p => g p.1 p.2).sum = ∑ j ∈ range n, g (f j) j := by
  have h : (((List.range n).map f).zipIdx).map (fun p => g p.1 p.2) = (List.range n).map fun j => g (f j) j := by
    apply List.ext_getElem
    · simp
    · intro i h1 h2
      simp
  rw [h]
  rfl

theorem fft_eq {n : Nat} (hn : 0 < n) (x : Nat → ℝ) : fft exact ((List.range n).map x) = .ok ((List.range n).map (line n x)) := by
  unfold fft
  rw [if_neg (by simp; omega)]
  simp only [List.length_map, List.length_range, Except.ok.injEq]
  apply List.map_congr_left
  intro k _
  rw [zipIdx_sum x (fun a j => exact.embed a * exact.root n ^ (j * k))]
  exact sum_congr rfl fun j _ => by rw [root_pow]; rfl

theorem list_eq (x : List ℝ) : x = (List.range x.length).map fun j => x.getD j 0 := by
  apply List.ext_getElem
  · simp
  · intro i h1 h2
    simp [h1]

theorem fft_list {x : List ℝ} (hx : x ≠ []) :
    fft exact x = .ok ((List.range x.length).map (line x.length fun j => x.getD j 0)) := by
  have := fft_eq (List.length_pos_iff.2 hx) (fun j => x.getD j 0)
  rwa [← list_eq] at this

/-! ## Any series -/

theorem conj_unit (n : Nat) (d : ℤ) : (starRingEnd ℂ) (unit n d) = unit n (-d) := by
  unfold unit
  rw [← Complex.exp_conj]
  congr 1
  simp only [map_div₀, map_mul, Complex.conj_ofReal, Complex.conj_I, map_ofNat, map_natCast, map_intCast]
  push_cast
  ring

theorem unit_period {n : Nat} (hn : 0 < n) (d c : ℤ) : unit n (d + n * c) = unit n d := by
  rw [unit_add, (unit_eq_one hn _).2 ⟨c, rfl⟩, mul_one]

theorem line_symm {n : Nat} (hn : 0 < n) (x : Nat → ℝ) (k : Nat) (hk : k ≤ n) : ‖line n x (n - k)‖ = ‖line n x k‖ := by
  have : line n x (n - k) = (starRingEnd ℂ) (line n x k) := by
    unfold line
    rw [map_sum]
    apply sum_congr rfl
    intro j _
    rw [map_mul, Complex.conj_ofReal, conj_unit]
    congr 1
    rw [← unit_period hn (-(-(k : ℤ) * j)) (-(j : ℤ))]
    congr 1
    push_cast [hk]
    ring
  rw [this, RCLike.norm_conj]

theorem line_zero (n : Nat) (x : Nat → ℝ) : line n x 0 = ((∑ j ∈ range n, x j : ℝ) : ℂ) := by
  unfold line
  push_cast
  apply sum_congr rfl
  intro j _
  simp [unit]

theorem line_energy {n : Nat} (hn : 0 < n) (x : Nat → ℝ) : ∑ k ∈ range n, ‖line n x k‖ ^ 2 = n * ∑ j ∈ range n, x j ^ 2 := by
  have key : ∀ k ∈ range n, ((‖line n x k‖ ^ 2 : ℝ) : ℂ) =
      ∑ j ∈ range n, ∑ l ∈ range n, (x j : ℂ) * x l * unit n (((l : ℤ) - j) * k) := by
    intro k _
    push_cast
    rw [← Complex.mul_conj']
    unfold line
    rw [map_sum, sum_mul_sum]
    apply sum_congr rfl
    intro j _
    apply sum_congr rfl
    intro l _
    rw [map_mul, Complex.conj_ofReal, conj_unit, show ((l : ℤ) - j) * (k : ℤ) = -(k : ℤ) * j + -(-(k : ℤ) * l) by ring, unit_add]
    ring
  have : ((∑ k ∈ range n, ‖line n x k‖ ^ 2 : ℝ) : ℂ) = ((n * ∑ j ∈ range n, x j ^ 2 : ℝ) : ℂ) := by
    rw [Complex.ofReal_sum, sum_congr rfl key, sum_comm]
    have e : ∀ j ∈ range n, ∑ k ∈ range n, ∑ l ∈ range n, (x j : ℂ) * x l * unit n (((l : ℤ) - j) * k) = n * (x j : ℂ) ^ 2 := by
      intro j hj
      rw [sum_comm, sum_eq_single j]
      · simp [unit, sq, mul_comm]
      · intro l hl hne
        rw [← mul_sum, sum_unit hn, if_neg, mul_zero]
        intro hd
        rw [mem_range] at hj hl
        have := Int.eq_zero_of_abs_lt_dvd hd (by rw [abs_lt]; constructor <;> omega)
        omega
      · intro h; exact absurd hj h
    rw [sum_congr rfl e, ← mul_sum]
    push_cast
    rfl
  exact_mod_cast this

theorem line_rotate {n : Nat} (hn : 0 < n) (x : Nat → ℝ) (r k : Nat) :
    ‖line n (fun j => x ((j + r) % n)) k‖ = ‖line n x k‖ := by
  have : line n (fun j => x ((j + r) % n)) k = unit n ((k : ℤ) * r) * line n x k := by
    unfold line
    rw [mul_sum]
    refine sum_bij (fun j _ => (j + r) % n) ?_ ?_ ?_ ?_
    · intro j _
      exact mem_range.2 (Nat.mod_lt _ hn)
    · intro a ha b hb h
      rw [mem_range] at ha hb
      have h' : a ≡ b [MOD n] := Nat.ModEq.add_right_cancel' r h
      rwa [Nat.ModEq, Nat.mod_eq_of_lt ha, Nat.mod_eq_of_lt hb] at h'
    · intro b hb
      rw [mem_range] at hb
      refine ⟨(b + (n - r % n)) % n, mem_range.2 (Nat.mod_lt _ hn), ?_⟩
      have hr := Nat.mod_lt r hn
      have hd := Nat.mod_add_div r n
      rw [Nat.mod_add_mod, show b + (n - r % n) + r = b + n * (1 + r / n) by rw [mul_add, mul_one]; omega,
        Nat.add_mul_mod_self_left, Nat.mod_eq_of_lt hb]
    · intro j _
      rw [mul_left_comm, ← unit_add]
      congr 1
      have : (((j + r) % n : Nat) : ℤ) = (j : ℤ) + r + n * (-((j + r) / n : Nat) : ℤ) := by
        have := Nat.mod_add_div (j + r) n
        have h2 : ((((j + r) % n + n * ((j + r) / n) : Nat)) : ℤ) = ((j + r : Nat) : ℤ) := by rw [this]
        push_cast at h2 ⊢
        linarith
      rw [this, show (k : ℤ) * r + -(k : ℤ) * ((j : ℤ) + r + n * (-((j + r) / n : Nat) : ℤ)) =
        -(k : ℤ) * j + n * ((k : ℤ) * ((j + r) / n : Nat)) by ring, unit_period hn]
  rw [this, norm_mul, norm_unit, one_mul]

/-! ## Oscillations -/

/-- The transform of one oscillation. -/
noncomputable def toneLine (n : Nat) (t0 dt : ℝ) (w : Tone) (k : Nat) : ℂ :=
  line n (fun j => w.amp * Real.cos (2 * Real.pi * w.freq * (t0 + j * dt) + w.phase)) k

theorem line_signal {n : Nat} (hn : 0 < n) (t0 dt mean : ℝ) (tones : List Tone) (k : Nat) (hk : k < n) :
    line n (fun j => signal mean tones (t0 + j * dt)) k =
      (if k = 0 then (n * mean : ℂ) else 0) + (tones.map fun w => toneLine n t0 dt w k).sum := by
  have h1 : line n (fun j => signal mean tones (t0 + j * dt)) k =
      mean * ∑ j ∈ range n, unit n (-(k : ℤ) * j) + (tones.map fun w => toneLine n t0 dt w k).sum := by
    induction tones with
    | nil =>
      simp only [line, signal, List.map_nil, List.sum_nil, add_zero]
      rw [mul_sum]
    | cons w l ih =>
      have e : line n (fun j => signal mean (w :: l) (t0 + j * dt)) k =
          toneLine n t0 dt w k + line n (fun j => signal mean l (t0 + j * dt)) k := by
        unfold toneLine line
        rw [← sum_add_distrib]
        apply sum_congr rfl
        intro j _
        simp only [signal, List.map_cons, List.sum_cons]
        push_cast
        ring
      rw [e, ih, List.map_cons, List.sum_cons]
      ring
  rw [h1, sum_unit hn]
  congr 1
  by_cases h0 : k = 0
  · subst h0
    simp [mul_comm]
  · rw [if_neg, if_neg h0, mul_zero]
    rintro ⟨c, hc⟩
    have : (n : ℤ) ∣ (k : ℤ) := ⟨-c, by rw [mul_neg, ← hc, neg_neg]⟩
    have := Nat.le_of_dvd (Nat.pos_of_ne_zero h0) (Int.natCast_dvd_natCast.1 this)
    omega

theorem cos_eq (n m : Nat) (hn : 0 < n) (t0 dt : ℝ) (w : Tone) (hm : w.freq * (n * dt) = m) (j : Nat) :
    ((w.amp * Real.cos (2 * Real.pi * w.freq * (t0 + j * dt) + w.phase) : ℝ) : ℂ) =
      w.amp / 2 * Complex.exp ((2 * Real.pi * w.freq * t0 + w.phase : ℝ) * Complex.I) * unit n ((m : ℤ) * j) +
      w.amp / 2 * Complex.exp (-(2 * Real.pi * w.freq * t0 + w.phase : ℝ) * Complex.I) * unit n (-(m : ℤ) * j) := by
  have hn' : (n : ℝ) ≠ 0 := Nat.cast_ne_zero.2 hn.ne'
  have hang : 2 * Real.pi * w.freq * (t0 + j * dt) + w.phase =
      (2 * Real.pi * w.freq * t0 + w.phase) + 2 * Real.pi * (m * j / n) := by
    have : w.freq * dt = m / n := by
      rw [eq_div_iff hn', ← hm]; ring
    linear_combination (2 * Real.pi * j) * this
  rw [hang]
  set θ : ℝ := 2 * Real.pi * w.freq * t0 + w.phase
  push_cast
  rw [Complex.cos, mul_assoc (w.amp / 2 : ℂ), mul_assoc (w.amp / 2 : ℂ)]
  unfold unit
  rw [← Complex.exp_add, ← Complex.exp_add]
  have e1 : ((θ : ℂ) + 2 * Real.pi * (m * j / n)) * Complex.I =
      θ * Complex.I + 2 * Real.pi * Complex.I * (((m : ℤ) * (j : ℤ) : ℤ) : ℂ) / n := by push_cast; ring
  have e2 : -((θ : ℂ) + 2 * Real.pi * (m * j / n)) * Complex.I =
      -θ * Complex.I + 2 * Real.pi * Complex.I * ((-(m : ℤ) * (j : ℤ) : ℤ) : ℂ) / n := by push_cast; ring
  rw [e1, e2]
  ring

theorem toneLine_sum {n m : Nat} (hn : 0 < n) (t0 dt : ℝ) (w : Tone) (hm : w.freq * (n * dt) = m) (k : Nat) :
    toneLine n t0 dt w k =
      w.amp / 2 * Complex.exp ((2 * Real.pi * w.freq * t0 + w.phase : ℝ) * Complex.I) * (if (n : ℤ) ∣ (m : ℤ) - k then (n : ℂ) else 0) +
      w.amp / 2 * Complex.exp (-(2 * Real.pi * w.freq * t0 + w.phase : ℝ) * Complex.I) * (if (n : ℤ) ∣ -(m : ℤ) - k then (n : ℂ) else 0) := by
  rw [← sum_unit hn, ← sum_unit hn, mul_sum, mul_sum, ← sum_add_distrib]
  unfold toneLine line
  apply sum_congr rfl
  intro j _
  rw [cos_eq n m hn t0 dt w hm j, add_mul, mul_assoc, mul_assoc _ (unit n (-(m : ℤ) * j)), ← unit_add, ← unit_add]
  congr 3 <;> ring

theorem toneLine_eq {n m : Nat} (hn : 0 < n) (h0 : 0 < m) (h2 : 2 * m < n) (t0 dt : ℝ) (w : Tone) (hm : w.freq * (n * dt) = m)
    (k : Nat) (hk : k < n) :
    ‖toneLine n t0 dt w k‖ = if k = m ∨ k + m = n then n * |w.amp| / 2 else 0 := by
  set E : ℂ := w.amp / 2 * Complex.exp ((2 * Real.pi * w.freq * t0 + w.phase : ℝ) * Complex.I) with hE
  set F : ℂ := w.amp / 2 * Complex.exp (-(2 * Real.pi * w.freq * t0 + w.phase : ℝ) * Complex.I) with hF
  have key : toneLine n t0 dt w k =
      E * (if (n : ℤ) ∣ (m : ℤ) - k then (n : ℂ) else 0) + F * (if (n : ℤ) ∣ -(m : ℤ) - k then (n : ℂ) else 0) :=
    toneLine_sum hn t0 dt w hm k
  have hEn : ‖E‖ = |w.amp| / 2 := by
    rw [hE, norm_mul, Complex.norm_exp_ofReal_mul_I, mul_one, norm_div, Complex.norm_real, Real.norm_eq_abs]
    simp
  have hFn : ‖F‖ = |w.amp| / 2 := by
    rw [hF, norm_mul, ← Complex.ofReal_neg, Complex.norm_exp_ofReal_mul_I, mul_one, norm_div, Complex.norm_real, Real.norm_eq_abs]
    simp
  have d1 : (n : ℤ) ∣ (m : ℤ) - k ↔ k = m := by
    constructor
    · intro h
      have := Int.eq_zero_of_abs_lt_dvd h (by rw [abs_lt]; constructor <;> omega)
      omega
    · rintro rfl
      simp
  have d2 : (n : ℤ) ∣ -(m : ℤ) - k ↔ k + m = n := by
    constructor
    · intro h
      have h' : (n : ℤ) ∣ (n : ℤ) - m - k := by
        have := dvd_add (dvd_refl (n : ℤ)) h
        rwa [show (n : ℤ) + (-(m : ℤ) - k) = n - m - k by ring] at this
      have := Int.eq_zero_of_abs_lt_dvd h' (by rw [abs_lt]; constructor <;> omega)
      omega
    · intro h
      refine ⟨-1, ?_⟩
      omega
  rw [key]
  simp only [d1, d2]
  by_cases c1 : k = m
  · rw [if_pos c1, if_neg (by omega), if_pos (.inl c1), mul_zero, add_zero, norm_mul, hEn, Complex.norm_natCast]
    ring
  · by_cases c2 : k + m = n
    · rw [if_neg c1, if_pos c2, if_pos (.inr c2), mul_zero, zero_add, norm_mul, hFn, Complex.norm_natCast]
      ring
    · rw [if_neg c1, if_neg c2, if_neg (by tauto)]
      simp

theorem sum_single {M : Type} [AddCommMonoid M] {l : List Tone} (hd : (l.map Tone.freq).Nodup) {w : Tone} (hw : w ∈ l) (g : Tone → M)
    (h : ∀ w' ∈ l, w'.freq ≠ w.freq → g w' = 0) : (l.map g).sum = g w := by
  induction l with
  | nil => cases hw
  | cons a l ih =>
    rw [List.map_cons, List.nodup_cons] at hd
    rw [List.map_cons, List.sum_cons]
    rcases List.mem_cons.1 hw with rfl | hw
    · have : (l.map g).sum = 0 := by
        apply List.sum_eq_zero
        intro x hx
        obtain ⟨w', hw', rfl⟩ := List.mem_map.1 hx
        exact h w' (.tail _ hw') fun e => hd.1 (e ▸ List.mem_map_of_mem hw')
      rw [this, add_zero]
    · rw [ih hd.2 hw fun w' hw' => h w' (.tail _ hw'),
        h a (.head _) fun e => hd.1 (e ▸ List.mem_map_of_mem hw), zero_add]

theorem sum_none {M : Type} [AddCommMonoid M] {l : List Tone} (g : Tone → M) (h : ∀ w ∈ l, g w = 0) : (l.map g).sum = 0 := by
  apply List.sum_eq_zero
  intro x hx
  obtain ⟨w, hw, rfl⟩ := List.mem_map.1 hx
  exact h w hw

/-! ## Frequencies -/

theorem fftfreq_length (n : Nat) (d : ℝ) : (fftfreq n d).length = n := by
  unfold fftfreq
  simp
  omega

theorem fftfreq_get {n k : Nat} (hk : k < n) (d : ℝ) :
    (fftfreq n d)[k]? = some ((if 2 * k < n then (k : ℝ) else k - n) / (n * d)) := by
  unfold fftfreq
  rw [List.getElem?_map, List.getElem?_append]
  simp only [List.length_map, List.length_range]
  by_cases h : 2 * k < n
  · rw [if_pos (by omega), if_pos h, List.getElem?_map, List.getElem?_range (by omega)]
    simp [div_eq_mul_inv]
  · rw [if_neg (by omega), if_neg h, List.getElem?_map, List.getElem?_range (by omega)]
    have : ((k - (n + 1) / 2 : Nat) : ℝ) - ((n / 2 : Nat) : ℝ) = k - n := by
      rw [Nat.cast_sub (by omega)]
      have : (n : ℝ) = ((n + 1) / 2 : Nat) + (n / 2 : Nat) := by
        rw [← Nat.cast_add]
        congr 1
        omega
      linarith
    simp only [Option.map_some, this]
    simp [div_eq_mul_inv]

/-! ## The data set -/

theorem fold_spectrum {K C : Type} [CommRing C] (N : Numbers K C) (data : Dict String (List K)) (names : List String)
    (init res : Dict String (List K)) (h : names.foldlM (addSpectrum N data) init = .ok res) :
    (∀ name ∈ names, ∃ x a, data.get? name = some x ∧ fft N x = .ok a ∧ res.get? name = some (a.map N.abs)) ∧
    ∀ name, name ∉ names → res.get? name = init.get? name := by
  induction names generalizing init with
  | nil =>
    simp only [List.foldlM_nil, Except_pure, Except.ok.injEq] at h
    subst h
    simp
  | cons n l ih =>
    rw [List.foldlM_cons] at h
    obtain ⟨r, h1, h2⟩ := bind_eq_ok.1 h
    unfold addSpectrum at h1
    obtain ⟨x, hx, h1⟩ := bind_eq_ok.1 h1
    obtain ⟨a, ha, h1⟩ := bind_eq_ok.1 h1
    simp only [Except_pure, Except.ok.injEq] at h1
    subst h1
    obtain ⟨i1, i2⟩ := ih _ h2
    constructor
    · intro name hn
      by_cases hl : name ∈ l
      · exact i1 name hl
      · rcases List.mem_cons.1 hn with rfl | hn
        · exact ⟨x, a, Dict.getE_eq_ok.1 hx, ha, by rw [i2 _ hl, Dict.get?_set_self]⟩
        · exact absurd hn hl
    · intro name hn
      rw [List.mem_cons, not_or] at hn
      rw [i2 _ hn.2, Dict.get?_set_ne _ _ hn.1]

end Cfd.Spectrum
