import Verif.Spec.Gas
import Verif.Props.Probes
import Mathlib.Analysis.Calculus.MeanValue
import Mathlib.Analysis.SpecialFunctions.Pow.Deriv
import Mathlib.Tactic.Linarith
import Mathlib.Tactic.FieldSimp

/-! # C95: probe quantities are those of a perfect gas -/

namespace Cfd.Gas
open Cfd.Probes Cfd.Spec.Probes Cfd.Spec.Gas

section
variable {file : String → Option (Raw ℝ)} {steady : List (List ℝ) → Bool}

/-- The value of a variable with a file. -/
theorem value_file {var : String} {v : Val ℝ} (hf : file var ≠ none) (h : HasValue (exactPhy steady) [] file var v) (i j : Nat) :
    entry v i j = inFile file var i j := by
  cases h with
  | loaded _ _ h => cases h
  | file _ r _ _ h1 h2 =>
    unfold inFile
    rw [h1, Option.bind_some, h2, Option.bind_some]
  | computed _ _ _ _ _ h => exact absurd h hf

/-- The value of a computed variable. -/
theorem value_computed {var : String} {v : Val ℝ} (hf : file var = none) (h : HasValue (exactPhy steady) [] file var v) :
    ∃ val : String → Val ℝ, (∀ d ∈ needs var, HasValue (exactPhy steady) [] file d (val d)) ∧
      ∀ (i j : Nat) (x : String → ℝ), (∀ d ∈ needs var, entry (val d) i j = some (x d)) →
        entry v i j = some (formula (exactPhy steady) var x) := by
  cases h with
  | loaded _ _ h => cases h
  | file _ r _ _ h1 _ => rw [hf] at h1; cases h1
  | computed _ _ _ val _ _ _ h1 _ _ h2 => exact ⟨val, h1, h2⟩

theorem sound_law {p r : ℝ} (hp : 0 < p) (hr : 0 < r) : 0 < √(7 / 5 * p / r) ∧ r * √(7 / 5 * p / r) ^ 2 = 7 / 5 * p := by
  refine ⟨Real.sqrt_pos.2 (by positivity), ?_⟩
  rw [Real.sq_sqrt (by positivity)]
  field_simp

variable (x : String → ℝ) {i j : Nat}

theorem sound_value (hs : file "Asound" = none) (hP : inFile file "P" i j = some (x "P")) (hR : inFile file "RHO" i j = some (x "RHO"))
    {v : Val ℝ} (h : HasValue (exactPhy steady) [] file "Asound" v) :
    entry v i j = some (√(7 / 5 * x "P" / x "RHO")) := by
  obtain ⟨val, h1, h2⟩ := value_computed hs h
  have hne : ∀ {k y}, inFile file k i j = some y → file k ≠ none := by
    intro k y hy e
    unfold inFile at hy
    rw [e] at hy
    cases hy
  rw [h2 i j x (by
    intro d hd
    have hd' : d = "P" ∨ d = "RHO" := by simpa [needs] using hd
    rcases hd' with rfl | rfl
    · rw [value_file (hne hP) (h1 _ (by decide +kernel)), hP]
    · rw [value_file (hne hR) (h1 _ (by decide +kernel)), hR])]
  simp [formula, exactPhy]

theorem speed_value (hs : file "U" = none) (hu : ∀ k ∈ ["U-X", "U-Y", "U-Z"], inFile file k i j = some (x k))
    {v : Val ℝ} (h : HasValue (exactPhy steady) [] file "U" v) :
    entry v i j = some (√(x "U-X" ^ 2 + x "U-Y" ^ 2 + x "U-Z" ^ 2)) := by
  obtain ⟨val, h1, h2⟩ := value_computed hs h
  have hne : ∀ {k y}, inFile file k i j = some y → file k ≠ none := by
    intro k y hy e
    unfold inFile at hy
    rw [e] at hy
    cases hy
  rw [h2 i j x (by
    intro d hd
    have hd' : d ∈ ["U-X", "U-Y", "U-Z"] := by simpa [needs] using hd
    rw [value_file (hne (hu d hd')) (h1 _ hd), hu d hd'])]
  simp [formula, exactPhy]

end

/-- **C95.** With files for the variables of the solver, of the same shape, with positive pressures and densities, and no file of the
quantity (or of those it is computed from): `check_data` of the quantity succeeds, and at each time and point its value is the one of the
perfect gas with the pressure, density and velocity that the files have there. -/
theorem C95_quantities (steady : List (List ℝ) → Bool) (fs : String → Option (Raw ℝ)) (pre var : String) (sh : Shape)
    (hvar : var ∈ quantities) (hc : Consistent (exactPhy steady) [] (fun k => fs (pre ++ "." ++ k)) sh)
    (hfile : ∀ k ∈ solved var, fs (pre ++ "." ++ k) ≠ none) (hnone : ∀ k ∈ quantities, fs (pre ++ "." ++ k) = none)
    (hpos : ∀ k, k = "P" ∨ k = "RHO" → ∀ i j y, inFile (fun k => fs (pre ++ "." ++ k)) k i j = some y → 0 < y) :
    ∃ d' v, checkData (exactPhy steady) fs pre var [] = (.ok true, d') ∧ d'.get? var = some v ∧
      ∀ (i j : Nat) (x : String → ℝ), (∀ k ∈ solved var, inFile (fun k => fs (pre ++ "." ++ k)) k i j = some (x k)) →
        ∃ y, entry v i j = some y ∧ Law x var y := by
  have hav : ∀ k, fs (pre ++ "." ++ k) ≠ none → Available [] (fun k => fs (pre ++ "." ++ k)) k := by
    intro k hk
    obtain ⟨r, hr⟩ := Option.ne_none_iff_exists'.1 hk
    exact .file k r hr
  have hneeds : ∀ k ∈ quantities, needs k ≠ [] := by decide +kernel
  have hA : (∀ k ∈ ["P", "RHO"], fs (pre ++ "." ++ k) ≠ none) → Available [] (fun k => fs (pre ++ "." ++ k)) "Asound" := by
    intro h
    refine .computed _ (by decide +kernel) ?_
    intro d hd
    exact hav d (h d (by simpa [needs] using hd))
  have hU : (∀ k ∈ ["U-X", "U-Y", "U-Z"], fs (pre ++ "." ++ k) ≠ none) → Available [] (fun k => fs (pre ++ "." ++ k)) "U" := by
    intro h
    refine .computed _ (by decide +kernel) ?_
    intro d hd
    exact hav d (h d (by simpa [needs] using hd))
  have hne : ∀ {k i j y}, inFile (fun k => fs (pre ++ "." ++ k)) k i j = some y → fs (pre ++ "." ++ k) ≠ none := by
    intro k i j y hy e
    unfold inFile at hy
    simp only [e] at hy
    cases hy
  have hvar' : var = "Asound" ∨ var = "S" ∨ var = "U" ∨ var = "Mach" ∨ var = "INVX+" ∨ var = "INVX-" := by
    simpa [quantities] using hvar
  have havail : Available [] (fun k => fs (pre ++ "." ++ k)) var := by
    rcases hvar' with rfl | rfl | rfl | rfl | rfl | rfl
    · exact hA hfile
    · refine .computed _ (by decide +kernel) ?_
      intro d hd
      exact hav d (hfile d (by simpa [needs, solved] using hd))
    · exact hU hfile
    · refine .computed _ (by decide +kernel) ?_
      intro d hd
      have hd' : d = "U" ∨ d = "Asound" := by simpa [needs] using hd
      rcases hd' with rfl | rfl
      · refine hU ?_
        intro k hk
        exact hfile k (by simp at hk; rcases hk with rfl | rfl | rfl <;> decide +kernel)
      · refine hA ?_
        intro k hk
        exact hfile k (by simp at hk; rcases hk with rfl | rfl <;> decide +kernel)
    all_goals
      refine .computed _ (by decide +kernel) ?_
      intro d hd
      have hd' : d = "U-X" ∨ d = "Asound" := by simpa [needs] using hd
      rcases hd' with rfl | rfl
      · exact hav _ (hfile _ (by decide +kernel))
      · refine hA ?_
        intro k hk
        exact hfile k (by simp at hk; rcases hk with rfl | rfl <;> decide +kernel)
  obtain ⟨d', v, h1, -, h3, h4⟩ := C48_success (exactPhy steady) fs pre var [] sh hc havail
  refine ⟨d', v, h1, h3, ?_⟩
  intro i j x hx
  have hnA : (fun k => fs (pre ++ "." ++ k)) "Asound" = none := hnone "Asound" (by decide +kernel)
  have hnU : (fun k => fs (pre ++ "." ++ k)) "U" = none := hnone "U" (by decide +kernel)
  have hnv : (fun k => fs (pre ++ "." ++ k)) var = none := hnone var hvar
  rcases hvar' with rfl | rfl | rfl | rfl | rfl | rfl
  · have hp := hx "P" (by decide +kernel)
    have hr := hx "RHO" (by decide +kernel)
    refine ⟨_, sound_value x hnA hp hr h4, ?_⟩
    have := sound_law (hpos _ (.inl rfl) _ _ _ hp) (hpos _ (.inr rfl) _ _ _ hr)
    simp only [Law]
    simp [this]
  · have hp := hx "P" (by decide +kernel)
    have hr := hx "RHO" (by decide +kernel)
    have hp0 := hpos _ (.inl rfl) _ _ _ hp
    have hr0 := hpos _ (.inr rfl) _ _ _ hr
    obtain ⟨val, k1, k2⟩ := value_computed (file := fun k => fs (pre ++ "." ++ k)) hnv h4
    refine ⟨_, k2 i j x ?_, ?_⟩
    · intro d hd
      rw [value_file (file := fun k => fs (pre ++ "." ++ k)) (hne (hx d (by simpa [needs, solved] using hd))) (k1 _ hd), hx d (by simpa [needs, solved] using hd)]
    · have hl : x "P" = x "RHO" ^ (7 / 5 : ℝ) * Real.exp (2 / 5 * (1 / (2 / 5) * Real.log (x "P" / x "RHO" ^ (7 / 5 : ℝ)))) := by
        rw [← mul_assoc, show (2 / 5 : ℝ) * (1 / (2 / 5)) = 1 by norm_num, one_mul, Real.exp_log (by positivity),
          mul_div_cancel₀ _ (by positivity)]
      simp only [Law, formula, exactPhy]
      simpa using hl
  · refine ⟨_, speed_value x hnU hx h4, ?_⟩
    simp only [Law]
    simp [Real.sq_sqrt (show (0 : ℝ) ≤ x "U-X" ^ 2 + x "U-Y" ^ 2 + x "U-Z" ^ 2 by positivity)]
  · have hp := hx "P" (by decide +kernel)
    have hr := hx "RHO" (by decide +kernel)
    have hp0 := hpos _ (.inl rfl) _ _ _ hp
    have hr0 := hpos _ (.inr rfl) _ _ _ hr
    obtain ⟨val, k1, k2⟩ := value_computed (file := fun k => fs (pre ++ "." ++ k)) hnv h4
    have ku := speed_value x hnU (fun k hk => hx k (by simp at hk; rcases hk with rfl | rfl | rfl <;> decide +kernel)) (k1 "U" (by decide +kernel))
    have ka := sound_value x hnA hp hr (k1 "Asound" (by decide +kernel))
    refine ⟨_, k2 i j (fun k => if k = "U" then √(x "U-X" ^ 2 + x "U-Y" ^ 2 + x "U-Z" ^ 2) else √(7 / 5 * x "P" / x "RHO")) ?_, ?_⟩
    · intro d hd
      have hd' : d = "U" ∨ d = "Asound" := by simpa [needs] using hd
      rcases hd' with rfl | rfl
      · rw [ku]; rfl
      · rw [ka]; rfl
    · have hs := sound_law hp0 hr0
      have hm : 0 ≤ √(x "U-X" ^ 2 + x "U-Y" ^ 2 + x "U-Z" ^ 2) / √(7 / 5 * x "P" / x "RHO") ∧
          (√(x "U-X" ^ 2 + x "U-Y" ^ 2 + x "U-Z" ^ 2) / √(7 / 5 * x "P" / x "RHO")) ^ 2 * (7 / 5 * x "P") =
            x "RHO" * (x "U-X" ^ 2 + x "U-Y" ^ 2 + x "U-Z" ^ 2) := by
        refine ⟨by positivity, ?_⟩
        rw [div_pow, Real.sq_sqrt (by positivity), Real.sq_sqrt (by positivity)]
        field_simp
      simp only [Law, formula, exactPhy]
      simpa using hm
  all_goals
    have hp := hx "P" (by decide +kernel)
    have hr := hx "RHO" (by decide +kernel)
    have hu := hx "U-X" (by decide +kernel)
    have hp0 := hpos _ (.inl rfl) _ _ _ hp
    have hr0 := hpos _ (.inr rfl) _ _ _ hr
    obtain ⟨val, k1, k2⟩ := value_computed (file := fun k => fs (pre ++ "." ++ k)) hnv h4
    have ka := sound_value x hnA hp hr (k1 "Asound" (by decide +kernel))
    refine ⟨_, k2 i j (fun k => if k = "U-X" then x "U-X" else √(7 / 5 * x "P" / x "RHO")) ?_, ?_⟩
    · intro d hd
      have hd' : d = "U-X" ∨ d = "Asound" := by simpa [needs] using hd
      rcases hd' with rfl | rfl
      · rw [value_file (file := fun k => fs (pre ++ "." ++ k)) (hne hu) (k1 _ hd), hu]; rfl
      · rw [ka]; rfl
    · have hs := sound_law hp0 hr0
      refine ⟨?_, ?_, ?_, ?_, ?_, ?_⟩ <;> intro h
      all_goals first
        | exact absurd h (by decide)
        | (refine ⟨_, hs.1, hs.2, ?_⟩
           simp [formula, exactPhy])

/-- **C95, relations.** The quantities of one point fit together: the Mach number times the speed of sound is the speed, the sum of the
invariants is ten speeds of sound, their difference twice the velocity along `x`. Two points have the same entropy exactly when their
pressures are as their densities to the power 7/5, and then their speeds of sound are as their densities to the power 1/5. -/
theorem C95_relations (x x' : String → ℝ) (hp : 0 < x "P") (hr : 0 < x "RHO") (hp' : 0 < x' "P") (hr' : 0 < x' "RHO")
    (y y' : String → ℝ) (hy : ∀ var ∈ quantities, Law x var (y var)) (hy' : ∀ var ∈ quantities, Law x' var (y' var)) :
    y "Mach" * y "Asound" = y "U" ∧ y "INVX+" + y "INVX-" = 10 * y "Asound" ∧ y "INVX+" - y "INVX-" = 2 * x "U-X" ∧
    (y "S" = y' "S" ↔ x "P" / x' "P" = (x "RHO" / x' "RHO") ^ (7 / 5 : ℝ)) ∧
    (y "S" = y' "S" → y "Asound" / y' "Asound" = (x "RHO" / x' "RHO") ^ (1 / 5 : ℝ)) := by
  have get : ∀ {var}, var ∈ quantities → Law x var (y var) := fun h => hy _ h
  have ha := (get (var := "Asound") (by decide +kernel)).1 rfl
  have hs := (get (var := "S") (by decide +kernel)).2.1 rfl
  have hu := (get (var := "U") (by decide +kernel)).2.2.1 rfl
  have hm := (get (var := "Mach") (by decide +kernel)).2.2.2.1 rfl
  obtain ⟨a1, b1, c1, e1⟩ := (get (var := "INVX+") (by decide +kernel)).2.2.2.2.1 rfl
  obtain ⟨a2, b2, c2, e2⟩ := (get (var := "INVX-") (by decide +kernel)).2.2.2.2.2 rfl
  have ha' := (hy' "Asound" (by decide +kernel)).1 rfl
  have hs' := (hy' "S" (by decide +kernel)).2.1 rfl
  have hsq : ∀ b, 0 < b → x "RHO" * b ^ 2 = 7 / 5 * x "P" → b = y "Asound" := by
    intro b hb e
    have h2 : b ^ 2 = y "Asound" ^ 2 := mul_left_cancel₀ hr.ne' (e.trans ha.2.symm)
    exact (pow_left_inj₀ hb.le ha.1.le (by norm_num)).1 h2
  have hS : y "S" = y' "S" ↔ x "P" / x' "P" = (x "RHO" / x' "RHO") ^ (7 / 5 : ℝ) := by
    have h1 : x "P" / x' "P" = (x "RHO" / x' "RHO") ^ (7 / 5 : ℝ) * Real.exp (2 / 5 * (y "S" - y' "S")) := by
      rw [hs, hs', Real.div_rpow hr.le hr'.le, mul_sub, Real.exp_sub]
      have := (Real.exp_pos (2 / 5 * y' "S")).ne'
      have := (Real.rpow_pos_of_pos hr' (7 / 5)).ne'
      field_simp
    constructor
    · intro e
      rw [h1, e, sub_self, mul_zero, Real.exp_zero, mul_one]
    · intro e
      rw [e] at h1
      have hq := Real.rpow_pos_of_pos (div_pos hr hr') (7 / 5)
      have : Real.exp (2 / 5 * (y "S" - y' "S")) = 1 := by
        have := mul_left_cancel₀ hq.ne' (h1.symm.trans (mul_one _).symm)
        exact this
      rw [Real.exp_eq_one_iff] at this
      linarith
  refine ⟨?_, ?_, ?_, hS, ?_⟩
  · have h2 : (y "Mach" * y "Asound") ^ 2 = y "U" ^ 2 := by
      rw [hu.2]
      apply mul_left_cancel₀ hr.ne'
      rw [← hm.2, ← ha.2]
      ring
    exact (pow_left_inj₀ (mul_nonneg hm.1 ha.1.le) hu.1 (by norm_num)).1 h2
  · rw [e1, e2, hsq a1 b1 c1, hsq a2 b2 c2]
    ring
  · rw [e1, e2, hsq a1 b1 c1, hsq a2 b2 c2]
    ring
  · intro e
    rw [hS] at e
    have h2 : (y "Asound" / y' "Asound") ^ 2 = ((x "RHO" / x' "RHO") ^ (1 / 5 : ℝ)) ^ 2 := by
      have e3 : (y "Asound" / y' "Asound") ^ 2 = x "P" / x' "P" / (x "RHO" / x' "RHO") := by
        have h5 : y "Asound" ^ 2 = 7 / 5 * x "P" / x "RHO" := by rw [← ha.2]; field_simp
        have h6 : y' "Asound" ^ 2 = 7 / 5 * x' "P" / x' "RHO" := by rw [← ha'.2]; field_simp
        rw [div_pow, h5, h6]
        field_simp
      rw [e3, e, ← Real.rpow_natCast, ← Real.rpow_mul (div_pos hr hr').le]
      have hq := div_pos hr hr'
      conv_lhs => rw [show (x "RHO" / x' "RHO") ^ (7 / 5 : ℝ) / (x "RHO" / x' "RHO") =
        (x "RHO" / x' "RHO") ^ (7 / 5 : ℝ) / (x "RHO" / x' "RHO") ^ (1 : ℝ) by rw [Real.rpow_one]]
      rw [← Real.rpow_sub hq]
      norm_num
    exact (pow_left_inj₀ (div_pos ha.1 ha'.1).le (Real.rpow_pos_of_pos (div_pos hr hr') _).le (by norm_num)).1 h2

/-- **C95, invariants.** In a flow of constant entropy whose velocity changes by `u' = - a rho' / rho` (a simple wave), the quantity
`INVX+` does not change; `INVX-` does not when `u' = a rho' / rho`. -/
theorem C95_invariants (x : ℝ → String → ℝ) (hp : ∀ t, 0 < x t "P") (hr : ∀ t, 0 < x t "RHO") (y : ℝ → String → ℝ)
    (hy : ∀ t, ∀ var ∈ quantities, Law (x t) var (y t var)) (hS : ∀ t t', y t "S" = y t' "S") (dr du : ℝ → ℝ)
    (hdr : ∀ t, HasDerivAt (fun t => x t "RHO") (dr t) t) (hdu : ∀ t, HasDerivAt (fun t => x t "U-X") (du t) t) :
    ((∀ t, x t "RHO" * du t = -(y t "Asound" * dr t)) → ∀ t t', y t "INVX+" = y t' "INVX+") ∧
    ((∀ t, x t "RHO" * du t = y t "Asound" * dr t) → ∀ t t', y t "INVX-" = y t' "INVX-") := by
  have hrel := fun t => C95_relations (x t) (x 0) (hp t) (hr t) (hp 0) (hr 0) (y t) (y 0) (hy t) (hy 0)
  have ha0 : 0 < y 0 "Asound" := ((hy 0 "Asound" (by decide +kernel)).1 rfl).1
  -- the speed of sound is a power of the density
  have ha : ∀ t, y t "Asound" = y 0 "Asound" * (x t "RHO" / x 0 "RHO") ^ (1 / 5 : ℝ) := by
    intro t
    rw [← (hrel t).2.2.2.2 (hS t 0), mul_div_cancel₀ _ ha0.ne']
  have hda : ∀ t, HasDerivAt (fun t => y t "Asound") (y t "Asound" * dr t / (5 * x t "RHO")) t := by
    intro t
    have h1 := ((hdr t).div_const (x 0 "RHO")).rpow_const (p := 1 / 5) (.inl (div_pos (hr t) (hr 0)).ne')
    have h2 := h1.const_mul (y 0 "Asound")
    have e : (fun t => y t "Asound") = fun t => y 0 "Asound" * (x t "RHO" / x 0 "RHO") ^ (1 / 5 : ℝ) := funext ha
    rw [e]
    refine h2.congr_deriv ?_
    rw [ha t, Real.rpow_sub_one (div_pos (hr t) (hr 0)).ne']
    have := (hr t).ne'
    have := (hr 0).ne'
    field_simp
  have hplus : ∀ t, y t "INVX+" = 5 * y t "Asound" + x t "U-X" := by
    intro t
    have := (hrel t).2.1
    have := (hrel t).2.2.1
    linarith
  have hminus : ∀ t, y t "INVX-" = 5 * y t "Asound" - x t "U-X" := by
    intro t
    have := (hrel t).2.1
    have := (hrel t).2.2.1
    linarith
  have key : ∀ f : ℝ → ℝ, (∀ t, HasDerivAt f 0 t) → ∀ t t', f t = f t' := by
    intro f hf
    exact is_const_of_deriv_eq_zero (fun t => (hf t).differentiableAt) fun t => (hf t).deriv
  constructor
  · intro h
    apply key fun t => y t "INVX+"
    intro t
    have h1 := ((hda t).const_mul 5).add (hdu t)
    have e : (fun t => y t "INVX+") = fun t => 5 * y t "Asound" + x t "U-X" := funext hplus
    rw [e]
    refine HasDerivAt.congr_deriv h1 ?_
    have := (hr t).ne'
    have h2 := h t
    field_simp
    linarith
  · intro h
    apply key fun t => y t "INVX-"
    intro t
    have h1 := ((hda t).const_mul 5).sub (hdu t)
    have e : (fun t => y t "INVX-") = fun t => 5 * y t "Asound" - x t "U-X" := funext hminus
    rw [e]
    refine HasDerivAt.congr_deriv h1 ?_
    have := (hr t).ne'
    have h2 := h t
    field_simp
    linarith

/-! ## Two times, two points -/

/-- Lines of a file: number, time, number of points, values at the points. -/
noncomputable def gasFile (k : String) : Option (Raw ℝ) :=
  if k = "P" then some (.arr (.mat [[0, 7, 2, 10, 20], [1, 8, 2, 30, 40]]))
  else if k = "RHO" then some (.arr (.mat [[0, 7, 2, 1, 2], [1, 8, 2, 3, 7]]))
  else if k = "U-X" then some (.arr (.mat [[0, 7, 2, 1, -2], [1, 8, 2, 0, 4]]))
  else if k = "U-Y" then some (.arr (.mat [[0, 7, 2, 1, 2], [1, 8, 2, 0, -4]]))
  else if k = "U-Z" then some (.arr (.mat [[0, 7, 2, 1, 2], [1, 8, 2, 0, 7]]))
  else none

/-- Files without prefix. -/
noncomputable def gasFiles (name : String) : Option (Raw ℝ) :=
  gasFile (String.ofList (name.toList.drop 1))

theorem gasFiles_eq (k : String) : gasFiles ("" ++ "." ++ k) = gasFile k := by
  unfold gasFiles
  congr 1
  rw [String.toList_append]
  exact String.ofList_toList

theorem gasFiles_inFile : inFile (fun k => gasFiles ("" ++ "." ++ k)) = inFile gasFile := by
  congr 1
  exact funext gasFiles_eq

theorem gasFiles_consistent : Consistent (exactPhy fun _ => true) [] (fun k => gasFiles ("" ++ "." ++ k)) (.mat 2 2) where
  nonempty := ⟨by decide, by decide⟩
  loaded := by intro k v h; cases h
  files := by
    intro k r h
    simp only [gasFiles_eq] at h
    unfold gasFile at h
    have hx : ∀ k, (k = "P" ∨ k = "RHO" ∨ k = "U-X" ∨ k = "U-Y" ∨ k = "U-Z") → ¬ isCoordinate k := by
      rintro k (rfl | rfl | rfl | rfl | rfl) <;> decide +kernel
    repeat' split at h
    all_goals first
      | cases h; done
      | (rename_i e
         obtain rfl := Option.some.inj h
         have hk := hx k (by simp [e])
         simp only [fileVal, if_neg hk]
         exact ⟨_, rfl, by simp [Val.stats], fun _ => by simp [HasShape]⟩)
  steady := by intros; rfl

theorem gasFiles_positive : ∀ k, k = "P" ∨ k = "RHO" → ∀ i j y, inFile (fun k => gasFiles ("" ++ "." ++ k)) k i j = some y → 0 < y := by
  have key : ∀ (rows : List (List ℝ)) (i j : Nat) (y : ℝ), (∀ r ∈ rows, ∀ v ∈ r, 0 < v) → entry (.mat rows) i j = some y → 0 < y := by
    intro rows i j y h e
    simp only [entry] at e
    obtain ⟨r, h1, h2⟩ := Option.bind_eq_some_iff.1 e
    exact h r (List.mem_of_getElem? h1) y (List.mem_of_getElem? h2)
  rw [gasFiles_inFile]
  rintro k (rfl | rfl) i j y h
  · refine key [[10, 20], [30, 40]] i j y ?_ ?_
    · simp
    · simpa [inFile, gasFile, fileVal, isCoordinate] using h
  · refine key [[1, 2], [3, 7]] i j y ?_ ?_
    · simp
    · simpa [inFile, gasFile, fileVal, isCoordinate] using h

theorem gasFiles_none : ∀ k ∈ quantities, gasFiles ("" ++ "." ++ k) = none := by
  intro k hk
  rw [gasFiles_eq]
  simp only [quantities, List.mem_cons, List.not_mem_nil, or_false] at hk
  rcases hk with rfl | rfl | rfl | rfl | rfl | rfl <;> simp [gasFile]

/-- The Mach number at the second time and second point: `7/5 * 40 = 56`, `16 + 16 + 49 = 81`. -/
example : ∃ d' v, checkData (exactPhy fun _ => true) gasFiles "" "Mach" [] = (.ok true, d') ∧ d'.get? "Mach" = some v ∧
    ∃ y, entry v 1 1 = some y ∧ 0 ≤ y ∧ y ^ 2 * 56 = 7 * 81 := by
  obtain ⟨d', v, h1, h2, h3⟩ := C95_quantities (fun _ => true) gasFiles "" "Mach" (.mat 2 2) (by decide +kernel) gasFiles_consistent
    (by
      intro k hk
      rw [gasFiles_eq]
      have hk' : k = "U-X" ∨ k = "U-Y" ∨ k = "U-Z" ∨ k = "P" ∨ k = "RHO" := by simpa [solved] using hk
      rcases hk' with rfl | rfl | rfl | rfl | rfl <;> simp [gasFile])
    gasFiles_none gasFiles_positive
  refine ⟨d', v, h1, h2, ?_⟩
  obtain ⟨y, hy, hl⟩ := h3 1 1 (fun k => if k = "P" then 40 else if k = "RHO" then 7 else if k = "U-X" then 4 else
    if k = "U-Y" then -4 else 7) (by
      rw [gasFiles_inFile]
      intro k hk
      have hk' : k = "U-X" ∨ k = "U-Y" ∨ k = "U-Z" ∨ k = "P" ∨ k = "RHO" := by simpa [solved] using hk
      rcases hk' with rfl | rfl | rfl | rfl | rfl <;> simp [inFile, gasFile, fileVal, isCoordinate, entry])
  have := hl.2.2.2.1 rfl
  refine ⟨y, hy, this.1, ?_⟩
  have h5 := this.2
  simp at h5
  norm_num at h5
  linarith

/-- Speed of sound at `p = rho`. -/
noncomputable def root : ℝ := √(7 / 5)

theorem root_pos : 0 < root := Real.sqrt_pos.2 (by norm_num)

theorem root_sq : root ^ 2 = 7 / 5 := Real.sq_sqrt (by norm_num)

/-- Quantities of a gas at `p = rho = 1` moving at speed 3. -/
noncomputable def oneY (k : String) : ℝ :=
  if k = "Asound" then root else if k = "S" then 0 else if k = "U" then 3 else if k = "Mach" then 3 / root
  else if k = "INVX+" then 5 * root + 3 else 5 * root - 3

noncomputable def oneX (k : String) : ℝ := if k = "P" ∨ k = "RHO" then 1 else if k = "U-X" then 3 else 0

theorem one_law : ∀ var ∈ quantities, Law oneX var (oneY var) := by
  have h0 := root_pos
  have h1 := root_sq
  intro var hv
  simp only [quantities, List.mem_cons, List.not_mem_nil, or_false] at hv
  rcases hv with rfl | rfl | rfl | rfl | rfl | rfl <;> refine ⟨?_, ?_, ?_, ?_, ?_, ?_⟩ <;> intro h <;>
    first
      | exact absurd h (by decide)
      | skip
  · exact ⟨by simpa [oneY] using h0, by simpa [oneX, oneY] using h1⟩
  · simp [oneX, oneY]
  · simp [oneX, oneY]
  · refine ⟨by simp [oneY]; positivity, ?_⟩
    simp [oneX, oneY, div_pow, h1]
  · exact ⟨_, h0, by simpa [oneX] using h1, by simp [oneX, oneY]⟩
  · exact ⟨_, h0, by simpa [oneX] using h1, by simp [oneX, oneY]⟩

example := C95_relations oneX oneX (by simp [oneX]) (by simp [oneX]) (by simp [oneX]) (by simp [oneX]) oneY oneY one_law one_law

/-- A simple wave: density `exp(5 t)`, pressure `exp(7 t)`, velocity `- 5 root exp t`. -/
noncomputable def waveX (t : ℝ) (k : String) : ℝ :=
  if k = "P" then Real.exp (7 * t) else if k = "RHO" then Real.exp (5 * t) else if k = "U-X" then -(5 * (root * Real.exp t)) else 0

noncomputable def waveY (t : ℝ) (k : String) : ℝ :=
  if k = "Asound" then root * Real.exp t else if k = "S" then 0 else if k = "U" then 5 * (root * Real.exp t)
  else if k = "Mach" then 5 else if k = "INVX+" then 0 else 10 * (root * Real.exp t)

theorem wave_law (t : ℝ) : ∀ var ∈ quantities, Law (waveX t) var (waveY t var) := by
  have h0 := root_pos
  have h1 := root_sq
  have he : 0 < Real.exp t := Real.exp_pos t
  have e5 : Real.exp (5 * t) = Real.exp t ^ 5 := by rw [← Real.exp_nat_mul]; norm_num
  have e7 : Real.exp (7 * t) = Real.exp t ^ 7 := by rw [← Real.exp_nat_mul]; norm_num
  have ea : Real.exp (5 * t) * (root * Real.exp t) ^ 2 = 7 / 5 * Real.exp (7 * t) := by
    rw [mul_pow, h1, e5, e7]; ring
  have hpos : 0 < root * Real.exp t := by positivity
  intro var hv
  simp only [quantities, List.mem_cons, List.not_mem_nil, or_false] at hv
  rcases hv with rfl | rfl | rfl | rfl | rfl | rfl <;> refine ⟨?_, ?_, ?_, ?_, ?_, ?_⟩ <;> intro h <;>
    first
      | exact absurd h (by decide)
      | skip
  · exact ⟨by simpa [waveY] using hpos, by simpa [waveX, waveY] using ea⟩
  · simp only [waveX, waveY]
    simp
    rw [← Real.exp_mul]
    congr 1
    ring
  · refine ⟨by simp [waveY]; positivity, ?_⟩
    simp [waveX, waveY]
  · refine ⟨by simp [waveY], ?_⟩
    simp [waveX, waveY]
    rw [← ea]
    ring
  · exact ⟨_, hpos, by simpa [waveX] using ea, by simp [waveX, waveY]⟩
  · refine ⟨_, hpos, by simpa [waveX] using ea, ?_⟩
    simp [waveX, waveY]
    ring

/-- `INVX+` is constant in this wave. -/
example (t t' : ℝ) : waveY t "INVX+" = waveY t' "INVX+" := by
  refine (C95_invariants waveX (fun t => by simp [waveX, Real.exp_pos]) (fun t => by simp [waveX, Real.exp_pos]) waveY wave_law
    (fun _ _ => by simp [waveY]) (fun t => Real.exp (5 * t) * 5) (fun t => -(5 * (root * Real.exp t))) ?_ ?_).1 ?_ t t'
  · intro t
    have h := ((hasDerivAt_id t).const_mul 5).exp
    simpa [waveX] using h
  · intro t
    have h := (((Real.hasDerivAt_exp t).const_mul (root)).const_mul 5).neg
    simp only [waveX]
    exact h
  · intro t
    simp [waveX, waveY]
    ring

end Cfd.Gas
