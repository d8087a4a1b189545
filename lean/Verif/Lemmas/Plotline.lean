import Verif.Spec.Plotline
import Verif.Props.Probes

/-!
# Lemmas on `check_data` for any files
-/

namespace Cfd.Probes
open Cfd.Spec.Probes

variable {F : Type}

/-- What `check_data` preserves: anything that holds after reading a file, and after computing a variable without file. `Q` holds of
the variables concerned. -/
theorem check_preserves {N : PhyNum F} {fs : String → Option (Raw F)} {pre : String} (Q : String → Prop) (I : Data F → Prop)
    (hQ : ∀ var ds, Q var → fs (pre ++ "." ++ var) = none → dependencyVars.get? var = some ds → ∀ v ∈ ds, Q v)
    (hread : ∀ var d d', Q var → I d → var ∉ d.keys →
      readData N fs pre var (decide (var ∈ ["X", "Y", "Z"])) d = (.ok true, d') → I d')
    (hcomp : ∀ var d0 d d', Q var → I d0 → var ∉ d0.keys → I d → fs (pre ++ "." ++ var) = none →
      computeVarname N var d = .ok d' → I d') (n : Nat) :
    ∀ var, rank var < n → Q var → ∀ d b d', I d → checkData N fs pre var d = (.ok b, d') → I d' := by
  induction n with
  | zero => intro var h; omega
  | succ n ih =>
    intro var hr hq d b d' hi h
    have hfin : ∀ d1, I d1 → finish var d1 = (.ok b, d') → I d' := by
      intro d1 h1 h
      unfold finish at h
      split at h
      · simp only [Prod.mk.injEq] at h; rw [← h.2]; exact h1
      · simp at h
    have hload : ∀ b d1, loadData N fs pre var d = (.ok b, d1) →
        I d1 ∧ (b = false → fs (pre ++ "." ++ var) = none ∧ var ∉ d.keys) := by
      intro b d1 h
      unfold loadData at h
      split at h
      · simp only [Prod.mk.injEq, Except.ok.injEq] at h
        obtain ⟨rfl, rfl⟩ := h
        exact ⟨hi, by simp⟩
      · rename_i hn
        cases b with
        | true => exact ⟨hread var d d1 hq hi hn h, by simp⟩
        | false =>
          have : fs (pre ++ "." ++ var) = none ∧ d1 = d := by
            unfold readData at h
            split at h
            · rename_i e; simp only [Prod.mk.injEq] at h; exact ⟨e, h.2.symm⟩
            · simp at h
            · split at h
              · split at h
                · simp at h
                · split at h <;> simp at h
              · simp only at h
                split at h
                · simp at h
                · split at h <;> simp at h
            · simp at h
          rw [this.2]
          exact ⟨hi, fun _ => ⟨this.1, hn⟩⟩
    rw [checkData] at h
    split at h
    · simp at h
    · rename_i d1 e
      exact hfin d1 (hload _ _ e).1 h
    · rename_i d1 e
      obtain ⟨i1, hnone⟩ := hload _ _ e
      split at h
      · simp at h
      · rename_i ds hds
        have hdeps : ∀ ds', (∀ v ∈ ds', Q v ∧ rank v < n) → ∀ d0 b0 d0', I d0 → checkDeps N fs pre ds' d0 = (.ok b0, d0') → I d0' := by
          intro ds'
          induction ds' with
          | nil =>
            intro _ d0 b0 d0' i0 h0
            rw [checkDeps] at h0
            simp only [Prod.mk.injEq] at h0
            rw [← h0.2]; exact i0
          | cons v t iht =>
            intro hv d0 b0 d0' i0 h0
            rw [checkDeps] at h0
            split at h0
            · simp at h0
            · rename_i b1 d2 e1
              have i2 := ih v (hv v (by simp)).2 (hv v (by simp)).1 d0 b1 d2 i0 e1
              split at h0
              · simp at h0
              · rename_i b2 d3 e2
                simp only [Prod.mk.injEq] at h0
                rw [← h0.2]
                exact iht (fun w hw => hv w (List.mem_cons_of_mem _ hw)) d2 b2 d3 i2 e2
        have hrank : ∀ v ∈ ds, Q v ∧ rank v < n := by
          intro v hv
          refine ⟨hQ var ds hq (hnone rfl).1 hds v hv, ?_⟩
          have h1 := maxRank_deps hds
          have h2 : ∀ l : List String, ∀ x ∈ l, rank x ≤ maxRank l := by
            intro l
            induction l with
            | nil => intro x hx; cases hx
            | cons a t ih2 =>
              intro x hx
              simp only [maxRank]
              rcases List.mem_cons.1 hx with rfl | hx
              · omega
              · have := ih2 x hx; omega
          have := h2 ds v hv
          omega
        split at h
        · simp at h
        · simp at h
        · rename_i d2 e2
          have i2 := hdeps ds hrank d1 true d2 i1 e2
          split at h
          · rename_i d3 e3
            exact hfin d3 (hcomp var d d2 d3 hq hi (hnone rfl).2 i2 (hnone rfl).1 e3) h
          · simp at h

/-- What reading a file stores. -/
theorem readData_inv {N : PhyNum F} {fs : String → Option (Raw F)} {pre var : String} {force : Bool} {d d' : Data F}
    (h : readData N fs pre var force d = (.ok true, d')) :
    (∃ l, fs (pre ++ "." ++ var) = some (.arr (.vec l)) ∧ d' = d.set var (.vec (l.drop 3))) ∨
    (∃ r rows, fs (pre ++ "." ++ var) = some (.arr (.mat (r :: rows))) ∧ force = true ∧ d' = d.set var (.vec (r.drop 3))) ∨
    (∃ rows, fs (pre ++ "." ++ var) = some (.arr (.mat rows)) ∧ force = false ∧
      (("time" ∈ (d.set var (.mat (rows.map (·.drop 3)))).keys ∧ d' = d.set var (.mat (rows.map (·.drop 3)))) ∨
        ("time" ∉ (d.set var (.mat (rows.map (·.drop 3)))).keys ∧ ∃ t, rows.mapM (fun r => npGet r (1 : Int)) = .ok t ∧
          d' = (d.set var (.mat (rows.map (·.drop 3)))).set "time" (.vec t)))) := by
  unfold readData at h
  split at h
  · simp at h
  · rename_i l e
    simp only [Prod.mk.injEq, true_and] at h
    exact .inl ⟨l, e, h.symm⟩
  · rename_i rows e
    split at h
    · rename_i hf
      split at h
      · simp at h
      · split at h
        · simp only [Prod.mk.injEq, true_and] at h
          exact .inr (.inl ⟨_, _, e, hf, h.symm⟩)
        · simp at h
    · rename_i hf
      have hf : force = false := by simpa using hf
      refine .inr (.inr ⟨rows, e, hf, ?_⟩)
      simp only at h
      split at h
      · rename_i ht
        simp only [Prod.mk.injEq, true_and] at h
        exact .inl ⟨ht, h.symm⟩
      · rename_i ht
        split at h
        · rename_i t et
          simp only [Prod.mk.injEq, true_and] at h
          exact .inr ⟨ht, t, et, h.symm⟩
        · simp at h
  · simp at h

/-- One dimension. -/
def Val.isVec : Val F → Bool
  | .vec _ => true
  | .mat _ => false

theorem un_isVec (f : F → F) (v : Val F) : (Val.un f v).isVec = v.isVec := by cases v <;> rfl

theorem bin_isVec {f : F → F → F} {a b v : Val F} (h : Val.bin f a b = .ok v) : v.isVec = (a.isVec && b.isVec) := by
  have key : ∀ {α : Type} {x : Py α} {g : α → Val F}, x.map g = .ok v → ∃ y, v = g y := by
    intro α x g h
    cases x with
    | error e => cases h
    | ok y => exact ⟨y, (Except.ok.inj h).symm⟩
  cases a <;> cases b <;> simp only [Val.bin] at h <;> obtain ⟨y, rfl⟩ := key h <;> rfl

/-- Computing a variable stores it and nothing else; the result has one dimension if and only if all the arrays have. -/
theorem compute_inv {N : PhyNum F} {var : String} {d d' : Data F} (h : computeVarname N var d = .ok d') :
    needs var ≠ [] ∧ ∃ (v : Val F) (w : String → Val F), d' = d.set var v ∧ (∀ k ∈ needs var, d.get? k = some (w k)) ∧
      (v.isVec = true ↔ ∀ k ∈ needs var, (w k).isVec = true) := by
  unfold computeVarname at h
  split at h
  · rename_i e; subst e
    unfold computeU at h
    obtain ⟨a, ha, h⟩ := bind_eq_ok.1 h
    obtain ⟨b, hb, h⟩ := bind_eq_ok.1 h
    obtain ⟨xy, hxy, h⟩ := bind_eq_ok.1 h
    obtain ⟨c, hc, h⟩ := bind_eq_ok.1 h
    obtain ⟨r, hr, h⟩ := bind_eq_ok.1 h
    cases h
    rw [show needs "U" = ["U-X", "U-Y", "U-Z"] from by decide +kernel]
    refine ⟨by simp, _, fun k => if k = "U-X" then a else if k = "U-Y" then b else c, rfl, ?_, ?_⟩
    · simp [Dict.getE_eq_ok.1 ha, Dict.getE_eq_ok.1 hb, Dict.getE_eq_ok.1 hc]
    · simp [un_isVec, bin_isVec hr, bin_isVec hxy, and_assoc]
  · split at h
    · rename_i e; subst e
      unfold computeMach at h
      obtain ⟨a, ha, h⟩ := bind_eq_ok.1 h
      obtain ⟨b, hb, h⟩ := bind_eq_ok.1 h
      obtain ⟨r, hr, h⟩ := bind_eq_ok.1 h
      cases h
      rw [show needs "Mach" = ["U", "Asound"] from by decide +kernel]
      refine ⟨by simp, _, fun k => if k = "U" then a else b, rfl, ?_, ?_⟩
      · simp [Dict.getE_eq_ok.1 ha, Dict.getE_eq_ok.1 hb]
      · simp [bin_isVec hr]
    · split at h
      · rename_i e; subst e
        unfold computeAsound at h
        obtain ⟨a, ha, h⟩ := bind_eq_ok.1 h
        obtain ⟨b, hb, h⟩ := bind_eq_ok.1 h
        obtain ⟨r, hr, h⟩ := bind_eq_ok.1 h
        cases h
        rw [show needs "Asound" = ["P", "RHO"] from by decide +kernel]
        refine ⟨by simp, _, fun k => if k = "P" then a else b, rfl, ?_, ?_⟩
        · simp [Dict.getE_eq_ok.1 ha, Dict.getE_eq_ok.1 hb]
        · simp [un_isVec, bin_isVec hr]
      · split at h
        · rename_i e; subst e
          unfold computeInvxp at h
          obtain ⟨a, ha, h⟩ := bind_eq_ok.1 h
          obtain ⟨b, hb, h⟩ := bind_eq_ok.1 h
          obtain ⟨r, hr, h⟩ := bind_eq_ok.1 h
          cases h
          rw [show needs "INVX+" = ["U-X", "Asound"] from by decide +kernel]
          refine ⟨by simp, _, fun k => if k = "Asound" then a else b, rfl, ?_, ?_⟩
          · simp [Dict.getE_eq_ok.1 ha, Dict.getE_eq_ok.1 hb]
          · simp [un_isVec, bin_isVec hr, and_comm]
        · split at h
          · rename_i e; subst e
            unfold computeInvxm at h
            obtain ⟨a, ha, h⟩ := bind_eq_ok.1 h
            obtain ⟨b, hb, h⟩ := bind_eq_ok.1 h
            obtain ⟨r, hr, h⟩ := bind_eq_ok.1 h
            cases h
            rw [show needs "INVX-" = ["U-X", "Asound"] from by decide +kernel]
            refine ⟨by simp, _, fun k => if k = "Asound" then a else b, rfl, ?_, ?_⟩
            · simp [Dict.getE_eq_ok.1 ha, Dict.getE_eq_ok.1 hb]
            · simp [un_isVec, bin_isVec hr, and_comm]
          · split at h
            · rename_i e; subst e
              unfold computeEntropy at h
              obtain ⟨a, ha, h⟩ := bind_eq_ok.1 h
              obtain ⟨b, hb, h⟩ := bind_eq_ok.1 h
              obtain ⟨r, hr, h⟩ := bind_eq_ok.1 h
              cases h
              rw [show needs "S" = ["P", "RHO"] from by decide +kernel]
              refine ⟨by simp, _, fun k => if k = "P" then a else b, rfl, ?_, ?_⟩
              · simp [Dict.getE_eq_ok.1 ha, Dict.getE_eq_ok.1 hb]
              · simp [un_isVec, bin_isVec hr]
            · cases h

/-- Variables that `check_data(a)` may touch: those used to compute one without file. -/
inductive Reach (file : String → Option (Raw F)) (a : String) : String → Prop
  | self : Reach file a a
  | dep (k v : String) : Reach file a k → file k = none → v ∈ needs k → Reach file a v

/-- Variables computed as arrays of one dimension come from such arrays. -/
def VecOf (file : String → Option (Raw F)) (d : Data F) : Prop :=
  ∀ k v, d.get? k = some v → file k = none → v.isVec = true → ∀ j ∈ needs k, ∃ w, d.get? j = some w ∧ w.isVec = true

theorem not_mem_get? {d : Data F} {k : String} (h : k ∉ d.keys) (v : Val F) : d.get? k ≠ some v := fun e =>
  h (Dict.mem_keys_iff.2 ⟨v, e⟩)

/-- Reading keeps other variables; only the variable and the time are new. -/
theorem readData_keys {N : PhyNum F} {fs : String → Option (Raw F)} {pre var : String} {force : Bool} {d d' : Data F}
    (h : readData N fs pre var force d = (.ok true, d')) :
    (∃ r, fs (pre ++ "." ++ var) = some r) ∧ ∀ k, k ≠ var → k ≠ "time" → d'.get? k = d.get? k := by
  rcases readData_inv h with ⟨l, hf, rfl⟩ | ⟨r, rows, hf, -, rfl⟩ | ⟨rows, hf, -, ⟨-, rfl⟩ | ⟨-, t, -, rfl⟩⟩
  · exact ⟨⟨_, hf⟩, fun k h1 _ => Dict.get?_set_ne _ _ h1⟩
  · exact ⟨⟨_, hf⟩, fun k h1 _ => Dict.get?_set_ne _ _ h1⟩
  · exact ⟨⟨_, hf⟩, fun k h1 _ => Dict.get?_set_ne _ _ h1⟩
  · exact ⟨⟨_, hf⟩, fun k h1 h2 => by rw [Dict.get?_set_ne _ _ h2, Dict.get?_set_ne _ _ h1]⟩

theorem vecOf_check {N : PhyNum F} {fs : String → Option (Raw F)} {pre var : String} {d d' : Data F} {b : Bool}
    (hi : VecOf (fileOf fs pre) d) (h : checkData N fs pre var d = (.ok b, d')) : VecOf (fileOf fs pre) d' := by
  refine check_preserves (fun _ => True) (VecOf (fileOf fs pre)) (fun _ _ _ _ _ _ _ => trivial) ?_ ?_ (rank var + 1) var (by omega)
    trivial d b d' hi h
  · intro var d d' _ hi hn h k v hk hf hv j hj
    obtain ⟨⟨r, hr⟩, hkeep⟩ := readData_keys h
    have hkv : k ≠ var := by
      rintro rfl
      have hf : fs (pre ++ "." ++ k) = none := hf
      rw [hf] at hr; cases hr
    have hne : needs k ≠ [] := by intro e; rw [e] at hj; cases hj
    rw [hkeep k hkv (needs_self hne).2] at hk
    obtain ⟨w, hw, hw'⟩ := hi k v hk hf hv j hj
    refine ⟨w, ?_, hw'⟩
    rw [hkeep j ?_ (needs_plain hj).2]
    · exact hw
    · rintro rfl; exact not_mem_get? hn _ hw
  · intro var _ d d' _ _ _ hi hn h k v hk hf hv j hj
    obtain ⟨hne, x, w, rfl, hw, hx⟩ := compute_inv h
    by_cases hjv : j = var
    · -- computed a second time: it had one dimension already
      subst hjv
      refine ⟨x, Dict.get?_set_self _ _ _, ?_⟩
      have hkj : k ≠ j := by
        rintro rfl
        have := rank_lt k (needs k) (by rw [needs_deps, if_neg hne]) k hj
        omega
      rw [Dict.get?_set_ne _ _ hkj] at hk
      obtain ⟨y, hy, hy'⟩ := hi k v hk hf hv j hj
      rw [hx]
      intro i hi'
      obtain ⟨z, hz, hz'⟩ := hi j y hy hn hy' i hi'
      rw [hw i hi'] at hz
      rw [Option.some.inj hz]; exact hz'
    · rw [Dict.get?_set_ne _ _ hjv]
      by_cases hkv : k = var
      · subst hkv
        rw [Dict.get?_set_self] at hk
        obtain rfl := Option.some.inj hk
        exact ⟨w j, hw j hj, hx.1 hv j hj⟩
      · rw [Dict.get?_set_ne _ _ hkv] at hk
        exact hi k v hk hf hv j hj

/-- `check_data(a)` only adds the time and variables reached from `a`. -/
theorem check_keys {N : PhyNum F} {fs : String → Option (Raw F)} {pre a : String} {d d' : Data F} {b : Bool}
    (h : checkData N fs pre a d = (.ok b, d')) (k : String) (hk : k ∈ d'.keys) :
    k ∈ d.keys ∨ k = "time" ∨ Reach (fileOf fs pre) a k := by
  refine check_preserves (Reach (fileOf fs pre) a) (fun e => ∀ k, k ∈ e.keys → k ∈ d.keys ∨ k = "time" ∨ Reach (fileOf fs pre) a k)
    ?_ ?_ ?_ (rank a + 1) a (by omega) .self d b d' (fun k h => .inl h) h k hk
  · intro var ds hq hf hds v hv
    have := needs_deps var
    rw [hds] at this
    split at this
    · cases this
    · obtain rfl := Option.some.inj this
      exact .dep var v hq hf hv
  · intro var e e' hq hi _ h k hk
    obtain ⟨-, hkeep⟩ := readData_keys h
    by_cases h1 : k = var
    · subst h1; exact .inr (.inr hq)
    · by_cases h2 : k = "time"
      · exact .inr (.inl h2)
      · obtain ⟨v, hv⟩ := Dict.mem_keys_iff.1 hk
        rw [hkeep k h1 h2] at hv
        exact hi k (Dict.mem_keys_iff.2 ⟨v, hv⟩)
  · intro var _ e e' hq _ _ hi _ h k hk
    obtain ⟨-, x, w, rfl, -, -⟩ := compute_inv h
    by_cases h1 : k = var
    · subst h1; exact .inr (.inr hq)
    · obtain ⟨v, hv⟩ := Dict.mem_keys_iff.1 hk
      rw [Dict.get?_set_ne _ _ h1] at hv
      exact hi k (Dict.mem_keys_iff.2 ⟨v, hv⟩)

/-- From an array of one dimension, only such arrays are reached. -/
theorem reach_vec {file : String → Option (Raw F)} {d : Data F} (hi : VecOf file d) {a c : String} {v : Val F}
    (ha : d.get? a = some v) (hv : v.isVec = true) (h : Reach file a c) : ∃ w, d.get? c = some w ∧ w.isVec = true := by
  induction h with
  | self => exact ⟨v, ha, hv⟩
  | dep k j _ hf hj ih =>
    obtain ⟨w, hw, hw'⟩ := ih
    exact hi k w hw hf hw' j hj

/-- The first character of a long name is not reached from it. -/
theorem first_not_reached {file : String → Option (Raw F)} {s c : String} (hc : firstChar s = .ok c) (hs : s ≠ c) :
    ¬ Reach file s c := by
  intro h
  have hfirst : s.toList.head? = c.toList.head? ∧ c.toList.length = 1 := by
    unfold firstChar at hc
    split at hc
    · cases hc
    · rename_i x t e
      rw [e, ← Except.ok.inj hc]
      simp
  have key : ∀ k, Reach file s k → k = s ∨ k = "P" ∨ k = "RHO" ∨ k = "U" ∨ k = "Asound" ∨ k = "U-X" ∨ k = "U-Y" ∨ k = "U-Z" := by
    intro k h
    cases h with
    | self => exact .inl rfl
    | dep i _ _ _ hj =>
      right
      have hne : needs i ≠ [] := by intro e; rw [e] at hj; cases hj
      rcases needs_cases hne with rfl | rfl | rfl | rfl | rfl | rfl <;> revert hj <;> revert k <;> decide +kernel
  have hsn : needs s ≠ [] := by
    clear hc
    intro hn
    have : ∀ k, Reach file s k → k = s := by
      intro k h
      induction h with
      | self => rfl
      | dep k j _ _ hj ih => rw [ih, hn] at hj; cases hj
    exact hs (this c h).symm
  have hcs : c = "P" ∨ c = "U" := by
    rcases key c h with rfl | rfl | rfl | rfl | rfl | rfl | rfl | rfl
    · exact absurd rfl hs
    · exact .inl rfl
    · exact absurd hfirst.2 (by decide +kernel)
    · exact .inr rfl
    · exact absurd hfirst.2 (by decide +kernel)
    · exact absurd hfirst.2 (by decide +kernel)
    · exact absurd hfirst.2 (by decide +kernel)
    · exact absurd hfirst.2 (by decide +kernel)
  have hf := hfirst.1
  rcases needs_cases hsn with rfl | rfl | rfl | rfl | rfl | rfl <;> rcases hcs with rfl | rfl <;>
    first | exact absurd rfl hs | exact absurd hf (by decide +kernel)

end Cfd.Probes
