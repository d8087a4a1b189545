import Verif.Spec.ProbeArrays
import Verif.Lemmas.Plotline

/-!
# Lemmas on operations of numpy on arrays of any shapes
-/

namespace Cfd.Probes
open Cfd.Spec.Probes

variable {F : Type}

theorem mapM_at {ε α β : Type} {f : α → Except ε β} {l : List α} {c : List β} (h : l.mapM f = .ok c) (k : Nat) :
    (∀ z, c[k]? = some z → ∃ x, l[k]? = some x ∧ f x = .ok z) ∧
    (∀ x, l[k]? = some x → ∃ z, c[k]? = some z ∧ f x = .ok z) := by
  have h2 := mapM_ok_iff.1 h
  clear h
  induction h2 generalizing k with
  | nil => simp
  | cons hab _ ih =>
    cases k with
    | zero => simp [hab]
    | succ k => simpa using ih k

/-- One dimension: the result at `j` comes from both arrays at `j`. -/
theorem zipB_along {α β γ : Type} {f : α → β → Py γ} {a : List α} {b : List β} {c : List γ} (h : zipB f a b = .ok c) (j : Nat) :
    (∀ z, along c j = some z → ∃ x y, along a j = some x ∧ along b j = some y ∧ f x y = .ok z) ∧
    (∀ x y, along a j = some x → along b j = some y → ∃ z, along c j = some z ∧ f x y = .ok z) := by
  unfold zipB at h
  split at h
  · rename_i hl
    have hc := mapM_ok_length h
    simp only [List.length_zip, hl, Nat.min_self] at hc
    have key : ∀ k : Nat, (∀ z, c[k]? = some z → ∃ x y, a[k]? = some x ∧ b[k]? = some y ∧ f x y = .ok z) ∧
        (∀ x y, a[k]? = some x → b[k]? = some y → ∃ z, c[k]? = some z ∧ f x y = .ok z) := by
      intro k
      obtain ⟨h1, h2⟩ := mapM_at h k
      refine ⟨fun z hz => ?_, fun x y hx hy => ?_⟩
      · obtain ⟨p, hp, e⟩ := h1 z hz
        rw [List.getElem?_zip_eq_some] at hp
        exact ⟨p.1, p.2, hp.1, hp.2, e⟩
      · exact h2 (x, y) (List.getElem?_zip_eq_some.2 ⟨hx, hy⟩)
    unfold along
    rw [hl, hc]
    by_cases h1 : b.length = 1
    · simp only [if_pos h1]; exact key 0
    · simp only [if_neg h1]; exact key j
  · rename_i hl
    split at h
    · rename_i x
      have hc := mapM_ok_length h
      have hb : b.length ≠ 1 := by simp at hl; omega
      obtain ⟨h1, h2⟩ := mapM_at h j
      simp only [along, hc, if_neg hb, List.length_singleton, if_pos, List.getElem?_cons_zero, Option.some.injEq]
      refine ⟨fun z hz => ?_, ?_⟩
      · obtain ⟨y, hy, e⟩ := h1 z hz
        exact ⟨x, y, rfl, hy, e⟩
      · rintro _ y rfl hy
        exact h2 y hy
    · rename_i y _
      have hc := mapM_ok_length h
      have ha : a.length ≠ 1 := by simp at hl; omega
      obtain ⟨h1, h2⟩ := mapM_at h j
      simp only [along, hc, if_neg ha, List.length_singleton, if_pos, List.getElem?_cons_zero, Option.some.injEq]
      refine ⟨fun z hz => ?_, ?_⟩
      · obtain ⟨x, hx, e⟩ := h1 z hz
        exact ⟨x, y, hx, rfl, e⟩
      · rintro x _ hx rfl
        exact h2 x hx
    · cases h

/-- The same for `mapM`. -/
theorem mapM_along {α β : Type} {f : α → Py β} {l : List α} {c : List β} (h : l.mapM f = .ok c) (j : Nat) :
    (∀ z, along c j = some z → ∃ x, along l j = some x ∧ f x = .ok z) ∧
    (∀ x, along l j = some x → ∃ z, along c j = some z ∧ f x = .ok z) := by
  unfold along
  rw [mapM_ok_length h]
  split
  · exact mapM_at h 0
  · exact mapM_at h j

theorem map_ok {α β : Type} {x : Py α} {g : α → β} {y : β} (h : x.map g = .ok y) : ∃ z, x = .ok z ∧ y = g z := by
  cases x with
  | error e => cases h
  | ok z => exact ⟨z, rfl, (Except.ok.inj h).symm⟩

/-- Operations of numpy, point by point. -/
theorem bin_broadcast {f : F → F → F} {a b v : Val F} (h : Val.bin f a b = .ok v) (i j : Nat) (z : F) :
    broadcast v i j = some z ↔ ∃ x y, broadcast a i j = some x ∧ broadcast b i j = some y ∧ z = f x y := by
  have inj : ∀ {x y : F}, (Except.ok x : Py F) = .ok y ↔ y = x := by
    intro x y; simp [eq_comm]
  cases a with
  | vec a =>
    cases b with
    | vec b =>
      obtain ⟨c, hc, rfl⟩ := map_ok h
      obtain ⟨h1, h2⟩ := zipB_along hc j
      simp only [inj] at h1 h2
      simp only [broadcast]
      constructor
      · exact h1 z
      · rintro ⟨x, y, hx, hy, rfl⟩
        obtain ⟨z, hz, rfl⟩ := h2 x y hx hy
        exact hz
    | mat b =>
      obtain ⟨c, hc, rfl⟩ := map_ok h
      obtain ⟨g1, g2⟩ := mapM_along hc i
      simp only [broadcast, Option.bind_eq_some_iff]
      constructor
      · rintro ⟨r, hr, hz⟩
        obtain ⟨s, hs, e⟩ := g1 r hr
        obtain ⟨x, y, hx, hy, e⟩ := (zipB_along e j).1 z hz
        exact ⟨x, y, hx, ⟨s, hs, hy⟩, inj.1 e⟩
      · rintro ⟨x, y, hx, ⟨s, hs, hy⟩, rfl⟩
        obtain ⟨r, hr, e⟩ := g2 s hs
        obtain ⟨z, hz, e⟩ := (zipB_along e j).2 x y hx hy
        rw [inj.1 e] at hz
        exact ⟨r, hr, hz⟩
  | mat a =>
    cases b with
    | vec b =>
      obtain ⟨c, hc, rfl⟩ := map_ok h
      obtain ⟨g1, g2⟩ := mapM_along hc i
      simp only [broadcast, Option.bind_eq_some_iff]
      constructor
      · rintro ⟨r, hr, hz⟩
        obtain ⟨s, hs, e⟩ := g1 r hr
        obtain ⟨x, y, hx, hy, e⟩ := (zipB_along e j).1 z hz
        exact ⟨x, y, ⟨s, hs, hx⟩, hy, inj.1 e⟩
      · rintro ⟨x, y, ⟨s, hs, hx⟩, hy, rfl⟩
        obtain ⟨r, hr, e⟩ := g2 s hs
        obtain ⟨z, hz, e⟩ := (zipB_along e j).2 x y hx hy
        rw [inj.1 e] at hz
        exact ⟨r, hr, hz⟩
    | mat b =>
      obtain ⟨c, hc, rfl⟩ := map_ok h
      obtain ⟨g1, g2⟩ := zipB_along hc i
      simp only [broadcast, Option.bind_eq_some_iff]
      constructor
      · rintro ⟨r, hr, hz⟩
        obtain ⟨s, t, hs, ht, e⟩ := g1 r hr
        obtain ⟨x, y, hx, hy, e⟩ := (zipB_along e j).1 z hz
        exact ⟨x, y, ⟨s, hs, hx⟩, ⟨t, ht, hy⟩, inj.1 e⟩
      · rintro ⟨x, y, ⟨s, hs, hx⟩, ⟨t, ht, hy⟩, rfl⟩
        obtain ⟨r, hr, e⟩ := g2 s t hs ht
        obtain ⟨z, hz, e⟩ := (zipB_along e j).2 x y hx hy
        rw [inj.1 e] at hz
        exact ⟨r, hr, hz⟩

theorem along_map {α β : Type} (f : α → β) (l : List α) (i : Nat) : along (l.map f) i = (along l i).map f := by
  unfold along
  rw [List.length_map]
  split <;> rw [List.getElem?_map]

theorem un_broadcast (f : F → F) (v : Val F) (i j : Nat) : broadcast (Val.un f v) i j = (broadcast v i j).map f := by
  cases v with
  | vec l => simp only [Val.un, broadcast, along_map]
  | mat rows =>
    simp only [Val.un, broadcast, along_map]
    cases along rows i <;> simp [along_map]

/-- What a computed variable is, whatever the shapes. -/
theorem compute_broadcast {N : PhyNum F} {var : String} {d d' : Data F} (h : computeVarname N var d = .ok d') :
    needs var ≠ [] ∧ ∃ (v : Val F) (w : String → Val F), d' = d.set var v ∧ (∀ k ∈ needs var, d.get? k = some (w k)) ∧
      (TwoDim v ↔ ∃ k ∈ needs var, TwoDim (w k)) ∧
      ∀ i j y, broadcast v i j = some y ↔
        ∃ x : String → F, (∀ k ∈ needs var, broadcast (w k) i j = some (x k)) ∧ y = formula N var x := by
  obtain ⟨hne, v, w, hd, hw, hv⟩ := compute_inv h
  have two : ∀ v : Val F, TwoDim v ↔ ¬ v.isVec = true := by
    intro v; cases v <;> simp [TwoDim, Val.isVec]
  refine ⟨hne, v, w, hd, hw, ?_, ?_⟩
  · rw [two, hv]
    simp [two]
  · intro i j y
    have pair : ∀ a b : String, a ≠ b → ∀ (g : F → F → F) (P : (String → F) → Prop),
        (∀ x, P x ↔ y = g (x a) (x b)) →
        ((∃ p q, broadcast (w a) i j = some p ∧ broadcast (w b) i j = some q ∧ y = g p q) ↔
          ∃ x : String → F, (∀ k ∈ [a, b], broadcast (w k) i j = some (x k)) ∧ P x) := by
      intro a b hab g P hP
      constructor
      · rintro ⟨p, q, hp, hq, e⟩
        refine ⟨fun k => if k = a then p else q, ?_, ?_⟩
        · intro k hk
          simp only [List.mem_cons, List.not_mem_nil, or_false] at hk
          rcases hk with rfl | rfl
          · simp [hp]
          · simp [hq, Ne.symm hab]
        · rw [hP]; simpa [Ne.symm hab] using e
      · rintro ⟨x, hx, hp⟩
        exact ⟨x a, x b, hx a (by simp), hx b (by simp), (hP x).1 hp⟩
    have get : ∀ {k : String} {a : Val F}, k ∈ needs var → d.getE k = .ok a → a = w k := by
      intro k a hk ha
      have := Dict.getE_eq_ok.1 ha
      rw [hw k hk] at this
      exact (Option.some.inj this).symm
    have setinj : ∀ {x : Val F}, d.set var x = d.set var v → x = v := by
      intro x e
      have := congrArg (fun q : Data F => Dict.get? q var) e
      simp only [Dict.get?_set_self] at this
      exact Option.some.inj this
    subst hd
    rcases needs_cases hne with rfl | rfl | rfl | rfl | rfl | rfl
    · rw [computeVarname, if_neg (by decide), if_neg (by decide), if_pos rfl] at h
      unfold computeAsound at h
      obtain ⟨a, ha, h⟩ := bind_eq_ok.1 h
      obtain ⟨b, hb, h⟩ := bind_eq_ok.1 h
      obtain ⟨r, hr, h⟩ := bind_eq_ok.1 h
      obtain rfl := setinj (Except.ok.inj h)
      obtain rfl := get (by decide) ha
      obtain rfl := get (by decide) hb
      rw [show needs "Asound" = ["P", "RHO"] from by decide +kernel,
        ← pair "P" "RHO" (by decide) (fun p q => N.sqrt (N.div (N.mul (N.lit "1.4") p) q)) _ (by intro x; simp [formula])]
      simp only [un_broadcast, Option.map_eq_some_iff, bin_broadcast hr]
      grind
    · rw [computeVarname, if_neg (by decide), if_neg (by decide), if_neg (by decide), if_neg (by decide),
        if_neg (by decide), if_pos rfl] at h
      unfold computeEntropy at h
      obtain ⟨a, ha, h⟩ := bind_eq_ok.1 h
      obtain ⟨b, hb, h⟩ := bind_eq_ok.1 h
      obtain ⟨r, hr, h⟩ := bind_eq_ok.1 h
      obtain rfl := setinj (Except.ok.inj h)
      obtain rfl := get (by decide) ha
      obtain rfl := get (by decide) hb
      rw [show needs "S" = ["P", "RHO"] from by decide +kernel,
        ← pair "P" "RHO" (by decide)
          (fun p q => N.mul (N.div (N.lit "1.0") (N.lit "0.4")) (N.log (N.div p (N.pow q (N.lit "1.4"))))) _
          (by intro x; simp [formula])]
      simp only [un_broadcast, Option.map_eq_some_iff, bin_broadcast hr]
      grind
    · rw [computeVarname, if_pos rfl] at h
      unfold computeU at h
      obtain ⟨a, ha, h⟩ := bind_eq_ok.1 h
      obtain ⟨b, hb, h⟩ := bind_eq_ok.1 h
      obtain ⟨r, hr, h⟩ := bind_eq_ok.1 h
      obtain ⟨c, hc, h⟩ := bind_eq_ok.1 h
      obtain ⟨s, hs, h⟩ := bind_eq_ok.1 h
      obtain rfl := setinj (Except.ok.inj h)
      obtain rfl := get (by decide) ha
      obtain rfl := get (by decide) hb
      obtain rfl := get (by decide) hc
      rw [show needs "U" = ["U-X", "U-Y", "U-Z"] from by decide +kernel]
      simp only [un_broadcast, Option.map_eq_some_iff, bin_broadcast hs, bin_broadcast hr]
      constructor
      · rintro ⟨_, ⟨_, _, ⟨_, _, ⟨x, hx, rfl⟩, ⟨y, hy, rfl⟩, rfl⟩, ⟨z, hz, rfl⟩, rfl⟩, rfl⟩
        refine ⟨fun k => if k = "U-X" then x else if k = "U-Y" then y else z, ?_, ?_⟩
        · intro k hk
          simp only [List.mem_cons, List.not_mem_nil, or_false] at hk
          rcases hk with rfl | rfl | rfl
          · simp [hx]
          · simp [hy]
          · simp [hz]
        · simp [formula]
      · rintro ⟨x, hx, rfl⟩
        refine ⟨_, ⟨_, _, ⟨_, _, ⟨x "U-X", hx _ (by simp), rfl⟩, ⟨x "U-Y", hx _ (by simp), rfl⟩, rfl⟩,
          ⟨x "U-Z", hx _ (by simp), rfl⟩, rfl⟩, ?_⟩
        simp [formula]
    · rw [computeVarname, if_neg (by decide), if_pos rfl] at h
      unfold computeMach at h
      obtain ⟨a, ha, h⟩ := bind_eq_ok.1 h
      obtain ⟨b, hb, h⟩ := bind_eq_ok.1 h
      obtain ⟨r, hr, h⟩ := bind_eq_ok.1 h
      obtain rfl := setinj (Except.ok.inj h)
      obtain rfl := get (by decide) ha
      obtain rfl := get (by decide) hb
      rw [show needs "Mach" = ["U", "Asound"] from by decide +kernel,
        ← pair "U" "Asound" (by decide) (fun p q => N.div p q) _ (by intro x; simp [formula])]
      exact bin_broadcast hr i j y
    · rw [computeVarname, if_neg (by decide), if_neg (by decide), if_neg (by decide), if_pos rfl] at h
      unfold computeInvxp at h
      obtain ⟨a, ha, h⟩ := bind_eq_ok.1 h
      obtain ⟨b, hb, h⟩ := bind_eq_ok.1 h
      obtain ⟨r, hr, h⟩ := bind_eq_ok.1 h
      obtain rfl := setinj (Except.ok.inj h)
      obtain rfl := get (by decide) ha
      obtain rfl := get (by decide) hb
      rw [show needs "INVX+" = ["U-X", "Asound"] from by decide +kernel,
        ← pair "U-X" "Asound" (by decide) (fun p q => N.add (N.mul (N.lit "5") q) p) _ (by intro x; simp [formula])]
      simp only [un_broadcast, Option.map_eq_some_iff, bin_broadcast hr]
      grind
    · rw [computeVarname, if_neg (by decide), if_neg (by decide), if_neg (by decide), if_neg (by decide), if_pos rfl] at h
      unfold computeInvxm at h
      obtain ⟨a, ha, h⟩ := bind_eq_ok.1 h
      obtain ⟨b, hb, h⟩ := bind_eq_ok.1 h
      obtain ⟨r, hr, h⟩ := bind_eq_ok.1 h
      obtain rfl := setinj (Except.ok.inj h)
      obtain rfl := get (by decide) ha
      obtain rfl := get (by decide) hb
      rw [show needs "INVX-" = ["U-X", "Asound"] from by decide +kernel,
        ← pair "U-X" "Asound" (by decide) (fun p q => N.sub (N.mul (N.lit "5") q) p) _ (by intro x; simp [formula])]
      simp only [un_broadcast, Option.map_eq_some_iff, bin_broadcast hr]
      grind

end Cfd.Probes
