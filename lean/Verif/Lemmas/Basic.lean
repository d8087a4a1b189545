import Verif.Py
import Mathlib.Data.List.Forall2
import Mathlib.Data.List.Dedup
import Mathlib.Data.List.Nodup

/-! Helper lemmas about the Python conventions of `Verif/Py.lean`. -/

namespace Cfd

/-! ### pyRange -/

theorem mem_pyRange {a b i : Int} : i ∈ pyRange a b ↔ a ≤ i ∧ i < b := by
  simp only [pyRange, List.mem_map, List.mem_range]
  constructor
  · rintro ⟨k, hk, rfl⟩; omega
  · rintro ⟨h1, h2⟩; exact ⟨(i - a).toNat, by omega, by omega⟩

@[simp] theorem length_pyRange (a b : Int) : (pyRange a b).length = (b - a).toNat := by
  simp [pyRange]

theorem getElem_pyRange (a b : Int) (k : Nat) (h : k < (pyRange a b).length) :
    (pyRange a b)[k] = a + k := by simp [pyRange]

theorem pairwise_pyRange (a b : Int) : (pyRange a b).Pairwise (· < ·) := by
  unfold pyRange
  rw [List.pairwise_map]
  exact List.pairwise_lt_range.imp (fun h => by omega)

theorem nodup_pyRange (a b : Int) : (pyRange a b).Nodup :=
  (pairwise_pyRange a b).imp (fun h => by omega)

theorem pyRange_append {a b c : Int} (h1 : a ≤ b) (h2 : b ≤ c) :
    pyRange a b ++ pyRange b c = pyRange a c := by
  apply List.ext_getElem
  · simp; omega
  · intro i hi hi'
    rw [getElem_pyRange, List.getElem_append]
    split
    · rw [getElem_pyRange]
    · rename_i hlt
      rw [getElem_pyRange]
      rw [length_pyRange] at hlt
      simp only [length_pyRange]
      omega

theorem pyRange_shift (a b n : Int) : (pyRange a b).map (· + n) = pyRange (a + n) (b + n) := by
  simp only [pyRange, List.map_map]
  rw [show b + n - (a + n) = b - a by omega]
  apply List.map_congr_left
  intro k _; simp; omega

theorem pyRange_eq_nil {a b : Int} (h : b ≤ a) : pyRange a b = [] := by
  simp [pyRange]; omega

theorem pyRange_cons {a b : Int} (h : a < b) : pyRange a b = a :: pyRange (a + 1) b := by
  apply List.ext_getElem
  · simp; omega
  · intro i h1 h2
    rw [getElem_pyRange]
    cases i with
    | zero => simp
    | succ i => rw [List.getElem_cons_succ, getElem_pyRange]; omega

theorem pyRange_succ_right {a b : Int} (h : a ≤ b) : pyRange a (b + 1) = pyRange a b ++ [b] := by
  rw [← pyRange_append h (by omega : b ≤ b + 1), pyRange_cons (by omega : b < b + 1),
    pyRange_eq_nil (le_refl _)]

/-! ### Except -/

@[simp] theorem Except_bind_ok {ε α β : Type} (a : α) (f : α → Except ε β) :
    (Except.ok a >>= f) = f a := rfl

@[simp] theorem Except_bind_error {ε α β : Type} (e : ε) (f : α → Except ε β) :
    ((Except.error e : Except ε α) >>= f) = Except.error e := rfl

@[simp] theorem Except_pure {ε α : Type} (a : α) : (pure a : Except ε α) = .ok a := rfl

theorem bind_eq_ok {ε α β : Type} {x : Except ε α} {f : α → Except ε β} {b : β} :
    (x >>= f) = .ok b ↔ ∃ a, x = .ok a ∧ f a = .ok b := by
  cases x <;> simp

theorem pyAssert_eq_ok {b : Bool} {u : Unit} : pyAssert b = .ok u ↔ b = true := by
  cases b <;> simp [pyAssert]

theorem mapM_ok_iff {ε α β : Type} {f : α → Except ε β} {l : List α} {r : List β} :
    l.mapM f = .ok r ↔ List.Forall₂ (fun a b => f a = .ok b) l r := by
  induction l generalizing r with
  | nil => simp [eq_comm]
  | cons a t ih =>
    rw [List.mapM_cons, bind_eq_ok, List.forall₂_cons_left_iff]
    constructor
    · rintro ⟨b, hb, h⟩
      rw [bind_eq_ok] at h
      obtain ⟨bs, hbs, h⟩ := h
      simp only [Except_pure, Except.ok.injEq] at h
      exact ⟨b, bs, hb, ih.1 hbs, h.symm⟩
    · rintro ⟨b, bs, hb, hbs, rfl⟩
      exact ⟨b, hb, by rw [bind_eq_ok]; exact ⟨bs, ih.2 hbs, rfl⟩⟩

theorem mapM_ok_of_forall {ε α β : Type} {f : α → Except ε β} {g : α → β} {l : List α}
    (h : ∀ a ∈ l, f a = .ok (g a)) : l.mapM f = .ok (l.map g) := by
  rw [mapM_ok_iff]
  induction l with
  | nil => simp
  | cons a t ih =>
    simp only [List.map_cons, List.forall₂_cons]
    exact ⟨h a (by simp), ih fun b hb => h b (by simp [hb])⟩

theorem mapM_ok_length {ε α β : Type} {f : α → Except ε β} {l : List α} {r : List β}
    (h : l.mapM f = .ok r) : r.length = l.length :=
  (List.Forall₂.length_eq (mapM_ok_iff.1 h)).symm

/-! ### Dictionaries -/

namespace Dict
variable {K V : Type} [DecidableEq K]

theorem get?_set_self (d : Dict K V) (k : K) (v : V) : (d.set k v).get? k = some v := by
  induction d with
  | nil => simp [set, get?]
  | cons p t ih =>
    obtain ⟨k', v'⟩ := p
    by_cases h : k' = k <;> simp [set, get?, h, ih]

theorem get?_set_ne (d : Dict K V) {k k' : K} (v : V) (h : k' ≠ k) :
    (d.set k v).get? k' = d.get? k' := by
  induction d with
  | nil => simp [set, get?, Ne.symm h]
  | cons p t ih =>
    obtain ⟨k0, v0⟩ := p
    by_cases h0 : k0 = k
    · subst h0; simp [set, get?, Ne.symm h]
    · by_cases h1 : k0 = k'
      · subst h1; simp [set, get?, h0]
      · simp [set, get?, h0, h1, ih]

theorem get?_set (d : Dict K V) (k k' : K) (v : V) :
    (d.set k v).get? k' = if k' = k then some v else d.get? k' := by
  by_cases h : k' = k
  · subst h; simp [get?_set_self]
  · simp [h, get?_set_ne d v h]

theorem get?_eq_none_iff {d : Dict K V} {k : K} : d.get? k = none ↔ k ∉ d.keys := by
  induction d with
  | nil => simp [get?, keys]
  | cons p t ih =>
    obtain ⟨k', v'⟩ := p
    by_cases h : k' = k
    · simp [get?, keys, h]
    · simp only [get?, h, if_false, ih, keys, List.map_cons, List.mem_cons, not_or]
      exact ⟨fun hh => ⟨fun e => h e.symm, hh⟩, fun hh => hh.2⟩

theorem mem_keys_iff {d : Dict K V} {k : K} : k ∈ d.keys ↔ ∃ v, d.get? k = some v := by
  rw [← not_iff_not, ← get?_eq_none_iff]
  cases d.get? k <;> simp

theorem mem_of_get? {d : Dict K V} {k : K} {v : V} (h : d.get? k = some v) : (k, v) ∈ d := by
  induction d with
  | nil => simp [get?] at h
  | cons p t ih =>
    obtain ⟨k', v'⟩ := p
    by_cases hk : k' = k
    · simp [get?, hk] at h; simp [hk, h]
    · simp only [get?, hk, if_false] at h; exact List.mem_cons_of_mem _ (ih h)

theorem get?_of_mem {d : Dict K V} (hd : d.keys.Nodup) {k : K} {v : V} (h : (k, v) ∈ d) :
    d.get? k = some v := by
  induction d with
  | nil => simp at h
  | cons p t ih =>
    obtain ⟨k', v'⟩ := p
    simp only [keys, List.map_cons, List.nodup_cons] at hd
    rcases List.mem_cons.1 h with h | h
    · simp only [Prod.mk.injEq] at h; simp [get?, h.1, h.2]
    · have hne : k' ≠ k := by
        rintro rfl; exact hd.1 (List.mem_map.2 ⟨_, h, rfl⟩)
      simp [get?, hne, ih hd.2 h]

theorem keys_set_of_mem {d : Dict K V} {k : K} (v : V) (h : k ∈ d.keys) :
    (d.set k v).keys = d.keys := by
  induction d with
  | nil => simp [keys] at h
  | cons p t ih =>
    obtain ⟨k', v'⟩ := p
    by_cases hk : k' = k
    · simp [set, keys, hk]
    · have : k ∈ keys t := by
        simp only [keys, List.map_cons, List.mem_cons] at h
        exact h.resolve_left (fun e => hk e.symm)
      simp only [keys] at ih this ⊢
      simp [set, hk, ih this]

theorem set_of_not_mem {d : Dict K V} {k : K} (v : V) (h : k ∉ d.keys) :
    d.set k v = d ++ [(k, v)] := by
  induction d with
  | nil => simp [set]
  | cons p t ih =>
    obtain ⟨k', v'⟩ := p
    simp only [keys, List.map_cons, List.mem_cons, not_or] at h
    have h1 : k' ≠ k := fun e => h.1 e.symm
    simp [set, h1, ih h.2]

theorem keys_set_of_not_mem {d : Dict K V} {k : K} (v : V) (h : k ∉ d.keys) :
    (d.set k v).keys = d.keys ++ [k] := by
  rw [set_of_not_mem v h]; simp [keys]

theorem keys_set (d : Dict K V) (k : K) (v : V) :
    (d.set k v).keys = if k ∈ d.keys then d.keys else d.keys ++ [k] := by
  split
  · exact keys_set_of_mem v ‹_›
  · exact keys_set_of_not_mem v ‹_›

theorem nodup_keys_set {d : Dict K V} (hd : d.keys.Nodup) (k : K) (v : V) :
    (d.set k v).keys.Nodup := by
  rw [keys_set]
  split
  · exact hd
  · rename_i h
    rw [List.nodup_append]
    refine ⟨hd, by simp, ?_⟩
    intro a ha b hb
    simp only [List.mem_singleton] at hb
    subst hb; rintro rfl; exact h ha

theorem get?_erase_ne (d : Dict K V) {k k' : K} (h : k' ≠ k) :
    (d.erase k).get? k' = d.get? k' := by
  induction d with
  | nil => simp [erase]
  | cons p t ih =>
    obtain ⟨k0, v0⟩ := p
    by_cases h0 : k0 = k
    · subst h0; simp [erase, get?, Ne.symm h]
    · by_cases h1 : k0 = k'
      · subst h1; simp [erase, get?, h0]
      · simp [erase, get?, h0, h1, ih]

theorem get?_erase_self {d : Dict K V} (hd : d.keys.Nodup) (k : K) : (d.erase k).get? k = none := by
  induction d with
  | nil => simp [erase, get?]
  | cons p t ih =>
    obtain ⟨k0, v0⟩ := p
    simp only [keys, List.map_cons, List.nodup_cons] at hd
    by_cases h0 : k0 = k
    · subst h0
      simp only [erase, if_true]
      exact get?_eq_none_iff.2 hd.1
    · simp only [erase, h0, if_false, get?]
      exact ih hd.2

theorem keys_erase_sublist (d : Dict K V) (k : K) : (d.erase k).keys.Sublist d.keys := by
  induction d with
  | nil => simp [erase]
  | cons p t ih =>
    obtain ⟨k0, v0⟩ := p
    by_cases h0 : k0 = k
    · simp [erase, h0, keys]
    · simp only [keys] at ih ⊢
      simp only [erase, h0, if_false, List.map_cons]
      exact ih.cons_cons _

theorem getE_eq_ok {d : Dict K V} {k : K} {v : V} : d.getE k = .ok v ↔ d.get? k = some v := by
  unfold getE; cases d.get? k <;> simp

end Dict

/-! ### npGet -/

theorem npGet_nonneg {α : Type} {a : List α} {i : Int} (h : 0 ≤ i) {x : α} :
    npGet a i = .ok x ↔ a[i.toNat]? = some x := by
  unfold npGet
  have : ¬ i < 0 := by omega
  simp only [this, if_false]
  cases h' : a[i.toNat]? <;> simp

theorem npGet_nat {α : Type} {a : List α} {k : Nat} {x : α} :
    npGet a (k : Int) = .ok x ↔ a[k]? = some x := by
  rw [npGet_nonneg (by omega)]; simp

theorem npGet_of_lt {α : Type} {a : List α} {k : Nat} (h : k < a.length) :
    npGet a (k : Int) = .ok a[k] := by
  rw [npGet_nat]; simp [h]

/-- A computation that is not an exception returns something. -/
theorem exists_of_isOk {ε α : Type} {x : Except ε α} (h : x.isOk = true) : ∃ r, x = .ok r := by
  cases x with
  | ok r => exact ⟨r, rfl⟩
  | error e => cases h

end Cfd
