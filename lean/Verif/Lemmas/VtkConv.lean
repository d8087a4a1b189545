import Verif.Lemmas.VtkLocate
import Verif.Lemmas.Ic3Again

/-!
# Lemmas on the arrays computed by `vtk_zconvolution`
-/

namespace Cfd.Vtk
open Cfd.Spec Cfd.Spec.Vtk

variable {P K V : Type}

/-- Dictionaries of options have distinct keys. -/
def ItemWF : SelItem → Prop
  | .word _ => True
  | .opts d => d.keys.Nodup

theorem applyItem_get? (d : Dict String OptVal) (i : SelItem) (h : ItemWF i) (key : String) :
    (applyItem d i).get? key = (mention i key).or (d.get? key) := by
  cases i with
  | word s =>
    simp only [applyItem, mention]
    split
    · rw [Dict.get?_set]
      split <;> simp
    · rw [Dict.get?_set]
      by_cases e : key = s
      · subst e; simp
      · simp [e, Ne.symm e]
  | opts o =>
    simp only [applyItem, mention]
    rw [Ic3.foldl_set_dict o d h]
    cases o.get? key <;> rfl

theorem items_get? (items : List SelItem) (h : ∀ i ∈ items, ItemWF i) (d : Dict String OptVal) (key : String) :
    (items.foldl applyItem d).get? key = resolved d items key := by
  unfold resolved
  induction items generalizing d with
  | nil => rfl
  | cons i t ih =>
    rw [List.foldl_cons, ih (fun j hj => h j (List.mem_cons_of_mem _ hj)), List.reverse_cons, List.findSome?_append,
      applyItem_get? d i (h i (by simp)), Option.or_assoc]
    congr 1
    simp

/-- The directives of a selection. -/
theorem directives_some (names : List String) (glob : Dict String OptVal) (sel : Dict String (List SelItem))
    (hn : sel.keys.Nodup) (hs : ∀ k ∈ sel.keys, k ∈ names) :
    directives names glob (some sel) = .ok (sel.map fun p => (p.1, p.2.foldl applyItem glob)) := by
  have key : ∀ (l : Dict String (List SelItem)) (d : Dict String (Dict String OptVal)), (d.keys ++ l.keys).Nodup →
      (∀ k ∈ l.keys, k ∈ names) →
      l.foldlM (fun (d : Dict String (Dict String OptVal)) p =>
        if p.1 ∈ names then (.ok (d.set p.1 (p.2.foldl applyItem glob)) : Py _) else .error .value) d =
        .ok (d ++ l.map fun p => (p.1, p.2.foldl applyItem glob)) := by
    intro l
    induction l with
    | nil => intro d _ _; simp [pure, Except.pure]
    | cons p t ih =>
      intro d hnd hin
      have hp : p.1 ∉ d.keys := by
        intro h
        rw [List.nodup_append] at hnd
        exact hnd.2.2 _ h _ (by simp [Dict.keys]) rfl
      rw [List.foldlM_cons, if_pos (hin p.1 (by simp [Dict.keys]))]
      simp only [Except_bind_ok]
      rw [Dict.set_of_not_mem _ hp, ih]
      · simp
      · simpa [Dict.keys] using hnd
      · intro k hk; exact hin k (by simp only [Dict.keys, List.map_cons, List.mem_cons]; exact .inr hk)
  unfold directives
  simp only
  rw [key sel [] (by simpa [Dict.keys] using hn) hs]
  rfl

theorem directives_none (names : List String) (glob : Dict String OptVal) (hn : names.Nodup) :
    directives names glob none = .ok (names.map fun n => (n, glob)) := by
  unfold directives
  simp only
  have := Ic3.foldl_set_new names id (fun _ => glob) [] (by simpa [Dict.keys] using hn)
  simp only [id_eq, List.nil_append] at this
  rw [this]

/-- The five options are there. -/
def FullOptions (o : Dict String OptVal) : Prop :=
  ∀ k ∈ ["avg", "rms", "phase", "nmode", "snapshot"], ∃ v, o.get? k = some v

theorem resolved_full (glob : Dict String OptVal) (items : List SelItem) (h : FullOptions glob) (o : Dict String OptVal)
    (ho : ∀ key, o.get? key = resolved glob items key) : FullOptions o := by
  intro k hk
  obtain ⟨v, hv⟩ := h k hk
  rw [ho, resolved, hv]
  cases items.reverse.findSome? fun i => mention i k with
  | none => exact ⟨v, rfl⟩
  | some w => exact ⟨w, rfl⟩

section Reduce

theorem truth_iff (v : OptVal) : v.truth = true ↔ IsSet v := by
  cases v with
  | bool b => exact Iff.rfl
  | int n => exact decide_eq_true_iff

theorem toInt_eq (v : OptVal) : v.toInt = numberOf v := by
  cases v <;> rfl

theorem reduceVar_ok (N : ZNum P K V) (nplane : Nat) (name : String) (o : Dict String OptVal) (cols : List (List V))
    (hfull : FullOptions o) (hmode : ∀ v, o.get? "nmode" = some v → numberOf v < nplane) (hcols : ∀ c ∈ cols, c ≠ []) :
    ∃ arrays, reduceVar N nplane name o cols = .ok arrays ∧
      ∀ n w, (n, w) ∈ arrays ↔ ∃ p, Asked o.get? p ∧ n = p.label name ∧ w.map some = cols.map (p.value N) := by
  obtain ⟨va, ha⟩ := hfull "avg" (by simp)
  obtain ⟨vr, hr⟩ := hfull "rms" (by simp)
  obtain ⟨vp, hp⟩ := hfull "phase" (by simp)
  obtain ⟨vn, hn⟩ := hfull "nmode" (by simp)
  obtain ⟨vs, hs⟩ := hfull "snapshot" (by simp)
  have hlt := hmode vn hn
  unfold reduceVar
  simp only [Dict.getE_eq_ok.2 ha, Dict.getE_eq_ok.2 hr, Dict.getE_eq_ok.2 hp, Dict.getE_eq_ok.2 hn,
    Dict.getE_eq_ok.2 hs, Except_bind_ok, truth_iff, toInt_eq]
  rw [if_neg (by omega)]
  refine ⟨_, rfl, ?_⟩
  have hsome : ∀ (f : List V → V) (w : List V), w.map some = cols.map (fun c => some (f c)) ↔ w = cols.map f := by
    intro f w
    have : cols.map (fun c => some (f c)) = (cols.map f).map some := by rw [List.map_map]; rfl
    rw [this]
    exact ⟨fun h => (List.map_injective_iff.2 (Option.some_injective V)) h, fun h => by rw [h]⟩
  have hhead : ∀ w : List V, w.map some = cols.map List.head? ↔ w = cols.filterMap List.head? := by
    intro w
    have : cols.map List.head? = (cols.filterMap List.head?).map some := by
      clear hsome
      induction cols with
      | nil => rfl
      | cons c t ih =>
        have hc := hcols c (by simp)
        cases c with
        | nil => exact absurd rfl hc
        | cons x y => simp [ih fun c' hc' => hcols c' (List.mem_cons_of_mem _ hc')]
    rw [this]
    exact ⟨fun h => (List.map_injective_iff.2 (Option.some_injective V)) h, fun h => by rw [h]⟩
  intro n w
  simp only [List.mem_append, List.mem_flatMap, List.mem_range, List.mem_cons]
  constructor
  · rintro (((h | h) | h) | h)
    · split at h
      · rename_i ht
        simp only [List.mem_singleton, Prod.mk.injEq] at h
        exact ⟨.snapshot, ⟨vs, hs, ht⟩, h.1, (hhead w).2 h.2⟩
      · cases h
    · split at h
      · rename_i ht
        simp only [List.mem_singleton, Prod.mk.injEq] at h
        exact ⟨.avg, ⟨va, ha, ht⟩, h.1, (hsome N.vavg w).2 h.2⟩
      · cases h
    · obtain ⟨k, hk, h | h⟩ := h
      · simp only [Prod.mk.injEq] at h
        exact ⟨.mode (k + 1), ⟨by omega, vn, hn, by omega⟩, h.1, (hsome (N.vmode (k + 1)) w).2 h.2⟩
      · split at h
        · rename_i ht
          simp only [List.mem_singleton, Prod.mk.injEq] at h
          exact ⟨.phase (k + 1), ⟨⟨by omega, vn, hn, by omega⟩, vp, hp, ht⟩, h.1, (hsome (N.vphase (k + 1)) w).2 h.2⟩
        · cases h
    · split at h
      · rename_i ht
        simp only [List.mem_singleton, Prod.mk.injEq] at h
        exact ⟨.rms, ⟨vr, hr, ht⟩, h.1, (hsome N.vstd w).2 h.2⟩
      · cases h
  · rintro ⟨p, hask, hlab, hval⟩
    cases p with
    | snapshot =>
      obtain ⟨v, h1, h2⟩ := hask
      rw [hs] at h1
      obtain rfl := Option.some.inj h1
      left; left; left
      rw [if_pos h2, List.mem_singleton, (hhead w).1 hval, hlab]; rfl
    | avg =>
      obtain ⟨v, h1, h2⟩ := hask
      rw [ha] at h1
      obtain rfl := Option.some.inj h1
      left; left; right
      rw [if_pos h2, List.mem_singleton, (hsome _ w).1 hval, hlab]; rfl
    | mode k =>
      obtain ⟨h0, v, h1, h2⟩ := hask
      rw [hn] at h1
      obtain rfl := Option.some.inj h1
      left; right
      refine ⟨k - 1, by omega, .inl ?_⟩
      have : k - 1 + 1 = k := by omega
      rw [this, (hsome _ w).1 hval, hlab]; rfl
    | phase k =>
      obtain ⟨⟨h0, v, h1, h2⟩, v', h3, h4⟩ := hask
      rw [hn] at h1
      obtain rfl := Option.some.inj h1
      rw [hp] at h3
      obtain rfl := Option.some.inj h3
      left; right
      refine ⟨k - 1, by omega, .inr ?_⟩
      have : k - 1 + 1 = k := by omega
      rw [if_pos h4, this, List.mem_singleton, (hsome _ w).1 hval, hlab]; rfl
    | rms =>
      obtain ⟨v, h1, h2⟩ := hask
      rw [hr] at h1
      obtain rfl := Option.some.inj h1
      right
      rw [if_pos h2, List.mem_singleton, (hsome _ w).1 hval, hlab]; rfl

theorem columns_ok (v : List V) (ik : List (List Nat)) (size : Nat) (hr : ∀ r ∈ ik, r.length = size)
    (hi : ∀ r ∈ ik, ∀ i ∈ r, i < v.length) :
    columns v ik size = .ok ((List.range size).map (column v ik)) ∧
      ∀ j < size, (column v ik j).length = ik.length := by
  have key : ∀ j < size, ∀ l : List (List Nat), (∀ r ∈ l, r ∈ ik) →
      l.mapM (fun (r : List Nat) => do
        let i ← npGet r (j : Int)
        npGet v (i : Int)) = .ok (l.filterMap fun r => r[j]?.bind fun i => v[i]?) ∧
      (l.filterMap fun r => r[j]?.bind fun i => v[i]?).length = l.length := by
    intro j hj l
    induction l with
    | nil => intro _; exact ⟨rfl, rfl⟩
    | cons r t ih =>
      intro h
      have hrm := h r (by simp)
      obtain ⟨e1, e2⟩ := ih fun r' hr' => h r' (List.mem_cons_of_mem _ hr')
      have hjr : j < r.length := by rw [hr r hrm]; exact hj
      have hiv := hi r hrm r[j] (List.getElem_mem _)
      have e3 : (r[j]?.bind fun i => v[i]?) = some v[r[j]] := by
        rw [List.getElem?_eq_getElem hjr, Option.bind_some, List.getElem?_eq_getElem hiv]
      constructor
      · rw [List.mapM_cons, npGet_of_lt hjr]
        simp only [Except_bind_ok]
        rw [npGet_of_lt hiv]
        simp only [Except_bind_ok]
        rw [e1]
        simp only [Except_bind_ok, List.filterMap_cons, e3]
        rfl
      · simp only [List.filterMap_cons, e3, List.length_cons, e2]
  constructor
  · unfold columns
    apply mapM_ok_of_forall
    intro j hj
    exact (key j (List.mem_range.1 hj) ik fun r h => h).1
  · intro j hj
    exact (key j hj ik fun r h => h).2

/-- Storing arrays under distinct names. -/
theorem foldl_set_mem (l : List (String × List V)) (d : Dict String (List V)) (hf : ∀ n w w', (n, w) ∈ l → (n, w') ∈ l → w = w')
    (n : String) (w : List V) :
    (l.foldl (fun (d : Dict String (List V)) q => d.set q.1 q.2) d).get? n = some w ↔
      (n, w) ∈ l ∨ ((∀ w', (n, w') ∉ l) ∧ d.get? n = some w) := by
  induction l generalizing d with
  | nil => simp
  | cons q t ih =>
    rw [List.foldl_cons, ih (d.set q.1 q.2) fun n w w' h h' => hf n w w' (List.mem_cons_of_mem _ h) (List.mem_cons_of_mem _ h')]
    obtain ⟨a, b⟩ := q
    simp only [Dict.get?_set, List.mem_cons, Prod.mk.injEq, not_or]
    by_cases e : n = a
    · subst e
      simp only [if_true, true_and, Option.some.injEq]
      constructor
      · rintro (h | ⟨h1, h2⟩)
        · exact .inl (.inr h)
        · exact .inl (.inl h2.symm)
      · rintro ((h | h) | ⟨h1, h2⟩)
        · subst h
          by_cases hex : ∃ w', (n, w') ∈ t
          · obtain ⟨w', hw'⟩ := hex
            left
            rw [hf n w w' (by simp) (List.mem_cons_of_mem _ hw')]
            exact hw'
          · right
            exact ⟨fun w' h => hex ⟨w', h⟩, rfl⟩
        · exact .inl h
        · exact absurd rfl (h1 b).1
    · simp only [e, if_false, false_and, false_or, not_false_eq_true, true_and]

/-- The arrays of all the variables, when their names are distinct. -/
theorem zoutputs_ok (N : ZNum P K V) (data : Dict String (List V)) (nplane size ncell : Nat) (ik : List (List Nat))
    (dirs : Dict String (Dict String OptVal)) (hlen : ∀ p ∈ data, p.2.length = ncell)
    (hr : ∀ r ∈ ik, r.length = size) (hi : ∀ r ∈ ik, ∀ i ∈ r, i < ncell) (hik : ik ≠ [])
    (hin : ∀ p ∈ dirs, p.1 ∈ data.keys) (hfull : ∀ p ∈ dirs, FullOptions p.2)
    (hmode : ∀ p ∈ dirs, ∀ v, p.2.get? "nmode" = some v → numberOf v < nplane)
    (hdist : ∀ p ∈ dirs, ∀ q ∈ dirs, ∀ a b : Product, Asked p.2.get? a → Asked q.2.get? b →
      a.label p.1 = b.label q.1 → p = q ∧ a = b) :
    ∃ out, zoutputs N data nplane size ik dirs = .ok out ∧ ∀ n w, out.get? n = some w ↔
      ∃ p ∈ dirs, ∃ a v, Asked p.2.get? a ∧ n = a.label p.1 ∧ data.get? p.1 = some v ∧
        w.map some = (List.range size).map fun j => a.value N (column v ik j) := by
  -- one variable
  have hone : ∀ p ∈ dirs, ∃ (v : List V) (arrays : List (String × List V)), data.get? p.1 = some v ∧ (∀ out : Dict String (List V),
      (do
        let v ← data.getE p.1
        let cols ← columns v ik size
        let arrays ← reduceVar N nplane p.1 p.2 cols
        return arrays.foldl (fun (out : Dict String (List V)) (q : String × List V) => out.set q.1 q.2) out : Py _) =
        .ok (arrays.foldl (fun (out : Dict String (List V)) (q : String × List V) => out.set q.1 q.2) out)) ∧
      ∀ (n : String) (w : List V), (n, w) ∈ arrays ↔ ∃ a : Product, Asked p.2.get? a ∧ n = a.label p.1 ∧
        w.map some = (List.range size).map fun j => a.value N (column v ik j) := by
    intro p hp
    obtain ⟨v, hv⟩ := Dict.mem_keys_iff.1 (hin p hp)
    have hvl := hlen _ (Dict.mem_of_get? hv)
    obtain ⟨hc, hcl⟩ := columns_ok v ik size hr (by rw [hvl]; exact hi)
    obtain ⟨arrays, ha, hm⟩ := reduceVar_ok N nplane p.1 p.2 ((List.range size).map (column v ik)) (hfull p hp)
      (hmode p hp) (by
        intro c hcm
        obtain ⟨j, hj, rfl⟩ := List.mem_map.1 hcm
        have := hcl j (List.mem_range.1 hj)
        intro e
        rw [e] at this
        exact hik (List.length_eq_zero_iff.1 this.symm))
    refine ⟨v, arrays, hv, ?_, ?_⟩
    · intro out
      rw [Dict.getE_eq_ok.2 hv]
      simp only [Except_bind_ok]
      rw [hc]
      simp only [Except_bind_ok]
      rw [ha]
      rfl
    · intro n w
      rw [hm]
      simp only [List.map_map, Function.comp_def]
  have key : ∀ (l : Dict String (Dict String OptVal)) (out : Dict String (List V)), (∀ p ∈ l, p ∈ dirs) →
      ∃ out', l.foldlM (fun (out : Dict String (List V)) p => do
          let v ← data.getE p.1
          let cols ← columns v ik size
          let arrays ← reduceVar N nplane p.1 p.2 cols
          return arrays.foldl (fun (out : Dict String (List V)) (q : String × List V) => out.set q.1 q.2) out) out = .ok out' ∧
        ∀ n w, out'.get? n = some w ↔
          (∃ p ∈ l, ∃ a v, Asked p.2.get? a ∧ n = a.label p.1 ∧ data.get? p.1 = some v ∧
            w.map some = (List.range size).map fun j => a.value N (column v ik j)) ∨
          ((∀ p ∈ l, ∀ a, Asked p.2.get? a → n ≠ a.label p.1) ∧ out.get? n = some w) := by
    intro l
    induction l with
    | nil => intro out _; exact ⟨out, rfl, by simp⟩
    | cons p t ih =>
      intro out hl
      have hp := hl p (by simp)
      obtain ⟨v, arrays, hv, he, hm⟩ := hone p hp
      have hval : ∀ a : Product, ∃ w : List V, w.map some = (List.range size).map fun j => a.value N (column v ik j) := by
        intro a
        have hvl := hlen _ (Dict.mem_of_get? hv)
        have hcl := (columns_ok v ik size hr (by rw [hvl]; exact hi)).2
        cases a with
        | snapshot =>
          refine ⟨((List.range size).map fun j => (column v ik j)).filterMap List.head?, ?_⟩
          have : ∀ l : List Nat, (∀ j ∈ l, j < size) → ((l.map fun j => (column v ik j)).filterMap List.head?).map some =
              l.map fun j => (column v ik j).head? := by
            intro l
            induction l with
            | nil => intro _; rfl
            | cons j t ih =>
              intro h
              have hj := hcl j (h j (by simp))
              cases hc : column v ik j with
              | nil =>
                rw [hc] at hj
                exact absurd (List.length_eq_zero_iff.1 hj.symm) hik
              | cons x y =>
                simp only [List.map_cons, List.filterMap_cons, hc, List.head?_cons]
                rw [ih fun j' hj' => h j' (List.mem_cons_of_mem _ hj')]
          exact this _ fun j hj => List.mem_range.1 hj
        | avg => exact ⟨(List.range size).map fun j => N.vavg (column v ik j), by simp [Product.value, Function.comp_def]⟩
        | mode k => exact ⟨(List.range size).map fun j => N.vmode k (column v ik j), by simp [Product.value, Function.comp_def]⟩
        | phase k => exact ⟨(List.range size).map fun j => N.vphase k (column v ik j), by simp [Product.value, Function.comp_def]⟩
        | rms => exact ⟨(List.range size).map fun j => N.vstd (column v ik j), by simp [Product.value, Function.comp_def]⟩
      have hfun : ∀ n w w', (n, w) ∈ arrays → (n, w') ∈ arrays → w = w' := by
        intro n w w' h h'
        obtain ⟨a, h1, h2, h3⟩ := (hm n w).1 h
        obtain ⟨a', h1', h2', h3'⟩ := (hm n w').1 h'
        have := (hdist p hp p hp a a' h1 h1' (by rw [← h2, ← h2'])).2
        subst this
        exact (List.map_injective_iff.2 (Option.some_injective V)) (h3.trans h3'.symm)
      obtain ⟨out', e, hout⟩ := ih (arrays.foldl (fun (out : Dict String (List V)) (q : String × List V) => out.set q.1 q.2) out)
        fun q hq => hl q (List.mem_cons_of_mem _ hq)
      refine ⟨out', ?_, ?_⟩
      · rw [List.foldlM_cons, he out]
        exact e
      · intro n w
        rw [hout, foldl_set_mem arrays out hfun]
        constructor
        · rintro (⟨q, hq, h⟩ | ⟨h1, h2 | ⟨h2, h3⟩⟩)
          · exact .inl ⟨q, List.mem_cons_of_mem _ hq, h⟩
          · obtain ⟨a, g1, g2, g3⟩ := (hm n w).1 h2
            exact .inl ⟨p, by simp, a, v, g1, g2, hv, g3⟩
          · right
            refine ⟨?_, h3⟩
            intro q hq a ha hn
            rcases List.mem_cons.1 hq with rfl | hq
            · obtain ⟨w', hw'⟩ := hval a
              exact h2 w' ((hm n w').2 ⟨a, ha, hn, hw'⟩)
            · exact h1 q hq a ha hn
        · rintro (⟨q, hq, a, v', g1, g2, g3, g4⟩ | ⟨h1, h2⟩)
          · rcases List.mem_cons.1 hq with rfl | hq
            · rw [hv] at g3
              obtain rfl := Option.some.inj g3
              by_cases hex : ∃ q' ∈ t, ∃ a', Asked q'.2.get? a' ∧ n = a'.label q'.1
              · obtain ⟨q', hq', a', ha', hn'⟩ := hex
                obtain ⟨e1, e2⟩ := hdist q hp q' (hl q' (List.mem_cons_of_mem _ hq')) a a' g1 ha' (by rw [← g2, hn'])
                subst e1; subst e2
                exact .inl ⟨q, hq', a, v, g1, g2, hv, g4⟩
              · right
                refine ⟨fun q' hq' a' ha' hn' => hex ⟨q', hq', a', ha', hn'⟩, .inl ?_⟩
                exact (hm n w).2 ⟨a, g1, g2, g4⟩
            · exact .inl ⟨q, hq, a, v', g1, g2, g3, g4⟩
          · right
            refine ⟨fun q hq => h1 q (List.mem_cons_of_mem _ hq), .inr ⟨?_, h2⟩⟩
            intro w' hw'
            obtain ⟨a, g1, g2, _⟩ := (hm n w').1 hw'
            exact h1 p (by simp) a g1 g2
  obtain ⟨out, e, h⟩ := key dirs [] fun p hp => hp
  refine ⟨out, e, ?_⟩
  intro n w
  rw [h]
  constructor
  · rintro (h | ⟨_, h⟩)
    · exact h
    · cases h
  · exact .inl

end Reduce
end Cfd.Vtk
