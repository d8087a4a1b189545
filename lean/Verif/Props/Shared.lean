import Verif.Spec.Shared
import Verif.Lemmas.Basic

/-!
# Objects shared between the caller and the package (C78)
-/

namespace Cfd.Shared
open Spec.Shared

variable {V T : Type} [Zero T] [DecidableEq T]

theorem run_append (s : State V T) (a b : List (Op V T)) : run s (a ++ b) = run (run s a) b := List.foldl_append

theorem run_steps (s : State V T) (ops : List (Op V T)) :
    ∃ new, (run s ops).steps = s.steps ++ new ∧ new.length = (ops.filter isAdd).length := by
  induction ops generalizing s with
  | nil => exact ⟨[], by simp [run], rfl⟩
  | cons op t ih =>
    obtain ⟨new, h1, h2⟩ := ih (step s op)
    cases op with
    | add r time => exact ⟨r :: new, by rw [run, List.foldl_cons]; simpa [run, step] using h1, by
        rw [List.filter_cons_of_pos rfl]; simp [h2]⟩
    | put r n v => exact ⟨new, by rw [run, List.foldl_cons]; simpa [run, step] using h1, by
        rw [List.filter_cons_of_neg (by simp [isAdd])]; exact h2⟩

theorem run_untouched (s : State V T) (ops : List (Op V T)) (r : Nat) (h : ∀ op ∈ ops, ¬ Changes r op) :
    (run s ops).heap r = s.heap r := by
  induction ops generalizing s with
  | nil => rfl
  | cons op t ih =>
    rw [run, List.foldl_cons]
    have := ih (step s op) fun o ho => h o (List.mem_cons_of_mem _ ho)
    rw [run] at this
    rw [this]
    have h0 := h op List.mem_cons_self
    cases op with
    | add q time =>
      simp only [step, Heap.change]
      split
      · rename_i hq
        subst hq
        cases time with
        | none => rfl
        | some x =>
          simp only [stamp]
          split
          · rfl
          · rename_i hx
            exact absurd ⟨rfl, x, rfl, hx⟩ h0
      · rfl
    | put q n v =>
      simp only [step, Heap.change]
      split
      · rename_i hq
        exact absurd hq.symm h0
      · rfl

/-- What is written for the `i`-th added step is what its dictionary holds at the end. -/
theorem dump_getElem (h0 : Heap V T) {ops before later : List (Op V T)} {r : Nat} {time : Option T} {i : Nat}
    (ha : Added ops before later r time i) :
    (dump (run ⟨h0, []⟩ ops))[i]? = some ((run ⟨h0, []⟩ ops).heap r) := by
  obtain ⟨hs, hp⟩ := ha
  have h1 : run ⟨h0, []⟩ ops = run (step (run ⟨h0, []⟩ before) (.add r time)) later := by
    rw [hs, run_append]; rfl
  obtain ⟨new, e1, e2⟩ := run_steps (⟨h0, []⟩ : State V T) before
  obtain ⟨new', e3, _⟩ := run_steps (step (run ⟨h0, []⟩ before) (.add r time)) later
  have h2 : (run ⟨h0, []⟩ ops).steps[i]? = some r := by
    rw [h1, e3]
    simp only [step, e1, List.nil_append]
    rw [List.append_assoc, List.getElem?_append_right (by omega)]
    simp [e2, hp]
  unfold dump
  rw [List.getElem?_map, h2]
  rfl

/-- C78 (partial): the data and the time written for a step are those of its addition, when the dictionary given is not changed
afterwards: neither by the caller, nor by adding it again with another time. Missing: a dictionary used again. -/
theorem C78_step_partial (h0 : Heap V T) {ops before later : List (Op V T)} {r : Nat} {time : Option T} {i : Nat}
    (ha : Added ops before later r time i) (hl : ∀ op ∈ later, ¬ Changes r op) :
    (dump (run ⟨h0, []⟩ ops))[i]? = some (stamp time ((run ⟨h0, []⟩ before).heap r)) := by
  rw [dump_getElem h0 ha]
  congr 1
  have h1 : run ⟨h0, []⟩ ops = run (step (run ⟨h0, []⟩ before) (.add r time)) later := by
    rw [ha.split, run_append]; rfl
  rw [h1, run_untouched _ _ _ hl]
  simp [step, Heap.change]

/-- C78: the same dictionary added again with a time that is not zero: the time of the earlier step is lost. -/
theorem C78_same_dictionary_refuted (h0 : Heap V T) (before later : List (Op V T)) (r : Nat) (time : Option T) (t : T)
    (ht : t ≠ 0) :
    ∃ data, (dump (run ⟨h0, []⟩ (before ++ .add r time :: later ++ [.add r (some t)])))[(before.filter isAdd).length]? =
      some (data, some t) := by
  rw [dump_getElem h0 (r := r) (time := time) (before := before) (later := later ++ [.add r (some t)]) ⟨by simp, rfl⟩, run_append]
  refine ⟨((run ⟨h0, []⟩ (before ++ .add r time :: later)).heap r).1, ?_⟩
  generalize run ⟨h0, []⟩ (before ++ .add r time :: later) = s
  simp only [run, List.foldl_cons, List.foldl_nil, step, Heap.change, if_true, stamp, if_neg ht]

/-- One array, added at times 1 and 2 in two dictionaries, and in the same one. -/
def exHeap : Heap Nat Int := fun r => ([("p", r)], none)

example : (dump (run ⟨exHeap, []⟩ [.add 4 (some 1), .put 5 "u" 7, .add 5 (some 2)]))[0]? = some ([("p", 4)], some 1) :=
  C78_step_partial exHeap (before := []) ⟨rfl, rfl⟩ (by simp [Changes])
example : dump (run ⟨exHeap, []⟩ [.add 4 (some 1), .put 4 "u" 7, .add 4 (some 2)]) =
    [([("p", 4), ("u", 7)], some 2), ([("p", 4), ("u", 7)], some 2)] := by decide
example := C78_same_dictionary_refuted exHeap [.add 3 none] [.put 4 "u" 7] 4 (some 1) 2 (by decide)

/-! ## Lists of names -/

/-- C78: a list of names that holds 'time' once and another name cannot be used a second time: both spectra raise ValueError. -/
theorem C78_names_refuted (samples : Dict String Nat) (names : List String) (window : Nat) (lo hi : Option Int)
    (ht : "time" ∈ samples.keys) (h1 : names.count "time" = 1) (h2 : names ≠ ["time"]) :
    (spectrogramCall "timeevol" samples (spectrogramCall "timeevol" samples names window).2 window).1 = .error .value ∧
    (spectrumCall "timeevol" samples (spectrumCall "timeevol" samples names lo hi).2 lo hi).1 = .error .value := by
  have hn : "time" ∉ names.erase "time" := by
    rw [← List.count_eq_zero, List.count_erase_self, h1]
  have hne : names.erase "time" ≠ [] := by
    intro h
    have hm : "time" ∈ names := List.count_pos_iff.1 (by omega)
    have hl : names.length = 1 := by
      have := List.length_erase_of_mem hm
      rw [h, List.length_nil] at this
      have := List.length_pos_of_mem hm
      omega
    obtain ⟨x, rfl⟩ := List.length_eq_one_iff.1 hl
    rw [List.mem_singleton] at hm
    exact h2 (by rw [hm])
  have hr : removeTime (names.erase "time") = .error .value := by
    unfold removeTime
    rw [if_neg hn]
  refine ⟨?_, ?_⟩
  · simp only [spectrogramCall, spectrogram]
    rw [if_neg hne, hr]
    rfl
  · have hs : (spectrumCall "timeevol" samples names lo hi).2 = names.erase "time" := by simp [spectrumCall, ht]
    rw [hs]
    simp only [spectrumCall, spectrum]
    rw [if_neg hne, hr]
    obtain ⟨n, hn⟩ := Dict.mem_keys_iff.1 ht
    simp only [ht, decide_true, Bool.and_self, pyAssert]
    unfold Dict.getE
    rw [hn]
    rfl

/-- C78: with the list ['time'] alone, the second call computes all variables, the first none. -/
theorem C78_time_only_refuted (samples : Dict String Nat) (lo hi : Option Int) :
    (spectrumCall "timeevol" samples ["time"] lo hi).1 = spectrum "timeevol" samples ["time"] lo hi ∧
    ("time" ∈ samples.keys → (spectrumCall "timeevol" samples (spectrumCall "timeevol" samples ["time"] lo hi).2 lo hi).1 =
      spectrum "timeevol" samples samples.keys lo hi) := by
  refine ⟨rfl, fun ht => ?_⟩
  have hk : samples.keys ≠ [] := List.ne_nil_of_mem ht
  have hs : (spectrumCall "timeevol" samples ["time"] lo hi).2 = [] := by simp [spectrumCall, ht]
  rw [hs]
  simp only [spectrumCall, spectrum]
  simp [hk]

/-- C78: a spectrum refused because the data has no time evolution leaves the caller's list as it was, and raises again. -/
theorem C78_refused_names (trep : String) (samples : Dict String Nat) (names : List String) (lo hi : Option Int)
    (h : trep ≠ "timeevol" ∨ "time" ∉ samples.keys) :
    spectrumCall trep samples names lo hi = (.error .assertion, names) := by
  have hb : (decide (trep = "timeevol") && decide ("time" ∈ samples.keys)) = false := by
    rcases h with h | h
    · rw [decide_eq_false h, Bool.false_and]
    · rw [decide_eq_false h, Bool.and_false]
  have hn : ¬ (trep = "timeevol" ∧ "time" ∈ samples.keys) := fun ⟨h1, h2⟩ => h.elim (· h1) (· h2)
  unfold spectrumCall spectrum
  rw [hb, if_neg hn]
  rfl

example := C78_refused_names "spectrum" [("time", 11), ("p", 11)] ["time", "p"] none none (.inl (by decide))

example := C78_names_refuted [("time", 11), ("p", 11), ("u", 11)] ["time", "u"] 4 none none (by decide) (by decide) (by decide)
example : (spectrumCall "timeevol" [("time", 11), ("p", 11), ("u", 11)] ["time"] none none) = (.ok (11, []), []) ∧
    spectrumCall "timeevol" [("time", 11), ("p", 11), ("u", 11)] [] none none = (.ok (11, [("p", 11), ("u", 11)]), []) := by
  decide

end Cfd.Shared
