import Verif.Lemmas.VtkList
import Mathlib.Algebra.Order.Group.Int
import Mathlib.Algebra.Order.Group.Abs

/-!
# Series of VTK files in the cell order of the first one (C45)
-/

namespace Cfd.Vtk
open Cfd.Spec Cfd.Spec.Vtk

variable {P K V T : Type} [LinearOrder K]

/-- **C45.** If the cells of each file are those of the first one in any order, up to the tolerance, and distinct
cells are more than twice the tolerance apart, every file gives one step, in order, with its time (other than 0); the
value of its cell `i` is stored at the place of this cell in the first file. -/
theorem C45_series [Add K] [AddLeftMono K] [AddRightMono K] [Zero T] [DecidableEq T] {dist : P → P → K}
    (hd : IsDist dist) {tol : K} {nn : List P → P → Nat} (filter : List String) (f0 : File P V T)
    (rest : List (File P V T)) (hne : f0.centers ≠ []) (hnn : IsNearest dist f0.centers (nn f0.centers))
    (hsep : Separated dist tol f0.centers) (σ : File P V T → Nat → Nat)
    (hf : ∀ f ∈ f0 :: rest, SameCenters dist tol f0.centers f.centers (σ f) ∧ Complete filter f ∧ f.time ≠ some 0) :
    ∃ s, readSeries dist nn tol filter (f0 :: rest) = .ok s ∧
      List.Forall₂ (fun f st => InOrder filter f (σ f) st.1 ∧ st.2 = f.time) (f0 :: rest) s.steps := by
  have key : ∀ (l : List (File P V T)) (s0 : DataSetList (List V) T),
      (∀ f ∈ l, SameCenters dist tol f0.centers f.centers (σ f) ∧ Complete filter f ∧ f.time ≠ some 0) →
      ∃ s, l.foldlM (fun (s : DataSetList (List V) T) f => do
          let l ← readFile dist (nn f0.centers) tol f0.centers filter f
          return s.addDatalist l f.time) s0 = .ok s ∧
        ∃ new, s.steps = s0.steps ++ new ∧
          List.Forall₂ (fun f st => InOrder filter f (σ f) st.1 ∧ st.2 = f.time) l new := by
    intro l
    induction l with
    | nil => intro s0 _; exact ⟨s0, rfl, [], by simp, .nil⟩
    | cons f t ih =>
      intro s0 h
      obtain ⟨h1, h2, h3⟩ := h f (by simp)
      obtain ⟨r, e, ho⟩ := readFile_ok hd hne hnn hsep filter f (σ f) h1 h2
      obtain ⟨s, e2, new, e3, h4⟩ := ih (s0.addDatalist r f.time) fun f' hf' => h f' (List.mem_cons_of_mem _ hf')
      refine ⟨s, ?_, (r, f.time) :: new, ?_, .cons ⟨ho, rfl⟩ h4⟩
      · rw [List.foldlM_cons, e]; exact e2
      · rw [e3]
        unfold DataSetList.addDatalist
        cases ht : f.time with
        | none => simp
        | some t =>
          have : t ≠ 0 := fun e => h3 (by rw [ht, e])
          simp [this]
  unfold readSeries
  have ha : DataAttrs.init .dataSetList "cellaverage" 1 "instant" = .ok ⟨.dataSetList, "cellaverage", 1, "instant"⟩ := by
    decide
  simp only
  rw [ha]
  simp only [Except_bind_ok]
  obtain ⟨s, e, new, e2, h⟩ := key (f0 :: rest) ⟨⟨.dataSetList, "cellaverage", 1, "instant"⟩, []⟩ hf
  simp only [List.nil_append] at e2
  exact ⟨s, e, by rw [e2]; exact h⟩

/-- **C45, refusal.** A cell of a file without counterpart within the tolerance is an error. -/
theorem C45_no_counterpart {dist : P → P → K} {tol : K} {nn : P → Nat} {ref : List P}
    (hnn : IsNearest dist ref nn) (filter : List String) (f : File P V T) (hlen : f.centers.length = ref.length)
    (h : ∃ p ∈ f.centers, ∀ r ∈ ref, tol < dist r p) : readFile dist nn tol ref filter f = .error .value := by
  obtain ⟨p, hp, hfar⟩ := h
  obtain ⟨i, hi, hpi⟩ := List.mem_iff_getElem.1 hp
  have hscatter : ∀ (l : List P) (a : List Int) (vals : List Int), a.length = ref.length →
      ∃ r, npScatter a ((l.map fun p => (nn p : Int)).zip vals) = .ok r := by
    intro l
    induction l with
    | nil => intro a vals _; exact ⟨a, by simp [npScatter]⟩
    | cons q t ih =>
      intro a vals ha
      cases vals with
      | nil => exact ⟨a, by simp [npScatter]⟩
      | cons v vs =>
        obtain ⟨r, h1, -⟩ := hnn q
        obtain ⟨h2, -⟩ := List.getElem?_eq_some_iff.1 h1
        rw [List.map_cons, List.zip_cons_cons, npScatter, npSet_ok _ (by omega) (by omega)]
        exact ih _ _ (by simpa using ha)
  have hnear : ∀ l : List P, ∃ near, l.mapM (fun p => do return dist (← npGet ref (nn p : Int)) p) = (.ok near : Py (List K)) ∧
      (p ∈ l → ∃ x ∈ near, tol < x) := by
    intro l
    induction l with
    | nil => exact ⟨[], rfl, by simp⟩
    | cons q t ih =>
      obtain ⟨near, h1, h2⟩ := ih
      obtain ⟨r, h3, -⟩ := hnn q
      refine ⟨dist r q :: near, ?_, ?_⟩
      · rw [List.mapM_cons, npGet_nat.2 h3]
        simp only [Except_bind_ok]
        rw [h1]; rfl
      · intro hm
        rcases List.mem_cons.1 hm with rfl | hm
        · exact ⟨_, by simp, hfar r (List.mem_of_getElem? h3)⟩
        · obtain ⟨x, hx, hlt⟩ := h2 hm
          exact ⟨x, by simp [hx], hlt⟩
  unfold readFile
  rw [distances_eq _ _ _ hlen.symm]
  simp only [Except_bind_ok]
  have hmem : dist (ref[i]'(by omega)) p ∈ ref.zipWith dist f.centers := by
    rw [List.mem_iff_getElem]
    refine ⟨i, by simp; omega, ?_⟩
    rw [List.getElem_zipWith, hpi]
  obtain ⟨d, hd'⟩ := npMax_ex (l := ref.zipWith dist f.centers) (by intro e; rw [e] at hmem; cases hmem)
  rw [hd']
  simp only [Except_bind_ok]
  rw [if_pos ((hfar _ (List.getElem_mem _)).trans_le ((npMax_ok hd').2 _ hmem))]
  obtain ⟨rx, hrx⟩ := hscatter f.centers (f.centers.map fun p => (nn p : Int))
    (pyRange 0 (f.centers.map fun p => (nn p : Int)).length) (by simpa using hlen)
  rw [hrx]
  simp only [Except_bind_ok]
  obtain ⟨near, h1, h2⟩ := hnear f.centers
  obtain ⟨x, hx, hlt⟩ := h2 hp
  rw [h1]
  simp only [Except_bind_ok]
  obtain ⟨dm, hdm⟩ := npMax_ex (l := near) (by intro e; rw [e] at hx; cases hx)
  rw [hdm]
  simp only [Except_bind_ok]
  rw [if_pos (hlt.trans_le ((npMax_ok hdm).2 _ hx))]

/-- **C45, `check_order`.** It says yes exactly when all files have their positions at the same places in the same
order, up to the tolerance. -/
theorem C45_check_order (dist : P → P → K) (tol : K) (ref : List P) (rest : List (List P)) (hne : ref ≠ [])
    (hlen : ∀ f ∈ ref :: rest, f.length = ref.length) :
    ∃ b, checkOrder dist tol (ref :: rest) = .ok b ∧
      (b = true ↔ ∀ f ∈ ref :: rest, ∀ (i : Nat) p r, f[i]? = some p → ref[i]? = some r → dist r p ≤ tol) := by
  have key : ∀ l : List (List P), (∀ f ∈ l, f.length = ref.length) →
      ∃ ds, l.mapM (fun f => do npMax (← distances dist ref f)) = .ok ds ∧
        ((ds.filter fun d => tol < d).length = 0 ↔
          ∀ f ∈ l, ∀ (i : Nat) p r, f[i]? = some p → ref[i]? = some r → dist r p ≤ tol) := by
    intro l
    induction l with
    | nil => intro _; exact ⟨[], rfl, by simp⟩
    | cons f t ih =>
      intro h
      obtain ⟨ds, e, hds⟩ := ih fun f' hf' => h f' (List.mem_cons_of_mem _ hf')
      have hfl := h f (by simp)
      obtain ⟨d, hd⟩ := npMax_ex (l := ref.zipWith dist f) (by
        intro e
        have := congrArg List.length e
        simp only [List.length_zipWith, List.length_nil] at this
        have := List.length_pos_of_ne_nil hne
        omega)
      have hiff : d ≤ tol ↔ ∀ (i : Nat) p r, f[i]? = some p → ref[i]? = some r → dist r p ≤ tol := by
        constructor
        · intro hle i p r hp hr
          refine le_trans ((npMax_ok hd).2 _ ?_) hle
          rw [List.mem_iff_getElem?]
          exact ⟨i, by rw [List.getElem?_zipWith, hp, hr]⟩
        · intro hall
          obtain ⟨i, hi⟩ := List.getElem?_of_mem (npMax_ok hd).1
          rw [List.getElem?_zipWith] at hi
          cases hr : ref[i]? with
          | none => simp [hr] at hi
          | some r =>
            cases hp : f[i]? with
            | none => simp [hr, hp] at hi
            | some p =>
              simp only [hr, hp, Option.some.injEq] at hi
              rw [← hi]; exact hall i p r hp hr
      refine ⟨d :: ds, ?_, ?_⟩
      · rw [List.mapM_cons, distances_eq _ _ _ hfl.symm]
        simp only [Except_bind_ok]
        rw [hd]
        simp only [Except_bind_ok]
        rw [e]; rfl
      · rw [List.forall_mem_cons, ← hiff, ← hds]
        by_cases hdt : tol < d
        · simp [hdt]
        · simp [hdt, not_lt.1 hdt]
  obtain ⟨ds, e, hds⟩ := key (ref :: rest) hlen
  unfold checkOrder
  simp only
  rw [e]
  exact ⟨_, rfl, by rw [decide_eq_true_iff]; exact hds⟩

/-- A file that cannot be read makes the whole series fail. -/
theorem readSeries_error [Zero T] [DecidableEq T] {dist : P → P → K} {nn : List P → P → Nat} {tol : K}
    {filter : List String} {f0 : File P V T} {rest : List (File P V T)}
    (h : ∃ f ∈ f0 :: rest, ∃ e, readFile dist (nn f0.centers) tol f0.centers filter f = .error e) :
    ∃ e, readSeries dist nn tol filter (f0 :: rest) = .error e := by
  have key : ∀ (l : List (File P V T)) (s0 : DataSetList (List V) T),
      (∃ f ∈ l, ∃ e, readFile dist (nn f0.centers) tol f0.centers filter f = .error e) →
      ∃ e, l.foldlM (fun (s : DataSetList (List V) T) f => do
          let l ← readFile dist (nn f0.centers) tol f0.centers filter f
          return s.addDatalist l f.time) s0 = .error e := by
    intro l
    induction l with
    | nil => intro _ ⟨f, hf, _⟩; cases hf
    | cons g t ih =>
      intro s0 ⟨f, hf, e, he⟩
      rw [List.foldlM_cons]
      cases hg : readFile dist (nn f0.centers) tol f0.centers filter g with
      | error e' => exact ⟨e', rfl⟩
      | ok r =>
        rcases List.mem_cons.1 hf with rfl | hf
        · rw [hg] at he; cases he
        · exact ih _ ⟨f, hf, e, he⟩
  have ha : DataAttrs.init .dataSetList "cellaverage" 1 "instant" = .ok ⟨.dataSetList, "cellaverage", 1, "instant"⟩ := by
    decide
  unfold readSeries
  simp only
  rw [ha]
  exact key _ _ h

/-- **C45, refusal of the series.** A series with a file that has a cell without counterpart in the first file within the
tolerance, or another number of cells (two or more, as in the first file), is refused: no series is returned. -/
theorem C45_refused [Zero T] [DecidableEq T] {dist : P → P → K} {tol : K} {nn : List P → P → Nat} (filter : List String)
    (f0 : File P V T) (rest : List (File P V T)) (hnn : IsNearest dist f0.centers (nn f0.centers))
    (h : ∃ f ∈ rest, (f.centers.length = f0.centers.length ∧ ∃ p ∈ f.centers, ∀ r ∈ f0.centers, tol < dist r p) ∨
      (f.centers.length ≠ f0.centers.length ∧ f.centers.length ≠ 1 ∧ f0.centers.length ≠ 1)) :
    ∃ e, readSeries dist nn tol filter (f0 :: rest) = .error e := by
  obtain ⟨f, hf, h⟩ := h
  refine readSeries_error ⟨f, List.mem_cons_of_mem _ hf, .value, ?_⟩
  rcases h with ⟨hlen, hp⟩ | ⟨hlen, h1, h2⟩
  · exact C45_no_counterpart hnn filter f hlen hp
  · have : distances dist f0.centers f.centers = .error .value := by
      generalize f0.centers = a at *
      generalize f.centers = b at *
      rcases a with _ | ⟨x, _ | ⟨x', a⟩⟩ <;> rcases b with _ | ⟨y, _ | ⟨y', b⟩⟩ <;>
        simp_all [distances, eq_comm]
    unfold readFile
    simp only
    rw [this]
    rfl

/-- **C45, files in order.** When `check_order` says yes, `read` with the same tolerance stores the arrays of every file as
they are in the file, whatever the positions of the cells and the search. -/
theorem C45_ordered [Zero T] [DecidableEq T] (dist : P → P → K) (tol : K) (nn : List P → P → Nat) (filter : List String)
    (f0 : File P V T) (rest : List (File P V T))
    (hc : checkOrder dist tol ((f0 :: rest).map (·.centers)) = .ok true)
    (hf : ∀ f ∈ f0 :: rest, ∀ n ∈ filter, n ∈ f.data.keys) :
    ∃ s, readSeries dist nn tol filter (f0 :: rest) = .ok s ∧
      List.Forall₂ (fun f st => (∀ n, st.1.get? n = if filter = [] ∨ n ∈ filter then f.data.get? n else none) ∧
        st.2 = if f.time = some 0 then none else f.time) (f0 :: rest) s.steps := by
  have hd : ∀ f ∈ f0 :: rest, ∃ d, (distances dist f0.centers f.centers >>= fun x => npMax x) = .ok d ∧ ¬ tol < d := by
    unfold checkOrder at hc
    simp only [List.map_cons] at hc
    obtain ⟨ds, h1, h2⟩ := bind_eq_ok.1 hc
    have h3 : ∀ d ∈ ds, ¬ tol < d := by
      simp only [Except_pure, Except.ok.injEq, decide_eq_true_iff, List.length_eq_zero_iff, List.filter_eq_nil_iff] at h2
      exact h2
    rw [← List.map_cons (f := fun x : File P V T => x.centers), mapM_ok_iff, List.forall₂_map_left_iff] at h1
    clear h2 hc hf
    generalize f0 :: rest = l at h1
    induction h1 with
    | nil => intro f hf; cases hf
    | cons h _ ih =>
      intro f hf
      rcases List.mem_cons.1 hf with rfl | hf
      · exact ⟨_, h, h3 _ (by simp)⟩
      · exact ih (fun d hd => h3 d (List.mem_cons_of_mem _ hd)) f hf
  have hread : ∀ f ∈ f0 :: rest, ∃ r, readFile dist (nn f0.centers) tol f0.centers filter f = .ok r ∧
      ∀ n, r.get? n = if filter = [] ∨ n ∈ filter then f.data.get? n else none := by
    intro f hf'
    obtain ⟨d, h1, h2⟩ := hd f hf'
    obtain ⟨x, h3, h4⟩ := bind_eq_ok.1 h1
    have hflt := hf f hf'
    have hn : ∀ n ∈ (if filter = [] then f.data.keys else filter), ∃ v, f.data.getE n = .ok v := by
      intro n hn
      have : n ∈ f.data.keys := by
        split at hn
        · exact hn
        · exact hflt n hn
      obtain ⟨v, hv⟩ := Dict.mem_keys_iff.1 this
      exact ⟨v, Dict.getE_eq_ok.2 hv⟩
    obtain ⟨r, e, hkeys, hget⟩ := storeNames (fun n => f.data.getE n) _ hn []
    refine ⟨r, ?_, ?_⟩
    · unfold readFile
      simp only
      rw [h3]
      simp only [Except_bind_ok]
      rw [h4]
      simp only [Except_bind_ok]
      rw [if_neg h2]
      exact e
    · intro n
      have hmem : n ∈ r.keys ↔ (filter = [] ∨ n ∈ filter) ∧ n ∈ f.data.keys := by
        rw [hkeys]
        split
        · rename_i e; simp [e, Dict.keys]
        · rename_i e
          simp only [List.not_mem_nil, false_or, e, Dict.keys, List.map_nil]
          exact ⟨fun h => ⟨h, hflt n h⟩, fun h => h.1⟩
      cases hr : r.get? n with
      | none =>
        have : n ∉ r.keys := Dict.get?_eq_none_iff.1 hr
        rw [hmem] at this
        split
        · rename_i hh
          exact (Dict.get?_eq_none_iff.2 fun h => this ⟨hh, h⟩).symm
        · rfl
      | some w =>
        have hm := hmem.1 (Dict.mem_keys_iff.2 ⟨w, hr⟩)
        rw [if_pos hm.1]
        rcases hget n w hr with ⟨_, h⟩ | ⟨_, h⟩
        · exact (Dict.getE_eq_ok.1 h).symm
        · cases h
  have key : ∀ (l : List (File P V T)) (s0 : DataSetList (List V) T), (∀ f ∈ l, f ∈ f0 :: rest) →
      ∃ s, l.foldlM (fun (s : DataSetList (List V) T) f => do
          let l ← readFile dist (nn f0.centers) tol f0.centers filter f
          return s.addDatalist l f.time) s0 = .ok s ∧
        ∃ new, s.steps = s0.steps ++ new ∧
          List.Forall₂ (fun f st => (∀ n, st.1.get? n = if filter = [] ∨ n ∈ filter then f.data.get? n else none) ∧
            st.2 = if f.time = some 0 then none else f.time) l new := by
    intro l
    induction l with
    | nil => intro s0 _; exact ⟨s0, rfl, [], by simp, .nil⟩
    | cons f t ih =>
      intro s0 h
      obtain ⟨r, e, ho⟩ := hread f (h f (by simp))
      obtain ⟨s, e2, new, e3, h4⟩ := ih (s0.addDatalist r f.time) fun f' hf' => h f' (List.mem_cons_of_mem _ hf')
      refine ⟨s, ?_, (r, if f.time = some 0 then none else f.time) :: new, ?_, .cons ⟨ho, rfl⟩ h4⟩
      · rw [List.foldlM_cons, e]; exact e2
      · rw [e3]
        unfold DataSetList.addDatalist
        cases ht : f.time with
        | none => simp
        | some t => by_cases h0 : t = 0 <;> simp [h0]
  have ha : DataAttrs.init .dataSetList "cellaverage" 1 "instant" = .ok ⟨.dataSetList, "cellaverage", 1, "instant"⟩ := by
    decide
  unfold readSeries
  simp only
  rw [ha]
  simp only [Except_bind_ok]
  obtain ⟨s, e, new, e2, h⟩ := key (f0 :: rest) ⟨⟨.dataSetList, "cellaverage", 1, "instant"⟩, []⟩ fun _ h => h
  simp only [List.nil_append] at e2
  exact ⟨s, e, by rw [e2]; exact h⟩

/-! ### Examples -/

/-- Distance between integers. -/
def intDist (a b : Int) : Int := |a - b|

theorem intDist_isDist : IsDist intDist where
  symm a b := abs_sub_comm a b
  triangle a b c := abs_sub_le a b c

/-- The closest of the given integers. -/
def closest (ref : List Int) (p : Int) : Nat := ref.findIdx fun r => ref.all fun r' => intDist r p ≤ intDist r' p

theorem closest_isNearest (ref : List Int) (h : ref ≠ []) : IsNearest intDist ref (closest ref) := by
  intro p
  have hmin : ∃ r ∈ ref, ∀ r' ∈ ref, intDist r p ≤ intDist r' p := by
    induction ref with
    | nil => exact absurd rfl h
    | cons a t ih =>
      by_cases ht : t = []
      · subst ht; exact ⟨a, by simp, by simp⟩
      · obtain ⟨r, hr, hm⟩ := ih ht
        by_cases hle : intDist a p ≤ intDist r p
        · refine ⟨a, by simp, fun r' hr' => ?_⟩
          rcases List.mem_cons.1 hr' with rfl | hr'
          · exact le_rfl
          · exact hle.trans (hm r' hr')
        · refine ⟨r, by simp [hr], fun r' hr' => ?_⟩
          rcases List.mem_cons.1 hr' with rfl | hr'
          · exact (not_le.1 hle).le
          · exact hm r' hr'
  obtain ⟨r, hr, hm⟩ := hmin
  have hlt : closest ref p < ref.length := by
    unfold closest
    rw [List.findIdx_lt_length]
    exact ⟨r, hr, by simpa using hm⟩
  refine ⟨ref[closest ref p], List.getElem?_eq_getElem hlt, fun r' hr' => ?_⟩
  have := List.findIdx_getElem (w := hlt)
  simp only [List.all_eq_true, decide_eq_true_eq] at this
  exact this r' hr'

/-- Two files, the second with its cells in another order and slightly moved. -/
def twoFiles : List (File Int String Nat) :=
  [⟨[0, 10, 20], [("u", ["a", "b", "c"])], some 3⟩, ⟨[21, 0, 9], [("u", ["C", "A", "B"])], some 4⟩]

example : (readSeries intDist closest 1 [] twoFiles).map (·.steps) =
    .ok [([("u", ["a", "b", "c"])], some 3), ([("u", ["A", "B", "C"])], some 4)] := by decide

/-- Files in the same order up to the tolerance: the hypotheses of `C45_ordered` hold. -/
example : checkOrder intDist 1 ((⟨[0, 10], [("u", ["a", "b"])], some 3⟩ :: [⟨[1, 9], [("u", ["A", "B"])], some 0⟩] :
      List (File Int String Nat)).map (·.centers)) = .ok true ∧
    (readSeries intDist closest 1 ["u"] [⟨[0, 10], [("u", ["a", "b"])], some 3⟩,
      (⟨[1, 9], [("u", ["A", "B"])], some 0⟩ : File Int String Nat)]).map (·.steps) =
    .ok [([("u", ["a", "b"])], some 3), ([("u", ["A", "B"])], none)] := by decide

/-- A file with a cell that the first one does not have is refused (`C45_refused`), as is one with another number of
cells. -/
example : (∃ f ∈ [(⟨[0, 13], [("u", ["A", "B"])], none⟩ : File Int String Nat)],
      f.centers.length = 2 ∧ ∃ p ∈ f.centers, ∀ r ∈ ([0, 10] : List Int), 1 < intDist r p) ∧
    (readSeries intDist closest 1 [] [(⟨[0, 10], [("u", ["a", "b"])], none⟩ : File Int String Nat),
      ⟨[0, 13], [("u", ["A", "B"])], none⟩]).toOption = none ∧
    (readSeries intDist closest 1 [] [(⟨[0, 10], [("u", ["a", "b"])], none⟩ : File Int String Nat),
      ⟨[0, 10, 20], [("u", ["A", "B", "C"])], none⟩]).toOption = none := by decide

/-- The hypotheses of C45 hold for it. -/
theorem twoFiles_meet : Separated intDist 1 [0, 10, 20] ∧ SameCenters intDist 1 [0, 10, 20] [21, 0, 9] (fun i => (i + 2) % 3) ∧
    Complete [] (⟨[21, 0, 9], [("u", ["C", "A", "B"])], some 4⟩ : File Int String Nat) := by
  have h3 : ∀ (l : List Int) (i : Nat) (a : Int), l.length = 3 → l[i]? = some a → i = 0 ∨ i = 1 ∨ i = 2 := by
    intro l i a hl h
    obtain ⟨h, -⟩ := List.getElem?_eq_some_iff.1 h
    omega
  refine ⟨?_, ⟨rfl, ?_, ?_, ?_⟩, ?_⟩
  · intro i j a b ha hb hij
    rcases h3 _ i a rfl ha with rfl | rfl | rfl <;> rcases h3 _ j b rfl hb with rfl | rfl | rfl <;>
      simp at ha hb hij <;> subst ha hb <;> decide
  · intro i _; simp only [List.length_cons, List.length_nil]; omega
  · intro i j hi hj h; simp only [List.length_cons, List.length_nil] at hi hj; omega
  · intro i p r hp hr
    rcases h3 _ i p rfl hp with rfl | rfl | rfl <;> simp at hp hr <;> subst hp hr <;> decide
  · intro name hn
    simp only [keptNames, if_true, Dict.keys, List.map_cons, List.map_nil, List.mem_singleton] at hn
    subst hn
    exact ⟨_, rfl, rfl⟩

/-- C45 applied to these files. -/
example : ∃ s, readSeries intDist closest 1 [] twoFiles = .ok s ∧ s.steps.length = 2 := by
  obtain ⟨h1, h2, h3⟩ := twoFiles_meet
  obtain ⟨s, e, h⟩ := C45_series (T := Nat) intDist_isDist (tol := 1) (nn := closest) []
    ⟨[0, 10, 20], [("u", ["a", "b", "c"])], some 3⟩ [⟨[21, 0, 9], [("u", ["C", "A", "B"])], some 4⟩] (by decide)
    (closest_isNearest _ (by decide)) h1 (fun f => if f.time = some 3 then id else fun i => (i + 2) % 3)
    (by
      intro f hf
      simp only [List.mem_cons, List.not_mem_nil, or_false] at hf
      rcases hf with rfl | rfl
      · refine ⟨⟨rfl, fun i hi => hi, fun i j _ _ h => h, ?_⟩, ?_, by decide⟩
        · intro i p r hp hr
          simp only [if_true, id] at hr
          rw [hp] at hr
          obtain rfl := Option.some.inj hr
          simp [intDist]
        · intro name hn
          simp only [keptNames, if_true, Dict.keys, List.map_cons, List.map_nil, List.mem_singleton] at hn
          subst hn
          exact ⟨_, rfl, rfl⟩
      · exact ⟨h2, h3, by decide⟩)
  exact ⟨s, e, by rw [← h.length_eq]; rfl⟩

/-- **Without the hypothesis on the cells the claim fails**: two cells of the second file are at the same place, no
error is raised and a value is stored for a cell the file does not have. -/
theorem C45_duplicates_refuted : ∃ (f0 f : File Int String Nat) (s : DataSetList (List String) Nat),
    Separated intDist 1 f0.centers ∧ IsNearest intDist f0.centers (closest f0.centers) ∧
      readSeries intDist closest 1 [] [f0, f] = .ok s ∧
      (∀ p ∈ f.centers, 1 < intDist 10 p) ∧ f0.centers[1]? = some 10 ∧
      s.steps[1]?.bind (fun st => (st.1.get? "u").bind fun v => v[1]?) = some "A" := by
  refine ⟨⟨[0, 10], [("u", ["a", "b"])], some 3⟩, ⟨[0, 0], [("u", ["A", "B"])], some 4⟩, _, ?_,
    closest_isNearest _ (by decide), rfl, by decide, by decide, by decide⟩
  intro i j a b ha hb hij
  have h2 : ∀ (l : List Int) (i : Nat) (a : Int), l.length = 2 → l[i]? = some a → i = 0 ∨ i = 1 := by
    intro l i a hl h
    obtain ⟨h, -⟩ := List.getElem?_eq_some_iff.1 h
    omega
  rcases h2 _ i a rfl ha with rfl | rfl <;> rcases h2 _ j b rfl hb with rfl | rfl <;>
    simp at ha hb hij <;> subst ha hb <;> decide

/-- C45 applied to files in the same order, to a file without counterpart of one cell and to one with fewer cells. -/
example := C45_ordered (T := Nat) intDist 1 closest ["u"] ⟨[0, 10], [("u", ["a", "b"])], some 3⟩ [⟨[1, 9], [("u", ["A", "B"])], some 0⟩]
  (by decide) (by decide)
example := C45_no_counterpart (closest_isNearest [0, 10] (by decide)) (tol := 1) [] (⟨[0, 13], [("u", ["A", "B"])], none⟩ : File Int String Nat)
  rfl ⟨13, by decide, by decide⟩
example := C45_refused (tol := 1) [] (⟨[0, 10], [("u", ["a", "b"])], none⟩ : File Int String Nat) [⟨[0, 13, 20], [], none⟩]
  (closest_isNearest [0, 10] (by decide)) ⟨_, List.mem_singleton.2 rfl, .inr (by decide)⟩
example := C45_check_order intDist 1 [0, 10] [[1, 9], [0, 13]] (by decide) (by decide)

end Cfd.Vtk
